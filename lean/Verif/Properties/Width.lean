import Verif.Properties.Binding
import Verif.Properties.Goldilocks

/-!
# Property C100: quotient widths of the S-box for which the verifier is the plonky2 verifier

`sBoxMonomial` passes the width 192 to `ReduceWithMaxBits` twice.  Here the width is a parameter.
-/

set_option autoImplicit false

namespace Verif

open Circ PoseidonGL Verifier Spec.Verifier
open Spec (residue)

/-- `sBoxMonomial` with quotients of `n` bits. -/
def sBoxMonomialBits (n : ℕ) (x : Fr) : Circ Fr := do
  let x2 := mulNoReduce x x
  let x3 := mulNoReduce x x2
  let x3 ← reduceWithMaxBits x3 n
  let x6 := mulNoReduce x3 x3
  let x7 := mulNoReduce x x6
  reduceWithMaxBits x7 n

/-- **C100** the code uses 192 bits; with `Reduce` in place of `ReduceWithMaxBits` they would be 144. -/
theorem C100_code : sBoxMonomial = sBoxMonomialBits 192 ∧ ∀ x, reduce x = reduceWithMaxBits x 144 := ⟨rfl, fun _ => rfl⟩

namespace Width

theorem canonical {x y : Fr} {n : ℕ} (h : Sat (reduceWithMaxBits x n) y) : ∃ b : Fp, y = emb b := by
  obtain ⟨k, -, -, rfl⟩ := (C04_reduceWithMaxBits_exact x n y).1 h
  exact ⟨((x.val + k * r : ℕ) : Fp), emb_natCast.symm⟩

theorem sat_bits (n : ℕ) (a : Fp) (y : Fr) : Sat (sBoxMonomialBits n (emb a)) y ↔
    ∃ t : Fp, Sat (reduceWithMaxBits ((a.val ^ 3 : ℕ) : Fr) n) (emb t) ∧
      Sat (reduceWithMaxBits ((a.val * t.val ^ 2 : ℕ) : Fr) n) y := by
  simp only [sBoxMonomialBits, sat_bind, sbox_cube]
  constructor
  · rintro ⟨t, h1, h2⟩
    obtain ⟨t, rfl⟩ := canonical h1
    rw [sbox_seven] at h2
    exact ⟨t, h1, h2⟩
  · rintro ⟨t, h1, h2⟩
    exact ⟨emb t, h1, by rwa [sbox_seven]⟩

theorem rel (n : ℕ) (a : Fp) (y : Fr) : Sat (sBoxMonomialBits n (emb a)) y ↔
    ∃ b, y = emb b ∧ Sat (sBoxMonomialBits n (emb a)) (emb b) := by
  constructor
  · intro h
    obtain ⟨t, -, h2⟩ := (sat_bits n a y).1 h
    obtain ⟨b, rfl⟩ := canonical h2
    exact ⟨b, rfl, h⟩
  · rintro ⟨b, rfl, h⟩
    exact h

/-- One reduction of a product of three elements. -/
theorem reduce_small {m n : ℕ} (hm : m < p ^ 3) (h1 : 128 ≤ n) (h2 : n ≤ 189) (y : Fr) :
    Sat (reduceWithMaxBits (m : Fr) n) y ↔ y = emb (m : Fp) := by
  rw [C04_reduceWithMaxBits_unique _ h2, val_natCast_of_lt (hm.trans p3_lt_r), emb_natCast]
  refine and_iff_right ?_
  have : 2 ^ 128 ≤ 2 ^ n := Nat.pow_le_pow_right (by norm_num) h1
  rw [Nat.div_lt_iff_lt_mul (by norm_num [p])]
  have h3 : p ^ 3 < 2 ^ 128 * p := by norm_num [p]
  exact hm.trans (h3.trans_le (Nat.mul_le_mul_right _ this))

theorem reduce_large {m n j : ℕ} (hm : m < p ^ 3) (hn : 190 ≤ n) (hj : j ≤ 1) :
    Sat (reduceWithMaxBits (m : Fr) n) (emb ((m : Fp) + j * (r : Fp))) := by
  have hb : m + j * r < 2 ^ n * p := by
    have h1 : (2 : ℕ) ^ 190 ≤ 2 ^ n := Nat.pow_le_pow_right (by norm_num) hn
    have h2 : p ^ 3 + r < 2 ^ 190 * p := by norm_num [p, r]
    have h3 : (2 : ℕ) ^ 190 * p ≤ 2 ^ n * p := Nat.mul_le_mul_right _ h1
    have h4 : j * r ≤ 1 * r := Nat.mul_le_mul_right _ hj
    omega
  refine (C04_reduceWithMaxBits_exact _ _ _).2 ⟨j, ?_, ?_, ?_⟩
  · rw [val_natCast_of_lt (hm.trans p3_lt_r), Nat.div_lt_iff_lt_mul (by norm_num [p])]
    exact hb
  · rw [val_natCast_of_lt (hm.trans p3_lt_r), Nat.div_lt_iff_lt_mul (by norm_num [p])]
    have h1 : p ^ 3 + r < r * p := by norm_num [p, r]
    have h4 : j * r ≤ 1 * r := Nat.mul_le_mul_right _ hj
    omega
  · rw [val_natCast_of_lt (hm.trans p3_lt_r), ← emb_natCast]
    push_cast
    rfl

theorem good {n : ℕ} (h1 : 128 ≤ n) (h2 : n ≤ 189) (a : Fp) (y : Fr) :
    Sat (sBoxMonomialBits n (emb a)) y ↔ y = emb (a ^ 7) := by
  rw [sat_bits]
  simp only [reduce_small (cube_lt a) h1 h2, reduce_small (prod_lt a _) h1 h2]
  have e : ∀ t : Fp, emb t = emb ((a.val ^ 3 : ℕ) : Fp) ↔ t = a ^ 3 := fun t => by
    rw [emb_inj]; push_cast; rw [cast_val_fp]
  simp only [e, exists_eq_left]
  push_cast
  simp only [cast_val_fp]
  rw [show a * (a ^ 3) ^ 2 = a ^ 7 by ring]

theorem honest_good {n : ℕ} (h1 : 128 ≤ n) (a : Fp) : honest (sBoxMonomialBits n (emb a)) = some (emb (a ^ 7)) := by
  have hq : ∀ m : ℕ, m < p ^ 3 → m / p < 2 ^ n := fun m hm => by
    have h2 : 2 ^ 128 ≤ 2 ^ n := Nat.pow_le_pow_right (by norm_num) h1
    rw [Nat.div_lt_iff_lt_mul (by norm_num [p])]
    have h3 : p ^ 3 < 2 ^ 128 * p := by norm_num [p]
    exact hm.trans (h3.trans_le (Nat.mul_le_mul_right _ h2))
  refine honest_bind_of (a := emb (a ^ 3)) ?_ ?_
  · rw [sbox_cube, honest_reduceWithMaxBits _ _ (by
      rw [val_natCast_of_lt ((cube_lt a).trans p3_lt_r)]; exact hq _ (cube_lt a)),
      val_natCast_of_lt ((cube_lt a).trans p3_lt_r), ← emb_natCast]
    push_cast; rw [cast_val_fp]
  · show honest (reduceWithMaxBits (mulNoReduce (emb a) (mulNoReduce (emb (a ^ 3)) (emb (a ^ 3)))) n) = _
    rw [sbox_seven, honest_reduceWithMaxBits _ _ (by
      rw [val_natCast_of_lt ((prod_lt _ _).trans p3_lt_r)]; exact hq _ (prod_lt _ _)),
      val_natCast_of_lt ((prod_lt _ _).trans p3_lt_r), ← emb_natCast]
    push_cast; simp only [cast_val_fp]; congr 2; ring

theorem wide {n j : ℕ} (hn : 190 ≤ n) (hj : j ≤ 1) (a : Fp) :
    Sat (sBoxMonomialBits n (emb a)) (emb (a ^ 7 + j * (r : Fp))) := by
  refine (sat_bits n a _).2 ⟨a ^ 3, ?_, ?_⟩
  · have := reduce_large (j := 0) (cube_lt a) hn (by norm_num)
    rwa [Nat.cast_zero, zero_mul, add_zero, Nat.cast_pow (α := Fp), cast_val_fp] at this
  · have := reduce_large (prod_lt a (a ^ 3)) hn hj
    rwa [Nat.cast_mul (α := Fp), Nat.cast_pow (α := Fp), cast_val_fp, cast_val_fp, show a * (a ^ 3) ^ 2 = a ^ 7 by ring] at this

theorem narrow {n : ℕ} (hn : n < 128) (a : Fp) (ha : 2 ^ 127 * p ≤ a.val ^ 3) (y : Fr) :
    ¬ Sat (sBoxMonomialBits n (emb a)) y := by
  rw [sat_bits]
  rintro ⟨t, h, -⟩
  rw [C04_reduceWithMaxBits_unique _ (by omega), val_natCast_of_lt ((cube_lt a).trans p3_lt_r),
    Nat.div_lt_iff_lt_mul (by norm_num [p])] at h
  have : (2 : ℕ) ^ n ≤ 2 ^ 127 := Nat.pow_le_pow_right (by norm_num) (by omega)
  have := Nat.mul_le_mul_right p this
  omega

end Width

/-- **C100** the S-box circuit computes `x^7` and admits nothing else exactly for widths from 128 to 189: below, the honest
quotient does not fit; above, a multiple of `r` can be added. -/
theorem C100_sbox (n : ℕ) :
    (∀ (a : Fp) (y : Fr), Sat (sBoxMonomialBits n (emb a)) y ↔ y = emb (a ^ 7)) ↔ 128 ≤ n ∧ n ≤ 189 := by
  refine ⟨fun h => ⟨?_, ?_⟩, fun h => Width.good h.1 h.2⟩
  · by_contra hn
    refine Width.narrow (n := n) (by omega) (-1) (by decide +kernel) _ ((h _ _).2 rfl)
  · by_contra hn
    have h1 := (h 0 _).1 (Width.wide (n := n) (j := 1) (by omega) le_rfl 0)
    have h2 := emb_inj.1 h1
    simp only [ne_eq, OfNat.ofNat_ne_zero, not_false_eq_true, zero_pow, Nat.cast_one, one_mul, zero_add] at h2
    exact r_fp_ne_zero h2

/-- **C100** above, this is the case for every argument. -/
theorem C100_wide (n : ℕ) (hn : 190 ≤ n) (a : Fp) :
    Sat (sBoxMonomialBits n (emb a)) (emb (a ^ 7)) ∧ Sat (sBoxMonomialBits n (emb a)) (emb (a ^ 7 + (r : Fp))) ∧
      a ^ 7 + (r : Fp) ≠ a ^ 7 := by
  have h0 := Width.wide hn (j := 0) (by norm_num) a
  have h1 := Width.wide hn (j := 1) le_rfl a
  rw [Nat.cast_zero, zero_mul, add_zero] at h0
  rw [Nat.cast_one, one_mul] at h1
  exact ⟨h0, h1, by simpa using r_fp_ne_zero⟩

/-- **C100** the whole verifier circuit accepts exactly the proofs accepted by the plonky2 verifier, for every circuit, proof
and public inputs, if and only if the width is from 128 to 189. -/
theorem C100_verifier (n : ℕ) :
    (∀ (c : CommonCircuitData) (gates : List Gates.Gate) (vd : VerifierOnlyCircuitData) (proof : Proof Fr QEV)
      (_ : Fits c gates vd proof) (pis : List Fr),
      Sat (verify (poseidonWith (sBoxMonomialBits n)) c gates proof pis vd) () ↔ ∃ x : Proof Fp QE, proof = x.enc ∧
        (∀ v ∈ pis, v.val < 2 ^ 144 * p) ∧ Accepts Spec.poseidon c gates vd x (pis.map residue)) ↔
      128 ≤ n ∧ n ≤ 189 := by
  have hf : Fits _ _ _ WitnessInputs.proof.enc := fits_to_enc (HonestProof.fits (b := 16) (by norm_num) 1
    WitnessInputs.zeta WitnessInputs.alpha 17136421660873736037 ((33965 : ℕ) : Fp))
  have hs : ∀ a : Fp, ∀ v ∈ [emb a], v.val < 2 ^ 144 * p := fun a v hv => by
    rw [List.mem_singleton.1 hv]
    exact Challenger.small_emb a
  have he : ∀ a : Fp, [emb a].map residue = [a] := fun a => by rw [List.map_singleton, Challenger.residue_emb]
  constructor
  · intro h
    constructor
    · by_contra hn
      have h1 := (h _ _ _ _ hf [emb 1]).2 ⟨_, rfl, hs 1, by rw [he]; exact WitnessInputs.accepts⟩
      obtain ⟨x, -, -, hh, o, k, ⟨t, ha, -⟩, -⟩ := (C70_freedom (Width.rel n) _ _ _ _ hf _).1 h1
      rw [he, Challenger.chunks_short _ (by simp) (by simp)] at ha
      obtain ⟨m, ⟨a, b, ⟨_, ⟨u, hu, -⟩, -⟩, -⟩, -⟩ := ha
      exact Width.narrow (by omega) _ (by decide +kernel) _ (hu 4)
    · by_contra hn
      have hn : 190 ≤ n := by omega
      have h1 : Sat (verify (poseidonWith (sBoxMonomialBits n)) _ _ WitnessInputs.proof.enc [emb (WitnessInputs.other : Fp)] _) () :=
        (C70_freedom (Width.rel n) _ _ _ _ hf _).2 ⟨_, rfl, hs _, by
          rw [he]
          refine WitnessInputs.free_accepts_of (fun x y e => ?_) ?_
          · rw [e]
            exact (C100_wide n hn x).1
          · have := (C100_wide n hn ((WitnessInputs.other : Fp) + (Spec.rc 0 0 : Fp))).2.1
            rwa [show ((WitnessInputs.other : Fp) + (Spec.rc 0 0 : Fp)) ^ 7 + (r : Fp) = (1 + (Spec.rc 0 0 : Fp)) ^ 7 by
              decide +kernel] at this⟩
      obtain ⟨x, hx, -, h2⟩ := (h _ _ _ _ hf _).1 h1
      obtain rfl := enc_injective hx
      rw [he] at h2
      exact WitnessInputs.rejects h2
  · rintro ⟨h1, h2⟩ c gates vd proof hf pis
    rw [C70_freedom (S := fun a b => b = a ^ 7) _ c gates vd proof hf pis]
    · simp only [C70_function]
    · intro a y
      rw [Width.good h1 h2]
      exact ⟨fun e => ⟨_, e, rfl⟩, by rintro ⟨b, rfl, rfl⟩; rfl⟩

/-- **C100** for these widths the honest hints work too: an honest run succeeds exactly for the proofs accepted by the plonky2
verifier. -/
theorem C100_honest (n : ℕ) (hn : 128 ≤ n ∧ n ≤ 189) (c : CommonCircuitData) (gates : List Gates.Gate)
    (vd : VerifierOnlyCircuitData) (proof : Proof Fr QEV) (hf : Fits c gates vd proof) (pis : List Fr) :
    honest (verify (poseidonWith (sBoxMonomialBits n)) c gates proof pis vd) = some () ↔ ∃ x : Proof Fp QE, proof = x.enc ∧
      (∀ v ∈ pis, v.val < 2 ^ 144 * p) ∧ Accepts Spec.poseidon c gates vd x (pis.map residue) :=
  (C58_exact (fun s => C20_poseidon_computes_partial (fun a => ⟨Width.good hn.1 hn.2 a, Width.honest_good hn.1 a⟩) s) c gates vd
    proof hf pis).2

/-- The width 144 of `Reduce` is among them, 192 is not. -/
example : (∀ (a : Fp) (y : Fr), Sat (sBoxMonomialBits 144 (emb a)) y ↔ y = emb (a ^ 7)) ∧
    ¬ ∀ (a : Fp) (y : Fr), Sat (sBoxMonomialBits 192 (emb a)) y ↔ y = emb (a ^ 7) :=
  ⟨(C100_sbox 144).2 (by norm_num), fun h => absurd ((C100_sbox 192).1 h) (by norm_num)⟩

end Verif
