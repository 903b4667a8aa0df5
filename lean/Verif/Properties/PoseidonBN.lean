import Verif.Proofs.SpongeBN
import Verif.Proofs.PoseidonBNGrain

/-!
# Properties C24–C26: Poseidon over BN254, packing, splitting of digests
-/

set_option autoImplicit false

namespace Verif

open Circ PoseidonBN

/-! ## C24 -/

/-- **C24** the optimised permutation of the code is the textbook permutation, on every state. -/
theorem C24_poseidon (s : Fin 4 → Fr) : PoseidonBN.poseidon s = Spec.BN.poseidon s := poseidon_eq s

private theorem words_split (cs : List (ℕ × ℕ × ℕ)) (w : ℕ → ℕ) (rcs xys : List ℕ)
    (hw : (List.range 342).map w = cs.map (·.2.2))
    (h1 : ((cs.take 334).map (·.2.2)).filter (· < r) = rcs)
    (h2 : (((cs.drop 333).take 1).map (·.2.2)).all (· < r) = true)
    (h3 : ((cs.drop 334).map fun c => c.2.2 % r) = xys) :
    ((List.range 334).map w).filter (· < r) = rcs ∧ w 333 < r ∧
      (List.range' 334 8).map (fun i => w i % r) = xys := by
  refine ⟨?_, ?_, ?_⟩
  · rw [← h1, List.map_take, ← hw, ← List.map_take, List.take_range]; rfl
  · rw [List.map_take, List.map_drop, ← hw, ← List.map_drop, ← List.map_take] at h2
    exact of_decide_eq_true (Bool.and_eq_true_iff.1 h2).1
  · have : (fun c : ℕ × ℕ × ℕ => c.2.2 % r) = (fun v => v % r) ∘ fun c => c.2.2 := rfl
    rw [← h3, this, ← List.map_map, List.map_drop, ← hw, ← List.map_drop, List.map_map]
    rfl

/-- **C24** the constants of the textbook permutation are those produced by the Grain LFSR: 334 words of 254 bits
are drawn, those below `r` are the 256 round constants in order (the last word drawn is accepted), the next eight
words, reduced, are the points of the Cauchy matrix. -/
theorem C24_grain : ∃ n, ∃ w : ℕ → ℕ, (w = Spec.BN.word (Spec.BN.shrink (Spec.BN.raw n Spec.BN.warmRegister))) ∧
    (Spec.BN.shrink (Spec.BN.raw n Spec.BN.warmRegister)).length = 254 * 342 ∧
    ((List.range 334).map w).filter (· < r) = Spec.BN.roundConstants ∧ w 333 < r ∧
    (List.range' 334 8).map (fun i => w i % r) = Spec.BN.xs ++ Spec.BN.ys ∧
    Spec.BN.roundConstants.length = 256 ∧ Spec.BN.xs.length = 4 ∧ Spec.BN.ys.length = 4 := by
  obtain ⟨n, hl, hw⟩ := grain_words
  obtain ⟨h1, h2, h3⟩ := words_split grainCerts _ _ _ hw grain_rc grain_last grain_xy
  exact ⟨n, _, rfl, hl, h1, h2, h3, by decide +kernel, by decide +kernel, by decide +kernel⟩

/-- **C24** the matrix used is the Cauchy matrix `1 / (x_i + y_j)`: no denominator vanishes. -/
theorem C24_cauchy (i j : Fin 4) :
    Spec.BN.mds i j * (((Spec.BN.xs.getD i 0 : ℕ) : Fr) + ((Spec.BN.ys.getD j 0 : ℕ) : Fr)) = 1 := by
  rw [mds_eq]
  have := cast_eq_of_mod (check_cauchy i j)
  push_cast at this
  exact this

/-! ## C25 -/

/-- **C25** `HashOrNoop` of any list. -/
theorem C25_hashOrNoop (l : List Fr) :
    hashOrNoop l = if l.length ≤ 3 then Spec.BN.pack l else Spec.BN.hash l := by
  rw [hashOrNoop_eq, Spec.BN.leaf]

/-- **C25** `HashNoPad` of any list: three Goldilocks elements per field element, three field elements (nine
inputs) per permutation, overwriting. -/
theorem C25_hashNoPad (l : List Fr) :
    hashNoPad l = Spec.BN.sponge Spec.BN.poseidon ((Spec.BN.chunks3 l).map Spec.BN.pack) := by
  rw [hashNoPad_eq, Spec.BN.hash, Spec.BN.packed]

/-- **C25** `TwoToOne`. -/
theorem C25_twoToOne (a b : Fr) : twoToOne a b = Spec.BN.poseidon ![0, 0, a, b] 0 := by
  rw [twoToOne_eq, Spec.BN.compress]

/-- **C25** packing does not wrap around. -/
theorem C25_no_wrap (l : List Fr) (hs : ∀ x ∈ l, x.val < 2 ^ 64) (hl : l.length ≤ 3) :
    (Spec.BN.pack l).val = Nat.ofDigits (2 ^ 64) (l.map ZMod.val) := (pack_val l hs hl).1

/-- **C25** packing is injective on lists of the same length, of any length. -/
theorem C25_injective (l l' : List Fr) (hl : l.length = l'.length) (hs : ∀ x ∈ l, x.val < 2 ^ 64)
    (hs' : ∀ x ∈ l', x.val < 2 ^ 64)
    (h : (Spec.BN.chunks3 l).map Spec.BN.pack = (Spec.BN.chunks3 l').map Spec.BN.pack) : l = l' :=
  packed_inj l l' hl hs hs' h

/-- **C25** leaves of at most three elements never collide with a leaf of the same length. -/
theorem C25_short_leaves (l l' : List Fr) (hl : l.length = l'.length) (h3 : l.length ≤ 3)
    (hs : ∀ x ∈ l, x.val < 2 ^ 64) (hs' : ∀ x ∈ l', x.val < 2 ^ 64)
    (h : hashOrNoop l = hashOrNoop l') : l = l' := by
  rw [C25_hashOrNoop, C25_hashOrNoop, if_pos h3, if_pos (hl ▸ h3)] at h
  exact pack_inj l l' hl h3 hs hs' h

/-- Permuted leaves have different hashes; lists of four elements are packed differently. -/
example : hashOrNoop [1, 2] ≠ hashOrNoop [2, 1] := by
  intro h
  have h1 : (1 : Fr).val < 2 ^ 64 := by decide +kernel
  have h2 : (2 : Fr).val < 2 ^ 64 := by decide +kernel
  have h3 := C25_short_leaves [1, 2] [2, 1] rfl (by simp) (by simp only [List.mem_cons, List.not_mem_nil, or_false]; rintro x (rfl | rfl) <;> assumption)
    (by simp only [List.mem_cons, List.not_mem_nil, or_false]; rintro x (rfl | rfl) <;> assumption) h
  revert h3
  decide +kernel
example : (Spec.BN.chunks3 [1, 2, 1, 1]).map Spec.BN.pack ≠ (Spec.BN.chunks3 [1, 2, 1, 2]).map Spec.BN.pack := by
  intro h
  have h1 : (1 : Fr).val < 2 ^ 64 := by decide +kernel
  have h2 : (2 : Fr).val < 2 ^ 64 := by decide +kernel
  have h3 := C25_injective [1, 2, 1, 1] [1, 2, 1, 2] rfl (by simp only [List.mem_cons, List.not_mem_nil, or_false]; rintro x (rfl | rfl | rfl | rfl) <;> assumption)
    (by simp only [List.mem_cons, List.not_mem_nil, or_false]; rintro x (rfl | rfl | rfl | rfl) <;> assumption) h
  revert h3
  decide +kernel

/-- **C25** the restriction to one length is needed: a trailing zero does not change the packed value. -/
theorem C25_length_needed (a : Fr) : hashOrNoop [a] = hashOrNoop [a, 0] := by
  have e : Spec.BN.pack [] = 0 := rfl
  have h : ∀ l : List Fr, l.length ≤ 3 → hashOrNoop l = Spec.BN.pack l := fun l hl => by
    rw [C25_hashOrNoop, if_pos hl]
  refine (h [a] (by simp)).trans (Eq.trans ?_ (h [a, 0] (by simp)).symm)
  rw [pack_cons, pack_cons, pack_cons, e, mul_zero, add_zero, add_zero, mul_zero, add_zero]

/-- Ten inputs: four packed elements, two permutations, the second overwriting one position. -/
example (P : (Fin 4 → Fr) → Fin 4 → Fr) (a b c d : Fr) : Spec.BN.sponge P [a, b, c, d] =
    P (fun i => if i = 1 then d else P ![0, a, b, c] i) 0 := by
  have h1 : Spec.BN.overwrite (fun _ => 0) [a, b, c] = ![0, a, b, c] := by
    funext i; fin_cases i <;> rfl
  have h2 : ∀ s, Spec.BN.overwrite s [d] = fun i => if i = 1 then d else s i := by
    intro s; funext i; fin_cases i <;> rfl
  simp only [Spec.BN.sponge, Spec.BN.chunks3, List.foldl_cons, List.foldl_nil, h1, h2]

example : (Spec.BN.pack [1, 2, 3]).val = 1 + 2 * 2 ^ 64 + 3 * 2 ^ 128 := by
  have h1 : (1 : Fr).val = 1 := by decide +kernel
  have h2 : (2 : Fr).val = 2 := by decide +kernel
  have h3 : (3 : Fr).val = 3 := by decide +kernel
  rw [C25_no_wrap]
  · rw [List.map_cons, List.map_cons, List.map_cons, List.map_nil, h1, h2, h3, Nat.ofDigits_cons,
      Nat.ofDigits_cons, Nat.ofDigits_cons, Nat.ofDigits_nil]
    norm_num
  · intro x hx
    simp only [List.mem_cons, List.not_mem_nil, or_false] at hx
    rcases hx with rfl | rfl | rfl
    · rw [h1]; norm_num
    · rw [h2]; norm_num
    · rw [h3]; norm_num
  · simp

/-! ## C26 -/

/-- **C26** `ToVec` has exactly one result: the five base-`2^56` digits. -/
theorem C26_toVec (h : Fr) : Computes (toVec h)
    ([0, 56, 112, 168, 224].map fun i => ((h.val / 2 ^ i % 2 ^ 56 : ℕ) : Fr)) :=
  (den_eq_pure_iff _ _).1 (den_toVec h)

/-- **C26** any accepted vector has five limbs below `2^56` (so canonical) that recompose to the digest. -/
theorem C26_recompose (h : Fr) (v : List Fr) (hv : Sat (toVec h) v) :
    v.length = 5 ∧ (∀ x ∈ v, x.val < 2 ^ 56 ∧ x.val < p) ∧
    h.val = Nat.ofDigits (2 ^ 56) (v.map ZMod.val) := by
  rw [((C26_toVec h).1 v).1 hv]
  have hr : (2 : ℕ) ^ 56 < r := by norm_num [r]
  have hp : (2 : ℕ) ^ 56 < p := by norm_num [p]
  have hval : ∀ n : ℕ, ((n % 2 ^ 56 : ℕ) : Fr).val = n % 2 ^ 56 := fun n => by
    rw [ZMod.val_natCast, Nat.mod_eq_of_lt]
    exact (Nat.mod_lt _ (by norm_num)).trans hr
  refine ⟨rfl, fun x hx => ?_, ?_⟩
  · obtain ⟨i, -, rfl⟩ := List.mem_map.1 hx
    rw [hval]
    have := Nat.mod_lt (h.val / 2 ^ i) (show 0 < 2 ^ 56 by norm_num)
    omega
  · have hlt : h.val < 2 ^ 254 := (ZMod.val_lt h).trans r_lt_two_pow
    simp only [List.map_cons, List.map_nil, hval, Nat.ofDigits_cons, Nat.ofDigits_nil]
    omega

/-- The limbs of `2^56 + 3`. -/
example : ∃ v, Sat (toVec ((2 ^ 56 + 3 : ℕ) : Fr)) v ∧ v.map ZMod.val = [3, 1, 0, 0, 0] := by
  refine ⟨_, ((C26_toVec _).1 _).2 rfl, ?_⟩
  rw [val_natCast_of_lt (by norm_num [r])]
  decide +kernel

/-- **C26** distinct digests have distinct vectors. -/
theorem C26_injective (h h' : Fr) (v : List Fr) (hv : Sat (toVec h) v) (hv' : Sat (toVec h') v) :
    h = h' :=
  ZMod.val_injective r ((C26_recompose h v hv).2.2.trans (C26_recompose h' v hv').2.2.symm)

/-- The digest `2^56 + 5` splits into limbs 5, 1, 0, 0, 0. -/
example : Computes (toVec ((2 ^ 56 + 5 : ℕ) : Fr)) [5, 1, 0, 0, 0] := by
  have h := C26_toVec ((2 ^ 56 + 5 : ℕ) : Fr)
  have e : ((2 ^ 56 + 5 : ℕ) : Fr).val = 2 ^ 56 + 5 := by
    rw [ZMod.val_natCast, Nat.mod_eq_of_lt (by norm_num [r])]
  simp only [e] at h
  norm_num at h
  exact h

end Verif
