import Verif.Proofs.FreedomVerifier
import Verif.Properties.Soundness

/-!
# Property C70: the freedom of a malicious prover

The relational verifier `Spec.Free.Accepts S` is the plonky2 verifier in which every application of the S-box, in every
permutation of the public inputs hash and of the transcript, may return any value related to its input by `S`.
-/

set_option autoImplicit false

namespace Verif

open Circ PoseidonGL Verifier Spec.Verifier
open Spec (residue)
open Spec.Free (SBox Perm)

/-- **C70** the code's S-box admits exactly the values of `SBox`. -/
theorem C70_sbox (a : Fp) (y : Fr) : Sat (sBoxMonomial (emb a)) y ↔ ∃ b, y = emb b ∧ SBox a b := Freedom.sbox_rel a y

/-- **C70** at most 36 of them, one of which is `x^7`. -/
theorem C70_count (a : Fp) : SBox a (a ^ 7) ∧ {b | SBox a b}.Finite ∧ {b | SBox a b}.ncard ≤ 36 := by
  refine ⟨⟨0, 0, by norm_num, by norm_num, by push_cast; ring⟩, ?_⟩
  have hsub : {b | SBox a b} ⊆ ((Finset.range 6 ×ˢ Finset.range 6).image fun q : ℕ × ℕ =>
      a * (a ^ 3 + q.1 * (r : Fp)) ^ 2 + q.2 * (r : Fp) : Finset Fp) := by
    rintro b ⟨k, k', h1, h2, rfl⟩
    rw [Finset.coe_image]
    exact ⟨(k, k'), by simp; omega, rfl⟩
  refine ⟨(Finset.finite_toSet _).subset hsub, ?_⟩
  refine (Set.ncard_le_ncard hsub (Finset.finite_toSet _)).trans ?_
  rw [Set.ncard_coe_finset]
  exact Finset.card_image_le.trans (by simp)

/-- **C70** the code's permutation admits exactly the results of thirty rounds in which every S-box is chosen freely. -/
theorem C70_permutation (s : Fin 12 → Fp) (y : State) :
    Sat (poseidon fun i => emb (s i)) y ↔ ∃ t : Fin 12 → Fp, (y = fun i => emb (t i)) ∧ Perm SBox s t :=
  Freedom.sat_poseidonWith Freedom.sbox_rel s y

/-- **C70** the constraints of the whole verifier circuit, for any circuit in place of the S-box: nothing but the outcomes
of the S-boxes is left to the prover. -/
theorem C70_freedom {sbox : Fr → Circ Fr} {S : Fp → Fp → Prop}
    (hS : ∀ a y, Sat (sbox (emb a)) y ↔ ∃ b, y = emb b ∧ S a b)
    (c : CommonCircuitData) (gates : List Gates.Gate) (vd : VerifierOnlyCircuitData) (proof : Proof Fr QEV)
    (hf : Fits c gates vd proof) (pis : List Fr) :
    Sat (verify (poseidonWith sbox) c gates proof pis vd) () ↔ ∃ x : Proof Fp QE, proof = x.enc ∧
      (∀ v ∈ pis, v.val < 2 ^ 144 * p) ∧ Spec.Free.Accepts S c gates vd x (pis.map residue) :=
  Freedom.sat_verifyWith hS hf pis

/-- **C70** the code's circuit: an exact characterisation of what a malicious prover can achieve. -/
theorem C70_exact (c : CommonCircuitData) (gates : List Gates.Gate) (vd : VerifierOnlyCircuitData) (proof : Proof Fr QEV)
    (hf : Fits c gates vd proof) (pis : List Fr) :
    Sat (verify poseidon c gates proof pis vd) () ↔ ∃ x : Proof Fp QE, proof = x.enc ∧
      (∀ v ∈ pis, v.val < 2 ^ 144 * p) ∧ Spec.Free.Accepts SBox c gates vd x (pis.map residue) :=
  C70_freedom C70_sbox c gates vd proof hf pis

/-- **C70** with the S-box `x^7` the relational verifier is the plonky2 verifier of C58. -/
theorem C70_function (c : CommonCircuitData) (gates : List Gates.Gate) (vd : VerifierOnlyCircuitData) (x : Proof Fp QE)
    (inputs : List Fp) : Spec.Free.Accepts (fun a b => b = a ^ 7) c gates vd x inputs ↔
      Accepts Spec.poseidon c gates vd x inputs :=
  Freedom.accepts_graph c gates vd x inputs

/-- An S-box with a reduction after each of its four multiplications. -/
def reducingSbox (x : Fr) : Circ Fr := do
  let x2 ← mul x x
  let x3 ← mul x2 x
  let x6 ← mul x3 x3
  mul x6 x

/-- **C70** hence a different S-box is all it takes: with a reduction after every multiplication the code's circuit accepts
exactly the proofs accepted by the plonky2 verifier. -/
theorem C70_repaired (c : CommonCircuitData) (gates : List Gates.Gate) (vd : VerifierOnlyCircuitData)
    (proof : Proof Fr QEV) (hf : Fits c gates vd proof) (pis : List Fr) :
    Sat (verify (poseidonWith reducingSbox) c gates proof pis vd) () ↔ ∃ x : Proof Fp QE, proof = x.enc ∧
      (∀ v ∈ pis, v.val < 2 ^ 144 * p) ∧ Accepts Spec.poseidon c gates vd x (pis.map residue) := by
  rw [C70_freedom (S := fun a b => b = a ^ 7) _ c gates vd proof hf pis]
  · simp only [C70_function]
  · intro a y
    have h : den (reducingSbox (emb a)) = pure (emb (a ^ 7)) := by
      unfold reducingSbox
      simp only [den_bind, den_mul, pure_bind]
      refine congrArg (fun z => pure (emb z)) ?_
      ring
    rw [sat_of_den_pure h]
    exact ⟨fun e => ⟨_, e, rfl⟩, by rintro ⟨b, rfl, rfl⟩; rfl⟩

/-- Both sides occur: a forged proof, rejected by plonky2, is accepted for some outcome of the S-boxes... -/
example : ¬ Spec.Free.Accepts (fun a b => b = a ^ 7) (HonestProof.data 16) HonestProof.gates (HonestProof.vd 1)
      (Witness.proof 14818387758930944266 2771) [] ∧
    Spec.Free.Accepts SBox (HonestProof.data 16) HonestProof.gates (HonestProof.vd 1)
      (Witness.proof 14818387758930944266 2771) [] := by
  have hf := fits_to_enc (HonestProof.fits (b := 16) (by norm_num) 1 Witness.zeta Witness.alpha 14818387758930944266
    ((2771 : ℕ) : Fp))
  refine ⟨fun h => Witness.rejected _ ((C70_function _ _ _ _ _).1 h), ?_⟩
  obtain ⟨x, hx, -, h⟩ := (C70_exact _ _ _ _ hf []).1
    (C69_chosen Witness.perm'_sat _ _ _ _ hf [] (by simp) Witness.accepts_forged)
  obtain rfl := enc_injective hx
  exact h

/-- ... an honest proof for the outcomes `x^7`... -/
example : Spec.Free.Accepts (fun a b => b = a ^ 7) (HonestProof.data 16) HonestProof.gates (HonestProof.vd 1)
    (Witness.proof 15684767761658159738 13113) [] := (C70_function _ _ _ _ _).2 Witness.accepts_honest

/-- ... and a proof with a coordinate out of range in no way. -/
example (c : CommonCircuitData) (gates : List Gates.Gate) (vd : VerifierOnlyCircuitData) (x : Proof Fr QEV)
    (hf : Fits c gates vd { x with openings := { x.openings with wires := x.openings.wires ++ [(0, (p : Fr))] } }) :
    ¬ Sat (verify poseidon c gates
      { x with openings := { x.openings with wires := x.openings.wires ++ [(0, (p : Fr))] } } [] vd) () := by
  rw [C70_exact _ _ _ _ hf]
  rintro ⟨y, hy, -⟩
  have h := ((canonical_iff _).2 ⟨y, hy⟩).wires (0, (p : Fr)) (by simp)
  have := h.2
  simp only at this
  rw [val_natCast_of_lt p_lt_r] at this
  exact lt_irrefl _ this

/-- The S-box of 0 admits 0 and `r mod p`. -/
example : SBox 0 0 ∧ SBox 0 (r : Fp) ∧ (r : Fp) ≠ 0 :=
  ⟨⟨0, 0, by norm_num, by norm_num, by simp⟩, ⟨0, 1, by norm_num, by norm_num, by simp⟩, r_fp_ne_zero⟩

end Verif
