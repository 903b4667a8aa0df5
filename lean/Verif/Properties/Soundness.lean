import Verif.Proofs.Witness
import Verif.Properties.Verifier

/-!
# Properties C68, C69: comparison with the plonky2 verifier

C68: the validation of sizes.  C69: proofs accepted by the circuit but not by the verifier.
-/

set_option autoImplicit false

namespace Verif

open Circ PoseidonGL Verifier Spec.Verifier
open Spec (residue)

/-! ## C68 -/

/-- Supported circuits and shaped proofs meet the conditions of C58. -/
theorem fits_of_shaped {B E I : Type} {c : CommonCircuitData} {gates : List Gates.Gate} {vd : VerifierOnlyCircuitData}
    {x : Proof B E} {inputs : List I} (hc : Supported c gates vd) (hx : Shaped c x inputs) : Fits c gates vd x where
  degree := hc.degree
  factor := hc.factor
  chunks := hc.chunks
  gatesOk := by rw [hx.openings.constants, hx.openings.wires]; exact hc.gatesOk
  counts := hc.counts
  kIs := hc.kIs
  kIsLt := hc.kIsLt
  wires := by rw [hx.openings.wires]; exact hc.routed
  sigmas := hx.openings.plonkSigmas.ge
  zs := hx.openings.plonkZs.ge
  zsNext := hx.openings.plonkZsNext.ge
  partialProducts := hx.openings.partialProducts.ge
  quotients := hx.openings.quotientPolys.ge
  domain := hc.domain
  pow := hc.pow
  arities := hc.arities
  caps := by
    have h := hx.caps
    rw [hc.domain.2.2.2] at h
    exact ⟨hc.cap, h⟩

/-- **C68** full property: the circuit accepts exactly what the verifier with validated sizes accepts.  Proved for
templates whose openings, caps and public inputs have the validated sizes (and a permutation circuit that computes `P`);
missing: templates of other sizes, for which it is false, see below. -/
theorem C68_shaped_partial {perm : State → Circ State} {P : (Fin 12 → Fp) → Fin 12 → Fp}
    (hP : ∀ s : Fin 12 → Fp, Computes (perm fun i => emb (s i)) fun i => emb (P s i))
    (c : CommonCircuitData) (gates : List Gates.Gate) (vd : VerifierOnlyCircuitData) (hc : Supported c gates vd)
    (proof : Proof Fr QEV) (pis : List Fr) (hs : Shaped c proof pis) :
    Enforces (verify perm c gates proof pis vd) (∃ x : Proof Fp QE, proof = x.enc ∧
      (∀ v ∈ pis, v.val < 2 ^ 144 * p) ∧ Validates P c gates vd x (pis.map residue)) := by
  have h := C58_exact hP c gates vd proof (fits_of_shaped hc hs) pis
  have e : (∃ x : Proof Fp QE, proof = x.enc ∧ (∀ v ∈ pis, v.val < 2 ^ 144 * p) ∧
      Validates P c gates vd x (pis.map residue)) ↔ (∃ x : Proof Fp QE, proof = x.enc ∧
      (∀ v ∈ pis, v.val < 2 ^ 144 * p) ∧ Accepts P c gates vd x (pis.map residue)) := by
    refine exists_congr fun x => and_congr_right fun hx => and_congr_right fun _ => and_iff_right ?_
    subst hx
    have ho := hs.openings
    exact ⟨⟨by simpa [Proof.enc, OpeningSet.enc] using ho.constants, by simpa [Proof.enc, OpeningSet.enc] using ho.plonkSigmas,
      by simpa [Proof.enc, OpeningSet.enc] using ho.wires, by simpa [Proof.enc, OpeningSet.enc] using ho.plonkZs,
      by simpa [Proof.enc, OpeningSet.enc] using ho.plonkZsNext,
      by simpa [Proof.enc, OpeningSet.enc] using ho.partialProducts,
      by simpa [Proof.enc, OpeningSet.enc] using ho.quotientPolys⟩, hs.caps, by simpa using hs.inputs⟩
  rwa [e]

/-- The circuit of the examples is supported. -/
theorem supported_data {vd : VerifierOnlyCircuitData} (hvd : vd.constantSigmasCap.length = 16) :
    Supported (HonestProof.data 16) HonestProof.gates vd where
  degree := by norm_num [HonestProof.data]
  factor := by norm_num [HonestProof.data]
  chunks := by norm_num [HonestProof.data]
  routed := by norm_num [HonestProof.data]
  gatesOk := by
    intro gi hgi
    have : gi = (.constant 1, 0) := by simpa [List.zipIdx, HonestProof.gates] using hgi
    subst this
    exact ⟨by simp [HonestProof.data], by simp [HonestProof.data], by norm_num [HonestProof.data, p],
      by simp [HonestProof.data], by norm_num [Spec.Gates.Fits, HonestProof.data]⟩
  counts := by
    intro gi hgi x
    have : gi = (.constant 1, 0) := by simpa [List.zipIdx, HonestProof.gates] using hgi
    subst this
    simp [Spec.Gates.constraints, Spec.Gates.constant, HonestProof.data]
  kIs := by norm_num [HonestProof.data]
  kIsLt := by norm_num [HonestProof.data, p]
  domain := by norm_num [HonestProof.data]
  pow := by norm_num [HonestProof.data]
  arities := by simp [HonestProof.data]
  cap := hvd

/-- **C68** violated: for the circuit "the wire is 1 in all rows" and the actual permutation, a proof whose lists of
openings have the wrong lengths satisfies the code's circuit, although the wire it commits to is `X`. -/
theorem C68_openings_violated : ∃ (c : CommonCircuitData) (gates : List Gates.Gate) (vd : VerifierOnlyCircuitData)
    (x : Proof Fp QE), Supported c gates vd ∧ Sat (verify poseidon c gates x.enc [] vd) () ∧
      ¬ Shaped c x ([] : List Fp) ∧
      Commits 4 vd.constantSigmasCap [0, 1, Polynomial.X] ∧ Commits 4 x.wiresCap [Polynomial.X] ∧
      ¬ Satisfied c gates [0, 1] [Polynomial.X] (inputsHash Spec.poseidon []) ∧
      Satisfied c gates [0, 1] [1] (inputsHash Spec.poseidon []) := by
  refine ⟨HonestProof.data 16, HonestProof.gates, Misaligned.vd1 1, Witness.badProof, ?_, ?_, ?_, ?_, ?_, ?_, ?_⟩
  · exact supported_data (by simp [Misaligned.vd1])
  · exact C58_complete _ _ _ _ (fits_to_enc (Misaligned.fits (by norm_num) _ _ _ _ _)) [] Witness.accepts_bad
  · intro h
    exact absurd h.openings.constants (by simp [Witness.badProof, Misaligned.badProof, Misaligned.badOpenings, HonestProof.data])
  · simp [Commits, Misaligned.vd1, Misaligned.leaf1, HonestProof.point]
  · simp [Commits, Witness.badProof, Misaligned.badProof, Misaligned.xCap, HonestProof.point]
  · intro h
    have h1 := h (-1) (by norm_num [HonestProof.data]) 0
    revert h1
    simp only [Spec.Gates.combined, HonestProof.gates, HonestProof.data, List.zipIdx, List.map_cons, List.map_nil,
      Spec.Gates.constraints, Spec.Gates.constant, Spec.Gates.Row.drop, List.length_cons, List.length_nil]
    simp
    decide +kernel
  · intro x _ j
    rcases j with _ | j
    · simp [Spec.Gates.combined, HonestProof.gates, HonestProof.data, Spec.Gates.constraints, Spec.Gates.constant,
        Spec.Gates.Row.drop]
    · simp [Spec.Gates.combined, HonestProof.gates, HonestProof.data, Spec.Gates.constraints, Spec.Gates.constant,
        Spec.Gates.Row.drop]

/-- Zeros after the inputs do not change the state of the first block. -/
theorem absorb_zeros (perm : State → Circ State) (state : State) (hz : ∀ i : Fin 12, (i : ℕ) < 8 → state i = 0) (l : List Fr)
    (k : ℕ) (hl : l ≠ []) (hk : l.length + k ≤ 8) :
    absorbLoop perm state (l ++ List.replicate k 0) = absorbLoop perm state l := by
  obtain ⟨x, xs, rfl⟩ := List.exists_cons_of_ne_nil hl
  have h1 : ((x :: xs) ++ List.replicate k (0 : Fr)).length ≤ 8 := by rw [List.length_append, List.length_replicate]; exact hk
  have h2 : (x :: xs).length ≤ 8 := by omega
  rw [List.cons_append, absorbLoop, absorbLoop, ← List.cons_append, show SPONGE_RATE = 8 from rfl,
    List.take_of_length_le h1, List.take_of_length_le h2, List.drop_of_length_le h1, List.drop_of_length_le h2]
  congr 2
  funext j
  rw [overwrite, overwrite]
  by_cases h3 : (j : ℕ) < (x :: xs).length
  · have h4 : (j : ℕ) < ((x :: xs) ++ List.replicate k (0 : Fr)).length := by rw [List.length_append]; omega
    rw [dif_pos ⟨h4, by omega⟩, dif_pos ⟨h3, by omega⟩, List.getElem_append_left h3]
  · rw [dif_neg (c := (j : ℕ) < (x :: xs).length ∧ (j : ℕ) < 8) (fun h => h3 h.1)]
    split_ifs with h4
    · rw [List.getElem_append_right (by omega), List.getElem_replicate, hz j h4.2]
    · rfl

/-- **C68** violated: nor is the number of public inputs validated, and the hash does not depend on it: with zeros appended
(up to eight inputs in all) the circuit accepts the same proofs, for every circuit. -/
theorem C68_inputs_violated (c : CommonCircuitData) (gates : List Gates.Gate) (vd : VerifierOnlyCircuitData)
    (proof : Proof Fr QEV) (pis : List Fr) (k : ℕ) (hl : pis ≠ []) (hk : pis.length + k ≤ 8) :
    Sat (verify poseidon c gates proof (pis ++ List.replicate k 0) vd) () ↔
      Sat (verify poseidon c gates proof pis vd) () := by
  have e : den (getPublicInputsHash poseidon (pis ++ List.replicate k 0)) = den (getPublicInputsHash poseidon pis) := by
    have h1 : ∀ l : List Fr, (∀ v ∈ l ++ List.replicate k (0 : Fr), v.val < 2 ^ 144 * p) ↔
        ∀ v ∈ l, v.val < 2 ^ 144 * p := by
      intro l
      refine ⟨fun h v hv => h v (List.mem_append_left _ hv), fun h v hv => ?_⟩
      rcases List.mem_append.1 hv with hv | hv
      · exact h v hv
      · rw [List.eq_of_mem_replicate hv]; norm_num [p]
    have h2 : ((pis ++ List.replicate k (0 : Fr)).map residue).map emb =
        (pis.map residue).map emb ++ List.replicate k 0 := by
      have : emb (residue 0) = 0 := by
        rw [residue, ZMod.val_zero, Nat.cast_zero, emb_zero]
      simp [this]
    rw [getPublicInputsHash, getPublicInputsHash, hashNoPadWith, hashNoPadWith, den_bind, den_bind,
      den_mapM_reduce_all, den_mapM_reduce_all, h2, propext (h1 pis)]
    simp only [bind_assoc, pure_bind]
    refine congrArg₂ _ rfl (funext fun _ => ?_)
    rw [hashNToMNoPadWith, hashNToMNoPadWith, absorb_zeros _ _ (fun _ _ => rfl) _ _ (by simpa using hl) (by simpa using hk)]
  have e' : ∀ y, Sat (getPublicInputsHash poseidon (pis ++ List.replicate k 0)) y ↔
    Sat (getPublicInputsHash poseidon pis) y := fun y => iff_of_eq (congrFun (congrArg Den.sat e) y)
  rw [verify_eq, verify_eq, sat_bind, sat_bind]
  simp only [sat_bind, e']

/-- A proof for five public inputs is a proof for six. -/
example (c : CommonCircuitData) (gates : List Gates.Gate) (vd : VerifierOnlyCircuitData) (proof : Proof Fr QEV) :
    Sat (verify poseidon c gates proof [1, 2, 3, 4, 5, 0] vd) () ↔ Sat (verify poseidon c gates proof [1, 2, 3, 4, 5] vd) () :=
  C68_inputs_violated c gates vd proof [1, 2, 3, 4, 5] 1 (by simp) (by simp)

/-! ## C69 -/

/-- **C69** full property: the code's circuit accepts exactly the canonical proofs accepted by the plonky2 verifier over
the textbook permutation.  Proved: it accepts all of them, and it accepts only those if the prover follows the hint functions
in the permutation (`honest`); missing: other choices of the prover, for which it is false, see below. -/
theorem C69_honest_partial (c : CommonCircuitData) (gates : List Gates.Gate) (vd : VerifierOnlyCircuitData)
    (hc : Supported c gates vd) (proof : Proof Fr QEV) (pis : List Fr) (hs : Shaped c proof pis) :
    ((∃ x : Proof Fp QE, proof = x.enc ∧ (∀ v ∈ pis, v.val < 2 ^ 144 * p) ∧
        Accepts Spec.poseidon c gates vd x (pis.map residue)) → Sat (verify poseidon c gates proof pis vd) ()) ∧
      (honest (verify poseidon c gates proof pis vd) = some () → ∃ x : Proof Fp QE, proof = x.enc ∧
        (∀ v ∈ pis, v.val < 2 ^ 144 * p) ∧ Accepts Spec.poseidon c gates vd x (pis.map residue)) :=
  have h := C58_honest c gates vd proof (fits_of_shaped hc hs) pis
  ⟨fun hx => sat_of_honest (h.2 hx), h.1⟩

/-- **C69** what the prover may choose: take any function `P` whose values are admitted by the constraints of the
permutation, state by state.  Proofs accepted by the plonky2 verifier over `P` satisfy the code's circuit. -/
theorem C69_chosen {P : (Fin 12 → Fp) → Fin 12 → Fp}
    (hP : ∀ s : Fin 12 → Fp, Sat (poseidon fun i => emb (s i)) fun i => emb (P s i))
    (c : CommonCircuitData) (gates : List Gates.Gate) (vd : VerifierOnlyCircuitData) (x : Proof Fp QE)
    (hf : Fits c gates vd x.enc) (pis : List Fr) (hb : ∀ v ∈ pis, v.val < 2 ^ 144 * p)
    (h : Accepts P c gates vd x (pis.map residue)) : Sat (verify poseidon c gates x.enc pis vd) () :=
  sat_verify_chosen hP hf pis ⟨x, rfl, hb, h⟩

/-- Sizes of the example. -/
theorem shaped_proof (v w : ℕ) : Shaped (HonestProof.data 16) (Witness.proof v w) ([] : List Fp) :=
  ⟨⟨rfl, rfl, rfl, rfl, rfl, rfl, rfl⟩, by simp [Witness.proof, HonestProof.proof, HonestProof.constCap, HonestProof.data], rfl⟩

/-- **C69** violated: a proof of the right shape that the plonky2 verifier rejects (its proof of work is insufficient)
satisfies the code's circuit: the prover chooses another output of the last permutation of the transcript. -/
theorem C69_violated : ∃ (c : CommonCircuitData) (gates : List Gates.Gate) (vd : VerifierOnlyCircuitData)
    (x : Proof Fp QE), Supported c gates vd ∧ Shaped c x ([] : List Fp) ∧
      ¬ Accepts Spec.poseidon c gates vd x [] ∧ Sat (verify poseidon c gates x.enc [] vd) () ∧
      honest (verify poseidon c gates x.enc [] vd) = none := by
  have hf := fits_to_enc (HonestProof.fits (b := 16) (by norm_num) 1 Witness.zeta Witness.alpha 14818387758930944266
    ((2771 : ℕ) : Fp))
  refine ⟨HonestProof.data 16, HonestProof.gates, HonestProof.vd 1, Witness.proof 14818387758930944266 2771,
    supported_data (by simp [HonestProof.vd]), shaped_proof _ _, Witness.rejected _,
    C69_chosen Witness.perm'_sat _ _ _ _ hf [] (by simp) Witness.accepts_forged, ?_⟩
  by_contra h
  obtain ⟨y, hy⟩ := Option.ne_none_iff_exists'.1 h
  obtain ⟨x, hx, -, ha⟩ := (C58_honest _ _ _ _ hf []).1 hy
  obtain rfl := enc_injective hx
  exact Witness.rejected _ ha

/-- With enough proof of work the honest proof is accepted by both. -/
example : Accepts Spec.poseidon (HonestProof.data 16) HonestProof.gates (HonestProof.vd 1)
      (Witness.proof 15684767761658159738 13113) [] ∧
    Sat (verify poseidon (HonestProof.data 16) HonestProof.gates (Witness.proof 15684767761658159738 13113).enc []
      (HonestProof.vd 1)) () :=
  ⟨Witness.accepts_honest, C58_complete _ _ _ _ (fits_to_enc (HonestProof.fits (by norm_num) _ _ _ _ _)) []
    Witness.accepts_honest⟩

end Verif
