import Verif.Proofs.WitnessInputs
import Verif.Properties.Freedom
import Verif.Properties.Permutation

/-!
# Property C97: the public inputs of an accepted proof

The hash of the public inputs is computed with S-boxes that admit several values (C19, C70).  Since `x^7` is a bijection
(C96), every value the S-box admits for one argument it admits for others.
-/

set_option autoImplicit false

namespace Verif

open Circ PoseidonGL Verifier Spec.Verifier
open Spec (residue)
open Spec.Free (SBox Perm Hash)

/-- **C97** every value the S-box circuit admits is admitted for a different argument too. -/
theorem C97_sbox_violated (a : Fp) (y : Fr) (h : Sat (sBoxMonomial (emb a)) y) :
    ∃ a' : Fp, a' ≠ a ∧ Sat (sBoxMonomial (emb a')) y := by
  obtain ⟨b, rfl, -⟩ := (C70_sbox a y).1 h
  obtain ⟨a', h1, h2⟩ := Bijective.sbox_other (a := a) (b := b)
  exact ⟨a', h1, (C70_sbox _ _).2 ⟨b, rfl, h2⟩⟩

/-- **C97** every output of the permutation circuit is an output for `2^12` states at least: each coordinate can be replaced
independently of the others. -/
theorem C97_permutation_violated (s : Fin 12 → Fp) (y : State) (h : Sat (poseidon fun i => emb (s i)) y) :
    ∃ v : Fin 12 → Fp, (∀ i, v i ≠ s i) ∧ ∀ s' : Fin 12 → Fp, (∀ i, s' i = v i ∨ s' i = s i) →
      Sat (poseidon fun i => emb (s' i)) y := by
  obtain ⟨t, rfl, ht⟩ := (C70_permutation s y).1 h
  obtain ⟨v, hv, hall⟩ := Bijective.perm_other ht
  exact ⟨v, hv, fun s' hs => (C70_permutation _ _).2 ⟨t, rfl, hall s' hs⟩⟩

/-- **C97** whatever proof and public inputs satisfy the code's circuit, the same proof satisfies it when any selection of
the public inputs is replaced by certain other values. -/
theorem C97_violated (c : CommonCircuitData) (gates : List Gates.Gate) (vd : VerifierOnlyCircuitData)
    (proof : Proof Fr QEV) (hf : Fits c gates vd proof) (pis : List Fr)
    (h : Sat (verify poseidon c gates proof pis vd) ()) :
    ∃ f : ℕ → Fp, (∀ m (hm : m < pis.length), f m ≠ residue pis[m]) ∧ ∀ pis' : List Fr, pis'.length = pis.length →
      (∀ m (hm : m < pis.length) (hm' : m < pis'.length), pis'[m] = emb (f m) ∨ pis'[m] = pis[m]) →
      Sat (verify poseidon c gates proof pis' vd) () := by
  obtain ⟨x, rfl, hs, hh, o, k, h1, h2, h3⟩ := (C70_exact c gates vd proof hf pis).1 h
  obtain ⟨f, hf1, hall⟩ := Bijective.hash_other _ h1
  have hg : ∀ (l : List Fr) m, (hm : m < l.length) → (l.map residue).getD m 0 = residue l[m] := by
    intro l m hm
    rw [List.getD_eq_getElem?_getD, List.getElem?_map, List.getElem?_eq_getElem hm, Option.map_some, Option.getD_some]
  refine ⟨f, fun m hm => by rw [← hg]; exact hf1 m, fun pis' hl hc => ?_⟩
  refine (C70_exact c gates vd _ hf pis').2 ⟨x, rfl, ?_, hh, o, k, hall _ (by simp [hl]) fun m => ?_, h2, h3⟩
  · intro v hv
    obtain ⟨m, hm, rfl⟩ := List.mem_iff_getElem.1 hv
    rcases hc m (hl ▸ hm) hm with e | e
    · rw [e]
      exact Challenger.small_emb _
    · rw [e]
      exact hs _ (List.getElem_mem _)
  · by_cases hm : m < pis.length
    · rw [hg _ _ (hl ▸ hm), hg _ _ hm]
      rcases hc m hm (hl ▸ hm) with e | e
      · exact .inl (by rw [e, Challenger.residue_emb])
      · exact .inr (by rw [e])
    · right
      rw [List.getD_eq_default _ _ (by simp; omega), List.getD_eq_default _ _ (by simp; omega)]

/-- **C97** a proof accepted by plonky2 for the public input 1 and rejected for another one satisfies the code's circuit with
both. -/
theorem C97_example_violated : ∃ (c : CommonCircuitData) (gates : List Gates.Gate) (vd : VerifierOnlyCircuitData)
    (x : Proof Fp QE) (v : Fp), Supported c gates vd ∧ v ≠ 1 ∧
      Accepts Spec.poseidon c gates vd x [1] ∧ ¬ Accepts Spec.poseidon c gates vd x [v] ∧
      honest (verify poseidon c gates x.enc [1] vd) = some () ∧
      honest (verify poseidon c gates x.enc [emb v] vd) = none ∧
      Sat (verify poseidon c gates x.enc [1] vd) () ∧ Sat (verify poseidon c gates x.enc [emb v] vd) () := by
  have hf : Fits _ _ _ WitnessInputs.proof.enc := fits_to_enc (HonestProof.fits (b := 16) (by norm_num) 1
    WitnessInputs.zeta WitnessInputs.alpha 17136421660873736037 ((33965 : ℕ) : Fp))
  have hs : ∀ a : Fp, ∀ v ∈ [emb a], v.val < 2 ^ 144 * p := fun a v hv => by
    rw [List.mem_singleton.1 hv]
    exact Challenger.small_emb a
  have he : ∀ a : Fp, [emb a].map residue = [a] := fun a => by rw [List.map_singleton, Challenger.residue_emb]
  refine ⟨HonestProof.data 16, HonestProof.gates, HonestProof.vd 1, WitnessInputs.proof, (WitnessInputs.other : Fp),
    supported_data (by simp [HonestProof.vd]), by decide +kernel, WitnessInputs.accepts, WitnessInputs.rejects, ?_, ?_, ?_,
    ?_⟩
  · rw [← emb_one]
    exact (C58_honest _ _ _ _ hf _).2 ⟨_, rfl, hs 1, by rw [he]; exact WitnessInputs.accepts⟩
  · rw [Option.eq_none_iff_forall_ne_some]
    rintro ⟨⟩ h
    obtain ⟨x, hx, -, h⟩ := (C58_honest _ _ _ _ hf _).1 h
    obtain rfl := enc_injective hx
    rw [he] at h
    exact WitnessInputs.rejects h
  · rw [← emb_one]
    exact C58_complete _ _ _ _ hf [1] WitnessInputs.accepts
  · exact (C70_exact _ _ _ _ hf _).2 ⟨_, rfl, hs _, by rw [he]; exact WitnessInputs.free_accepts⟩

/-- **C97** what holds: with a reduction after every multiplication of the S-box, the circuit admits a proof only for the
public inputs for which plonky2 accepts it, and public inputs of one block that differ lead to different sponge states. -/
theorem C97_repaired_partial (c : CommonCircuitData) (gates : List Gates.Gate) (vd : VerifierOnlyCircuitData)
    (x : Proof Fp QE) (hf : Fits c gates vd x.enc) (l l' : List Fp) (hl : l.length = l'.length) (h8 : l.length ≤ 8)
    (hne : l ≠ l') :
    (Sat (verify (poseidonWith reducingSbox) c gates x.enc (l.map emb) vd) () ↔ Accepts Spec.poseidon c gates vd x l) ∧
    Spec.absorb Spec.poseidon (fun _ => 0) (Spec.chunks l) ≠ Spec.absorb Spec.poseidon (fun _ => 0) (Spec.chunks l') := by
  refine ⟨?_, fun h => hne (C96_one_block l l' hl h8 _ h)⟩
  have he : (l.map emb).map residue = l := by
    rw [List.map_map]
    exact (List.map_congr_left fun a _ => Challenger.residue_emb a).trans (List.map_id _)
  rw [C70_repaired c gates vd _ hf, he]
  constructor
  · rintro ⟨y, hy, -, h⟩
    obtain rfl := enc_injective hy
    exact h
  · refine fun h => ⟨x, rfl, fun v hv => ?_, h⟩
    obtain ⟨a, -, rfl⟩ := List.mem_map.1 hv
    exact Challenger.small_emb a

/-- The repaired circuit rejects the proof of the example for the second public input. -/
example : Sat (verify (poseidonWith reducingSbox) (HonestProof.data 16) HonestProof.gates WitnessInputs.proof.enc
      ([1].map emb) (HonestProof.vd 1)) () ∧
    ¬ Sat (verify (poseidonWith reducingSbox) (HonestProof.data 16) HonestProof.gates WitnessInputs.proof.enc
      ([(WitnessInputs.other : Fp)].map emb) (HonestProof.vd 1)) () := by
  have hf : Fits _ _ _ WitnessInputs.proof.enc := fits_to_enc (HonestProof.fits (b := 16) (by norm_num) 1
    WitnessInputs.zeta WitnessInputs.alpha 17136421660873736037 ((33965 : ℕ) : Fp))
  have hne : ([1] : List Fp) ≠ [(WitnessInputs.other : Fp)] := by decide +kernel
  exact ⟨(C97_repaired_partial _ _ _ _ hf [1] [(WitnessInputs.other : Fp)] rfl (by simp) hne).1.2 WitnessInputs.accepts, fun h =>
    WitnessInputs.rejects ((C97_repaired_partial _ _ _ _ hf [(WitnessInputs.other : Fp)] [1] rfl (by simp) hne.symm).1.1 h)⟩

/-- There is something to replace: the value the S-box admits for 0 and for another argument. -/
example : ∃ a' : Fp, a' ≠ 0 ∧ Sat (sBoxMonomial (emb a')) 0 :=
  C97_sbox_violated 0 0 ((C70_sbox 0 0).2 ⟨0, by simp, 0, 0, by norm_num, by norm_num, by simp⟩)

end Verif
