import Verif.Proofs.WitnessPow
import Verif.Properties.Binding

/-!
# Property C98: the proof-of-work witness of an accepted proof

The challenges are read from a sponge whose S-boxes admit several values (C19, C70), so that what has been absorbed is not
determined by the challenges and the later states.
-/

set_option autoImplicit false

namespace Verif

open Circ PoseidonGL Verifier Spec.Verifier
open Spec (Ev residue)
open Spec.Free (SBox Perm Run Conf)

/-- **C98** whatever the transcript and the values the sponge admits for it: any absorbed element can be replaced by another
one without changing the challenges and the final configuration, provided something is read afterwards. -/
theorem C98_transcript_violated (l l' : List Ev) (x : Fr) (hl : Ev.squeeze ∈ l') (o : List Fp) (k : Conf)
    (h : Run (Perm SBox) (l ++ .absorb x :: l') .init o k) :
    ∃ v : Fp, v ≠ residue x ∧ Run (Perm SBox) (l ++ .absorb (emb v) :: l') .init o k :=
  Malleable.run_other l l' x hl h

/-- **C98** whatever proof satisfies the code's circuit, the same proof with a certain other proof-of-work witness satisfies
it too. -/
theorem C98_violated (c : CommonCircuitData) (gates : List Gates.Gate) (vd : VerifierOnlyCircuitData) (x : Proof Fp QE)
    (hf : Fits c gates vd x.enc) (pis : List Fr) (h : Sat (verify poseidon c gates x.enc pis vd) ()) :
    ∃ w : Fp, w ≠ x.openingProof.powWitness ∧
      Sat (verify poseidon c gates
        { x with openingProof := { x.openingProof with powWitness := w } }.enc pis vd) () := by
  obtain ⟨y, hy, hs, ha⟩ := (C70_exact c gates vd _ hf pis).1 h
  obtain rfl := enc_injective hy
  obtain ⟨w, hw, ha⟩ := Malleable.accepts_pow ha
  refine ⟨w, hw, (C70_exact c gates vd _ ?_ pis).2 ⟨_, rfl, hs, ha⟩⟩
  exact ⟨hf.1, hf.2, hf.3, hf.4, hf.5, hf.6, hf.7, hf.8, hf.9, hf.10, hf.11, hf.12, hf.13, hf.14, hf.15, hf.16, hf.17⟩

/-- **C98** two proofs that differ in the proof-of-work witness only: plonky2 accepts the first and rejects the second, both
satisfy the code's circuit. -/
theorem C98_example_violated : ∃ (c : CommonCircuitData) (gates : List Gates.Gate) (vd : VerifierOnlyCircuitData)
    (x : Proof Fp QE) (w : Fp) (inputs : List Fp), Supported c gates vd ∧
      let y := { x with openingProof := { x.openingProof with powWitness := w } }
      Accepts Spec.poseidon c gates vd x inputs ∧ ¬ Accepts Spec.poseidon c gates vd y inputs ∧
      honest (verify poseidon c gates x.enc (inputs.map emb) vd) = some () ∧
      honest (verify poseidon c gates y.enc (inputs.map emb) vd) = none ∧
      Sat (verify poseidon c gates x.enc (inputs.map emb) vd) () ∧ Sat (verify poseidon c gates y.enc (inputs.map emb) vd) () := by
  have hf : ∀ w, Fits (HonestProof.data 16) HonestProof.gates (HonestProof.vd 1)
      (Malleable.withPow WitnessInputs.proof w).enc := fun w => fits_to_enc (HonestProof.fits (b := 16) (by norm_num) 1
    WitnessInputs.zeta WitnessInputs.alpha 17136421660873736037 w)
  have hs : ∀ v ∈ [(1 : Fp)].map emb, v.val < 2 ^ 144 * p := fun v hv => by
    obtain ⟨a, -, rfl⟩ := List.mem_map.1 hv
    exact Challenger.small_emb a
  have he : ([(1 : Fp)].map emb).map residue = [1] := by simp only [List.map_cons, List.map_nil, Challenger.residue_emb]
  have hx : honest (verify poseidon (HonestProof.data 16) HonestProof.gates WitnessInputs.proof.enc ([(1 : Fp)].map emb)
      (HonestProof.vd 1)) = some () :=
    (C58_honest _ _ _ _ (hf ((33965 : ℕ) : Fp)) _).2 ⟨_, rfl, hs, by rw [he]; exact WitnessInputs.accepts⟩
  refine ⟨HonestProof.data 16, HonestProof.gates, HonestProof.vd 1, WitnessInputs.proof, (WitnessPow.other : Fp), [1],
    supported_data (by simp [HonestProof.vd]), WitnessInputs.accepts, WitnessPow.rejects, hx, ?_, ?_, ?_⟩
  · rw [Option.eq_none_iff_forall_ne_some]
    rintro ⟨⟩ h
    obtain ⟨x, hx, -, h⟩ := (C58_honest _ _ _ _ (hf (WitnessPow.other : Fp)) _).1 h
    obtain rfl := enc_injective hx
    rw [he] at h
    exact WitnessPow.rejects h
  · exact C58_complete _ _ _ _ (hf ((33965 : ℕ) : Fp)) [1] WitnessInputs.accepts
  · exact (C70_exact _ _ _ _ (hf (WitnessPow.other : Fp)) _).2 ⟨_, rfl, hs, by rw [he]; exact WitnessPow.free_accepts⟩

/-- **C98** what holds: with a reduction after every multiplication of the S-box, and with the honest hints as the code
stands, another witness is accepted only if plonky2 accepts it, and it always leads the sponge to another state. -/
theorem C98_repaired_partial (c : CommonCircuitData) (gates : List Gates.Gate) (vd : VerifierOnlyCircuitData)
    (x : Proof Fp QE) (hf : Fits c gates vd x.enc) (w : Fp) (inputs : List Fp) :
    (Sat (verify (poseidonWith reducingSbox) c gates
        { x with openingProof := { x.openingProof with powWitness := w } }.enc (inputs.map emb) vd) () ↔
      Accepts Spec.poseidon c gates vd { x with openingProof := { x.openingProof with powWitness := w } } inputs) ∧
    (honest (verify poseidon c gates
        { x with openingProof := { x.openingProof with powWitness := w } }.enc (inputs.map emb) vd) = some () ↔
      Accepts Spec.poseidon c gates vd { x with openingProof := { x.openingProof with powWitness := w } } inputs) ∧
    (w ≠ x.openingProof.powWitness → ∀ (s : Fin 12 → Fp) (l : List Fp),
      Spec.absorb Spec.poseidon s (Spec.chunks (l ++ [w])) ≠
        Spec.absorb Spec.poseidon s (Spec.chunks (l ++ [x.openingProof.powWitness]))) := by
  have hf' : Fits c gates vd { x with openingProof := { x.openingProof with powWitness := w } }.enc :=
    ⟨hf.1, hf.2, hf.3, hf.4, hf.5, hf.6, hf.7, hf.8, hf.9, hf.10, hf.11, hf.12, hf.13, hf.14, hf.15, hf.16, hf.17⟩
  have he : (inputs.map emb).map residue = inputs := by
    rw [List.map_map]
    exact (List.map_congr_left fun a _ => Challenger.residue_emb a).trans (List.map_id _)
  have hs : ∀ v ∈ inputs.map emb, v.val < 2 ^ 144 * p := fun v hv => by
    obtain ⟨a, -, rfl⟩ := List.mem_map.1 hv
    exact Challenger.small_emb a
  refine ⟨?_, ?_, fun hw s l h => ?_⟩
  · rw [C70_repaired c gates vd _ hf', he]
    exact ⟨fun ⟨y, hy, _, h⟩ => by obtain rfl := enc_injective hy; exact h, fun h => ⟨_, rfl, hs, h⟩⟩
  · rw [C58_honest c gates vd _ hf', he]
    exact ⟨fun ⟨y, hy, _, h⟩ => by obtain rfl := enc_injective hy; exact h, fun h => ⟨_, rfl, hs, h⟩⟩
  · obtain ⟨k, hk, hne, -⟩ := C96_inner (l ++ [w]) (l ++ [x.openingProof.powWitness]) (by simp) (by simpa using hw) s h
    have hk : 8 * k ≤ l.length := by simp at hk; omega
    exact hne (by rw [List.take_append_of_le_length hk, List.take_append_of_le_length hk])

/-- There are accepted proofs, hence pairs that differ in the witness only. -/
example : ∃ w : Fp, w ≠ WitnessInputs.proof.openingProof.powWitness ∧
    Sat (verify poseidon (HonestProof.data 16) HonestProof.gates { WitnessInputs.proof with openingProof :=
      { WitnessInputs.proof.openingProof with powWitness := w } }.enc [1] (HonestProof.vd 1)) () := by
  have hf : Fits _ _ _ WitnessInputs.proof.enc := fits_to_enc (HonestProof.fits (b := 16) (by norm_num) 1
    WitnessInputs.zeta WitnessInputs.alpha 17136421660873736037 ((33965 : ℕ) : Fp))
  refine C98_violated _ _ _ _ hf _ ?_
  rw [← emb_one]
  exact C58_complete _ _ _ _ hf [1] WitnessInputs.accepts

/-- A read is needed: an element absorbed last and never read stays in the configuration. -/
example (v : Fp) (hv : v ≠ 0) (k : Conf) (h : Run (Perm SBox) [.absorb 0] .init [] k) :
    ¬ Run (Perm SBox) [.absorb (emb v)] .init [] k := by
  have key : ∀ x, Run (Perm SBox) [.absorb x] .init [] k → k.waiting = [x] := by
    rintro x ⟨m, a, b, ⟨rfl, hm⟩, ⟨-, rfl⟩, -⟩
    rw [if_pos (by simp [Conf.init])] at hm
    rw [hm]
    rfl
  intro h'
  have := (key _ h).symm.trans (key _ h')
  refine hv ?_
  have e : emb v = 0 := by simpa using this.symm
  rw [← Challenger.residue_emb v, e]
  exact Challenger.residue_emb 0 ▸ by simp

end Verif
