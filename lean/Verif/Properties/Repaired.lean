import Verif.Properties.Width
import Verif.Properties.Layout

/-!
# Property C100, continued: the verifier with `Reduce` in its S-box, with the range checkers of gnark
-/

set_option autoImplicit false

namespace Verif

open Circ PoseidonGL Verifier Spec.Layout Spec.Verifier
open Spec (residue)

/-- The permutation with `Reduce` in the S-box. -/
abbrev repairedPoseidon : State → Circ State := poseidonWith (sBoxMonomialBits 144)

namespace Same

variable {w : ℕ}

theorem repairedSbox {x x' : Fr} : Same w (sBoxMonomialBits 144 x) (sBoxMonomialBits 144 x') :=
  bind reduce fun _ _ _ => reduce

macro_rules | `(tactic| same_step) => `(tactic| with_reducible apply Same.repairedSbox)

theorem repairedPoseidon {s s' : State} : Same w (repairedPoseidon s) (repairedPoseidon s') := by
  have full : ∀ s s' rc, Same w (fullRounds (sBoxMonomialBits 144) s rc) (fullRounds (sBoxMonomialBits 144) s' rc) := by
    intro s s' rc
    rw [fullRounds, fullRounds]
    refine foldlM (Shaped.refl _) (fun _ _ _ _ _ h => ?_) (Value.all _ _)
    cases h
    rw [constantLayer, constantLayer]
    simp only [sBoxLayer, mdsLayer, mdsRowShf]
    same
  rw [Verif.repairedPoseidon, poseidonWith, poseidonWith]
  refine bind (full _ _ _) fun s s' _ => bind ?_ fun s s' _ => full _ _ _
  rw [PoseidonGL.partialRounds, PoseidonGL.partialRounds]
  simp only [partialFirstConstantLayer, mdsPartialLayerInit, mdsPartialLayerFast]
  same

end Same

/-- **C100** the calls made by the repaired circuit, like those of the code's circuit (C89), depend on sizes only; the widths of
its range checks are as in C90. -/
theorem C100_calls (c : CommonCircuitData) (gates : List Gates.Gate) (proof : Proof Fr QEV) (pis : List Fr)
    (vd : VerifierOnlyCircuitData) (hp : c.friParams.config.proofOfWorkBits ≤ 64) (l : List Item)
    (h : Emits (verify repairedPoseidon c gates proof pis vd) l) :
    (∀ (proof' : Proof Fr QEV) (pis' : List Fr) (vd' : VerifierOnlyCircuitData), sizes proof' = sizes proof →
      pis'.length = pis.length → vd'.constantSigmasCap.length = vd.constantSigmasCap.length →
      ∀ l', Emits (verify repairedPoseidon c gates proof' pis' vd') l' ↔ l' = l) ∧
    ∀ n ∈ widths l, n = 32 ∨ n = 144 ∨ n = 192 ∨ n = 64 - c.friParams.config.proofOfWorkBits := by
  refine ⟨fun proof' pis' vd' h1 h2 h3 l' => ?_, ?_⟩
  · have key : ∀ l', Emits (verify repairedPoseidon c gates proof' pis' vd') l' → l' = l := fun l' hl =>
      (Same.verify (fun _ _ => Same.repairedPoseidon) rfl gates (alike_of_sizes h1) h2 h3).emits hl h
    refine ⟨key l', ?_⟩
    rintro rfl
    obtain ⟨k, hk⟩ := exists_emits (verify repairedPoseidon c gates proof' pis' vd')
    rwa [key k hk] at hk
  · exact (Same.verify (fun _ _ => Same.repairedPoseidon)
      (show (64 + 2 ^ 64 - c.friParams.config.proofOfWorkBits % 2 ^ 64) % 2 ^ 64 = _ by omega) gates
      (Shaped.refl proof) (Eq.refl pis.length) (Eq.refl vd.constantSigmasCap.length)).widths_mem h

/-- **C100** with the commit-based range checker of either builder the repaired circuit accepts exactly the proofs accepted by
the plonky2 verifier, provided it could be compiled: it can if the number of proof-of-work bits is a multiple of 16 below 64
and at least 65536 range checks are requested. -/
theorem C100_commit (ft : FrontendType) (c : CommonCircuitData) (gates : List Gates.Gate) (proof : Proof Fr QEV) (pis : List Fr)
    (vd : VerifierOnlyCircuitData) (hp : c.friParams.config.proofOfWorkBits ≤ 64) (l : List Item)
    (h : Emits (verify repairedPoseidon c gates proof pis vd) l) (hu : (widths l).length ≤ 2 ^ 50) :
    (∀ (proof' : Proof Fr QEV) (pis' : List Fr) (vd' : VerifierOnlyCircuitData), Fits c gates vd' proof' →
      sizes proof' = sizes proof → pis'.length = pis.length →
      vd'.constantSigmasCap.length = vd.constantSigmasCap.length →
      (SatWith (.commit ft) (verify repairedPoseidon c gates proof' pis' vd') () ↔
        checkCollectedOk (widths l) = true ∧ ∃ x : Proof Fp QE, proof' = x.enc ∧ (∀ v ∈ pis', v.val < 2 ^ 144 * p) ∧
          Accepts Spec.poseidon c gates vd' x (pis'.map residue))) ∧
    (c.friParams.config.proofOfWorkBits < 64 → c.friParams.config.proofOfWorkBits % 16 = 0 → 65536 ≤ (widths l).length →
      checkCollectedOk (widths l) = true) := by
  obtain ⟨hcalls, hw⟩ := C100_calls c gates proof pis vd hp l h
  refine ⟨fun proof' pis' vd' hf h1 h2 h3 => ?_, fun h4 h5 h6 => ?_⟩
  · have key : ∀ log, Out (verify repairedPoseidon c gates proof' pis' vd') () log →
        ((Backend.commit ft).accepts log ↔ checkCollectedOk (widths l) = true ∧ ∀ e ∈ log, e.1.val < 2 ^ e.2) := by
      intro log ho
      obtain ⟨l', h4, h5⟩ := emits_of_out ho
      have e : log.map Prod.snd = widths l := by rw [← h5, (hcalls proof' pis' vd' h1 h2 h3 l').1 h4]
      rw [← e]
      refine commit_accepts_iff ft log (fun x hx => ?_) (by simpa [← e] using hu)
      have := hw x.2 (e ▸ List.mem_map_of_mem hx)
      omega
    rw [← (C100_verifier 144).2 (by norm_num) c gates vd' proof' hf pis', sat_iff_out]
    constructor
    · rintro ⟨log, ho, ha⟩
      obtain ⟨h4, h5⟩ := (key log ho).1 ha
      exact ⟨h4, log, ho, h5⟩
    · rintro ⟨h4, log, ho, h5⟩
      exact ⟨log, ho, (key log ho).2 ⟨h4, h5⟩⟩
  · refine C17_commit_compiles _ (fun n hn => ?_) h6 hu
    rcases hw n hn with rfl | rfl | rfl | rfl <;> omega

/-- The calls of the repaired circuit for a concrete proof; another one of the same sizes leads to the same calls. -/
example : ∃ l, Emits (verify repairedPoseidon (HonestProof.data 16) HonestProof.gates
      (HonestProof.proof ⟨3, 3⟩ ⟨3, 3⟩ 3 0).enc [5, 6] (HonestProof.vd 1)) l ∧
    Emits (verify repairedPoseidon (HonestProof.data 16) HonestProof.gates
      (HonestProof.proof ⟨4, 0⟩ ⟨0, 7⟩ 5 9).enc [7, 8] (HonestProof.vd 1)) l := by
  obtain ⟨l, h⟩ := exists_emits (verify repairedPoseidon (HonestProof.data 16) HonestProof.gates
    (HonestProof.proof ⟨3, 3⟩ ⟨3, 3⟩ 3 0).enc [5, 6] (HonestProof.vd 1))
  refine ⟨l, h, ((C100_calls _ _ _ _ _ (by norm_num [HonestProof.data]) l h).1
    (HonestProof.proof ⟨4, 0⟩ ⟨0, 7⟩ 5 9).enc [7, 8] (HonestProof.vd 1) ?_ rfl rfl l).2 rfl⟩
  simp [sizes, HonestProof.proof, HonestProof.openings, HonestProof.round, HonestProof.leaf0, HonestProof.constCap, Proof.enc,
    OpeningSet.enc, FriProof.enc, FriQueryRound.enc, FriEvalProof.enc]

end Verif
