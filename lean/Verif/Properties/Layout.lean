import Verif.Proofs.LayoutVerifier
import Verif.Properties.Goldilocks
import Verif.Properties.Verifier

/-!
# Properties C89 and C90: the calls made by the verifier circuit
-/

set_option autoImplicit false

namespace Verif

open Circ PoseidonGL Spec.Layout Verifier

/-- **C89** The hints, constraints, range-check requests and panics of the verifier circuit, their order, sizes and widths are fixed
by the circuit data and the sizes of the inputs: whatever the values in the proof, public inputs and verifier data, and whatever
the values of the hints, the calls are `L`. -/
theorem C89_calls (c : CommonCircuitData) (gates : List Gates.Gate) (proof : Proof Fr QEV) (pis : List Fr)
    (vd : VerifierOnlyCircuitData) :
    ∃ L : List Item, ∀ (proof' : Proof Fr QEV) (pis' : List Fr) (vd' : VerifierOnlyCircuitData),
      sizes proof' = sizes proof → pis'.length = pis.length →
      vd'.constantSigmasCap.length = vd.constantSigmasCap.length →
      ∀ l, Emits (verify poseidon c gates proof' pis' vd') l ↔ l = L := by
  obtain ⟨L, hL⟩ := exists_emits (verify poseidon c gates proof pis vd)
  refine ⟨L, fun proof' pis' vd' h1 h2 h3 l => ?_⟩
  have key : ∀ l, Emits (verify poseidon c gates proof' pis' vd') l → l = L := fun l hl =>
    (Same.verify (fun _ _ => Same.poseidonGL) rfl gates (alike_of_sizes h1) h2 h3).emits hl hL
  refine ⟨key l, ?_⟩
  rintro rfl
  obtain ⟨l, hl⟩ := exists_emits (verify poseidon c gates proof' pis' vd')
  rwa [key l hl] at hl

/-- **C89** The same for the complete circuit, in which the gates are created from their identifiers. -/
theorem C89_define (orders : List (List Gates.Handler)) (c : CommonCircuitData) (proof : Proof Fr QEV) (pis : List Fr)
    (vd : VerifierOnlyCircuitData) :
    ∃ L : List Item, ∀ (proof' : Proof Fr QEV) (pis' : List Fr) (vd' : VerifierOnlyCircuitData),
      sizes proof' = sizes proof → pis'.length = pis.length →
      vd'.constantSigmasCap.length = vd.constantSigmasCap.length →
      ∀ l, Emits (define poseidon orders c proof' pis' vd') l ↔ l = L := by
  unfold define
  split
  · exact C89_calls c _ proof pis vd
  · exact ⟨[.panic], fun _ _ _ _ _ _ _ => Iff.rfl⟩

/-- **C89** So generation panics for all inputs of the given sizes or for none (no assumption on the circuit data, unlike
C67). -/
theorem C89_panics (orders : List (List Gates.Handler)) (c : CommonCircuitData) (proof proof' : Proof Fr QEV) (pis pis' : List Fr)
    (vd vd' : VerifierOnlyCircuitData) (h1 : sizes proof' = sizes proof) (h2 : pis'.length = pis.length)
    (h3 : vd'.constantSigmasCap.length = vd.constantSigmasCap.length) :
    NoPanic (define poseidon orders c proof' pis' vd') ↔ NoPanic (define poseidon orders c proof pis vd) := by
  obtain ⟨L, h⟩ := C89_define orders c proof pis vd
  rw [noPanic_iff, noPanic_iff]
  simp only [h proof' pis' vd' h1 h2 h3, h proof pis vd rfl rfl rfl]

/-- Proofs with different values and equal sizes. -/
example : sizes (HonestProof.proof ⟨3, 3⟩ ⟨3, 3⟩ 3 0).enc = sizes (HonestProof.proof ⟨4, 0⟩ ⟨0, 7⟩ 5 9).enc ∧
    (HonestProof.proof ⟨3, 3⟩ ⟨3, 3⟩ 3 0).enc.openingProof.powWitness ≠
      (HonestProof.proof ⟨4, 0⟩ ⟨0, 7⟩ 5 9).enc.openingProof.powWitness := by
  refine ⟨?_, fun h => ?_⟩
  · simp [sizes, HonestProof.proof, HonestProof.openings, HonestProof.round, HonestProof.leaf0, HonestProof.constCap, Proof.enc,
      OpeningSet.enc, FriProof.enc, FriQueryRound.enc, FriEvalProof.enc]
  · have := emb_inj.1 h
    revert this
    simp only [HonestProof.proof]
    decide +kernel

/-- The claim would be false of a generator that looks at a value. -/
example : ¬ ∃ L : List Item, ∀ (x : Fr) (l : List Item), Emits (if x = 0 then Circ.check x 1 (pure ()) else pure ()) l ↔ l = L := by
  rintro ⟨L, h⟩
  have h0 := (h 0 [.check 1]).1 (by simp only [if_true]; exact ⟨[], rfl, rfl⟩)
  have h1 := (h 1 []).1 (by rw [if_neg one_ne_zero]; rfl)
  simp [← h1] at h0

/-- **C90** The range checks have 32, 144, 192 bits or, for the proof of work, 64 minus the number of proof-of-work bits. -/
theorem C90_widths (c : CommonCircuitData) (gates : List Gates.Gate) (proof : Proof Fr QEV) (pis : List Fr)
    (vd : VerifierOnlyCircuitData) (hp : c.friParams.config.proofOfWorkBits ≤ 64) (l : List Item)
    (h : Emits (verify poseidon c gates proof pis vd) l) :
    ∀ n ∈ widths l, n = 32 ∨ n = 144 ∨ n = 192 ∨ n = 64 - c.friParams.config.proofOfWorkBits :=
  (Same.verify (fun _ _ => Same.poseidonGL)
    (show (64 + 2 ^ 64 - c.friParams.config.proofOfWorkBits % 2 ^ 64) % 2 ^ 64 = _ by omega) gates
    (Shaped.refl proof) (Eq.refl pis.length) (Eq.refl vd.constantSigmasCap.length)).widths_mem h

/-- **C90** The requests of a run are those of the generated circuit. -/
theorem C90_log (c : CommonCircuitData) (gates : List Gates.Gate) (proof : Proof Fr QEV) (pis : List Fr)
    (vd : VerifierOnlyCircuitData) (l : List Item) (h : Emits (verify poseidon c gates proof pis vd) l)
    (proof' : Proof Fr QEV) (pis' : List Fr) (vd' : VerifierOnlyCircuitData) (h1 : sizes proof' = sizes proof)
    (h2 : pis'.length = pis.length) (h3 : vd'.constantSigmasCap.length = vd.constantSigmasCap.length) (log : List (Fr × ℕ))
    (ho : Out (verify poseidon c gates proof' pis' vd') () log) : log.map Prod.snd = widths l := by
  obtain ⟨l', h4, h5⟩ := emits_of_out ho
  obtain ⟨L, hL⟩ := C89_calls c gates proof pis vd
  rw [← h5, (hL proof pis vd rfl rfl rfl l).1 h, (hL proof' pis' vd' h1 h2 h3 l').1 h4]

/-- **C90** With the commit-based checker, compilation of the verifier aborts when the number of proof-of-work bits is not a
multiple of 16. -/
theorem C90_aborts (c : CommonCircuitData) (gates : List Gates.Gate) (proof : Proof Fr QEV) (pis : List Fr)
    (vd : VerifierOnlyCircuitData) (hp : c.friParams.config.proofOfWorkBits ≤ 64)
    (h16 : c.friParams.config.proofOfWorkBits % 16 ≠ 0) (l : List Item)
    (h : Emits (verify poseidon c gates proof pis vd) l) (hn : Item.panic ∉ l) : checkCollectedOk (widths l) = false := by
  refine C17_commit_aborts _ (.inl ⟨64 - c.friParams.config.proofOfWorkBits, ?_, by omega⟩)
  have := pow_mem_widths h hn
  rwa [show (64 + 2 ^ 64 - c.friParams.config.proofOfWorkBits % 2 ^ 64) % 2 ^ 64 =
    64 - c.friParams.config.proofOfWorkBits by omega] at this

/-- **C90** It does not abort when the number is a multiple of 16 below 64 and at least 65536 checks are requested. -/
theorem C90_compiles (c : CommonCircuitData) (gates : List Gates.Gate) (proof : Proof Fr QEV) (pis : List Fr)
    (vd : VerifierOnlyCircuitData) (hp : c.friParams.config.proofOfWorkBits < 64)
    (h16 : c.friParams.config.proofOfWorkBits % 16 = 0) (l : List Item)
    (h : Emits (verify poseidon c gates proof pis vd) l) (hl : 65536 ≤ (widths l).length) (hu : (widths l).length ≤ 2 ^ 50) :
    checkCollectedOk (widths l) = true := by
  refine C17_commit_compiles _ (fun n hn => ?_) hl hu
  rcases C90_widths c gates proof pis vd hp.le l h n hn with rfl | rfl | rfl | rfl <;> omega

/-- **C90** With the commit-based checker of either builder, the circuit generated for one proof, `l` being its calls, accepts
inputs of the same sizes exactly when it was compiled and the inputs satisfy the constraints with all range checks enforced.  (C17
needs a bound on widths and number of the requests of every run.) -/
theorem C90_commit (ft : FrontendType) (c : CommonCircuitData) (gates : List Gates.Gate) (proof : Proof Fr QEV) (pis : List Fr)
    (vd : VerifierOnlyCircuitData) (hp : c.friParams.config.proofOfWorkBits ≤ 64) (l : List Item)
    (h : Emits (verify poseidon c gates proof pis vd) l) (hu : (widths l).length ≤ 2 ^ 50)
    (proof' : Proof Fr QEV) (pis' : List Fr) (vd' : VerifierOnlyCircuitData) (h1 : sizes proof' = sizes proof)
    (h2 : pis'.length = pis.length) (h3 : vd'.constantSigmasCap.length = vd.constantSigmasCap.length) :
    SatWith (.commit ft) (verify poseidon c gates proof' pis' vd') () ↔
      checkCollectedOk (widths l) = true ∧ Sat (verify poseidon c gates proof' pis' vd') () := by
  have key : ∀ log, Out (verify poseidon c gates proof' pis' vd') () log →
      ((Backend.commit ft).accepts log ↔ checkCollectedOk (widths l) = true ∧ ∀ e ∈ log, e.1.val < 2 ^ e.2) := by
    intro log ho
    have e := C90_log c gates proof pis vd l h proof' pis' vd' h1 h2 h3 log ho
    rw [← e]
    refine commit_accepts_iff ft log (fun x hx => ?_) (by simpa [← e] using hu)
    have := C90_widths c gates proof pis vd hp l h x.2 (e ▸ List.mem_map_of_mem hx)
    omega
  rw [sat_iff_out]
  constructor
  · rintro ⟨log, ho, ha⟩
    obtain ⟨h4, h5⟩ := (key log ho).1 ha
    exact ⟨h4, log, ho, h5⟩
  · rintro ⟨h4, log, ho, h5⟩
    exact ⟨log, ho, (key log ho).2 ⟨h4, h5⟩⟩

/-- The circuit of `HonestProof.data` has 62 bits of proof of work: it is generated, but its compilation aborts. -/
example : ∃ l, Emits (verify poseidon (HonestProof.data 62) HonestProof.gates (HonestProof.proof ⟨3, 3⟩ ⟨3, 3⟩ 3 0).enc
    [5, 6] (HonestProof.vd 1)) l ∧ Item.panic ∉ l ∧ checkCollectedOk (widths l) = false := by
  obtain ⟨l, h⟩ := exists_emits (verify poseidon (HonestProof.data 62) HonestProof.gates
    (HonestProof.proof ⟨3, 3⟩ ⟨3, 3⟩ 3 0).enc [5, 6] (HonestProof.vd 1))
  have hn := noPanic_iff.1 noPanic_honest l h
  exact ⟨l, h, hn, C90_aborts _ _ _ _ _ (by norm_num [HonestProof.data]) (by norm_num [HonestProof.data]) l h hn⟩

end Verif
