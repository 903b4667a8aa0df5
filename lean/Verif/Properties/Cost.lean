import Verif.Proofs.CostVerifier
import Verif.Properties.Layout
import Verif.Properties.Template
import Verif.Properties.Testdata

/-!
# Property C94: size of the verifier circuit

The number of hints, constraints and range-check requests is a function of the circuit data, computed by `Spec.Cost.verify`.
-/

set_option autoImplicit false

namespace Verif

open Circ Spec.Layout Spec.Cost Spec.Verifier PoseidonGL Spec.Testdata
open Spec.Template (Sized Reasonable stepDepths)

/-- Number of range checks of a list of calls. -/
theorem length_widths (l : List Item) : (widths l).length = (summary (tally l)).2.2 := by
  induction l with
  | nil => rfl
  | cons x l ih =>
    have e : (summary (tally (x :: l))).2.2 = (summary (item x)).2.2 + (summary (tally l)).2.2 := by
      simp only [tally, List.map_cons, List.sum_cons, summary, Prod.fst_add, Prod.snd_add]; omega
    rw [e, ← ih]
    cases x with
    | check n =>
      have h1 : (summary (item (.check n))).2.2 = 1 := by rw [item]; split_ifs <;> rfl
      rw [h1, Nat.add_comm]; rfl
    | hint n => simp [widths, item, summary]
    | constraint => simp [widths, item, summary]
    | panic => simp [widths, item, summary]

/-- **C94** for a supported circuit and inputs of the sizes it prescribes, whenever generation does not panic, the calls made are
those of the formula, whatever the values. -/
theorem C94_calls (c : CommonCircuitData) (gates : List Gates.Gate) (vd : VerifierOnlyCircuitData) (proof : Proof Fr QEV)
    (pis : List Fr) (hsup : Supported c gates vd) (hs : Spec.Verifier.Shaped c proof pis) (hc : c.config.numChallenges ≠ 0) (l : List Item)
    (hl : Emits (Verifier.verify poseidon c gates proof pis vd) l) (hn : Item.panic ∉ l) :
    tally l = Spec.Cost.verify c gates proof.openingProof.commitCaps.length := by
  obtain ⟨L, hL⟩ := C89_calls c gates proof pis vd
  have hN : NoPanic (Verifier.verify poseidon c gates proof pis vd) := noPanic_iff.2 fun l' hl' => by
    rwa [(hL proof pis vd rfl rfl rfl l').1 hl', ← (hL proof pis vd rfl rfl rfl l).1 hl]
  obtain ⟨-, ⟨h1, h2, h3, -⟩, -⟩ := (C67_generation c gates vd proof pis hsup.degree hsup.factor hc
    (fun gi hgi => hs.openings.constants.symm ▸ hs.openings.wires.symm ▸ hsup.gatesOk gi hgi) hsup.domain hsup.arities).iff.1 hN
  exact (Costs.verify hsup hs h1 h2.symm (h3.trans h2.symm)).tally hl hn

/-- **C94** with the sizes of the template (C91), generation does not panic, and the calls are a function of the circuit alone. -/
theorem C94_sized (c : CommonCircuitData) (gates : List Gates.Gate) (vd : VerifierOnlyCircuitData) (proof : Proof Fr QEV)
    (pis : List Fr) (hsup : Supported c gates vd) (hs : Sized c proof pis) (hc : c.config.numChallenges ≠ 0)
    (hr : c.config.friConfig.numQueryRounds = c.friParams.config.numQueryRounds) :
    NoPanic (Verifier.verify poseidon c gates proof pis vd) ∧ ∀ l, Emits (Verifier.verify poseidon c gates proof pis vd) l →
      tally l = Spec.Cost.verify c gates c.friParams.reductionArityBits.length := by
  have ho := hs.shaped.openings
  have hcap : (2 : ℕ) ^ c.friParams.config.capHeight = 16 := by rw [hsup.domain.2.2.2]; rfl
  have hN : NoPanic (Verifier.verify poseidon c gates proof pis vd) := by
    refine (C67_generation c gates vd proof pis hsup.degree hsup.factor hc
      (fun gi hgi => ho.constants.symm ▸ ho.wires.symm ▸ hsup.gatesOk gi hgi) hsup.domain hsup.arities).iff.2
      ⟨⟨hsup.counts, hsup.chunks, hsup.kIs, by rw [ho.wires]; exact hsup.routed, ho.plonkSigmas.ge, ho.plonkZs.ge,
        ho.plonkZsNext.ge, ho.partialProducts.ge, ho.quotientPolys.ge⟩,
        ⟨hs.fri 0, hs.rounds.symm, hr.trans hs.rounds.symm, .inr hs.caps.ge⟩, .inr ?_⟩
    obtain ⟨h1, h2, h3⟩ := hs.shaped.caps
    rw [hcap] at h1 h2 h3
    simp [hsup.cap, h1, h2, h3]
  refine ⟨hN, fun l hl => ?_⟩
  rw [← hs.caps]
  exact C94_calls c gates vd proof pis hsup hs.shaped hc l hl (noPanic_iff.1 hN l hl)

/-- **C94** the numbers of hints, constraints and range checks of the operations. -/
theorem C94_operations :
    summary Spec.Cost.rangeCheck = (1, 3, 2) ∧ summary Spec.Cost.mulAdd = (3, 7, 4) ∧ summary Spec.Cost.reduce = (2, 4, 3) ∧ summary Spec.Cost.inverse = (5, 12, 6) ∧
    summary Spec.Cost.addExt = (6, 14, 8) ∧ summary Spec.Cost.mulExt = (4, 8, 6) ∧ summary Spec.Cost.divExt = (22, 50, 30) ∧
    summary Spec.Cost.poseidon = (1650, 3430, 2410) ∧ summary (Spec.Cost.gate .poseidon) = (22110, 48454, 31048) ∧
    summary (Spec.Cost.interpolate 16) = (772, 1770, 1062) ∧ summary Spec.Cost.computeEvaluation = (2119, 4589, 3028) := by
  decide +kernel

/-- **C94** the verifiers of `testdata/decode_block` and `testdata/step`. -/
theorem C94_testdata :
    Spec.Cost.verify decodeBlock decodeBlockGates decodeBlock.friParams.reductionArityBits.length =
      (428762, 945104, 480616, 114572, 29500, 1) ∧
    summary (Spec.Cost.verify decodeBlock decodeBlockGates decodeBlock.friParams.reductionArityBits.length) =
      (428762, 945104, 624689) ∧
    summary (Spec.Cost.verify step stepGates step.friParams.reductionArityBits.length) = (448786, 987312, 653875) := by
  decide +kernel

/-- **C94** with the commit-based checker of either builder, the verifiers of the two circuits are compiled, and then accept
exactly what satisfies the constraints with all range checks enforced: the number of requests is within the bounds of C90. -/
theorem C94_commit (ft : FrontendType) (orders : List (List Gates.Handler)) (hlen : orders.length = 13)
    (ho : ∀ o ∈ orders, o.Perm Gates.gateRegexHandlers) (c : CommonCircuitData)
    (hc : c = decodeBlock ∨ c = step) (proof : Proof Fr QEV) (pis : List Fr) (hs : Sized c proof pis)
    (vd : VerifierOnlyCircuitData) (hv : vd.constantSigmasCap.length = 16) :
    NoPanic (Verifier.define poseidon orders c proof pis vd) ∧
    (∀ l, Emits (Verifier.define poseidon orders c proof pis vd) l → checkCollectedOk (widths l) = true) ∧
    (SatWith (.commit ft) (Verifier.define poseidon orders c proof pis vd) () ↔
      Sat (Verifier.define poseidon orders c proof pis vd) ()) := by
  have key : ∀ gates, Supported c gates vd → c.config.numChallenges ≠ 0 →
      c.config.friConfig.numQueryRounds = c.friParams.config.numQueryRounds → c.friParams.config.proofOfWorkBits = 16 →
      65536 ≤ (summary (Spec.Cost.verify c gates c.friParams.reductionArityBits.length)).2.2 →
      (summary (Spec.Cost.verify c gates c.friParams.reductionArityBits.length)).2.2 ≤ 2 ^ 50 →
      Verifier.define poseidon orders c proof pis vd = Verifier.verify poseidon c gates proof pis vd →
      NoPanic (Verifier.define poseidon orders c proof pis vd) ∧
      (∀ l, Emits (Verifier.define poseidon orders c proof pis vd) l → checkCollectedOk (widths l) = true) ∧
      (SatWith (.commit ft) (Verifier.define poseidon orders c proof pis vd) () ↔
        Sat (Verifier.define poseidon orders c proof pis vd) ()) := by
    intro gates hsup h0 hr hp h1 h2 he
    rw [he]
    obtain ⟨hN, ht⟩ := C94_sized c gates vd proof pis hsup hs h0 hr
    have hok : ∀ l, Emits (Verifier.verify poseidon c gates proof pis vd) l → checkCollectedOk (widths l) = true := fun l hl =>
      C90_compiles c gates proof pis vd (by omega) (by omega) l hl (by rw [length_widths, ht l hl]; exact h1)
        (by rw [length_widths, ht l hl]; exact h2)
    refine ⟨hN, hok, ?_⟩
    obtain ⟨l, hl⟩ := exists_emits (Verifier.verify poseidon c gates proof pis vd)
    rw [C90_commit ft c gates proof pis vd (by omega) l hl (by rw [length_widths, ht l hl]; exact h2) proof pis vd rfl rfl rfl]
    exact and_iff_right (hok l hl)
  rcases hc with rfl | rfl
  · refine key decodeBlockGates { C92_supported.1 with cap := hv } (by decide) rfl rfl ?_ ?_
      (C92_define poseidon orders hlen ho proof pis vd).1 <;> rw [C94_testdata.2.1] <;> norm_num
  · refine key stepGates { C92_supported.2 with cap := hv } (by decide) rfl rfl ?_ ?_
      (C92_define poseidon orders hlen ho proof pis vd).2 <;> rw [C94_testdata.2.2] <;> norm_num

/-- The sizes are met by the template proofs of both circuits. -/
example : ∃ x, Sized decodeBlock x (List.replicate decodeBlock.numPublicInputs 0) :=
  (C91_template decodeBlock ⟨by decide, by decide, by decide, by decide, by decide⟩).imp fun _ h => h.2
example : ∃ x, Sized step x (List.replicate step.numPublicInputs 0) :=
  (C91_template step ⟨by decide, by decide, by decide, by decide, by decide⟩).imp fun _ h => h.2

/-- The template has the sizes required: the circuit compiled for `testdata/decode_block` has 624689 range checks. -/
theorem C94_template (orders : List (List Gates.Handler)) (hlen : orders.length = 13)
    (ho : ∀ o ∈ orders, o.Perm Gates.gateRegexHandlers) :
    ∃ t l, Spec.Template.proof decodeBlock (stepDepths decodeBlock.friParams) = pure t ∧
      Emits (Verifier.define poseidon orders decodeBlock t (List.replicate decodeBlock.numPublicInputs 0) decodeBlockKey) l ∧
      Item.panic ∉ l ∧ summary (tally l) = (428762, 945104, 624689) ∧ (widths l).length = 624689 := by
  have hr : Reasonable decodeBlock.friParams := ⟨by decide, by decide, by decide, by decide, by decide⟩
  obtain ⟨t, ht, hs⟩ := C91_template decodeBlock hr
  obtain ⟨hN, h⟩ := C94_sized decodeBlock decodeBlockGates decodeBlockKey t _ C92_supported.1 hs (by decide) rfl
  obtain ⟨l, hl⟩ := exists_emits (Verifier.verify poseidon decodeBlock decodeBlockGates t
    (List.replicate decodeBlock.numPublicInputs 0) decodeBlockKey)
  refine ⟨t, l, ht, by rwa [(C92_define poseidon orders hlen ho t _ decodeBlockKey).1], noPanic_iff.1 hN l hl, ?_, ?_⟩
  · rw [h l hl]; exact C94_testdata.2.1
  · rw [length_widths, h l hl, C94_testdata.2.1]

end Verif
