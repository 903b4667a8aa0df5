import Verif.Proofs.NoPanicGates
import Verif.Proofs.ChallengerRuns
import Verif.Proofs.FriInstance
import Verif.Spec.Verifier

/-!
# Absence of panics in the whole verifier circuit
-/

set_option autoImplicit false

namespace Verif

open Circ Gates

variable {α β σ : Type}

namespace NoPanic

attribute [local irreducible] Verif.mulExt Verif.addExt Verif.subExt Verif.scalarMulExt Verif.reduceWithPowers
  Gates.slice Verif.idx Verif.orPanic Verif.rangeCheck Verif.divExt Verif.reduce

/-! ## Combined gate constraints -/

theorem computeFilter (row : ℕ) (gr : ℕ × ℕ) (s : QEV) (m : Bool) : NoPanic (Gates.computeFilter row gr s m) := by
  rw [Gates.computeFilter]
  refine bind (foldlM _ (fun _ _ _ => ite (fun _ => pure _) fun _ => bind (subExt _ _) fun _ => mulExt _ _) _) fun _ => ?_
  exact ite (fun _ => bind (subExt _ _) fun _ => mulExt _ _) fun _ => pure _

theorem evalFiltered {g : Gate} {v : Vars} {row sel : ℕ} {gr : ℕ × ℕ} {ns : ℕ} (hs : sel < v.localConstants.length)
    (hn : ns ≤ v.localConstants.length)
    (hf : Spec.Gates.Fits (v.localConstants.length - ns) v.localWires.length g) :
    Safe (Gates.evalFiltered g v row sel gr ns) fun r => r.length = constraintCount g := by
  rw [Gates.evalFiltered]
  refine (idx' hs).bindS fun _ => (computeFilter _ _ _ _).bindS fun _ => ?_
  refine Safe.bind (Q := fun v' : Vars => v'.localConstants.length = v.localConstants.length - ns ∧
    v'.localWires = v.localWires) ?_ fun v' hv => ?_
  · exact (sliceFrom hn).bind fun l hl => Safe.pure ⟨by simp [hl], rfl⟩
  · exact (evalUnfiltered (by rw [hv.1, hv.2]; exact hf)).bind fun cs hcs =>
      (Safe.mapM_length _ fun _ _ => mulExt _ _).mono fun r hr => hr.trans hcs

theorem addConstraints : ∀ (cs gs : List QEV), gs.length ≤ cs.length →
    Safe (Gates.addConstraints cs gs) fun r => r.length = cs.length
  | cs, [], _ => by rw [Gates.addConstraints]; exact Safe.pure rfl
  | [], _ :: _, h => by simp at h
  | a :: cs, g :: gs, h => by
    rw [Gates.addConstraints]
    exact (addExt _ _).bindS fun _ => (addConstraints cs gs (by simpa using h)).bind fun r hr =>
      Safe.pure (by simp [hr])

theorem evaluateGateConstraints {gates : List Gate} {n : ℕ} {si : SelectorsInfo} {v : Vars}
    (hg : ∀ gi ∈ gates.zipIdx, Spec.Gates.GateOk si v.localConstants.length v.localWires.length gi.1 gi.2)
    (hc : ∀ gi ∈ gates.zipIdx, ∀ x, (Spec.Gates.constraints gi.1 x).length ≤ n) :
    Safe (Gates.evaluateGateConstraints gates n si v) fun r => r.length = n := by
  refine Safe.foldlM_const _ (fun cs gi hgi hcs => ?_) _ (by simp)
  have hok := hg gi hgi
  have hlen : constraintCount gi.1 ≤ n := length_constraints gi.1 ⟨fun _ => 0, fun _ => 0, fun _ => 0⟩ ▸ hc gi hgi _
  rw [gateStep]
  refine (idx hok.selector).bind fun sel hsel => ?_
  have hsel' : sel = si.selectorIndices.getD gi.2 0 := by rw [hsel]; simp [List.getD, hok.selector]
  have hlt : sel < si.groups.length := hsel' ▸ hok.group
  refine (idx' hlt).bindS fun gr => ?_
  exact (evalFiltered (hlt.trans_le hok.prefix_le) hok.prefix_le hok.fits).bind fun gs hgs =>
    (addConstraints cs gs (by rw [hgs, hcs]; exact hlen)).mono fun r hr => hr.trans hcs

/-! ## PLONK -/

theorem chunkProduct {l : List QEV} {s q : ℕ} (hq : q ≠ 0) (h : s + q ≤ l.length) :
    NoPanic (Plonk.chunkProduct l s q) :=
  bind (idx' (by omega)) fun _ => foldlM _ (fun _ j hj => by
    rw [List.mem_range'_1] at hj
    exact bind (idx' (by omega)) fun _ => mulExt _ _) _

theorem checkPartialProducts {c : CommonCircuitData} {nu de : List QEV} {i : ℕ} {o : OpeningSet QEV}
    (hq : c.quotientDegreeFactor ≠ 0) (hnu : (c.numPartialProducts + 1) * c.quotientDegreeFactor ≤ nu.length)
    (hde : (c.numPartialProducts + 1) * c.quotientDegreeFactor ≤ de.length) (hz : i < o.plonkZs.length)
    (hzn : i < o.plonkZsNext.length) (hp : (i + 1) * c.numPartialProducts ≤ o.partialProducts.length) :
    NoPanic (Plonk.checkPartialProducts c nu de i o) := by
  rw [Plonk.checkPartialProducts]
  refine bind (idx' hz) fun z => (slice (Nat.mul_le_mul_right _ (by omega)) hp).bindN fun pp hpp =>
    bind (idx' hzn) fun zn => ?_
  have hpl : pp.length = c.numPartialProducts := by rw [hpp, Nat.succ_mul]; omega
  refine (mapRange fun k hk => ?_).np
  have hk' : k * c.quotientDegreeFactor + c.quotientDegreeFactor ≤
      (c.numPartialProducts + 1) * c.quotientDegreeFactor := by
    rw [← Nat.succ_mul]; exact Nat.mul_le_mul_right _ hk
  exact bind (chunkProduct hq (by omega)) fun _ => bind (chunkProduct hq (by omega)) fun _ =>
    bind (idx' (by simp [hpl]; omega)) fun _ => bind (mulExt _ _) fun _ => bind (idx' (by simp [hpl]; omega)) fun _ =>
    bind (mulExt _ _) fun _ => subExt _ _

theorem permutationTerm {b g : Fr} {o : OpeningSet QEV} {s : List QEV} {j : ℕ} (hw : j < o.wires.length)
    (hs : j < s.length) (hsi : j < o.plonkSigmas.length) : NoPanic (Plonk.permutationTerm b g o s j) :=
  bind (idx' hw) fun _ => bind (addExt _ _) fun _ => bind (idx' hs) fun _ => bind (mulExt _ _) fun _ =>
    bind (addExt _ _) fun _ => bind (idx' hsi) fun _ => bind (mulExt _ _) fun _ => bind (addExt _ _) fun _ => pure _

theorem evalL0 (c : CommonCircuitData) (x y : QEV) : NoPanic (Plonk.evalL0 c x y) :=
  bind (subExt _ _) fun _ => bind (scalarMulExt _ _) fun _ => bind (subExt _ _) fun _ => bind (divExt _ _) fun _ =>
    bind (assertEq _ _) fun _ => pure _

theorem reduceStep {c : CommonCircuitData} {al : List Fr} {vs : List QEV} {t : QEV}
    (ha : c.config.numChallenges ≤ al.length) (hv : vs.length = c.config.numChallenges) :
    Safe (Plonk.reduceStep c al vs t) fun r => r.length = c.config.numChallenges :=
  mapRange fun i hi => bind (idx' (by omega)) fun _ => bind (idx' (by omega)) fun _ => bind (scalarMulExt _ _) fun _ =>
    addExt _ _

/-- The PLONK check does not panic on openings and challenges of the right sizes. -/
theorem plonkVerify {c : CommonCircuitData} {gates : List Gate} {ch : ProofChallenges Fr QEV} {o : OpeningSet QEV}
    {h : Fin 4 → Fr} (hq : c.quotientDegreeFactor ≠ 0)
    (hN : (c.numPartialProducts + 1) * c.quotientDegreeFactor ≤ c.config.numRoutedWires)
    (hg : ∀ gi ∈ gates.zipIdx, Spec.Gates.GateOk c.selectorsInfo o.constants.length o.wires.length gi.1 gi.2)
    (hc : ∀ gi ∈ gates.zipIdx, ∀ x, (Spec.Gates.constraints gi.1 x).length ≤ c.numGateConstraints)
    (hk : c.config.numRoutedWires ≤ c.kIs.length) (hw : c.config.numRoutedWires ≤ o.wires.length)
    (hs : c.config.numRoutedWires ≤ o.plonkSigmas.length) (hz : c.config.numChallenges ≤ o.plonkZs.length)
    (hzn : c.config.numChallenges ≤ o.plonkZsNext.length)
    (hp : c.config.numChallenges * c.numPartialProducts ≤ o.partialProducts.length)
    (hqp : c.config.numChallenges * c.quotientDegreeFactor ≤ o.quotientPolys.length)
    (hb : ch.plonkBetas.length = c.config.numChallenges) (hga : ch.plonkGammas.length = c.config.numChallenges)
    (hal : ch.plonkAlphas.length = c.config.numChallenges) : NoPanic (Plonk.verify c gates ch o h) := by
  rw [Plonk.verify]
  refine bind (foldlM _ (fun _ _ _ => mulExt _ _) _) fun zn => ?_
  refine Safe.bindN (Q := fun r => r.length = c.config.numChallenges) ?_ fun vs hvs => bind (subExt _ _) fun zh =>
    forM _ fun vi hvi => ?_
  · rw [Plonk.evalVanishingPoly]
    refine (evaluateGateConstraints hg hc).bind fun cts _ => (mapRange fun i hi => ?_).bind fun sids hsids =>
      (evalL0 _ _ _).bindS fun l0 => (Safe.mapM_length _ fun i hi => ?_).bind fun terms _ => ?_
    · exact bind (idx' (by omega)) fun _ => scalarMulExt _ _
    · have hi' := List.mem_range.1 hi
      rw [Plonk.challengeTerms]
      refine bind (idx' (by omega)) fun _ => bind (subExt _ _) fun _ => bind (mulExt _ _) fun _ =>
        (mapRange fun j hj => ?_).bindN fun vals hvals => ?_
      · exact bind (idx' (by omega)) fun _ => bind (idx' (by omega)) fun _ =>
          permutationTerm (by omega) (by omega) (by omega)
      · refine bind (checkPartialProducts hq (by simp [hvals]; exact hN) (by simp [hvals]; exact hN) (by omega) (by omega)
          ((Nat.mul_le_mul_right _ hi').trans hp)) fun _ => pure _
    · exact Safe.foldlM_const _ (fun vs t _ hvs => reduceStep (by omega) hvs) _ (by simp)
  · have hlt : vi.2 < c.config.numChallenges := hvs ▸ zipIdx_lt hvi
    have := Nat.mul_le_mul_right c.quotientDegreeFactor hlt
    rw [Nat.succ_mul] at this
    rw [Plonk.quotientCheck]
    exact (slice (by omega) (by omega)).bindN fun _ _ => bind (reduceWithPowers _ _) fun _ => bind (mulExt _ _) fun _ =>
      bind (glAssertIsEqual _ _) fun _ => glAssertIsEqual _ _

/-! ## Hash of the public inputs -/

theorem absorbLoop {perm : PoseidonGL.State → Circ PoseidonGL.State} (h : ∀ s, NoPanic (perm s)) :
    ∀ (n : ℕ) (s : PoseidonGL.State) (l : List Fr), l.length ≤ n → NoPanic (PoseidonGL.absorbLoop perm s l) := by
  intro n
  induction n with
  | zero =>
    intro s l hl
    rw [List.length_eq_zero_iff.1 (by omega : l.length = 0), PoseidonGL.absorbLoop]
    exact pure _
  | succ n ih =>
    intro s l hl
    match l, hl with
    | [], _ => rw [PoseidonGL.absorbLoop]; exact pure _
    | x :: xs, hl =>
      rw [PoseidonGL.absorbLoop]
      exact bind (h _) fun _ => ih _ _ (by simp [PoseidonGL.SPONGE_RATE] at hl ⊢; omega)

theorem hashNoPad {perm : PoseidonGL.State → Circ PoseidonGL.State} (h : ∀ s, NoPanic (perm s)) (l : List Fr) :
    NoPanic (PoseidonGL.hashNoPadWith perm l) := by
  rw [PoseidonGL.hashNoPadWith]
  refine bind (mapM _ fun _ _ => reduce _) fun _ => bind ?_ fun _ => pure _
  rw [PoseidonGL.hashNToMNoPadWith, if_neg (by norm_num)]
  refine bind (absorbLoop h _ _ _ le_rfl) fun _ => ?_
  rw [PoseidonGL.squeezeLoop, dif_pos (by simp [PoseidonGL.SPONGE_RATE])]
  exact pure _

end NoPanic

/-! ## Challenges -/

namespace Challenger

attribute [local irreducible] observeElement observeElements observeHash observeBN254Hash observeCap
  observeExtensionElements observeOpenings getChallenge getNChallenges getExtensionChallenge getFriChallenges

/-- A method that neither panics nor breaks the bounds, and returns a value satisfying `Q`. -/
def SafeQ (m : ChipM α) (Q : α → Prop) : Prop := ∀ c, Bounded c → Safe (m c) fun r => Q r.1 ∧ Bounded r.2

theorem SafeQ.pure {a : α} {Q : α → Prop} (h : Q a) : SafeQ (pure a) Q := fun c hc => (safe_pure (a, c) _).2 ⟨h, hc⟩

theorem SafeM.bindQ {m : ChipM α} {k : α → ChipM β} {Q : β → Prop} (h : SafeM m) (hk : ∀ a, SafeQ (k a) Q) :
    SafeQ (m >>= k) Q := fun c hc => by
  have e : (m >>= k) c = m c >>= fun r => k r.1 r.2 := rfl
  rw [e]
  exact (h c hc).bind fun r hr => hk r.1 r.2 hr

theorem SafeQ.bind {m : ChipM α} {k : α → ChipM β} {P : α → Prop} {Q : β → Prop} (h : SafeQ m P)
    (hk : ∀ a, P a → SafeQ (k a) Q) : SafeQ (m >>= k) Q := fun c hc => by
  have e : (m >>= k) c = m c >>= fun r => k r.1 r.2 := rfl
  rw [e]
  exact (h c hc).bind fun r hr => hk r.1 hr.1 r.2 hr.2

theorem SafeQ.mapM {m : σ → ChipM β} (h : ∀ x, SafeM (m x)) (l : List σ) :
    SafeQ (l.mapM m) fun r => r.length = l.length := by
  induction l with
  | nil => exact SafeQ.pure rfl
  | cons a l ih =>
    rw [List.mapM_cons]
    exact (h a).bindQ fun _ => ih.bind fun r hr => SafeQ.pure (by rw [List.length_cons, List.length_cons, hr])

variable {perm : PoseidonGL.State → Circ PoseidonGL.State} (h : ∀ s, NoPanic (perm s))
include h

theorem safeQ_getN (n : ℕ) : SafeQ (getNChallenges perm n) fun r => r.length = n :=
  fun c hc => safe_getNChallenges h n c hc

/-- Numbers of challenges. -/
def Counts (c : CommonCircuitData) (caps : List (List Fr)) (ch : ProofChallenges Fr QEV) : Prop :=
  ch.plonkBetas.length = c.config.numChallenges ∧ ch.plonkGammas.length = c.config.numChallenges ∧
  ch.plonkAlphas.length = c.config.numChallenges ∧ ch.friChallenges.betas.length = caps.length ∧
  ch.friChallenges.queryIndices.length = c.config.friConfig.numQueryRounds

theorem safeQ_getFriChallenges (caps : List (List Fr)) (fp : List QEV) (pow : Fr) (cfg : FriConfig) :
    SafeQ (getFriChallenges perm caps fp pow cfg) fun f => f.betas.length = caps.length ∧
      f.queryIndices.length = cfg.numQueryRounds := by
  rw [getFriChallenges]
  refine SafeM.bindQ ?_ fun _ => SafeQ.bind (SafeQ.mapM ?_ _) fun bs hbs => SafeM.bindQ ?_ fun _ =>
    SafeM.bindQ ?_ fun _ => SafeM.bindQ ?_ fun _ => SafeQ.bind ?_ fun is his => SafeQ.pure ⟨hbs, his⟩
  · exact safe_getExtensionChallenge h
  · intro cap
    exact SafeM.bind (safe_observeCap h cap) fun _ => safe_getExtensionChallenge h
  · exact safe_observeExtensionElements h _
  · exact safe_observeElement h _
  · exact safe_getChallenge h
  · exact safeQ_getN h _

theorem safeQ_challenges (c : CommonCircuitData) (proof : Proof Fr QEV) (pih : Fin 4 → Fr)
    (vd : VerifierOnlyCircuitData) :
    SafeQ (Verifier.challengesM perm c proof pih vd) (Counts c proof.openingProof.commitCaps) := by
  rw [Verifier.challengesM]
  refine SafeM.bindQ ?_ fun _ => SafeM.bindQ ?_ fun _ => SafeM.bindQ ?_ fun _ => SafeQ.bind (safeQ_getN h _) fun bs hbs =>
    SafeQ.bind (safeQ_getN h _) fun gs hgs => SafeM.bindQ ?_ fun _ => SafeQ.bind (safeQ_getN h _) fun as has => SafeM.bindQ ?_ fun _ =>
    SafeM.bindQ ?_ fun _ => SafeM.bindQ ?_ fun _ => SafeQ.bind (safeQ_getFriChallenges h _ _ _ _) fun f hf =>
    SafeQ.pure ⟨hbs, hgs, has, hf.1, hf.2⟩
  · exact safe_observeBN254Hash h _
  · unfold observeHash
    exact safe_observeElements h _
  · exact safe_observeCap h _
  · exact safe_observeCap h _
  · exact safe_observeCap h _
  · exact safe_getExtensionChallenge h
  · exact safe_observeOpenings h _

theorem safe_getChallenges (c : CommonCircuitData) (proof : Proof Fr QEV) (pih : Fin 4 → Fr)
    (vd : VerifierOnlyCircuitData) :
    Safe (Verifier.getChallenges perm c proof pih vd) (Counts c proof.openingProof.commitCaps) := by
  rw [Verifier.getChallenges]
  exact Safe.bind (safeQ_challenges h c proof pih vd newChip ⟨by simp [newChip], by simp [newChip]⟩) fun r hr =>
    Safe.pure hr.1

end Challenger

/-! ## The verifier -/

theorem shape_congr {F G B E : Type} {q : FriParams} {i : InstanceInfo F} {j : InstanceInfo G} {proof : FriProof B E}
    (h : i.oracles = j.oracles) (hs : Spec.Fri.ProofShape q i proof) : Spec.Fri.ProofShape q j proof :=
  ⟨hs.caps, fun r hr => ⟨h ▸ (hs.rounds r hr).initial, (hs.rounds r hr).steps⟩, hs.final⟩

/-- `getInstance` returns the oracles of the specification's instance and batches of polynomials among them. -/
theorem safe_getInstance (c : CommonCircuitData) (hd : c.degreeBits ≤ 32) (zeta : QEV) :
    Safe (Fri.getInstance c zeta) fun inst => inst.oracles = (Spec.Fri.plonkInstance c 0).oracles ∧
      inst.batches.length = 2 ∧ ∀ b ∈ inst.batches, ∀ f ∈ b.polynomials,
        ∃ o, inst.oracles[f.oracleIndex]? = some o ∧ f.polynomialInfo < o.numPolys := by
  obtain ⟨g, hg⟩ := NoPanic.primitiveRoot hd
  rw [Fri.getInstance]
  refine (NoPanic.orPanic hg).bind fun _ _ => (NoPanic.mulExt _ _).bindS fun zn => Safe.pure ⟨?_, rfl, ?_⟩
  · rw [← Fri.instanceAt_eq]; rfl
  · have h := Fri.instance_batches c 0
    rw [← Fri.instanceAt_eq] at h
    intro b hb f hf
    simp only [List.mem_cons, List.not_mem_nil, or_false] at hb
    rcases hb with rfl | rfl
    · exact h ⟨0, Fri.friAllPolys c⟩ (by simp [Fri.instanceAt]) f hf
    · exact h ⟨ofBase (Spec.Fri.omega c.degreeBits) * 0, Fri.friZSPolys c⟩ (by simp [Fri.instanceAt]) f hf

/-- Sizes of the opening proof. -/
def OpeningSizes (c : CommonCircuitData) (proof : FriProof Fr QEV) : Prop :=
  Spec.Fri.ProofShape c.friParams (Spec.Fri.plonkInstance c 0) proof ∧
    c.friParams.config.numQueryRounds = proof.rounds.length ∧
    c.config.friConfig.numQueryRounds = proof.rounds.length ∧
    (proof.rounds = [] ∨ c.friParams.reductionArityBits.length ≤ proof.commitCaps.length)

attribute [local irreducible] Verif.rangeCheck in
theorem NoPanic.rangeCheckProof (proof : Proof Fr QEV) : NoPanic (Verifier.rangeCheckProof proof) := by
  have hq : ∀ l : List QEV, NoPanic (l.forM rangeCheckQE) := fun l =>
    NoPanic.forM l fun e _ => NoPanic.bind (NoPanic.rangeCheck _) fun _ => NoPanic.rangeCheck _
  rw [Verifier.rangeCheckProof]
  refine NoPanic.bind (hq _) fun _ => NoPanic.bind (hq _) fun _ => NoPanic.bind (hq _) fun _ => NoPanic.bind (hq _) fun _ =>
    NoPanic.bind (hq _) fun _ => NoPanic.bind (hq _) fun _ => NoPanic.bind (hq _) fun _ =>
    NoPanic.bind (NoPanic.forM _ fun r _ => ?_) fun _ => NoPanic.bind (hq _) fun _ => NoPanic.rangeCheck _
  exact NoPanic.bind (NoPanic.forM _ fun t _ => NoPanic.forM _ fun _ _ => NoPanic.rangeCheck _) fun _ =>
    NoPanic.forM _ fun s _ => hq _

/-- The four initial caps. -/
def initialCaps (vd : VerifierOnlyCircuitData) (proof : Proof Fr QEV) : List (List Fr) :=
  [vd.constantSigmasCap, proof.wiresCap, proof.plonkZsPartialProductsCap, proof.quotientPolysCap]

theorem generates_friPart {c : CommonCircuitData} {vd : VerifierOnlyCircuitData} {proof : Proof Fr QEV}
    (hd : 4 ≤ c.friParams.degreeBits + c.friParams.config.rateBits ∧
      c.friParams.degreeBits + c.friParams.config.rateBits ≤ 32 ∧ c.friParams.config.rateBits ≤ 15 ∧
      c.friParams.config.capHeight = 4) (ha : ∀ a ∈ c.friParams.reductionArityBits, a = 4)
    (hcaps : proof.openingProof.rounds = [] ∨ ∀ cap ∈ initialCaps vd proof, cap.length = 16)
    {inst : InstanceInfo QEV} {ch : ProofChallenges Fr QEV}
    (hi : inst.oracles = (Spec.Fri.plonkInstance c 0).oracles ∧ inst.batches.length = 2 ∧
      ∀ b ∈ inst.batches, ∀ f ∈ b.polynomials, ∃ o, inst.oracles[f.oracleIndex]? = some o ∧ f.polynomialInfo < o.numPolys)
    (hch : Challenger.Counts c proof.openingProof.commitCaps ch) :
    Generates (Fri.verifyFriProof c.friParams inst (Fri.toOpenings proof.openings) ch.friChallenges
      (initialCaps vd proof) proof.openingProof) (OpeningSizes c proof.openingProof) := by
  have e := generates_verifyFriProof (q := c.friParams) (inst := inst) (openings := Fri.toOpenings proof.openings)
    (ch := ch.friChallenges) (proof := proof.openingProof) hd ha (caps := initialCaps vd proof)
    ⟨by rw [hi.1]; rfl, hcaps⟩ (by rw [hi.2.1]; rfl) hi.2.2
  have hiff : FriSizes c.friParams inst ch.friChallenges proof.openingProof ↔ OpeningSizes c proof.openingProof := by
    rw [FriSizes, OpeningSizes, hch.2.2.2.1, hch.2.2.2.2, and_self_iff]
    exact and_congr_left fun _ => ⟨shape_congr hi.1, shape_congr hi.1.symm⟩
  rw [Generates] at e ⊢
  rwa [hiff] at e

end Verif
