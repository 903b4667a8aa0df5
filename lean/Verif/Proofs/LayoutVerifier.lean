import Verif.Proofs.LayoutGates
import Verif.Proofs.NoPanic

/-!
# The calls made by the verifier do not depend on values
-/

set_option autoImplicit false

namespace Verif

open Circ PoseidonGL Challenger

variable {α β σ : Type} [Shaped α] [Shaped β] [Shaped σ] {w : ℕ}

instance : Shaped Chip := ⟨fun x y => Alike x.inputBuffer y.inputBuffer ∧ Alike x.outputBuffer y.outputBuffer,
  fun _ => ⟨Shaped.refl _, Shaped.refl _⟩⟩
instance : Shaped (FriChallenges Fr QEV) :=
  ⟨fun x y => Alike x.betas y.betas ∧ Alike x.queryIndices y.queryIndices, fun _ => ⟨Shaped.refl _, Shaped.refl _⟩⟩
instance : Shaped (ProofChallenges Fr QEV) :=
  ⟨fun x y => Alike x.plonkBetas y.plonkBetas ∧ Alike x.plonkGammas y.plonkGammas ∧ Alike x.plonkAlphas y.plonkAlphas ∧
    Alike x.friChallenges y.friChallenges,
    fun _ => ⟨Shaped.refl _, Shaped.refl _, Shaped.refl _, Shaped.refl _⟩⟩
instance : Shaped (OpeningSet QEV) :=
  ⟨fun x y => Alike x.constants y.constants ∧ Alike x.plonkSigmas y.plonkSigmas ∧ Alike x.wires y.wires ∧
    Alike x.plonkZs y.plonkZs ∧ Alike x.plonkZsNext y.plonkZsNext ∧ Alike x.partialProducts y.partialProducts ∧
    Alike x.quotientPolys y.quotientPolys,
    fun _ => ⟨Shaped.refl _, Shaped.refl _, Shaped.refl _, Shaped.refl _, Shaped.refl _, Shaped.refl _, Shaped.refl _⟩⟩
instance : Shaped (FriEvalProof Fr) :=
  ⟨fun x y => Alike x.elements y.elements ∧ Alike x.siblings y.siblings, fun _ => ⟨Shaped.refl _, Shaped.refl _⟩⟩
instance : Shaped (FriQueryStep QEV) :=
  ⟨fun x y => Alike x.evals y.evals ∧ Alike x.siblings y.siblings, fun _ => ⟨Shaped.refl _, Shaped.refl _⟩⟩
instance : Shaped (FriQueryRound Fr QEV) :=
  ⟨fun x y => Alike x.initial y.initial ∧ Alike x.steps y.steps, fun _ => ⟨Shaped.refl _, Shaped.refl _⟩⟩
instance : Shaped (FriProof Fr QEV) :=
  ⟨fun x y => Alike x.commitCaps y.commitCaps ∧ Alike x.rounds y.rounds ∧ Alike x.finalPoly y.finalPoly,
    fun _ => ⟨Shaped.refl _, Shaped.refl _, Shaped.refl _⟩⟩
instance : Shaped (BatchInfo QEV) := ⟨fun x y => x.polynomials = y.polynomials, fun _ => rfl⟩
instance : Shaped (InstanceInfo QEV) :=
  ⟨fun x y => x.oracles = y.oracles ∧ Alike x.batches y.batches, fun _ => ⟨rfl, Shaped.refl _⟩⟩

/-! ## The challenger -/

/-- Same calls by two methods of the challenger. -/
def SameM (w : ℕ) (f g : ChipM α) : Prop := ∀ c c', Alike c c' → Same w (f c) (g c')

namespace SameM

theorem pure {a b : α} (h : Alike a b) : SameM w (Pure.pure a) (Pure.pure b) := fun _ _ hc => Same.pure ⟨h, hc⟩

theorem bind {f g : ChipM α} {k k' : α → ChipM β} (h : SameM w f g) (hk : ∀ a b, Alike a b → SameM w (k a) (k' b)) :
    SameM w (f >>= k) (g >>= k') := fun c c' hc => Same.bind (h c c' hc) fun a b hab => hk a.1 b.1 hab.1 _ _ hab.2

theorem lift {c d : Circ α} (h : Same w c d) : SameM w (StateT.lift c) (StateT.lift d) := fun _ _ hc =>
  Same.bind h fun _ _ h => Same.pure ⟨h, hc⟩

theorem forM {f g : σ → ChipM Unit} {l l' : List σ} (h : Alike l l') (hf : ∀ a b, Alike a b → SameM w (f a) (g b)) :
    SameM w (l.forM f) (l'.forM g) := by
  induction h with
  | nil => exact pure trivial
  | cons h _ ih => exact bind (hf _ _ h) fun _ _ _ => ih

theorem mapM {f g : σ → ChipM β} {l l' : List σ} (h : Alike l l') (hf : ∀ a b, Alike a b → SameM w (f a) (g b)) :
    SameM w (l.mapM f) (l'.mapM g) := by
  induction h with
  | nil => rw [List.mapM_nil, List.mapM_nil]; exact pure .nil
  | cons h _ ih =>
    rw [List.mapM_cons, List.mapM_cons]
    exact bind (hf _ _ h) fun _ _ h => bind ih fun _ _ h' => pure (.cons h h')

variable {perm : State → Circ State} (hp : ∀ s s', Same w (perm s) (perm s'))
include hp

theorem duplexing : SameM w (Challenger.duplexing perm) (Challenger.duplexing perm) := by
  intro c c' hc
  rw [Challenger.duplexing, Challenger.duplexing]
  exact Same.ite (by rw [Alike.length hc.1]) (fun _ => Same.goPanic) fun _ => Same.bind (Same.mapM hc.1 fun _ _ _ =>
    Same.reduce) fun _ _ _ => Same.bind (hp _ _) fun _ _ h => Same.pure (Alike.prod trivial ⟨.nil,
      Alike.take _ (Alike.ofFn h)⟩)

theorem observeElement (x x' : Fr) : SameM w (Challenger.observeElement perm x) (Challenger.observeElement perm x') := by
  intro c c' hc
  rw [Challenger.observeElement, Challenger.observeElement]
  have h : Alike (c.inputBuffer ++ [x]) (c'.inputBuffer ++ [x']) := Alike.append hc.1 (Alike.of_length rfl)
  exact Same.ite (by rw [Alike.length h]) (fun _ => duplexing hp _ _ ⟨h, .nil⟩) fun _ => Same.pure ⟨trivial, h, .nil⟩

theorem observeElements {l l' : List Fr} (h : Alike l l') :
    SameM w (Challenger.observeElements perm l) (Challenger.observeElements perm l') :=
  forM h fun _ _ _ => observeElement hp _ _

theorem observeBN254Hash (h h' : Fr) : SameM w (Challenger.observeBN254Hash perm h) (Challenger.observeBN254Hash perm h') :=
  bind (lift Same.toVec) fun _ _ h => observeElements hp h

theorem observeCap {l l' : List Fr} (h : Alike l l') :
    SameM w (Challenger.observeCap perm l) (Challenger.observeCap perm l') := forM h fun _ _ _ => observeBN254Hash hp _ _

theorem observeExtensionElements {l l' : List QEV} (h : Alike l l') :
    SameM w (Challenger.observeExtensionElements perm l) (Challenger.observeExtensionElements perm l') :=
  forM h fun _ _ _ => observeElements hp (Alike.of_length rfl)

theorem observeOpenings {l l' : List (List QEV)} (h : Alike l l') :
    SameM w (Challenger.observeOpenings perm l) (Challenger.observeOpenings perm l') :=
  forM h fun _ _ h => observeExtensionElements hp h

theorem getChallenge : SameM w (Challenger.getChallenge perm) (Challenger.getChallenge perm) := by
  intro c c' hc
  rw [Challenger.getChallenge, Challenger.getChallenge]
  refine Same.bind (α := Chip) (Same.ite (by rw [Alike.length hc.1, Alike.length hc.2])
    (fun _ => Same.bind (duplexing hp _ _ hc) fun _ _ h => Same.pure h.2) fun _ => Same.pure hc) fun a b h => ?_
  obtain ⟨h1, h2⟩ := h
  have h3 := Alike.reverse h2
  rw [List.getLast?_eq_head?_reverse, List.getLast?_eq_head?_reverse, ← List.reverse_reverse a.outputBuffer.dropLast,
    ← List.reverse_reverse b.outputBuffer.dropLast, ← List.tail_reverse, ← List.tail_reverse]
  generalize a.outputBuffer.reverse = l at h3 ⊢
  generalize b.outputBuffer.reverse = l' at h3 ⊢
  cases h3 with
  | nil => exact Same.goPanic
  | cons _ h3 => exact Same.pure ⟨trivial, h1, Alike.reverse h3⟩

theorem getNChallenges (n : ℕ) : SameM w (Challenger.getNChallenges perm n) (Challenger.getNChallenges perm n) :=
  mapM (Shaped.refl (List.range n)) fun _ _ _ => getChallenge hp

theorem getExtensionChallenge : SameM w (Challenger.getExtensionChallenge perm) (Challenger.getExtensionChallenge perm) := by
  refine bind (getNChallenges hp 2) fun a b h => ?_
  rcases h with _ | ⟨_, _ | ⟨_, _ | _⟩⟩
  · exact fun _ _ _ => Same.goPanic
  · exact fun _ _ _ => Same.goPanic
  · exact pure (Value.all _ _)
  · exact fun _ _ _ => Same.goPanic

theorem getFriChallenges {caps caps' : List (List Fr)} {poly poly' : List QEV} {x x' : Fr} (cfg : FriConfig)
    (hc : Alike caps caps') (hf : Alike poly poly') :
    SameM w (Challenger.getFriChallenges perm caps poly x cfg) (Challenger.getFriChallenges perm caps' poly' x' cfg) :=
  bind (getExtensionChallenge hp) fun _ _ _ => bind (mapM hc fun _ _ h => bind (observeCap hp h) fun _ _ _ =>
    getExtensionChallenge hp) fun _ _ hb => bind (observeExtensionElements hp hf) fun _ _ _ =>
    bind (observeElement hp _ _) fun _ _ _ => bind (getChallenge hp) fun _ _ _ => bind (getNChallenges hp _) fun _ _ hi =>
    pure ⟨hb, hi⟩

end SameM

namespace Same

/-! ## PLONK -/

section
open Plonk Gates

theorem chunkProduct {l l' : List QEV} (h : Alike l l') (s q : ℕ) :
    Same w (Plonk.chunkProduct l s q) (Plonk.chunkProduct l' s q) := by
  rw [Plonk.chunkProduct, Plonk.chunkProduct]
  refine bind (idx h _) fun _ _ _ => foldlM (Shaped.refl _) (fun _ _ _ _ _ e => ?_) (Value.all _ _)
  cases e
  exact bind (idx h _) fun _ _ _ => mulExt

variable (c : CommonCircuitData) {o o' : OpeningSet QEV} (ho : Alike o o')

include ho in
theorem checkPartialProducts {a a' b b' : List QEV} (ha : Alike a a') (hb : Alike b b') (i : ℕ) :
    Same w (Plonk.checkPartialProducts c a b i o) (Plonk.checkPartialProducts c a' b' i o') := by
  obtain ⟨-, -, -, h1, h2, h3, -⟩ := ho
  rw [Plonk.checkPartialProducts, Plonk.checkPartialProducts]
  refine bind (idx h1 _) fun z z' _ => bind (slice h3 _ _) fun pp pp' h4 => bind (idx h2 _) fun x x' _ => rangeM fun i => ?_
  have h5 : Alike (z :: (pp ++ [x])) (z' :: (pp' ++ [x'])) :=
    Alike.cons (Value.all _ _) (Alike.append h4 (Alike.of_length rfl))
  exact bind (chunkProduct ha _ _) fun _ _ _ => bind (chunkProduct hb _ _) fun _ _ _ => bind (idx h5 _) fun _ _ _ =>
    bind mulExt fun _ _ _ => bind (idx h5 _) fun _ _ _ => bind mulExt fun _ _ _ => subExt

theorem plonkVerify (gates : List Gate) {ch ch' : ProofChallenges Fr QEV} (hch : Alike ch ch') {h h' : Fin 4 → Fr}
    (ho : Alike o o') : Same w (Plonk.verify c gates ch o h) (Plonk.verify c gates ch' o' h') := by
  obtain ⟨b1, b2, b3, -⟩ := id hch
  obtain ⟨h1, h2, h3, h4, h5, h6, h7⟩ := id ho
  rw [Plonk.verify, Plonk.verify]
  refine bind (foldlM (Shaped.refl _) (fun _ _ _ _ _ _ => mulExt) (Value.all _ _)) fun z z' _ => bind ?_ fun _ _ hv =>
    bind subExt fun _ _ _ => forM (Alike.zipIdx hv 0) fun x y hxy => ?_
  · rw [Plonk.evalVanishingPoly, Plonk.evalVanishingPoly]
    refine bind (evaluateGateConstraints ⟨h1, h3⟩ gates _ _) fun _ _ hcs => bind (rangeM fun i => bind (idx (Shaped.refl _) _)
      fun _ _ _ => scalarMulExt) fun _ _ hs => bind ?_ fun _ _ _ => bind (rangeM fun i => ?_) fun _ _ ht =>
      foldlM (Alike.reverse (Alike.append (Alike.append (Alike.map ht fun _ _ h => h.1) (Alike.flatMap ht fun _ _ h => h.2))
        hcs)) (fun _ _ _ _ ha _ => ?_) (Shaped.refl _)
    · rw [Plonk.evalL0, Plonk.evalL0]
      exact bind subExt fun _ _ _ => bind scalarMulExt fun _ _ _ => bind subExt fun _ _ _ => bind divExt fun _ _ _ =>
        bind assertEq fun _ _ _ => value
    · rw [Plonk.challengeTerms, Plonk.challengeTerms]
      refine bind (idx h4 _) fun _ _ _ => bind subExt fun _ _ _ => bind mulExt fun _ _ _ => bind (rangeM fun j => ?_)
        fun _ _ hn => bind (checkPartialProducts c ho (Alike.map hn fun _ _ h => h.1) (Alike.map hn fun _ _ h => h.2) i)
        fun _ _ hp => pure (Alike.prod (Value.all _ _) hp)
      refine bind (idx b2 _) fun _ _ _ => bind (idx b1 _) fun _ _ _ => ?_
      rw [Plonk.permutationTerm, Plonk.permutationTerm]
      exact bind (idx h3 _) fun _ _ _ => bind addExt fun _ _ _ => bind (idx hs _) fun _ _ _ => bind mulExt fun _ _ _ =>
        bind addExt fun _ _ _ => bind (idx h2 _) fun _ _ _ => bind mulExt fun _ _ _ => bind addExt fun _ _ _ => value
    · rw [Plonk.reduceStep, Plonk.reduceStep]
      exact rangeM fun j => bind (idx ha _) fun _ _ _ => bind (idx b3 _) fun _ _ _ => bind scalarMulExt fun _ _ _ => addExt
  · obtain ⟨x1, x2⟩ := x
    obtain ⟨y1, y2⟩ := y
    obtain ⟨-, rfl⟩ := id hxy
    rw [Plonk.quotientCheck, Plonk.quotientCheck]
    exact bind (slice h7 _ _) fun _ _ h => bind (reduceWithPowers h) fun _ _ _ => bind mulExt fun _ _ _ =>
      assertIsEqualExt

end

/-! ## FRI -/

section
open Fri

theorem verifyMerkleProofToCap {a b c d s a' b' c' d' s' : List Fr} (hb : Alike b b') (hc : Alike c c') (hd : Alike d d')
    (hs : Alike s s') :
    Same w (Fri.verifyMerkleProofToCap a b c d s) (Fri.verifyMerkleProofToCap a' b' c' d' s') := by
  rw [Fri.verifyMerkleProofToCap, Fri.verifyMerkleProofToCap]
  refine bind (foldlM (Alike.zipIdx hs 0) (fun _ _ x y _ hxy => ?_) (Value.all _ _)) fun _ _ _ => bind ?_ fun _ _ _ =>
    assertEq
  · obtain ⟨x1, x2⟩ := x
    obtain ⟨y1, y2⟩ := y
    obtain ⟨-, rfl⟩ := id hxy
    rw [merkleStep, merkleStep]
    exact bind (idx hb _) fun _ _ _ => bind select fun _ _ _ => bind select fun _ _ _ => value
  · rw [capLookup, capLookup]
    refine ite (by rw [Alike.length hc, Alike.length hd]) (fun _ => goPanic) fun _ => bind (idx hc _) fun _ _ _ =>
      bind (idx hc _) fun _ _ _ => bind (rangeM fun i => ?_) fun _ _ hl => ?_
    · exact bind (idx hd _) fun _ _ _ => bind (idx hd _) fun _ _ _ => bind (idx hd _) fun _ _ _ =>
        bind (idx hd _) fun _ _ _ => apiLookup2
    · exact bind (idx hc _) fun _ _ _ => bind (idx hc _) fun _ _ _ => bind (idx hl _) fun _ _ _ =>
        bind (idx hl _) fun _ _ _ => bind (idx hl _) fun _ _ _ => bind (idx hl _) fun _ _ _ => apiLookup2

theorem expFromBitsConstBase {b : Fp} {l l' : List Fr} (h : Alike l l') :
    Same w (Fri.expFromBitsConstBase b l) (Fri.expFromBitsConstBase b l') := by
  rw [Fri.expFromBitsConstBase, Fri.expFromBitsConstBase]
  exact foldlM (Alike.zipIdx h 0) (fun _ _ _ _ _ _ => bind mul fun _ _ _ => bind mul fun _ _ _ => add) (Value.all _ _)

theorem calculateSubgroupX {n : ℕ} {l l' : List Fr} (h : Alike l l') :
    Same w (Fri.calculateSubgroupX l n) (Fri.calculateSubgroupX l' n) := by
  rw [Fri.calculateSubgroupX, Fri.calculateSubgroupX]
  refine bind orPanic' fun _ _ e => ?_
  cases e
  exact bind (expFromBitsConstBase (Alike.reverse h)) fun _ _ _ => mul

theorem friCombineInitial {i i' : InstanceInfo QEV} {l l' : List (FriEvalProof Fr)} {a x a' x' : QEV} {p p' : List QEV}
    (hi : Alike i i') (hl : Alike l l') (hp : Alike p p') :
    Same w (Fri.friCombineInitial i l a x p) (Fri.friCombineInitial i' l' a' x' p') := by
  rw [Fri.friCombineInitial, Fri.friCombineInitial]
  refine ite (by rw [Alike.length hi.2, Alike.length hp]) (fun _ => goPanic) fun _ =>
    foldlM (Alike.zip hi.2 hp) (fun _ _ x y _ hxy => ?_) (Value.all _ _)
  rw [combineBatch, combineBatch]
  have e : x.1.polynomials = y.1.polynomials := hxy.1
  rw [e]
  refine bind (mapM (Shaped.refl _) fun f g e => ?_) fun a b h => ?_
  · cases e
    exact bind (idx hl _) fun _ _ h => bind (idx h.1 _) fun _ _ _ => value
  · rw [Alike.length h]
    exact bind (reduceWithPowers h) fun _ _ _ => bind subExt fun _ _ _ => bind expExt fun _ _ _ => bind mulExt fun _ _ _ =>
      bind inverseExt fun _ _ _ => bind assertEq fun _ _ _ => mulAddExt

theorem interpolate {x x' : QEV} {a b c a' b' c' : List QEV} (ha : Alike a a') (hb : Alike b b') (hc : Alike c c') :
    Same w (Fri.interpolate x a b c) (Fri.interpolate x' a' b' c') := by
  rw [Fri.interpolate, Fri.interpolate]
  refine ite (by rw [Alike.length ha, Alike.length hb, Alike.length hc]) (fun _ => goPanic) fun _ => ?_
  exact bind (foldlM ha (fun _ _ _ _ _ _ => subMulExt) (Value.all _ _)) fun _ _ _ =>
    bind (foldlM (Alike.zip ha (Alike.zip hb hc)) (fun _ _ _ _ _ _ => bind subExt fun _ _ _ => bind divExt fun _ _ _ =>
      bind mulExt fun _ _ _ => bind addExt fun _ _ _ => value) (Value.all _ _)) fun _ _ _ => bind mulExt fun _ _ _ =>
    bind (foldlM (Alike.zip ha hb) (fun _ _ _ _ _ _ => bind subExt fun _ _ _ => lookup) (Value.all _ _)) fun _ _ _ =>
    lookup

theorem permuteLoop {e e' : List QEV} (h : Alike e e') (a : ℕ) : ∀ (fuel i : ℕ) (l l' : List QEV), Alike l l' →
    Option.Rel Alike (Fri.permuteLoop e a fuel i l) (Fri.permuteLoop e' a fuel i l') := by
  intro fuel
  induction fuel with
  | zero => exact fun _ _ _ _ => .none
  | succ n ih =>
    intro i l l' hl
    rw [Fri.permuteLoop, Fri.permuteLoop, Alike.length h]
    split
    · refine ih _ _ _ ?_
      rcases Alike.get? h i with ⟨e1, e2⟩ | ⟨_, _, e1, e2, _⟩
      · rw [e1, e2]; exact hl
      · rw [e1, e2]; exact Alike.of_length (by simpa using Alike.length hl)
    · exact .some hl

theorem weightLoop {l l' : List QEV} {x x' : QEV} (h : Alike l l') (i : ℕ) :
    Same w (Fri.weightLoop l x i) (Fri.weightLoop l' x' i) := by
  rw [Fri.weightLoop, Fri.weightLoop]
  refine foldlM (Alike.zipIdx h 0) (fun _ _ x y _ hxy => ?_) (Value.all _ _)
  have e : x.2 = y.2 := hxy.2
  exact ite (by rw [e]) (fun _ => subMulExt) fun _ => value

theorem computeEvaluation {x x' : Fr} {b b' : List Fr} {n : ℕ} {e e' : List QEV} {β β' : QEV} (hb : Alike b b')
    (he : Alike e e') : Same w (Fri.computeEvaluation x b n e β) (Fri.computeEvaluation x' b' n e' β') := by
  rw [Fri.computeEvaluation, Fri.computeEvaluation]
  refine ite (by rw [Alike.length he]) (fun _ => goPanic) fun _ => ite Iff.rfl (fun _ => goPanic) fun _ => ?_
  refine bind orPanic' fun g g' eg => ?_
  cases eg
  rw [Alike.length he]
  refine bind (orPanic (permuteLoop he _ _ _ _ _ (Alike.map he fun _ _ _ => Value.all _ _))) fun _ _ hpe =>
    bind (expFromBitsConstBase (Alike.reverse hb)) fun _ _ _ => bind mul fun _ _ _ => bind
      (foldlM (Shaped.refl _) (fun _ _ _ _ h _ => bind mulExt fun _ _ _ => pure (Alike.append h (Alike.of_length rfl)))
        (Alike.of_length rfl)) fun _ _ hx => bind (mapM (Alike.zipIdx hx 0) fun y z hyz => ?_) fun _ _ hw =>
      interpolate hx hpe hw
  have e : y.2 = z.2 := hyz.2
  rw [e]
  exact bind (weightLoop hx _) fun _ _ _ => bind inverseExt fun _ _ _ => bind assertEq fun _ _ _ => value

theorem evalLookup {b b' : List Fr} {e e' : List QEV} (hb : Alike b b') (he : Alike e e') :
    Same w (Fri.evalLookup b e) (Fri.evalLookup b' e') := by
  rw [Fri.evalLookup, Fri.evalLookup]
  exact bind (idx hb _) fun _ _ _ => bind (idx hb _) fun _ _ _ => bind (rangeM fun i => bind (idx he _) fun _ _ _ =>
      bind (idx he _) fun _ _ _ => bind (idx he _) fun _ _ _ => bind (idx he _) fun _ _ _ => lookup2) fun _ _ hl =>
    bind (idx hb _) fun _ _ _ => bind (idx hb _) fun _ _ _ => bind (idx hl _) fun _ _ _ => bind (idx hl _) fun _ _ _ =>
    bind (idx hl _) fun _ _ _ => bind (idx hl _) fun _ _ _ => lookup2

theorem reductionStep {ch ch' : FriChallenges Fr QEV} (hch : Alike ch ch') {p p' : FriProof Fr QEV} (hp : Alike p p')
    {s s' : List (FriQueryStep QEV)} (hs : Alike s s') {b b' : List Fr} (hb : Alike b b') {st st' : RoundState}
    (hst : Alike st st') (ai : ℕ × ℕ) :
    Same w (Fri.reductionStep ch p s b st ai) (Fri.reductionStep ch' p' s' b' st' ai) := by
  rw [Fri.reductionStep, Fri.reductionStep]
  refine bind (idx hs _) fun u u' hu => bind (sliceFrom hst.1 _) fun _ _ h1 => bind (sliceTo hst.1 _) fun _ _ h2 =>
    ite Iff.rfl (fun _ => goPanic) fun _ => bind (evalLookup h2 hu.1) fun _ _ _ => bind glAssertIsEqual fun _ _ _ =>
    bind glAssertIsEqual fun _ _ _ => bind (idx hch.1 _) fun _ _ _ => bind (computeEvaluation h2 hu.1) fun _ _ _ =>
    bind (idx hp.1 _) fun _ _ hcap => bind (verifyMerkleProofToCap h1 hb hcap hu.2) fun _ _ _ =>
    bind (foldlM (Shaped.refl _) (fun _ _ _ _ _ _ => mul) (Value.all _ _)) fun _ _ _ =>
    pure (Alike.prod h1 (Value.all _ _))

theorem verifyQueryRound {q : FriParams} {i i' : InstanceInfo QEV} (hi : Alike i i') {ch ch' : FriChallenges Fr QEV}
    (hch : Alike ch ch') {e e' : List QEV} (he : Alike e e') {caps caps' : List (List Fr)} (hcaps : Alike caps caps')
    {p p' : FriProof Fr QEV} (hp : Alike p p') {x x' : Fr} {n : ℕ} {u u' : FriQueryRound Fr QEV} (hu : Alike u u') :
    Same w (Fri.verifyQueryRound q i ch e caps p x n u) (Fri.verifyQueryRound q i' ch' e' caps' p' x' n u') := by
  rw [Fri.verifyQueryRound, Fri.verifyQueryRound]
  refine bind ?_ fun _ _ _ => bind reduce fun _ _ _ => bind toBinary fun _ _ hbits => bind (sliceTo hbits _) fun a b hab => ?_
  · rw [assertNoncanonicalIndicesOK]
    exact ite Iff.rfl (fun _ => goPanic) fun _ => value
  have rest : ∀ c d : List Fr, Alike c d →
      Same w (do
        Fri.verifyInitialProof a u.initial caps c
        let subgroupX ← Fri.calculateSubgroupX a n
        let oldEval ← Fri.friCombineInitial i u.initial ch.alpha (toQE subgroupX) e
        let st ← q.reductionArityBits.zipIdx.foldlM (Fri.reductionStep ch p u.steps c) (a, subgroupX, oldEval)
        let fin ← finalPolyEval p.finalPoly (toQE st.2.1)
        Verif.glAssertIsEqual st.2.2.1 fin.1
        Verif.glAssertIsEqual st.2.2.2 fin.2)
      (do
        Fri.verifyInitialProof b u'.initial caps' d
        let subgroupX ← Fri.calculateSubgroupX b n
        let oldEval ← Fri.friCombineInitial i' u'.initial ch'.alpha (toQE subgroupX) e'
        let st ← q.reductionArityBits.zipIdx.foldlM (Fri.reductionStep ch' p' u'.steps d) (b, subgroupX, oldEval)
        let fin ← finalPolyEval p'.finalPoly (toQE st.2.1)
        Verif.glAssertIsEqual st.2.2.1 fin.1
        Verif.glAssertIsEqual st.2.2.2 fin.2) := by
    intro c d hcd
    refine bind ?_ fun _ _ _ => bind (calculateSubgroupX hab) fun _ _ _ => bind (friCombineInitial hi hu.1 he) fun _ _ _ =>
      bind (foldlM (Shaped.refl _) (fun _ _ x y hst hxy => ?_) (Alike.prod hab (Value.all _ _))) fun _ _ _ => bind
      (foldlM (Alike.reverse hp.2.2) (fun _ _ _ _ _ _ => mulAddExt) (Value.all _ _)) fun _ _ _ => bind glAssertIsEqual
      fun _ _ _ => glAssertIsEqual
    · rw [verifyInitialProof, verifyInitialProof]
      exact ite (by rw [Alike.length hu.1, Alike.length hcaps]) (fun _ => goPanic) fun _ =>
        forM (Alike.zip hu.1 hcaps) fun _ _ h => verifyMerkleProofToCap hab hcd h.2 h.1.2
    · obtain ⟨x1, x2⟩ := x
      obtain ⟨y1, y2⟩ := y
      obtain ⟨rfl, rfl⟩ := id hxy
      exact reductionStep hch hp hu.2 hcd hst _
  exact bind (α := List Fr) (by
    rw [Alike.length hab]
    exact ite Iff.rfl (fun _ => sliceFrom hab _) fun _ => goPanic) rest

theorem validateFriProofShape {p p' : FriProof Fr QEV} (hp : Alike p p') {i i' : InstanceInfo QEV} (hi : Alike i i')
    {q : FriParams} : Same w (Fri.validateFriProofShape p i q) (Fri.validateFriProofShape p' i' q) := by
  obtain ⟨h1, h2, h3⟩ := hp
  obtain ⟨o, bs⟩ := i
  obtain ⟨o', bs'⟩ := i'
  obtain ⟨rfl, hbs⟩ := id hi
  rw [Fri.validateFriProofShape, Fri.validateFriProofShape]
  refine bind (forM h1 fun _ _ h => ite (by rw [Alike.length h]) (fun _ => goPanic) fun _ => value) fun _ _ _ =>
    bind (forM h2 fun _ _ h => ?_) fun _ _ _ => ite Iff.rfl (fun _ => goPanic) fun _ => ite (by rw [Alike.length h3])
      (fun _ => goPanic) fun _ => value
  rw [validateRound, validateRound]
  refine ite (by rw [Alike.length h.1]) (fun _ => goPanic) fun _ => bind (forM (Alike.zipIdx h.1 0) fun x y hxy => ?_)
    fun _ _ _ => ite (by rw [Alike.length h.2]) (fun _ => goPanic) fun _ => bind
      (foldlM (Alike.zipIdx h.2 0) (fun _ _ x y hc hxy => ?_) (Shaped.refl _)) fun _ _ _ => value
  · obtain ⟨x1, x2⟩ := x
    obtain ⟨y1, y2⟩ := y
    obtain ⟨hx, rfl⟩ := id hxy
    rw [validateEvalProof, validateEvalProof]
    refine bind (idx (Shaped.refl _) _) fun _ _ e => ?_
    cases e
    exact ite (by rw [Alike.length hx.1]) (fun _ => goPanic) fun _ => ite (by rw [Alike.length hx.2])
      (fun _ => goPanic) fun _ => value
  · obtain ⟨x1, x2⟩ := x
    obtain ⟨y1, y2⟩ := y
    obtain ⟨hx, rfl⟩ := id hxy
    cases hc
    rw [validateStep, validateStep]
    refine bind (idx (Shaped.refl _) _) fun _ _ e => ?_
    cases e
    exact ite (by rw [Alike.length hx.1]) (fun _ => goPanic) fun _ => ite (by rw [Alike.length hx.2])
      (fun _ => goPanic) fun _ => pure rfl

theorem verifyFriProof {q : FriParams} (hw : (64 + 2 ^ 64 - q.config.proofOfWorkBits % 2 ^ 64) % 2 ^ 64 = w)
    {i i' : InstanceInfo QEV} (hi : Alike i i') {o o' : List (List QEV)} (ho : Alike o o')
    {ch ch' : FriChallenges Fr QEV} (hch : Alike ch ch') {caps caps' : List (List Fr)} (hcaps : Alike caps caps')
    {p p' : FriProof Fr QEV} (hp : Alike p p') :
    Same w (Fri.verifyFriProof q i o ch caps p) (Fri.verifyFriProof q i' o' ch' caps' p') := by
  rw [Fri.verifyFriProof, Fri.verifyFriProof]
  refine bind (validateFriProofShape hp hi) fun _ _ _ => bind (check (.inr (.inr (.inr hw)))) fun _ _ _ =>
    ite (by rw [Alike.length hp.2.1]) (fun _ => goPanic) fun _ => bind (mapM ho fun _ _ h => reduceWithPowers h) fun _ _ he =>
    ite (by rw [Alike.length hch.2, Alike.length hp.2.1]) (fun _ => goPanic) fun _ =>
    forM (Alike.zipIdx hch.2 0) fun x y hxy => ?_
  obtain ⟨x1, x2⟩ := x
  obtain ⟨y1, y2⟩ := y
  obtain ⟨-, rfl⟩ := id hxy
  exact bind (idx hp.2.1 _) fun _ _ hu => verifyQueryRound hi hch he hcaps hp hu

end

/-! ## The verifier -/

instance : Shaped (Proof Fr QEV) :=
  ⟨fun x y => Alike x.wiresCap y.wiresCap ∧ Alike x.plonkZsPartialProductsCap y.plonkZsPartialProductsCap ∧
    Alike x.quotientPolysCap y.quotientPolysCap ∧ Alike x.openings y.openings ∧ Alike x.openingProof y.openingProof,
    fun _ => ⟨Shaped.refl _, Shaped.refl _, Shaped.refl _, Shaped.refl _, Shaped.refl _⟩⟩

theorem toOpenings {o o' : OpeningSet QEV} (h : Alike o o') : Alike (Fri.toOpenings o) (Fri.toOpenings o') := by
  obtain ⟨h1, h2, h3, h4, h5, h6, h7⟩ := h
  exact .cons (Alike.append (Alike.append (Alike.append (Alike.append (Alike.append h1 h2) h3) h4) h6) h7) (.cons h5 .nil)

theorem rangeCheckProof {p p' : Proof Fr QEV} (h : Alike p p') :
    Same w (Verifier.rangeCheckProof p) (Verifier.rangeCheckProof p') := by
  obtain ⟨-, -, -, ⟨h1, h2, h3, h4, h5, h6, h7⟩, -, h8, h9⟩ := h
  have f {l l' : List QEV} (h : Alike l l') : Same w (l.forM Verif.rangeCheckQE) (l'.forM Verif.rangeCheckQE) :=
    forM h fun _ _ _ => rangeCheckQE
  rw [Verifier.rangeCheckProof, Verifier.rangeCheckProof]
  exact bind (f h1) fun _ _ _ => bind (f h2) fun _ _ _ => bind (f h3) fun _ _ _ => bind (f h4) fun _ _ _ =>
    bind (f h5) fun _ _ _ => bind (f h6) fun _ _ _ => bind (f h7) fun _ _ _ => bind (forM h8 fun _ _ h =>
      bind (forM h.1 fun _ _ h => forM h.1 fun _ _ _ => rangeCheck) fun _ _ _ => forM h.2 fun _ _ h => f h.1) fun _ _ _ =>
    bind (f h9) fun _ _ _ => rangeCheck

theorem challengesM {perm : State → Circ State} (hp : ∀ s s', Same w (perm s) (perm s')) {c : CommonCircuitData}
    {p p' : Proof Fr QEV} (h : Alike p p') {x y : Fin 4 → Fr} (hxy : Alike x y) {vd vd' : VerifierOnlyCircuitData} :
    SameM w (Verifier.challengesM perm c p x vd) (Verifier.challengesM perm c p' y vd') := by
  obtain ⟨h1, h2, h3, h4, h5⟩ := id h
  exact SameM.bind (SameM.observeBN254Hash hp _ _) fun _ _ _ => SameM.bind (SameM.observeElements hp (Alike.ofFn hxy))
    fun _ _ _ => SameM.bind (SameM.observeCap hp h1) fun _ _ _ => SameM.bind (SameM.getNChallenges hp _) fun _ _ b1 =>
    SameM.bind (SameM.getNChallenges hp _) fun _ _ b2 => SameM.bind (SameM.observeCap hp h2) fun _ _ _ =>
    SameM.bind (SameM.getNChallenges hp _) fun _ _ b3 => SameM.bind (SameM.observeCap hp h3) fun _ _ _ =>
    SameM.bind (SameM.getExtensionChallenge hp) fun _ _ _ => SameM.bind (SameM.observeOpenings hp (toOpenings h4))
    fun _ _ _ => SameM.bind (SameM.getFriChallenges hp _ h5.1 h5.2.2) fun _ _ b4 => SameM.pure ⟨b1, b2, b3, b4⟩

theorem verify {perm : State → Circ State} (hp : ∀ s s', Same w (perm s) (perm s')) {c : CommonCircuitData}
    (hw : (64 + 2 ^ 64 - c.friParams.config.proofOfWorkBits % 2 ^ 64) % 2 ^ 64 = w)
    (gates : List Gates.Gate) {p p' : Proof Fr QEV} (h : Alike p p') {l l' : List Fr} (hl : l.length = l'.length)
    {vd vd' : VerifierOnlyCircuitData} (hv : vd.constantSigmasCap.length = vd'.constantSigmasCap.length) :
    Same w (Verifier.verify perm c gates p l vd) (Verifier.verify perm c gates p' l' vd') := by
  have hv : Alike vd.constantSigmasCap vd'.constantSigmasCap := Alike.of_length hv
  obtain ⟨h1, h2, h3, h4, h5⟩ := id h
  have ho := toOpenings h4
  rw [Verifier.verify, Verifier.verify]
  refine bind (rangeCheckProof h) fun _ _ _ => bind (hashNoPad hp (Alike.of_length hl)) fun x y hxy => bind ?_
    fun _ _ hch => bind (plonkVerify c gates hch h4) fun _ _ _ => bind ?_ fun _ _ hi =>
      verifyFriProof hw hi ho hch.2.2.2 (.cons hv (.cons h1 (.cons h2 (.cons h3 .nil)))) h5
  · exact bind (challengesM hp h hxy _ _ (Shaped.refl _)) fun _ _ h => pure h.1
  · rw [Fri.getInstance, Fri.getInstance]
    refine bind orPanic' fun _ _ e => bind mulExt fun _ _ _ => pure ⟨rfl, .cons rfl (.cons rfl .nil)⟩

/-! ## Consequences -/

section
open Spec.Layout

theorem emits {γ : Type} [Shaped γ] {c d : Circ γ} (h : Same w c d) {l l' : List Item} (hc : Emits c l) (hd : Emits d l') :
    l = l' := by
  induction c generalizing d l l' with
  | ret a => cases d <;> first | exact h.elim | exact hc.trans hd.symm
  | hint n x k ih =>
    cases d <;> try exact h.elim
    obtain ⟨rfl, h⟩ := h
    obtain ⟨v, m, rfl, h1⟩ := hc
    obtain ⟨v', m', rfl, h2⟩ := hd
    rw [ih v (h v v') h1 h2]
  | require b k ih =>
    cases d <;> try exact h.elim
    obtain ⟨m, rfl, h1⟩ := hc
    obtain ⟨m', rfl, h2⟩ := hd
    rw [ih h h1 h2]
  | check v n k ih =>
    cases d <;> try exact h.elim
    obtain ⟨rfl, -, h⟩ := h
    obtain ⟨m, rfl, h1⟩ := hc
    obtain ⟨m', rfl, h2⟩ := hd
    rw [ih h h1 h2]
  | panic m => cases d <;> first | exact h.elim | exact hc.trans hd.symm

theorem widths_mem {γ : Type} [Shaped γ] {c d : Circ γ} (h : Same w c d) {l : List Item} (hc : Emits c l) :
    ∀ n ∈ widths l, n = 32 ∨ n = 144 ∨ n = 192 ∨ n = w := by
  induction c generalizing d l with
  | ret a => cases hc; simp [widths]
  | hint n x k ih =>
    cases d <;> try exact h.elim
    obtain ⟨v, m, rfl, h1⟩ := hc
    exact fun x hx => ih v (h.2 v 0) h1 x hx
  | require b k ih =>
    cases d <;> try exact h.elim
    obtain ⟨m, rfl, h1⟩ := hc
    exact fun x hx => ih h h1 x hx
  | check v n k ih =>
    cases d <;> try exact h.elim
    obtain ⟨m, rfl, h1⟩ := hc
    intro x hx
    rcases List.mem_cons.1 (show x ∈ n :: widths m from hx) with rfl | hx
    · exact h.2.1
    · exact ih h.2.2 h1 x hx
  | panic m => cases hc; simp [widths]

end

end Same

namespace Spec.Layout

theorem exists_emits {γ : Type} (c : Circ γ) : ∃ l, Emits c l := by
  induction c with
  | ret a => exact ⟨_, rfl⟩
  | hint n x k ih => obtain ⟨l, h⟩ := ih 0; exact ⟨_, 0, l, rfl, h⟩
  | require b k ih => obtain ⟨l, h⟩ := ih; exact ⟨_, l, rfl, h⟩
  | check v n k ih => obtain ⟨l, h⟩ := ih; exact ⟨_, l, rfl, h⟩
  | panic m => exact ⟨_, rfl⟩

theorem emits_of_out {γ : Type} {c : Circ γ} {y : γ} {log : List (Fr × ℕ)} (h : Out c y log) :
    ∃ l, Emits c l ∧ widths l = log.map Prod.snd := by
  induction c generalizing log with
  | ret a => obtain ⟨-, rfl⟩ := h; exact ⟨_, rfl, rfl⟩
  | hint n x k ih => obtain ⟨v, h⟩ := h; obtain ⟨l, h1, h2⟩ := ih v h; exact ⟨_, ⟨v, l, rfl, h1⟩, h2⟩
  | require b k ih => obtain ⟨-, h⟩ := h; obtain ⟨l, h1, h2⟩ := ih h; exact ⟨_, ⟨l, rfl, h1⟩, h2⟩
  | check v n k ih =>
    obtain ⟨log, rfl, h⟩ := h; obtain ⟨l, h1, h2⟩ := ih h
    exact ⟨_, ⟨l, rfl, h1⟩, congrArg (n :: ·) h2⟩
  | panic m => exact h.elim

theorem noPanic_iff {γ : Type} {c : Circ γ} : NoPanic c ↔ ∀ l, Emits c l → Item.panic ∉ l := by
  unfold NoPanic
  induction c with
  | ret a => simp [Safe, Emits]
  | hint n x k ih =>
    constructor
    · rintro h _ ⟨v, l, rfl, hl⟩
      simpa using (ih v).1 (h v) l hl
    · intro h v
      refine (ih v).2 fun l hl => ?_
      simpa using h _ ⟨v, l, rfl, hl⟩
  | require b k ih =>
    constructor
    · rintro h _ ⟨l, rfl, hl⟩
      simpa using ih.1 h l hl
    · intro h
      exact ih.2 fun l hl => by simpa using h _ ⟨l, rfl, hl⟩
  | check v n k ih =>
    constructor
    · rintro h _ ⟨l, rfl, hl⟩
      simpa using ih.1 h l hl
    · intro h
      exact ih.2 fun l hl => by simpa using h _ ⟨l, rfl, hl⟩
  | panic m => simp [Safe, Emits]

theorem emits_bind {γ δ : Type} {c : Circ γ} {f : γ → Circ δ} {l : List Item} (h : Emits (c >>= f) l) (hn : Item.panic ∉ l) :
    ∃ l1 l2 a, l = l1 ++ l2 ∧ Emits c l1 ∧ Emits (f a) l2 := by
  rw [bind_eq] at h
  induction c generalizing l with
  | ret a => exact ⟨[], l, a, rfl, rfl, h⟩
  | hint n x k ih =>
    obtain ⟨v, l, rfl, h⟩ := h
    obtain ⟨l1, l2, a, rfl, h1, h2⟩ := ih v h (fun h => hn (List.mem_cons_of_mem _ h))
    exact ⟨_, l2, a, rfl, ⟨v, l1, rfl, h1⟩, h2⟩
  | require b k ih =>
    obtain ⟨l, rfl, h⟩ := h
    obtain ⟨l1, l2, a, rfl, h1, h2⟩ := ih h (fun h => hn (List.mem_cons_of_mem _ h))
    exact ⟨_, l2, a, rfl, ⟨l1, rfl, h1⟩, h2⟩
  | check v n k ih =>
    obtain ⟨l, rfl, h⟩ := h
    obtain ⟨l1, l2, a, rfl, h1, h2⟩ := ih h (fun h => hn (List.mem_cons_of_mem _ h))
    exact ⟨_, l2, a, rfl, ⟨l1, rfl, h1⟩, h2⟩
  | panic m => cases h; simp at hn

/-- What is requested by the second part is requested. -/
theorem mem_widths_bind {γ δ : Type} {c : Circ γ} {f : γ → Circ δ} {n : ℕ}
    (hf : ∀ a l, Emits (f a) l → Item.panic ∉ l → n ∈ widths l) {l : List Item} (h : Emits (c >>= f) l)
    (hn : Item.panic ∉ l) : n ∈ widths l := by
  obtain ⟨l1, l2, a, rfl, -, h2⟩ := emits_bind h hn
  rw [widths, List.filterMap_append]
  exact List.mem_append_right _ (hf a l2 h2 fun h => hn (List.mem_append_right _ h))

/-- The check of the proof of work is requested. -/
theorem pow_mem_widths {perm : State → Circ State} {c : CommonCircuitData} {gates : List Gates.Gate} {p : Proof Fr QEV}
    {pis : List Fr} {vd : VerifierOnlyCircuitData} {l : List Item}
    (h : Emits (Verifier.verify perm c gates p pis vd) l) (hn : Item.panic ∉ l) :
    (64 + 2 ^ 64 - c.friParams.config.proofOfWorkBits % 2 ^ 64) % 2 ^ 64 ∈ widths l := by
  refine mem_widths_bind (fun _ _ h hn => mem_widths_bind (fun _ _ h hn => mem_widths_bind (fun _ _ h hn =>
    mem_widths_bind (fun _ _ h hn => mem_widths_bind (fun _ _ h hn => mem_widths_bind (fun _ _ h hn => ?_) h hn) h hn) h hn)
    h hn) h hn) h hn
  obtain ⟨l1, rfl, -⟩ := h
  exact List.mem_cons_self

/-- Equal sizes: the proofs are alike. -/
theorem alike_of_sizes {x y : Proof Fr QEV} (h : sizes x = sizes y) : Alike x y := by
  obtain ⟨a1, a2, a3, ⟨b1, b2, b3, b4, b5, b6, b7⟩, c1, c2, c3, c4⟩ := x
  obtain ⟨a1', a2', a3', ⟨b1', b2', b3', b4', b5', b6', b7'⟩, c1', c2', c3', c4'⟩ := y
  simp only [sizes, Prod.mk.injEq] at h
  obtain ⟨⟨h1, h2, h3⟩, ⟨h4, h5, h6, h7, h8, h9, h10⟩, h11, h12, h13⟩ := h
  have key : ∀ {γ δ : Type} [Shaped γ] (f : γ → δ) (_ : ∀ u v, f u = f v → Alike u v) (l l' : List γ),
      l.map f = l'.map f → Alike l l' := by
    intro γ δ _ f hf l
    induction l with
    | nil => intro l' h; cases l' with
      | nil => exact .nil
      | cons => simp at h
    | cons u l ih => intro l' h; cases l' with
      | nil => simp at h
      | cons v l' =>
        simp only [List.map_cons, List.cons.injEq] at h
        exact .cons (hf _ _ h.1) (ih _ h.2)
  refine ⟨Alike.of_length h1, Alike.of_length h2, Alike.of_length h3, ⟨Alike.of_length h4, Alike.of_length h5, Alike.of_length h6, Alike.of_length h7,
    Alike.of_length h8, Alike.of_length h9, Alike.of_length h10⟩, key _ (fun _ _ h => Alike.of_length h) _ _ h11,
    key _ (fun u v h => ?_) _ _ h12, Alike.of_length h13⟩
  simp only [Prod.mk.injEq] at h
  refine ⟨key _ (fun u v h => ?_) _ _ h.1, key _ (fun u v h => ?_) _ _ h.2⟩ <;>
  · simp only [Prod.mk.injEq] at h
    exact ⟨Alike.of_length h.1, Alike.of_length h.2⟩

end Spec.Layout

end Verif
