import Verif.Proofs.CostGates
import Verif.Proofs.NoPanicVerifier

/-!
# Counting the calls of a generator: PLONK, FRI, transcript, verifier
-/

set_option autoImplicit false

namespace Verif

open Circ Spec.Layout Spec.Cost

variable {α β σ : Type}

namespace Costs

attribute [local irreducible] Costs Verif.mulExt Verif.addExt Verif.subExt Verif.scalarMulExt Verif.reduceWithPowers
  Gates.slice Verif.idx Verif.orPanic Verif.divExt Verif.inverseExt Verif.lookup Verif.lookup2 Verif.subMulExt
  Verif.mulAddExt Verif.mul Verif.add Verif.reduce Verif.toBinary Verif.expExt Verif.glAssertIsEqual Verif.assertEq
  Verif.rangeCheck Verif.rangeCheckQE Fri.sliceTo Fri.sliceFrom

/-! ## PLONK -/

theorem chunkProduct {l : List QEV} {s q : ℕ} : Costs (Plonk.chunkProduct l s q) ((q - 1) • Spec.Cost.mulExt) Any := by
  apply congr
  · rw [Plonk.chunkProduct]; cost
  · simp only [List.length_range', zero_add]

macro_rules | `(tactic| cost_step) => `(tactic| with_reducible first | apply Costs.chunkProduct | apply Costs.slice)

theorem checkPartialProducts {c : CommonCircuitData} {nu de : List QEV} {i : ℕ} {o : OpeningSet QEV} :
    Costs (Plonk.checkPartialProducts c nu de i o) ((c.numPartialProducts + 1) •
      (2 • ((c.quotientDegreeFactor - 1) • Spec.Cost.mulExt) + 2 • Spec.Cost.mulExt + Spec.Cost.addExt))
      fun r => r.length = c.numPartialProducts + 1 := by
  rw [Plonk.checkPartialProducts]
  refine congr (idx.bind fun _ _ => slice.bind fun _ _ => idx.bind fun _ _ => mapM' (k := 2 •
    ((c.quotientDegreeFactor - 1) • Spec.Cost.mulExt) + 2 • Spec.Cost.mulExt + Spec.Cost.addExt) List.length_range
      fun i _ => ?_) (by simp only [zero_add])
  apply congr
  · cost
  · simp only [zero_add]; abel

theorem permutationTerm {b g : Fr} {o : OpeningSet QEV} {s : List QEV} {j : ℕ} :
    Costs (Plonk.permutationTerm b g o s j) (3 • Spec.Cost.addExt + 2 • Spec.Cost.mulExt) Any := by
  apply congr
  · rw [Plonk.permutationTerm]; cost
  · simp only [zero_add]; abel

theorem evalL0 {c : CommonCircuitData} {x y : QEV} :
    Costs (Plonk.evalL0 c x y) (3 • Spec.Cost.addExt + Spec.Cost.divExt + R) Any := by
  apply congr
  · rw [Plonk.evalL0]; cost
  · simp only [add_zero]; abel

macro_rules | `(tactic| cost_step) => `(tactic| with_reducible first | apply Costs.permutationTerm | apply Costs.evalL0)

theorem challengeTerms {c : CommonCircuitData} {ch : ProofChallenges Fr QEV} {o : OpeningSet QEV} {s : List QEV} {l : QEV}
    {i : ℕ} : Costs (Plonk.challengeTerms c ch o s l i) (Spec.Cost.challengeTerms c)
      fun r => r.2.length = c.numPartialProducts + 1 := by
  rw [Plonk.challengeTerms]
  refine congr (idx.bind fun _ _ => subExt.bind fun _ _ => mulExt.bind fun _ _ =>
    (mapM' (k := 3 • Spec.Cost.addExt + 2 • Spec.Cost.mulExt) List.length_range fun j _ => ?_).bind fun _ _ =>
      checkPartialProducts.bind fun _ h => pure h) ?_
  · apply congr
    · cost
    · simp only [zero_add]
  · simp only [zero_add, add_zero, Spec.Cost.challengeTerms]
    generalize (c.numPartialProducts + 1) • (_ : Tally) = x
    generalize c.config.numRoutedWires • (_ : Tally) = y
    abel

theorem reduceStep {c : CommonCircuitData} {al : List Fr} {vs : List QEV} {t : QEV} :
    Costs (Plonk.reduceStep c al vs t) (c.config.numChallenges • (2 • Spec.Cost.addExt))
      fun r => r.length = c.config.numChallenges := by
  rw [Plonk.reduceStep]
  refine mapM' List.length_range fun i _ => ?_
  apply congr
  · cost
  · simp only [zero_add]; abel

theorem evalVanishingPoly {c : CommonCircuitData} {gates : List Gates.Gate} {v : Gates.Vars} {ch : ProofChallenges Fr QEV}
    {o : OpeningSet QEV} {z : QEV}
    (hg : ∀ gi ∈ gates.zipIdx, Spec.Gates.GateOk c.selectorsInfo v.localConstants.length v.localWires.length gi.1 gi.2) :
    Costs (Plonk.evalVanishingPoly c gates v ch o z) ((gates.zipIdx.map (Spec.Cost.gateStep c.selectorsInfo)).sum +
      (c.config.numRoutedWires • Spec.Cost.addExt + ((3 • Spec.Cost.addExt + Spec.Cost.divExt + R) +
        (c.config.numChallenges • Spec.Cost.challengeTerms c +
          numTerms c • (c.config.numChallenges • (2 • Spec.Cost.addExt))))))
      fun r => r.length = c.config.numChallenges := by
  rw [Plonk.evalVanishingPoly]
  refine (evaluateGateConstraints hg).bind fun cts hcts => (mapM' List.length_range fun i _ => ?_).bind fun _ _ =>
    evalL0.bind fun _ _ => ((mapM fun _ _ => challengeTerms).congr (by rw [List.length_range])).bind fun ts hts => ?_
  · exact (idx.bind fun _ _ => scalarMulExt).congr (zero_add _)
  · have hl : (ts.map Prod.fst ++ ts.flatMap Prod.snd ++ cts).reverse.length = numTerms c := by
      rw [List.length_reverse, List.length_append, List.length_append, List.length_map, hcts,
        length_flatMap_const (k := c.numPartialProducts + 1) fun t ht => hts.2 t ht, hts.1, List.length_range,
        numTerms]
    exact hl ▸ foldlM_inv _ (fun _ _ _ _ => reduceStep) (by simp)

theorem plonk {c : CommonCircuitData} {gates : List Gates.Gate} {ch : ProofChallenges Fr QEV} {o : OpeningSet QEV}
    {h : Fin 4 → Fr}
    (hg : ∀ gi ∈ gates.zipIdx, Spec.Gates.GateOk c.selectorsInfo o.constants.length o.wires.length gi.1 gi.2) :
    Costs (Plonk.verify c gates ch o h) (Spec.Cost.plonk c gates) Any := by
  rw [Plonk.verify]
  refine congr (bind (P := Any) (k := c.degreeBits • Spec.Cost.mulExt) ?_ fun _ _ =>
    (evalVanishingPoly (v := ⟨o.constants, o.wires, h⟩) hg).bind fun vs hvs =>
    subExt.bind fun _ _ => forM' (n := c.config.numChallenges) (k := c.quotientDegreeFactor • Spec.Cost.mulExt + Spec.Cost.mulExt + 2 • R)
      (by rw [List.length_zipIdx]; exact hvs) fun vi _ => ?_) ?_
  · rw [Plonk.expPowerOf2Extension]
    exact foldlM' List.length_range fun _ _ _ => mulExt
  · rw [Plonk.quotientCheck]
    exact (slice.bind fun q hq => (reduceWithPowers (hq.trans (Nat.add_sub_cancel_left _ _))).bind fun _ _ =>
      mulExt.bind fun _ _ => assertIsEqualExt).congr (by rw [zero_add, add_assoc])
  · rw [Spec.Cost.plonk]
    generalize numTerms c • (_ : Tally) = x1
    generalize c.config.numChallenges • Spec.Cost.challengeTerms c = x2
    generalize c.config.numChallenges • (_ : Tally) = x3
    abel

/-! ## Merkle paths -/

theorem capLookup {b l : List Fr} : Costs (Fri.capLookup b l) (10 • R) Any := by
  rw [Fri.capLookup]
  refine ite_panic fun _ => ?_
  apply congr
  · cost
  · decide

theorem merkle {leaf bits cb cap sib : List Fr} {n : ℕ} (h : sib.length = n) :
    Costs (Fri.verifyMerkleProofToCap leaf bits cb cap sib) (Spec.Cost.merkle n) Any := by
  rw [Fri.verifyMerkleProofToCap]
  refine congr (bind (P := Any) (foldlM' (n := n) (k := 2 • R) (by rw [List.length_zipIdx]; exact h) fun _ _ _ => ?_) fun _ _ =>
    capLookup.bind fun _ _ => assertEq) ?_
  · apply congr
    · rw [Fri.merkleStep]; cost
    · decide
  · rw [Spec.Cost.merkle, succ_nsmul R 10]

/-! ## FRI -/

theorem expExt' {a : QEV} {e n : ℕ} (h : e = n) : Costs (Verif.expExt a e) (Spec.Cost.expExt n) Any := h ▸ expExt

theorem expFromBits {b : Fp} {l : List Fr} {n : ℕ} (h : l.length = n) :
    Costs (Fri.expFromBitsConstBase b l) (n • (3 • Spec.Cost.mulAdd)) Any := by
  rw [Fri.expFromBitsConstBase]
  refine foldlM' (n := n) (by rw [List.length_zipIdx]; exact h) fun _ _ _ => ?_
  apply congr
  · cost
  · abel

theorem calculateSubgroupX {l : List Fr} {m n : ℕ} (h : l.length = n) :
    Costs (Fri.calculateSubgroupX l m) (n • (3 • Spec.Cost.mulAdd) + Spec.Cost.mulAdd) Any := by
  rw [Fri.calculateSubgroupX]
  exact (orPanic.bind fun _ _ => (expFromBits (n := n) (by rw [List.length_reverse]; exact h)).bind fun _ _ => mul).congr (zero_add _)

theorem combineBatch {p : List (FriEvalProof Fr)} {a x s : QEV} {b : BatchInfo QEV × QEV} {n : ℕ}
    (h : b.1.polynomials.length = n) : Costs (Fri.combineBatch p a x s b) (Spec.Cost.combineBatch n) Any := by
  rw [Fri.combineBatch]
  refine congr ((mapM' (k := 0) h fun _ _ => ?_).bind fun ev hev => (reduceWithPowers hev).bind fun _ _ =>
    subExt.bind fun _ _ => (expExt' hev).bind fun _ _ => mulExt.bind fun _ _ => inverseExt.bind fun _ _ =>
      assertEq.bind fun _ _ => mulAddExt) ?_
  · exact (idx.bind fun _ _ => idx.bind fun _ _ => value).congr rfl
  · rw [Spec.Cost.combineBatch, nsmul_zero]; abel

theorem friCombineInitial {inst : InstanceInfo QEV} {p : List (FriEvalProof Fr)} {a x : QEV} {y : List QEV}
    {b1 b2 : BatchInfo QEV} {n1 n2 : ℕ} (hb : inst.batches = [b1, b2]) (h1 : b1.polynomials.length = n1)
    (h2 : b2.polynomials.length = n2) :
    Costs (Fri.friCombineInitial inst p a x y) (Spec.Cost.combineBatch n1 + Spec.Cost.combineBatch n2) Any := by
  rw [Fri.friCombineInitial]
  refine ite_panic fun hl => ?_
  rw [hb, not_not] at hl
  obtain ⟨y1, y2, rfl⟩ := List.length_eq_two.1 hl.symm
  rw [hb]
  exact (combineBatch h1).bind fun _ _ => ((combineBatch h2).bind fun _ _ => value).congr (add_zero _)

theorem finalPolyEval {l : List QEV} {x : QEV} {n : ℕ} (h : l.length = n) :
    Costs (Fri.finalPolyEval l x) (n • Spec.Cost.mulExt) Any := by
  rw [Fri.finalPolyEval]
  exact foldlM' (n := n) (by rw [List.length_reverse]; exact h) fun _ _ _ => mulAddExt

theorem interpolate {x : QEV} {xs ys ws : List QEV} {n : ℕ} (h : xs.length = n) :
    Costs (Fri.interpolate x xs ys ws) (Spec.Cost.interpolate n) Any := by
  rw [Fri.interpolate]
  refine ite_panic fun hl => ?_
  have h1 : (xs.zip (ys.zip ws)).length = n := by rw [List.length_zip, List.length_zip]; omega
  have h2 : (xs.zip ys).length = n := by rw [List.length_zip]; omega
  refine congr ((foldlM' h fun _ _ _ => subMulExt).bind fun _ _ =>
    (foldlM' (k := 2 • Spec.Cost.addExt + Spec.Cost.divExt + Spec.Cost.mulExt) h1 fun _ _ _ => ?_).bind fun _ _ =>
    mulExt.bind fun _ _ => (foldlM' (k := Spec.Cost.addExt + Spec.Cost.lookup) h2 fun _ _ _ => ?_).bind fun _ _ => lookup) ?_
  · apply congr
    · cost
    · abel
  · cost
  · rw [Spec.Cost.interpolate]
    generalize n • (_ + _ + Spec.Cost.mulExt) = a
    generalize n • (_ + Spec.Cost.lookup) = b
    abel

theorem weightLoop {l : List QEV} {x : QEV} {i : ℕ} (h : l.length = 16) (hi : i < 16) :
    Costs (Fri.weightLoop l x i) (15 • Spec.Cost.mulExt) Any := by
  rw [Fri.weightLoop]
  refine (foldlM_sum Any (kf := fun xj : QEV × ℕ => if i ≠ xj.2 then Spec.Cost.mulExt else 0) (fun _ _ _ _ =>
    ite (fun _ => subMulExt) fun _ => value) trivial).congr ?_
  have e : (l.zipIdx.map fun xj => if i ≠ xj.2 then Spec.Cost.mulExt else 0) =
      (List.range' 0 16).map fun j => if i ≠ j then Spec.Cost.mulExt else 0 := by
    rw [← h, ← List.zipIdx_map_snd 0 l, List.map_map]; rfl
  rw [e]
  clear e
  interval_cases i <;> rfl

theorem computeEvaluation {x : Fr} {bits : List Fr} {evals : List QEV} {b : QEV} (h : bits.length = 4) :
    Costs (Fri.computeEvaluation x bits 4 evals b) Spec.Cost.computeEvaluation Any := by
  rw [Fri.computeEvaluation]
  refine ite_panic fun hl => ite_panic fun _ => ?_
  have hl : evals.length = 16 := by
    rw [not_not, show goShl1 4 = 16 by decide] at hl
    omega
  refine congr (orPanic.bind fun g _ => orPanic.bind fun _ _ => (expFromBits (n := 4) (by rw [List.length_reverse]; exact h)).bind
    fun _ _ => mul.bind fun start _ => bind (P := fun r : List QEV => r.length = 16) (k := 15 • Spec.Cost.mulExt) ?_ fun xs hxs =>
    (mapM' (n := 16) (k := 15 • Spec.Cost.mulExt + Spec.Cost.inverseExt + R) (by rw [List.length_zipIdx]; exact hxs)
      fun xi hxi => ?_).bind fun _ _ => interpolate hxs) ?_
  · rw [hl]
    refine (foldlM_pos (kf := fun _ => Spec.Cost.mulExt) (fun i (r : List QEV) => r.length = i + 1) (fun i s _ _ hs => ?_) rfl).congr
      (by decide)
    exact (mulExt.bind fun _ _ => pure (by simp [hs])).congr (add_zero _)
  · have := NoPanic.zipIdx_lt hxi
    exact ((weightLoop hxs (by omega)).bind fun _ _ => inverseExt.bind fun _ _ => assertEq.bind fun _ _ => value).congr
      (by rw [add_zero, add_assoc])
  · rw [Spec.Cost.computeEvaluation]; simp only [zero_add]; abel

theorem evalLookup {bits : List Fr} {evals : List QEV} : Costs (Fri.evalLookup bits evals) (5 • Spec.Cost.lookup2) Any := by
  apply congr
  · rw [Fri.evalLookup]; cost
  · decide

theorem reductionStep {ch : FriChallenges Fr QEV} {proof : FriProof Fr QEV} {steps : List (FriQueryStep QEV)}
    {cb : List Fr} {st : Fri.RoundState} {ai : ℕ × ℕ} {n : ℕ} (h : ∀ s, steps[ai.2]? = some s → s.siblings.length = n) :
    Costs (Fri.reductionStep ch proof steps cb st ai) (Spec.Cost.reductionStep n) Any := by
  rw [Fri.reductionStep]
  refine congr (idx.bind fun step hstep => sliceFrom.bind fun _ _ => sliceTo.bind fun bits hbits => ite_panic fun ha =>
    (?_ : Costs _ (Spec.Cost.reductionStep n) _)) (by simp only [zero_add])
  rw [not_not] at ha
  rw [ha] at hbits ⊢
  refine congr (evalLookup.bind fun _ _ => glAssertIsEqual.bind fun _ _ => glAssertIsEqual.bind fun _ _ =>
    idx.bind fun _ _ => (computeEvaluation hbits).bind fun _ _ => idx.bind fun _ _ => (merkle (h _ hstep)).bind fun _ _ =>
    (foldlM' List.length_range fun _ _ _ => mul).bind fun _ _ => value) ?_
  rw [Spec.Cost.reductionStep]; simp only [zero_add, add_zero]; abel

theorem verifyInitialProof {xb cb : List Fr} {p : List (FriEvalProof Fr)} {caps : List (List Fr)} {m n : ℕ}
    (hl : p.length = m) (hn : ∀ e ∈ p, e.siblings.length = n) :
    Costs (Fri.verifyInitialProof xb p caps cb) (m • Spec.Cost.merkle n) Any := by
  rw [Fri.verifyInitialProof]
  refine ite_panic fun h => forM' (by rw [List.length_zip, ← not_not.1 h, min_self, hl]) fun ec hec => ?_
  exact merkle (hn _ (List.of_mem_zip hec).1)

/-- Batches of the instance of a circuit. -/
def Batches (c : CommonCircuitData) (inst : InstanceInfo QEV) : Prop :=
  ∃ b1 b2, inst.batches = [b1, b2] ∧ b1.polynomials.length = numPolys c ∧ b2.polynomials.length = c.config.numChallenges

theorem queryRound {c : CommonCircuitData} {inst : InstanceInfo QEV} {ch : FriChallenges Fr QEV} {y : List QEV}
    {caps : List (List Fr)} {proof : FriProof Fr QEV} {x : Fr} {n : ℕ} {round : FriQueryRound Fr QEV}
    (hi : Batches c inst) (ho : inst.oracles.length = 4) (hf : proof.finalPoly.length = finalPoly c)
    (hr : Spec.Fri.RoundShape c.friParams inst round) :
    Costs (Fri.verifyQueryRound c.friParams inst ch y caps proof x n round) (Spec.Cost.queryRound c) Any := by
  obtain ⟨b1, b2, hb, h1, h2⟩ := hi
  rw [Fri.verifyQueryRound]
  refine congr (bind (P := Any) (k := 0) ?_ fun _ _ => reduce.bind fun _ _ => toBinary.bind fun _ _ =>
    sliceTo.bind fun xb hxb => bind (P := Any) (k := 0) ?_ fun _ _ =>
    (verifyInitialProof (n := ldeBits c - c.friParams.config.capHeight) (hr.initial.1.trans ho) fun e he => ?_).bind fun _ _ => (calculateSubgroupX hxb).bind fun _ _ =>
    (friCombineInitial hb h1 h2).bind fun _ _ => (bind (P := Any) ((foldlM_pos (fun _ _ => True) (kf := fun i =>
      Spec.Cost.reductionStep (ldeBits c - c.friParams.config.capHeight - (c.friParams.reductionArityBits.take (i + 1)).sum))
      (fun i s ai hai _ => reductionStep fun st hst => ?_) trivial).congr (by rw [List.length_zipIdx])) fun _ _ =>
    (finalPolyEval hf).bind fun _ _ => glAssertIsEqual.bind fun _ _ => glAssertIsEqual)) ?_
  · rw [Fri.assertNoncanonicalIndicesOK]
    exact ite_panic fun _ => value
  · split
    · exact sliceFrom.any
    · exact goPanic
  · obtain ⟨i, hi, rfl⟩ := List.mem_iff_getElem.1 he
    obtain ⟨o, ho⟩ : ∃ o, inst.oracles[i]? = some o := ⟨_, List.getElem?_eq_getElem (hr.initial.1 ▸ hi)⟩
    have := (hr.initial.2 i _ o (List.getElem?_eq_getElem hi) ho).2
    rw [ldeBits]
    omega
  · rw [List.getElem?_zipIdx] at hai
    obtain ⟨a, ha, rfl⟩ := Option.map_eq_some_iff.1 hai
    simp only [Nat.zero_add] at hst
    have := (hr.steps.2 i st a hst ha).2
    rw [ldeBits]
    omega
  · rw [Spec.Cost.queryRound, toBinary64, if_neg (by norm_num), show c.friParams.degreeBits + c.friParams.config.rateBits =
      ldeBits c from rfl]
    simp only [zero_add, add_zero]
    generalize (List.map (β := Tally) _ _).sum = t
    generalize ldeBits c • (_ : Tally) = t1
    generalize 4 • Spec.Cost.merkle _ = t2
    abel

theorem validateFriProofShape {proof : FriProof Fr QEV} {inst : InstanceInfo QEV} {q : FriParams} :
    Costs (Fri.validateFriProofShape proof inst q) 0 Any := by
  rw [Fri.validateFriProofShape]
  refine congr ((forM fun _ _ => ite_panic fun _ => value).bind fun _ _ => (forM (k := 0) fun r _ => ?_).bind fun _ _ =>
    ite_panic fun _ => ite_panic fun _ => value) (by simp only [nsmul_zero, add_zero])
  rw [Fri.validateRound]
  refine ite_panic fun _ => congr ((forM (k := 0) fun e _ => ?_).bind fun _ _ => ite_panic fun _ =>
    (foldlM (k := 0) fun s x _ => ?_).bind fun _ _ => value) (by simp only [nsmul_zero, add_zero])
  · rw [Fri.validateEvalProof]
    exact (idx.bind fun _ _ => ite_panic fun _ => ite_panic fun _ => value).congr rfl
  · rw [Fri.validateStep]
    exact (idx.bind fun _ _ => ite_panic fun _ => ite_panic fun _ => value).congr rfl

theorem fri {c : CommonCircuitData} {inst : InstanceInfo QEV} {ch : FriChallenges Fr QEV} {o : OpeningSet QEV}
    {caps : List (List Fr)} {proof : FriProof Fr QEV} (hi : Batches c inst) (hol : inst.oracles.length = 4)
    (ho : Spec.Fri.OpeningsShape c o) (hs : Spec.Fri.ProofShape c.friParams inst proof) :
    Costs (Fri.verifyFriProof c.friParams inst (Fri.toOpenings o) ch caps proof)
      (item (.check ((64 + 2 ^ 64 - c.friParams.config.proofOfWorkBits % 2 ^ 64) % 2 ^ 64)) +
        (numPolys c + c.config.numChallenges) • Spec.Cost.mulExt + c.friParams.config.numQueryRounds • Spec.Cost.queryRound c)
      Any := by
  rw [Fri.verifyFriProof]
  refine congr (validateFriProofShape.bind fun _ _ => bind (P := Any) (k := item (.check ((64 + 2 ^ 64 -
    c.friParams.config.proofOfWorkBits % 2 ^ 64) % 2 ^ 64))) ?_ fun _ _ => ite_panic fun hn => bind (P := Any)
    (k := numPolys c • Spec.Cost.mulExt + c.config.numChallenges • Spec.Cost.mulExt) ?_ fun y _ => ite_panic fun hq =>
    forM' (n := c.friParams.config.numQueryRounds) (k := Spec.Cost.queryRound c) ?_ fun xi _ => ?_) ?_
  · exact check
  · rw [Fri.fromOpeningsAndAlpha, Fri.toOpenings]
    refine (mapM_sum (P := Any) (kf := fun l : List QEV => l.length • Spec.Cost.mulExt)
      fun _ _ => reduceWithPowers rfl).any.congr ?_
    simp only [List.map_cons, List.map_nil, List.sum_cons, List.sum_nil, add_zero, List.length_append, ho.constants,
      ho.plonkSigmas, ho.wires, ho.plonkZs, ho.plonkZsNext, ho.partialProducts, ho.quotientPolys, numPolys, Nat.mul_add,
      Nat.mul_one, Nat.add_assoc]
  · rw [List.length_zipIdx, not_not.1 hq, not_not.1 hn]
  · exact (idx.bind fun r hr => queryRound hi hol hs.final.2 (hs.rounds r (List.mem_of_getElem? hr))).congr (zero_add _)
  · rw [add_nsmul, zero_add, ← add_assoc, ← add_assoc]

/-! ## Public inputs -/

theorem absorbLoop : ∀ (n : ℕ) {s : PoseidonGL.State} {l : List Fr}, l.length = n →
    Costs (PoseidonGL.absorbLoop PoseidonGL.poseidon s l) (((n + 7) / 8) • Spec.Cost.poseidon) Any := by
  intro n
  induction n using Nat.strong_induction_on with
  | _ n ih =>
    intro s l hl
    match l, hl with
    | [], hl =>
      subst hl
      rw [PoseidonGL.absorbLoop]
      exact value
    | x :: xs, hl =>
      rw [PoseidonGL.absorbLoop]
      have h8 : ((x :: xs).drop PoseidonGL.SPONGE_RATE).length = n - 8 := by
        rw [List.length_drop, hl]; rfl
      have hn : 0 < n := by rw [← hl]; simp
      refine (poseidonGL.bind fun _ _ => ih (n - 8) (by omega) h8).congr ?_
      rw [← succ_nsmul']
      congr 1
      omega

theorem publicInputs {l : List Fr} {n : ℕ} (h : l.length = n) :
    Costs (Verifier.getPublicInputsHash PoseidonGL.poseidon l) (Spec.Cost.publicInputs n) Any := by
  rw [Verifier.getPublicInputsHash, PoseidonGL.hashNoPadWith]
  refine congr ((mapM' h fun _ _ => reduce).bind fun _ hl => bind (P := Any) ?_ fun _ _ => value)
    ((by rw [add_zero]; rfl : n • Spec.Cost.reduce + (((n + 7) / 8) • Spec.Cost.poseidon + 0) = _))
  rw [PoseidonGL.hashNToMNoPadWith, if_neg (by norm_num)]
  refine ((absorbLoop n hl).bind fun _ _ => ?_).congr (add_zero _)
  rw [PoseidonGL.squeezeLoop, dif_pos (by simp [PoseidonGL.SPONGE_RATE])]
  exact value

/-! ## Sizes of the proof -/

theorem rangeCheckProof {c : CommonCircuitData} {proof : Proof Fr QEV} (ho : Spec.Fri.OpeningsShape c proof.openings)
    (hs : Spec.Fri.ProofShape c.friParams (Spec.Fri.plonkInstance c 0) proof.openingProof)
    (hn : proof.openingProof.rounds.length = c.friParams.config.numQueryRounds)
    (ha : ∀ a ∈ c.friParams.reductionArityBits, a = 4) :
    Costs (Verifier.rangeCheckProof proof) (Spec.Cost.rangeCheckProof c) Any := by
  have hl : ∀ {l : List QEV} {n : ℕ}, l.length = n → Costs (l.forM Verif.rangeCheckQE) ((2 * n) • Spec.Cost.rangeCheck) Any :=
    fun h => (forM' h fun _ _ => rangeCheckQE).congr (by rw [mul_comm, mul_nsmul'])
  rw [Verifier.rangeCheckProof]
  refine congr ((hl ho.constants).bind fun _ _ => (hl ho.plonkSigmas).bind fun _ _ => (hl ho.wires).bind fun _ _ =>
    (hl ho.plonkZs).bind fun _ _ => (hl ho.plonkZsNext).bind fun _ _ => (hl ho.partialProducts).bind fun _ _ =>
    (hl ho.quotientPolys).bind fun _ _ => (forM' (k := (leaves c + 32 * c.friParams.reductionArityBits.length) •
      Spec.Cost.rangeCheck) hn fun r hr => ?_).bind fun _ _ => (hl hs.final.2).bind fun _ _ => rangeCheck) ?_
  · have hr := hs.rounds r hr
    refine congr (bind (P := Any) (k := leaves c • Spec.Cost.rangeCheck) ?_ fun _ _ =>
      forM' (k := 32 • Spec.Cost.rangeCheck) hr.steps.1 fun s hsm => ?_) ?_
    · refine (forM_sum (kf := fun e : FriEvalProof Fr => e.elements.length • Spec.Cost.rangeCheck) fun e _ =>
        forM fun _ _ => rangeCheck).congr ?_
      have hol : (Spec.Fri.plonkInstance c 0).oracles = [⟨c.numConstants + c.config.numRoutedWires, false⟩,
        ⟨c.config.numWires, true⟩, ⟨c.config.numChallenges * (1 + c.numPartialProducts), true⟩,
        ⟨c.config.numChallenges * c.quotientDegreeFactor, true⟩] := rfl
      have h4 : r.initial.length = 4 := hr.initial.1
      obtain ⟨e0, e1, e2, e3, he⟩ : ∃ e0 e1 e2 e3, r.initial = [e0, e1, e2, e3] := by
        match h : r.initial, h4 with
        | [e0, e1, e2, e3], _ => exact ⟨e0, e1, e2, e3, rfl⟩
      have hi := hr.initial.2
      rw [he, hol] at hi
      have h0 := (hi 0 e0 _ rfl rfl).1
      have h1 := (hi 1 e1 _ rfl rfl).1
      have h2 := (hi 2 e2 _ rfl rfl).1
      have h3 := (hi 3 e3 _ rfl rfl).1
      simp only [he, List.map_cons, List.map_nil, List.sum_cons, List.sum_nil, add_zero, ← add_nsmul, h0, h1, h2, h3]
      congr 1
      rw [leaves, numPolys]
      cases c.friParams.isHiding <;> simp <;> ring
    · obtain ⟨i, hi, rfl⟩ := List.mem_iff_getElem.1 hsm
      obtain ⟨a, ha'⟩ : ∃ a, c.friParams.reductionArityBits[i]? = some a :=
        ⟨_, List.getElem?_eq_getElem (hr.steps.1 ▸ hi)⟩
      have h16 := (hr.steps.2 i _ a (List.getElem?_eq_getElem hi) ha').1
      rw [ha a (List.mem_of_getElem? ha')] at h16
      exact hl h16
    · rw [← mul_nsmul', ← add_nsmul, mul_comm 32]
  · rw [Spec.Cost.rangeCheckProof, ← mul_nsmul']
    generalize hL : leaves c + 32 * c.friParams.reductionArityBits.length = L
    have h1 : Spec.Cost.rangeCheck = 1 • Spec.Cost.rangeCheck := (one_nsmul _).symm
    generalize Spec.Cost.rangeCheck = r at h1 ⊢
    conv_lhs => enter [2, 2, 2, 2, 2, 2, 2, 2, 2]; rw [h1]
    simp only [← add_nsmul]
    congr 1
    rw [numPolys, finalPoly]
    ring

end Costs

/-! ## Transcript -/

namespace Challenger

open Costs

attribute [local irreducible] Costs

/-- The buffers of the challenger have the lengths of the count. -/
def Fill (s : Sponge) (c : Chip) : Prop := c.inputBuffer.length = s.pending ∧ c.outputBuffer.length = s.outputs

/-- A method moves the count by `f` and returns a value satisfying `Q`. -/
def Moves (m : ChipM α) (f : Sponge → Sponge) (Q : α → Prop) : Prop :=
  (∀ s, ∃ k, (f s).cost = s.cost + k) ∧
    ∀ s c k, Fill s c → (f s).cost = s.cost + k → Costs (m c) k fun r => Q r.1 ∧ Fill (f s) r.2

namespace Moves

theorem pure {a : α} {Q : α → Prop} (h : Q a) : Moves (Pure.pure a) id Q :=
  ⟨fun _ => ⟨0, (add_zero _).symm⟩, fun s c k hc hk => by
    rw [id, left_eq_add] at hk
    exact (Costs.pure (a := (a, c)) ⟨h, hc⟩).congr hk.symm⟩

theorem bind {m : ChipM α} {k : α → ChipM β} {f g : Sponge → Sponge} {P : α → Prop} {Q : β → Prop} (h : Moves m f P)
    (hg : ∀ s, ∃ k, (g s).cost = s.cost + k) (hk : ∀ a, P a → Moves (k a) g Q) : Moves (m >>= k) (g ∘ f) Q := by
  refine ⟨fun s => ?_, fun s c k hc hk' => ?_⟩
  · obtain ⟨k1, e1⟩ := h.1 s
    obtain ⟨k2, e2⟩ := hg (f s)
    exact ⟨k1 + k2, by rw [Function.comp_apply, e2, e1, add_assoc]⟩
  · obtain ⟨k1, e1⟩ := h.1 s
    obtain ⟨k2, e2⟩ := hg (f s)
    rw [Function.comp_apply, e2, e1, add_assoc, add_right_inj] at hk'
    exact ((h.2 s c k1 hc e1).bind fun r hr => (hk r.1 hr.1).2 (f s) r.2 k2 hr.2 e2).congr hk'

theorem then_ [Inhabited α] {m : ChipM α} {k : α → ChipM β} {f g : Sponge → Sponge} {Q : β → Prop} (h : Moves m f Any)
    (hk : ∀ a, Moves (k a) g Q) : Moves (m >>= k) (g ∘ f) Q := h.bind (hk default).1 fun a _ => hk a

theorem list [Inhabited σ] {m : ChipM (List σ)} {k : List σ → ChipM β} {f g : Sponge → Sponge} {Q : β → Prop} {n : ℕ}
    (h : Moves m f fun r => r.length = n) (hk : ∀ a, a.length = n → Moves (k a) g Q) : Moves (m >>= k) (g ∘ f) Q :=
  h.bind (hk (List.replicate n default) (by simp)).1 hk

theorem congr {m : ChipM α} {f g : Sponge → Sponge} {Q : α → Prop} (h : Moves m f Q) (e : f = g) : Moves m g Q := e ▸ h

theorem iterate {f : Sponge → Sponge} (h : ∀ s, ∃ k, (f s).cost = s.cost + k) (n : ℕ) :
    ∀ s, ∃ k, (f^[n] s).cost = s.cost + k := by
  induction n with
  | zero => exact fun s => ⟨0, (add_zero _).symm⟩
  | succ n ih =>
    intro s
    obtain ⟨k1, e1⟩ := h s
    obtain ⟨k2, e2⟩ := ih (f s)
    exact ⟨k1 + k2, by rw [Function.iterate_succ_apply, e2, e1, add_assoc]⟩

theorem comp {f g : Sponge → Sponge} (hf : ∀ s, ∃ k, (f s).cost = s.cost + k) (hg : ∀ s, ∃ k, (g s).cost = s.cost + k) :
    ∀ s, ∃ k, ((g ∘ f) s).cost = s.cost + k := fun s => by
  obtain ⟨k1, e1⟩ := hf s
  obtain ⟨k2, e2⟩ := hg (f s)
  exact ⟨k1 + k2, by rw [Function.comp_apply, e2, e1, add_assoc]⟩

theorem forM {m : σ → ChipM Unit} {f : Sponge → Sponge} (hf : ∀ s, ∃ k, (f s).cost = s.cost + k) {l : List σ} {n : ℕ}
    (hl : l.length = n) (h : ∀ x ∈ l, Moves (m x) f Any) : Moves (l.forM m) f^[n] Any := by
  induction l generalizing n with
  | nil => subst hl; exact pure trivial
  | cons x l ih =>
    subst hl
    exact ((h x (by simp)).bind (iterate hf _) fun _ _ => ih rfl fun y hy => h y (by simp [hy])).congr
      (Function.iterate_succ _ _).symm

theorem mapM {m : σ → ChipM β} {f : Sponge → Sponge} (hf : ∀ s, ∃ k, (f s).cost = s.cost + k) {l : List σ} {n : ℕ}
    (hl : l.length = n) (h : ∀ x ∈ l, Moves (m x) f Any) : Moves (l.mapM m) f^[n] fun r => r.length = n := by
  induction l generalizing n with
  | nil => subst hl; exact pure rfl
  | cons x l ih =>
    subst hl
    rw [List.mapM_cons]
    exact ((h x (by simp)).bind (iterate hf _) fun _ _ => ((ih rfl fun y hy => h y (by simp [hy])).bind
      (fun s => ⟨0, (add_zero _).symm⟩) fun r hr => pure (by rw [List.length_cons, hr, List.length_cons])).congr
      (Function.id_comp _)).congr (Function.iterate_succ _ _).symm

end Moves

theorem duplexing_costs (c : Chip) : Costs (duplexing PoseidonGL.poseidon c)
    (c.inputBuffer.length • Spec.Cost.reduce + Spec.Cost.poseidon)
    fun r => r.2.inputBuffer.length = 0 ∧ r.2.outputBuffer.length = 8 := by
  rw [duplexing]
  refine ite_panic fun _ => ((mapM' rfl fun _ _ => Costs.reduce).bind fun _ _ => (poseidonGL.bind fun st _ =>
    Costs.pure ⟨rfl, ?_⟩).congr (add_zero _))
  simp [PoseidonGL.SPONGE_RATE]

theorem adds_observe (s : Sponge) : ∃ k, (observe s).cost = s.cost + k := by
  rw [observe]
  split
  · exact ⟨_, rfl⟩
  · exact ⟨0, (add_zero _).symm⟩

theorem adds_challenge (s : Sponge) : ∃ k, (challenge s).cost = s.cost + k := by
  rw [challenge]
  split
  · exact ⟨_, rfl⟩
  · exact ⟨0, (add_zero _).symm⟩

theorem moves_observeElement (x : Fr) : Moves (observeElement PoseidonGL.poseidon x) observe Any := by
  refine ⟨adds_observe, fun s c k hc hk => ?_⟩
  have hlen : (c.inputBuffer ++ [x]).length = s.pending + 1 := by rw [List.length_append, hc.1]; rfl
  have e : observeElement PoseidonGL.poseidon x c = if (c.inputBuffer ++ [x]).length = PoseidonGL.SPONGE_RATE then
    duplexing PoseidonGL.poseidon ⟨c.spongeState, c.inputBuffer ++ [x], []⟩
    else Pure.pure ((), ⟨c.spongeState, c.inputBuffer ++ [x], []⟩) := rfl
  rw [e, hlen]
  rw [observe] at hk ⊢
  by_cases h : s.pending + 1 = 8
  · rw [if_pos h] at hk ⊢
    rw [if_pos (show s.pending + 1 = PoseidonGL.SPONGE_RATE from h)]
    refine ((duplexing_costs _).congr ?_).mono fun r hr => ⟨trivial, hr⟩
    rw [hlen, h]
    exact add_left_cancel hk
  · rw [if_neg h] at hk ⊢
    rw [if_neg (show ¬ s.pending + 1 = PoseidonGL.SPONGE_RATE from h)]
    rw [left_eq_add] at hk
    exact (Costs.pure ⟨trivial, hlen, rfl⟩).congr hk.symm

theorem moves_getChallenge : Moves (getChallenge PoseidonGL.poseidon) challenge Any := by
  refine ⟨adds_challenge, fun s c k hc hk => ?_⟩
  have last : ∀ d : Chip, Costs (match d.outputBuffer.getLast? with
      | none => Verif.goPanic "index out of range"
      | some x => Pure.pure (x, (⟨d.spongeState, d.inputBuffer, d.outputBuffer.dropLast⟩ : Chip))) 0
      fun r => r.2.inputBuffer.length = d.inputBuffer.length ∧ r.2.outputBuffer.length = d.outputBuffer.length - 1 := by
    intro d
    split
    · exact Costs.goPanic
    · exact Costs.pure ⟨rfl, List.length_dropLast⟩
  rw [getChallenge, hc.1, hc.2]
  rw [challenge] at hk ⊢
  by_cases h : s.pending ≠ 0 ∨ s.outputs = 0
  · rw [if_pos h] at hk ⊢
    rw [if_pos h]
    refine (((duplexing_costs c).bind fun r hr => Costs.pure (Q := fun d : Chip => d.inputBuffer.length = 0 ∧
      d.outputBuffer.length = 8) hr).bind fun d hd => (last d).mono fun r hr => ⟨trivial, hr.1.trans hd.1, hr.2.trans (by rw [hd.2])⟩).congr ?_
    rw [add_zero, add_zero, hc.1]; exact add_left_cancel hk
  · rw [if_neg h] at hk ⊢
    rw [if_neg h]
    rw [left_eq_add] at hk
    refine ((Costs.pure (Q := fun d : Chip => d.inputBuffer.length = s.pending ∧ d.outputBuffer.length = s.outputs) hc).bind
      fun d hd => (last d).mono fun r hr => ⟨trivial, hr.1.trans hd.1, hr.2.trans (by rw [hd.2])⟩).congr ?_
    rw [hk, add_zero]

attribute [local irreducible] observeElement getChallenge

theorem moves_observeElements {l : List Fr} {n : ℕ} (h : l.length = n) :
    Moves (observeElements PoseidonGL.poseidon l) observe^[n] Any :=
  Moves.forM adds_observe h fun x _ => moves_observeElement x

theorem adds_observeHash (s : Sponge) : ∃ k, (Spec.Cost.observeHash s).cost = s.cost + k := by
  obtain ⟨k, e⟩ := Moves.iterate adds_observe 5 ⟨s.pending, s.outputs, s.cost + Spec.Cost.toVec⟩
  exact ⟨Spec.Cost.toVec + k, by rw [Spec.Cost.observeHash, e, add_assoc]⟩

theorem moves_observeBN254Hash (x : Fr) :
    Moves (observeBN254Hash PoseidonGL.poseidon x) Spec.Cost.observeHash Any := by
  refine Moves.bind (P := fun v : List Fr => v.length = 5)
    (f := fun s => ⟨s.pending, s.outputs, s.cost + Spec.Cost.toVec⟩) (g := observe^[5])
    ⟨fun s => ⟨_, rfl⟩, fun s c k hc hk => ?_⟩ (Moves.iterate adds_observe 5) fun v hv => moves_observeElements hv
  have := add_left_cancel hk
  exact ((toVec (x := x)).bind fun v hv => Costs.pure (a := (v, c)) ⟨hv, hc⟩).congr ((add_zero _).trans this)

theorem moves_observeCap {l : List Fr} {n : ℕ} (h : l.length = n) :
    Moves (observeCap PoseidonGL.poseidon l) Spec.Cost.observeHash^[n] Any :=
  Moves.forM adds_observeHash h fun x _ => moves_observeBN254Hash x

theorem moves_observeExtensionElements {l : List QEV} {n : ℕ} (h : l.length = n) :
    Moves (observeExtensionElements PoseidonGL.poseidon l) observe^[2 * n] Any :=
  (Moves.forM (Moves.iterate adds_observe 2) h fun _ _ => moves_observeElements rfl).congr
    (Function.iterate_mul _ _ _).symm

theorem moves_getN (n : ℕ) : Moves (getNChallenges PoseidonGL.poseidon n) challenge^[n] fun r => r.length = n :=
  Moves.mapM adds_challenge List.length_range fun _ _ => moves_getChallenge

theorem moves_getExtensionChallenge : Moves (getExtensionChallenge PoseidonGL.poseidon) challenge^[2] Any := by
  refine ((moves_getN 2).bind (g := id) (fun s => ⟨0, (add_zero _).symm⟩) fun v hv => ?_).congr (Function.id_comp _)
  obtain ⟨a, b, rfl⟩ := List.length_eq_two.1 hv
  exact Moves.pure trivial

theorem moves_capBeta {l : List Fr} {n : ℕ} (h : l.length = n) :
    Moves (capBeta PoseidonGL.poseidon l) (Spec.Cost.capBeta n) Any :=
  (moves_observeCap h).bind (Moves.iterate adds_challenge 2) fun _ _ => moves_getExtensionChallenge

theorem adds_capBeta (n : ℕ) (s : Sponge) : ∃ k, (Spec.Cost.capBeta n s).cost = s.cost + k :=
  Moves.comp (Moves.iterate adds_observeHash n) (Moves.iterate adds_challenge 2) s

attribute [local irreducible] observeElements observeHash observeBN254Hash observeCap observeExtensionElements getNChallenges
  getExtensionChallenge capBeta

theorem moves_getFriChallenges {caps : List (List Fr)} {fp : List QEV} {w : Fr} {cfg : FriConfig} {m n : ℕ}
    (hc : ∀ cap ∈ caps, cap.length = m) (hf : fp.length = n) :
    Moves (getFriChallenges PoseidonGL.poseidon caps fp w cfg) (fun s => challenge^[cfg.numQueryRounds + 1]
      (observe^[2 * n + 1] ((Spec.Cost.capBeta m)^[caps.length] (challenge^[2] s)))) Any := by
  rw [getFriChallenges]
  refine (moves_getExtensionChallenge.then_ fun _ => (Moves.mapM (adds_capBeta m) rfl fun cap hcap =>
    moves_capBeta (hc cap hcap)).list fun _ _ => (moves_observeExtensionElements hf).then_ fun _ =>
    (moves_observeElement w).then_ fun _ => moves_getChallenge.then_ fun _ => (moves_getN _).list fun _ _ =>
      Moves.pure trivial).congr (funext fun s => ?_)
  simp only [Function.comp_apply, id, Function.iterate_succ_apply', ← Function.iterate_succ_apply]

theorem transcript_costs {c : CommonCircuitData} {proof : Proof Fr QEV} {pih : Fin 4 → Fr} {vd : VerifierOnlyCircuitData}
    (ho : Spec.Fri.OpeningsShape c proof.openings)
    (hcaps : proof.wiresCap.length = 2 ^ c.friParams.config.capHeight ∧
      proof.plonkZsPartialProductsCap.length = 2 ^ c.friParams.config.capHeight ∧
      proof.quotientPolysCap.length = 2 ^ c.friParams.config.capHeight)
    (hc : ∀ cap ∈ proof.openingProof.commitCaps, cap.length = 2 ^ c.friParams.config.capHeight)
    (hf : proof.openingProof.finalPoly.length = finalPoly c)
    (hn : c.config.friConfig.numQueryRounds = c.friParams.config.numQueryRounds) :
    Costs (Verifier.getChallenges PoseidonGL.poseidon c proof pih vd)
      (Spec.Cost.transcript c proof.openingProof.commitCaps.length) Any := by
  have h1 : ((Fri.toOpenings proof.openings).getD 0 []).length = numPolys c := by
    simp only [Fri.toOpenings, List.getD_cons_zero, List.length_append, ho.constants, ho.plonkSigmas, ho.wires, ho.plonkZs,
      ho.partialProducts, ho.quotientPolys, numPolys]
    ring
  have hop : Moves (observeOpenings PoseidonGL.poseidon (Fri.toOpenings proof.openings))
      observe^[2 * (numPolys c + c.config.numChallenges)] Any := by
    refine ((moves_observeExtensionElements h1).then_ fun _ => (moves_observeExtensionElements ho.plonkZsNext).then_ fun _ =>
      Moves.pure trivial).congr ?_
    rw [Function.id_comp, ← Function.iterate_add, Nat.mul_add, Nat.add_comm]
  have hpih : Moves (observeHash PoseidonGL.poseidon pih) observe^[4] Any := by
    unfold observeHash
    exact moves_observeElements List.length_ofFn
  have hall : Moves (Verifier.challengesM PoseidonGL.poseidon c proof pih vd) (fun s =>
      let cap := 2 ^ c.friParams.config.capHeight
      let s := observe^[4] (Spec.Cost.observeHash s)
      let s := challenge^[2 * c.config.numChallenges] (Spec.Cost.observeHash^[cap] s)
      let s := challenge^[c.config.numChallenges] (Spec.Cost.observeHash^[cap] s)
      let s := challenge^[2] (Spec.Cost.observeHash^[cap] s)
      let s := challenge^[2] (observe^[2 * (numPolys c + c.config.numChallenges)] s)
      let s := observe^[2 * finalPoly c + 1] ((Spec.Cost.capBeta cap)^[proof.openingProof.commitCaps.length] s)
      challenge^[c.config.friConfig.numQueryRounds + 1] s) Any := by
    rw [Verifier.challengesM]
    refine ((moves_observeBN254Hash _).then_ fun _ => hpih.then_ fun _ => (moves_observeCap hcaps.1).then_ fun _ =>
      (moves_getN _).list fun _ _ => (moves_getN _).list fun _ _ => (moves_observeCap hcaps.2.1).then_ fun _ =>
      (moves_getN _).list fun _ _ => (moves_observeCap hcaps.2.2).then_ fun _ => moves_getExtensionChallenge.then_ fun _ =>
      hop.then_ fun _ => (moves_getFriChallenges hc hf).bind (g := id) (fun s => ⟨0, (add_zero _).symm⟩)
        fun _ _ => Moves.pure trivial).congr (funext fun s => ?_)
    simp only [Function.comp_apply, id, Nat.two_mul c.config.numChallenges, Function.iterate_add_apply]
  rw [Verifier.getChallenges]
  refine ((hall.2 ⟨0, 0, 0⟩ newChip _ ⟨rfl, rfl⟩ (zero_add _).symm).bind fun _ _ => value).congr ?_
  rw [add_zero, Spec.Cost.transcript, hn]

end Challenger

/-! ## The verifier -/

namespace Costs

attribute [local irreducible] Costs Verifier.rangeCheckProof Verifier.getPublicInputsHash Verifier.getChallenges
  Plonk.verify Fri.verifyFriProof

theorem getInstance {c : CommonCircuitData} {z : QEV} (hd : c.degreeBits ≤ 32) : Costs (Fri.getInstance c z) Spec.Cost.mulExt
    fun inst => Batches c inst ∧ inst.oracles = (Spec.Fri.plonkInstance c 0).oracles := by
  refine (post (Q := Batches c) (R := fun inst => inst.oracles = (Spec.Fri.plonkInstance c 0).oracles) ?_
    ((safe_getInstance c hd z).post.mono fun _ h => h.1))
  rw [Fri.getInstance]
  refine (orPanic.bind fun _ _ => mulExt.bind fun _ _ => pure ⟨_, _, rfl, ?_, ?_⟩).congr (by rw [zero_add, add_zero])
  · simp only [Fri.friAllPolys, Fri.friPreprocessedPolys, Fri.friWirePolys, Fri.friZSPartialProductsPolys,
      Fri.friQuotientPolys, Fri.polynomialInfoFromRange, List.length_append, List.length_map, List.length_range',
      Fri.numPreprocessedPolys_eq, Fri.numZSPartialProductsPolys, Fri.numQuotientPolys, numPolys, Nat.sub_zero]
  · simp [Fri.friZSPolys, Fri.polynomialInfoFromRange]

/-- The calls of the verifier. -/
theorem verify {c : CommonCircuitData} {gates : List Gates.Gate} {vd : VerifierOnlyCircuitData} {proof : Proof Fr QEV}
    {pis : List Fr} (hsup : Spec.Verifier.Supported c gates vd) (hs : Spec.Verifier.Shaped c proof pis)
    (hf : Spec.Fri.ProofShape c.friParams (Spec.Fri.plonkInstance c 0) proof.openingProof)
    (hn : proof.openingProof.rounds.length = c.friParams.config.numQueryRounds)
    (hn' : c.config.friConfig.numQueryRounds = c.friParams.config.numQueryRounds) :
    Costs (Verifier.verify PoseidonGL.poseidon c gates proof pis vd)
      (Spec.Cost.verify c gates proof.openingProof.commitCaps.length) Any := by
  rw [Verifier.verify]
  refine congr ((rangeCheckProof hs.openings hf hn hsup.arities).bind fun _ _ => (publicInputs hs.inputs).bind fun _ _ =>
    (Challenger.transcript_costs hs.openings hs.caps hf.caps hf.final.2 hn').bind fun _ _ =>
    (plonk fun gi hgi => hs.openings.constants.symm ▸ hs.openings.wires.symm ▸ hsup.gatesOk gi hgi).bind fun _ _ =>
    (getInstance hsup.degree).bind fun inst hi => fri hi.1 (by rw [hi.2]; rfl) hs.openings (shape_congr hi.2.symm hf)) ?_
  rw [Spec.Cost.verify, Spec.Cost.fri]
  abel

end Costs

end Verif
