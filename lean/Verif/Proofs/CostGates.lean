import Verif.Proofs.Cost

/-!
# Counting the calls of a generator: gates
-/

set_option autoImplicit false

namespace Verif

open Circ Gates Spec.Layout Spec.Cost

namespace Costs

attribute [local irreducible] Costs Verif.mulExt Verif.addExt Verif.subExt Verif.scalarMulExt Verif.reduceWithPowers
  Gates.slice Verif.idx Verif.orPanic Verif.addAlg Verif.subAlg Verif.mulAlg Verif.scalarMulAlg
  Verif.partialInterpolate PoseidonGL.constantLayerExt PoseidonGL.sBoxMonomialExt PoseidonGL.sBoxLayerExt
  PoseidonGL.mdsLayerExt PoseidonGL.mdsPartialLayerFastExt PoseidonGL.mdsPartialLayerInitExt
  EvaluationVars.getLocalExtAlgebra Gates.sBoxInputs

theorem getLocalExtAlgebra {v : Vars} {r : Gates.Range} : Costs (v.getLocalExtAlgebra r) 0 Any := by
  apply congr
  · rw [EvaluationVars.getLocalExtAlgebra]; cost
  · rfl

macro_rules | `(tactic| cost_step) => `(tactic| with_reducible first
  | apply Costs.getLocalExtAlgebra | apply Costs.slice | apply Costs.partialInterpolate)

theorem collect {n : ℕ} {f : ℕ → Circ (List QEV)} {k : Tally} (h : ∀ i, Costs (f i) k Any) :
    Costs (Gates.collect n f) (n • k) Any := by
  apply congr
  · rw [Gates.collect]; cost; exact h _
  · rw [List.length_range, add_zero]

/-- Calculation of costs. -/
macro "tally" : tactic => `(tactic|
  (try simp only [List.length_range, List.length_map, Spec.Cost.gate, zero_add, add_zero, nsmul_zero]
   try abel))

theorem arithmetic {n : ℕ} {v : Vars} : Costs (Gates.arithmetic n v) (gate (.arithmetic n)) Any := by
  apply congr
  · rw [Gates.arithmetic]; cost; apply collect; cost
  · tally

theorem arithmeticExtension {n : ℕ} {v : Vars} :
    Costs (Gates.arithmeticExtension n v) (gate (.arithmeticExtension n)) Any := by
  apply congr
  · rw [Gates.arithmeticExtension]; cost; apply collect; cost
  · tally

theorem mulExtension {n : ℕ} {v : Vars} : Costs (Gates.mulExtension n v) (gate (.mulExtension n)) Any := by
  apply congr
  · rw [Gates.mulExtension]; cost; apply collect; cost
  · tally

theorem baseSum {n b : ℕ} {v : Vars} : Costs (Gates.baseSum n b v) (gate (.baseSum n b)) Any := by
  apply congr
  · rw [Gates.baseSum]; cost
  · tally

theorem constant {n : ℕ} {v : Vars} : Costs (Gates.constant n v) (gate (.constant n)) Any := by
  apply congr
  · rw [Gates.constant]; apply any; cost
  · tally

theorem publicInput {v : Vars} : Costs (Gates.publicInput v) (gate .publicInput) Any := by
  apply congr
  · rw [Gates.publicInput]; apply any; cost
  · rfl

theorem expPrev {l : List QEV} {i : ℕ} : Costs (Gates.expPrev l i) (if i = 0 then 0 else Spec.Cost.mulExt) Any := by
  rw [Gates.expPrev]
  exact ite (fun _ => value) fun _ => (idx.bind fun _ _ => mulExt).congr (zero_add _)

theorem expLoop {n : ℕ} {iv pb : List QEV} {base : QEV} : Costs ((List.range n).mapM fun i => do
    let prev ← Gates.expPrev iv i
    let curBit ← Verif.idx pb (n - i - 1)
    let tmp ← Verif.mulExt curBit oneExt
    let tmp ← Verif.subExt tmp oneExt
    let mulBy ← Verif.mulExt curBit base
    let mulBy ← Verif.subExt mulBy tmp
    let diff ← Verif.mulExt prev mulBy
    let v ← Verif.idx iv i
    Verif.subExt diff v) (((List.range n).map fun i => (if i = 0 then 0 else Spec.Cost.mulExt) +
      3 • (Spec.Cost.mulExt + Spec.Cost.addExt)).sum) Any := by
  refine (mapM_sum (P := Any) fun i _ => expPrev.bind fun _ _ => ?_).any
  apply congr
  · cost
  · decide

theorem exponentiation {n : ℕ} {v : Vars} : Costs (Gates.exponentiation n v) (gate (.exponentiation n)) Any := by
  rw [Gates.exponentiation]
  by_cases hn : n = 0
  · subst hn
    exact (idx.bind fun _ _ => value.bind fun _ _ => value.bind fun _ _ => idx.bind fun _ _ => value.bind fun _ _ =>
      goPanic (k := Spec.Cost.addExt)).congr (by decide)
  apply congr
  · apply bind; · cost
    intro _ _; apply bind; · cost
    intro _ _; apply bind; · cost
    intro _ _; apply bind; · cost
    intro _ _; apply bind; · apply expLoop
    intro _ _
    dsimp only
    rw [if_neg hn]
    cost
  · rw [Spec.Cost.gate]
    generalize (List.map (β := Tally) _ (List.range n)).sum = t
    simp only [zero_add, add_zero, nsmul_zero]

theorem foldPairs {b : QEV} : ∀ l : List QEV, Costs (Gates.foldPairs b l)
    ((l.length / 2) • (2 • Spec.Cost.addExt + Spec.Cost.mulExt)) fun r => r.length = l.length / 2
  | [] => by rw [Gates.foldPairs]; exact pure rfl
  | [_] => by rw [Gates.foldPairs]; exact goPanic
  | x :: y :: l => by
    rw [Gates.foldPairs]
    refine congr (subExt.bind fun _ _ => mulExt.bind fun _ _ => addExt.bind fun _ _ => (foldPairs l).bind fun r hr =>
      pure ?_) ?_
    · rw [List.length_cons, List.length_cons, List.length_cons, hr]; omega
    · rw [List.length_cons, List.length_cons, show (l.length + 1 + 1) / 2 = l.length / 2 + 1 by omega, succ_nsmul' _ (l.length / 2)]; abel

theorem foldBits (bs : List QEV) : ∀ l : List QEV, Costs (bs.foldlM (fun l b => Gates.foldPairs b l) l)
    (halvings bs.length l.length • (2 • Spec.Cost.addExt + Spec.Cost.mulExt)) Any := by
  induction bs with
  | nil => intro l; exact value.congr (zero_nsmul _).symm
  | cons b bs ih =>
    intro l
    rw [List.foldlM_cons, List.length_cons, halvings, add_nsmul]
    exact (foldPairs l).bind fun r hr => (ih r).congr (by rw [hr])

theorem foldBits' {bs l : List QEV} {b n : ℕ} (hb : bs.length = b) (hl : l.length = n) :
    Costs (bs.foldlM (fun l b => Gates.foldPairs b l) l)
      (halvings b n • (2 • Spec.Cost.addExt + Spec.Cost.mulExt)) Any := hb ▸ hl ▸ foldBits bs l

macro_rules | `(tactic| cost_step) => `(tactic| with_reducible apply Costs.foldBits')

theorem randomAccessCopy {b c e i : ℕ} {v : Vars} : Costs (Gates.randomAccessCopy b c e v i)
    (b • (Spec.Cost.mulExt + Spec.Cost.addExt) + b • Spec.Cost.mulExt + Spec.Cost.addExt +
      halvings b (Gates.shl1 b) • (2 • Spec.Cost.addExt + Spec.Cost.mulExt) + Spec.Cost.addExt) Any := by
  apply congr
  · rw [Gates.randomAccessCopy]
    cost
    split
    · cost
    · exact goPanic
  · tally

theorem randomAccess {b c e : ℕ} {v : Vars} :
    Costs (Gates.randomAccess b c e v) (gate (.randomAccess b c e)) Any := by
  apply congr
  · rw [Gates.randomAccess]
    apply bind
    · exact collect fun i => randomAccessCopy
    · cost
  · tally

theorem reducingLoop {al acc : QAV} {cs as : List QAV} {n : ℕ} :
    Costs (Gates.reducingLoop al acc cs as n) (n • (Spec.Cost.mulAlg + 2 • Spec.Cost.addAlg)) Any := by
  apply congr
  · rw [Gates.reducingLoop]; cost
  · tally

theorem reducing {n : ℕ} {v : Vars} : Costs (Gates.reducing n v) (gate (.reducing n)) Any := by
  apply congr
  · rw [Gates.reducing]; cost; apply reducingLoop
  · tally

theorem reducingExtension {n : ℕ} {v : Vars} :
    Costs (Gates.reducingExtension n v) (gate (.reducingExtension n)) Any := by
  apply congr
  · rw [Gates.reducingExtension]; cost; apply reducingLoop
  · tally

theorem cosetStep {s d : ℕ} {dom : List Fp} {vs : List QAV} {w : List Fp} {x : QAV} {v : Vars}
    {st : (QAV × QAV) × List QEV} {i : ℕ} :
    Costs (Gates.cosetStep s d dom vs w x v st i) (2 • Spec.Cost.addAlg + cosetPoints s d i • interpolatePoint) Any := by
  apply congr
  · rw [Gates.cosetStep]; cost
  · simp only [zero_add, add_zero]
    rw [cosetPoints, show ∀ a b : ℕ, (if a > b then b else a) = min a b from fun a b => by split <;> omega]
    abel

theorem cosetLoop {s d n : ℕ} {dom : List Fp} {vs : List QAV} {w : List Fp} {x : QAV} {v : Vars}
    {st : (QAV × QAV) × List QEV} : Costs ((List.range n).foldlM (Gates.cosetStep s d dom vs w x v) st)
      (((List.range n).map fun i => 2 • Spec.Cost.addAlg + cosetPoints s d i • interpolatePoint).sum) Any :=
  foldlM_sum Any (kf := fun i => 2 • Spec.Cost.addAlg + cosetPoints s d i • interpolatePoint) (fun _ _ _ _ => cosetStep)
    trivial

macro_rules | `(tactic| cost_step) => `(tactic| with_reducible apply Costs.cosetLoop)

theorem cosetInterpolation {s d : ℕ} {w : List Fp} {v : Vars} :
    Costs (Gates.cosetInterpolation s d w v) (gate (.cosetInterpolation s d w)) Any := by
  rw [Gates.cosetInterpolation]
  by_cases hd : d = 1
  · rw [if_pos hd]; exact goPanic
  · rw [if_neg hd]
    apply congr
    · cost
    · rw [Spec.Cost.gate]
      generalize (List.map (β := Tally) _ (List.range (Gates.numIntermediates s d))).sum = t
      simp only [zero_add, add_zero, nsmul_zero, Nat.sub_zero]
      abel

theorem poseidonMds {v : Vars} : Costs (Gates.poseidonMds v) (gate .poseidonMds) Any := by
  apply congr
  · rw [Gates.poseidonMds]; unfold mdsRowShfAlgebra; cost
  · decide

/-! ## The Poseidon gate -/

theorem constantLayerExt {s : PoseidonGL.StateExt} {r : ℕ} :
    Costs (PoseidonGL.constantLayerExt s r) (12 • Spec.Cost.addExt) Any := by
  rw [PoseidonGL.constantLayerExt]; exact (tabM fun _ => addExt).any

theorem sBoxMonomialExt {x : QEV} : Costs (PoseidonGL.sBoxMonomialExt x) (4 • Spec.Cost.mulExt) Any := by
  apply congr
  · rw [PoseidonGL.sBoxMonomialExt]; cost
  · rfl

theorem sBoxLayerExt {s : PoseidonGL.StateExt} : Costs (PoseidonGL.sBoxLayerExt s) Spec.Cost.sBoxLayerExt Any := by
  rw [PoseidonGL.sBoxLayerExt]; exact (tabM fun _ => sBoxMonomialExt).any

theorem mdsLayerExt {s : PoseidonGL.StateExt} : Costs (PoseidonGL.mdsLayerExt s) Spec.Cost.mdsLayerExt Any := by
  apply congr
  · rw [PoseidonGL.mdsLayerExt]; unfold PoseidonGL.mdsRowShfExt; apply any; cost
  · decide

theorem sBoxInputs {v : Vars} {w : Fin 12 → ℕ} {s : PoseidonGL.StateExt} :
    Costs (Gates.sBoxInputs v w s) (12 • Spec.Cost.addExt) Any := by
  apply congr
  · rw [Gates.sBoxInputs]; cost
  · decide

theorem mdsPartialLayerFastExt {s : PoseidonGL.StateExt} {r : ℕ} : Costs (PoseidonGL.mdsPartialLayerFastExt s r)
    (Spec.Cost.mulExt + 22 • (Spec.Cost.mulExt + Spec.Cost.addExt)) Any := by
  apply congr
  · rw [PoseidonGL.mdsPartialLayerFastExt]; cost
  · decide

theorem mdsPartialLayerInitExt {s : PoseidonGL.StateExt} : Costs (PoseidonGL.mdsPartialLayerInitExt s)
    (11 • (11 • (Spec.Cost.mulExt + Spec.Cost.addExt))) Any := by
  apply congr
  · rw [PoseidonGL.mdsPartialLayerInitExt]; cost
  · decide

macro_rules | `(tactic| cost_step) => `(tactic| with_reducible first
  | apply Costs.constantLayerExt | apply Costs.sBoxMonomialExt | apply Costs.sBoxLayerExt | apply Costs.mdsLayerExt
  | apply Costs.sBoxInputs | apply Costs.mdsPartialLayerFastExt | apply Costs.mdsPartialLayerInitExt)

theorem poseidonFull0 {v : Vars} {st : List QEV × PoseidonGL.StateExt} {r : ℕ} : Costs (Gates.poseidonFull0 v st r)
    (12 • Spec.Cost.addExt + ((if r ≠ 0 then 12 • Spec.Cost.addExt else 0) + (Spec.Cost.sBoxLayerExt +
      (Spec.Cost.mdsLayerExt + 0)))) Any := by
  rw [Gates.poseidonFull0]
  refine constantLayerExt.bind fun _ _ => ?_
  split <;> cost

theorem poseidonFull1 {v : Vars} {st : List QEV × PoseidonGL.StateExt} {r : ℕ} :
    Costs (Gates.poseidonFull1 v st r) gateFullRound Any := by
  apply congr
  · rw [Gates.poseidonFull1]; cost
  · decide

theorem poseidonPartial {v : Vars} {st : List QEV × PoseidonGL.StateExt} {r : ℕ} : Costs (Gates.poseidonPartial v st r)
    (0 + (Spec.Cost.addExt + (4 • Spec.Cost.mulExt + ((if r < 21 then Spec.Cost.addExt else 0) + (Spec.Cost.mulExt +
      22 • (Spec.Cost.mulExt + Spec.Cost.addExt) + 0))))) Any := by
  rw [Gates.poseidonPartial]
  split <;> cost

theorem poseidonInput {v : Vars} : Costs (Gates.poseidonInput v) (4 • (2 • Spec.Cost.addExt)) Any := by
  apply congr
  · rw [Gates.poseidonInput]; cost
  · decide

theorem poseidonLoops {v : Vars} {st : List QEV × PoseidonGL.StateExt} :
    Costs ([0, 1, 2, 3].foldlM (Gates.poseidonFull0 v) st)
      (12 • Spec.Cost.addExt + Spec.Cost.sBoxLayerExt + Spec.Cost.mdsLayerExt + 3 • gateFullRound) Any ∧
    Costs ((List.range 22).foldlM (Gates.poseidonPartial v) st) (21 • gatePartialRound + (Spec.Cost.addExt +
      4 • Spec.Cost.mulExt + Spec.Cost.mulExt + 22 • (Spec.Cost.mulExt + Spec.Cost.addExt))) Any ∧
    Costs ([0, 1, 2, 3].foldlM (Gates.poseidonFull1 v) st) (4 • gateFullRound) Any :=
  ⟨(foldlM_sum Any (kf := fun r => 12 • Spec.Cost.addExt + ((if r ≠ 0 then 12 • Spec.Cost.addExt else 0) +
      (Spec.Cost.sBoxLayerExt + (Spec.Cost.mdsLayerExt + 0)))) (fun _ _ _ _ => poseidonFull0) trivial).congr (by decide),
    (foldlM_sum Any (kf := fun r => 0 + (Spec.Cost.addExt + (4 • Spec.Cost.mulExt + ((if r < 21 then Spec.Cost.addExt else 0) +
      (Spec.Cost.mulExt + 22 • (Spec.Cost.mulExt + Spec.Cost.addExt) + 0))))) (fun _ _ _ _ => poseidonPartial)
      trivial).congr (by decide +kernel), foldlM fun _ _ _ => poseidonFull1⟩

macro_rules | `(tactic| cost_step) => `(tactic| with_reducible first
  | apply Costs.poseidonInput | apply Costs.poseidonLoops.1 | apply Costs.poseidonLoops.2.1 | apply Costs.poseidonLoops.2.2)

theorem poseidonGate {v : Vars} : Costs (Gates.poseidon v) (gate .poseidon) Any := by
  apply congr
  · rw [Gates.poseidon]; unfold PoseidonGL.partialFirstConstantLayerExt; cost
  · decide

theorem gate (g : Gate) {v : Vars} : Costs (g.evalUnfiltered v) (Spec.Cost.gate g) Any := by
  cases g with
  | arithmetic n => exact arithmetic
  | arithmeticExtension n => exact arithmeticExtension
  | baseSum n b => exact baseSum
  | constant n => exact constant
  | cosetInterpolation b d w => exact cosetInterpolation
  | exponentiation n => exact exponentiation
  | mulExtension n => exact mulExtension
  | noop => exact value
  | poseidon => exact poseidonGate
  | poseidonMds => exact poseidonMds
  | publicInput => exact publicInput
  | randomAccess b c e => exact randomAccess
  | reducing n => exact reducing
  | reducingExtension n => exact reducingExtension

/-! ## Filters -/

theorem computeFilter {row : ℕ} {g : ℕ × ℕ} {s : QEV} {m : Bool} :
    Costs (Gates.computeFilter row g s m) (filter row g m) Any := by
  rw [Gates.computeFilter]
  apply bind
  · apply foldlM_sum Any
    · intro _ i _ _
      apply ite
      · cost
      · cost
    · trivial
  · intro _ _
    apply ite
    · cost
    · cost

theorem addConstraints : ∀ cs gs : List QEV,
    Costs (Gates.addConstraints cs gs) (gs.length • Spec.Cost.addExt) fun r => r.length = cs.length
  | cs, [] => by rw [Gates.addConstraints]; exact pure rfl
  | [], _ :: _ => by rw [Gates.addConstraints]; exact goPanic
  | a :: cs, g :: gs => by
    rw [Gates.addConstraints, List.length_cons, succ_nsmul']
    exact addExt.bind fun _ _ => ((addConstraints cs gs).bind fun r hr => pure (by simp [hr])).congr (add_zero _)

theorem constraints_eq {nc nw : ℕ} {g : Gate} (h : Spec.Gates.Fits nc nw g) : constraintCount g = constraints g := by
  cases g
  case cosetInterpolation b d w =>
    rw [constraintCount, constraints, Gates.numIntermediates_eq h.1 (h.2.1.trans h.2.2.1)]
  all_goals rfl

theorem gateStep {si : SelectorsInfo} {v : Vars} {cs : List QEV} {gi : Gate × ℕ}
    (h : Spec.Gates.GateOk si v.localConstants.length v.localWires.length gi.1 gi.2) :
    Costs (Gates.gateStep si v cs gi) (Spec.Cost.gateStep si gi) fun r => r.length = cs.length := by
  rw [Gates.gateStep]
  refine congr (idx.bind fun sel hsel => idx.bind fun gr hgr => (?_ : Costs _ (Spec.Cost.gateStep si gi) _)) (by simp)
  have h1 : si.selectorIndices.getD gi.2 0 = sel := by simp [hsel]
  have h2 : si.groups.getD sel (0, 0) = gr := by simp [hgr]
  have hlt : sel < si.groups.length := h1 ▸ h.group
  refine congr (Costs.bind (P := fun r : List QEV => r.length = constraints gi.1)
    (k := filter gi.2 gr (decide (si.groups.length > 1)) + (Spec.Cost.gate gi.1 + constraints gi.1 • Spec.Cost.mulExt))
    (k' := constraints gi.1 • Spec.Cost.addExt)
    ?_ fun gs hgs => (addConstraints cs gs).congr (by rw [hgs])) ?_
  · rw [Gates.evalFiltered]
    have hr : Costs (v.removePrefix si.groups.length) 0 fun v' => v'.localConstants.length =
        v.localConstants.length - si.groups.length ∧ v'.localWires = v.localWires := by
      rw [EvaluationVars.removePrefix]
      exact (sliceFrom.bind fun l hl => pure ⟨hl, rfl⟩).congr rfl
    refine congr (idx.bind fun _ _ => computeFilter.bind fun _ _ => hr.bind
      (k' := Spec.Cost.gate gi.1 + constraints gi.1 • Spec.Cost.mulExt) fun v' hv => ?_) (by simp only [zero_add])
    have hf : Spec.Gates.Fits v'.localConstants.length v'.localWires.length gi.1 := by rw [hv.1, hv.2]; exact h.fits
    refine ((gate gi.1).post (NoPanic.evalUnfiltered hf).post).bind fun cs hcs => ?_
    exact mapM' (hcs.2.trans (constraints_eq hf)) fun _ _ => mulExt
  · rw [Spec.Cost.gateStep, h1, h2, nsmul_add]; abel

theorem evaluateGateConstraints {gates : List Gate} {n : ℕ} {si : SelectorsInfo} {v : Vars}
    (hg : ∀ gi ∈ gates.zipIdx, Spec.Gates.GateOk si v.localConstants.length v.localWires.length gi.1 gi.2) :
    Costs (Gates.evaluateGateConstraints gates n si v) ((gates.zipIdx.map (Spec.Cost.gateStep si)).sum)
      fun r => r.length = n := by
  rw [Gates.evaluateGateConstraints]
  exact foldlM_sum (fun r : List QEV => r.length = n) (fun s gi hgi hs => (gateStep (hg gi hgi)).mono fun r hr => hr.trans hs)
    (by simp)

end Costs

end Verif
