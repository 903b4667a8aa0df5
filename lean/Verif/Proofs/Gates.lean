import Verif.Model.Gates
import Verif.Spec.Gates
import Verif.Proofs.FriShape
import Verif.Proofs.ExtAlgebra

/-!
# Gates: arithmetic, base-sum, constant, public-input, exponentiation and reducing gates
-/

set_option autoImplicit false

namespace Verif

open Circ

/-- The row of column values described by typed evaluation variables. -/
def Gates.EvaluationVars.row (v : Gates.EvaluationVars Fp QE) : Spec.Gates.Row :=
  ⟨fun i => v.localConstants.getD i 0, fun i => v.localWires.getD i 0, v.publicInputsHash⟩

namespace Gates

open Spec.Gates (Row coords)

theorem den_idx {α : Type} {l : List α} {i : ℕ} (h : i < l.length) (d : α) : den (idx l i) = pure (l.getD i d) := by
  rw [idx, List.getElem?_eq_getElem h]
  simp [List.getD_eq_getElem?_getD, List.getElem?_eq_getElem h]

theorem den_idx_map {α β : Type} {l : List α} {f : α → β} {i : ℕ} (h : i < l.length) (d : α) :
    den (idx (l.map f) i) = pure (f (l.getD i d)) := by
  rw [den_idx (by simpa using h) (f d)]
  simp [List.getD_eq_getElem?_getD, List.getElem?_eq_getElem h]

variable {v : EvaluationVars Fp QE}

theorem den_wire {i : ℕ} (h : i < v.localWires.length) : den (idx v.enc.localWires i) = pure (embQ (v.row.w i)) :=
  den_idx_map h 0

theorem den_const {i : ℕ} (h : i < v.localConstants.length) :
    den (idx v.enc.localConstants i) = pure (embQ (v.row.c i)) := den_idx_map h 0

theorem den_alg {i j : ℕ} (hj : j = i + 2) (h : j ≤ v.localWires.length) :
    den (v.enc.getLocalExtAlgebra ⟨i, j⟩) = pure (embA (v.row.a i)) := by
  subst hj
  rw [EvaluationVars.getLocalExtAlgebra, if_neg (by simp)]
  simp only [den_bind, den_pure]
  rw [den_wire (by omega), pure_bind, den_wire (by omega), pure_bind]
  rfl

theorem coeffsV_embA (a : QA) : coeffsV (embA a) = (coords a).map embQ := rfl

theorem den_collect {n : ℕ} {f : ℕ → Circ (List QEV)} {g : ℕ → List QE}
    (h : ∀ i < n, den (f i) = pure ((g i).map embQ)) :
    den (collect n f) = pure (((List.range n).flatMap g).map embQ) := by
  rw [collect, den_bind, den_mapM, Den.mapM_pure_of (g := fun i => (g i).map embQ)]
  · rw [pure_bind, den_pure, List.map_flatMap, List.flatMap_def]
  · intro i hi; exact h i (List.mem_range.1 hi)

theorem den_mapRange {n : ℕ} {f : ℕ → Circ QEV} {g : ℕ → QE} (h : ∀ i < n, den (f i) = pure (embQ (g i))) :
    den ((List.range n).mapM f) = pure (((List.range n).map g).map embQ) := by
  rw [den_mapM, Den.mapM_pure_of (g := fun i => embQ (g i)), List.map_map]; rfl
  intro i hi; exact h i (List.mem_range.1 hi)

theorem den_mapRangeA {n : ℕ} {f : ℕ → Circ QAV} {g : ℕ → QA} (h : ∀ i < n, den (f i) = pure (embA (g i))) :
    den ((List.range n).mapM f) = pure (((List.range n).map g).map embA) := by
  rw [den_mapM, Den.mapM_pure_of (g := fun i => embA (g i)), List.map_map]; rfl
  intro i hi; exact h i (List.mem_range.1 hi)

theorem natExt {n : ℕ} (h : n < p) : (((n : ℕ) : Fr), (0 : Fr)) = embQ (n : QE) := by
  rw [← emb_natCast_of_lt h, emb_pair_zero]; rfl

theorem den_arithmetic {n : ℕ} (hc : 2 ≤ v.localConstants.length) (hw : 4 * n ≤ v.localWires.length) :
    den (arithmetic n v.enc) = pure ((Spec.Gates.arithmetic n v.row).map embQ) := by
  have key := den_collect (n := n) (f := fun i => do
    let multiplicand0 ← idx v.enc.localWires (4 * i)
    let multiplicand1 ← idx v.enc.localWires (4 * i + 1)
    let addend ← idx v.enc.localWires (4 * i + 2)
    let output ← idx v.enc.localWires (4 * i + 3)
    let xy ← mulExt multiplicand0 multiplicand1
    let a ← mulExt xy (embQ (v.row.c 0))
    let b ← mulExt addend (embQ (v.row.c 1))
    let computedOutput ← addExt a b
    let d ← subExt output computedOutput
    pure [d]) (g := fun i => [v.row.w (4 * i + 3) -
      (v.row.c 0 * (v.row.w (4 * i) * v.row.w (4 * i + 1)) + v.row.c 1 * v.row.w (4 * i + 2))]) (fun i hi => by
        simp (disch := omega) only [den_bind, den_wire, den_mulExt, den_addExt, den_subExt, pure_bind, den_pure,
          List.map_cons, List.map_nil]
        refine congrArg pure (congrArg (fun z => [embQ z]) ?_)
        ring)
  rw [arithmetic]
  simp (disch := omega) only [den_bind, den_const, pure_bind]
  rw [key, ← List.map_eq_flatMap]
  rfl

theorem den_arithmeticExtension {n : ℕ} (hc : 2 ≤ v.localConstants.length) (hw : 8 * n ≤ v.localWires.length) :
    den (arithmeticExtension n v.enc) = pure ((Spec.Gates.arithmeticExtension n v.row).map embQ) := by
  rw [arithmeticExtension]
  simp (disch := omega) only [den_bind, den_const, pure_bind]
  refine den_collect fun i hi => ?_
  simp (disch := omega) only [den_bind, den_alg, den_mulAlg, den_scalarMulAlg, den_addAlg, den_subAlg, pure_bind,
    den_pure, coeffsV_embA]
  rw [show 4 * 2 * i = 8 * i from rfl, show 8 * i + 3 * 2 = 8 * i + 6 from rfl,
    show 8 * i + 2 * 2 = 8 * i + 4 from rfl, add_comm (ofExt (v.row.c 1) * _)]

theorem den_mulExtension {n : ℕ} (hc : 1 ≤ v.localConstants.length) (hw : 6 * n ≤ v.localWires.length) :
    den (mulExtension n v.enc) = pure ((Spec.Gates.mulExtension n v.row).map embQ) := by
  rw [mulExtension]
  simp (disch := omega) only [den_bind, den_const, pure_bind]
  refine den_collect fun i hi => ?_
  simp (disch := omega) only [den_bind, den_alg, den_mulAlg, den_scalarMulAlg, den_subAlg, pure_bind,
    den_pure, coeffsV_embA]

theorem den_constant {n : ℕ} (hc : n ≤ v.localConstants.length) (hw : n ≤ v.localWires.length) :
    den (constant n v.enc) = pure ((Spec.Gates.constant n v.row).map embQ) := by
  rw [constant]
  refine den_mapRange fun i hi => ?_
  simp (disch := omega) only [den_bind, den_const, den_wire, den_subExt, pure_bind]

theorem den_publicInput (hw : 4 ≤ v.localWires.length) :
    den (publicInput v.enc) = pure ((Spec.Gates.publicInput v.row).map embQ) := by
  rw [publicInput, den_mapM, Den.mapM_pure_of (g := fun i : Fin 4 => embQ (v.row.w i - ofBase (v.row.h i)))]
  · rw [Spec.Gates.publicInput, List.map_ofFn, List.ofFn_eq_map]; rfl
  · intro i _
    have := i.2
    simp (disch := omega) only [den_bind, den_wire, pure_bind]
    rw [show (v.enc.publicInputsHash i, (0 : Fr)) = embQ (ofBase (v.row.h i)) from emb_pair_zero _, den_subExt]

theorem den_noop : den (noop v.enc) = pure (([] : List QE).map embQ) := den_pure _

/-! ## BaseSum -/

theorem den_powers (f : ℕ → QE) (n : ℕ) (s : QE) :
    den (reduceWithPowers (((List.range n).map f).map embQ) (embQ s)) =
      pure (embQ (∑ i ∈ Finset.range n, f i * s ^ i)) := by
  rw [den_reduceWithPowers, List.length_map, List.length_range]
  refine congrArg pure (congrArg embQ (Finset.sum_congr rfl fun i hi => ?_))
  rw [Finset.mem_range] at hi
  simp [List.getD_eq_getElem?_getD, hi]

theorem den_limbProduct {B : ℕ} (hB : B ≤ p) (y : QE) :
    den ((List.range B).foldlM (fun acc (i : ℕ) => do
      let difference ← subExt (embQ y) ((i : Fr), 0)
      mulExt acc difference) oneExt) = pure (embQ (∏ k ∈ Finset.range B, (y - (k : QE)))) := by
  rw [den_foldlM, oneExt_eq, Den.foldlM_enc embQ (g := fun a (i : ℕ) => a * (y - (i : QE)))]
  · have := Fri.foldl_prod B (fun i => y - (i : QE)) 1
    simp only [mul_comm (y - _)] at this
    rw [this, mul_one]
  · intro a i hi
    rw [List.mem_range] at hi
    rw [natExt (by omega)]
    simp only [den_bind, den_subExt, pure_bind, den_mulExt]

theorem den_baseSum {n B : ℕ} (hB : B < p) (hw : n + 1 ≤ v.localWires.length) :
    den (baseSum n B v.enc) = pure ((Spec.Gates.baseSum n B v.row).map embQ) := by
  rw [baseSum]
  simp only [den_bind]
  rw [den_wire (by omega), pure_bind, den_mapRange (g := fun i => v.row.w (1 + i)) (fun i hi => den_wire (by omega)),
    pure_bind, natExt hB, den_powers, pure_bind, den_subExt, pure_bind, den_mapM, List.map_map, List.mapM_map,
    Den.mapM_pure_of (g := fun i => embQ (∏ k ∈ Finset.range B, (v.row.w (1 + i) - (k : QE))))]
  · rw [pure_bind, den_pure, Spec.Gates.baseSum, List.map_cons, List.map_map]; rfl
  · intro i _
    exact den_limbProduct hB.le _

/-! ## Exponentiation -/

theorem den_idx_rangeMap {α β : Type} {f : ℕ → α} {g : α → β} {n i : ℕ} (h : i < n) :
    den (idx (((List.range n).map f).map g) i) = pure (g (f i)) := by
  rw [den_idx (by simpa using h) (g (f 0))]
  simp [List.getD_eq_getElem?_getD, h]

theorem den_exponentiation {n : ℕ} (hn : n ≠ 0) (hw : 2 * n + 2 ≤ v.localWires.length) :
    den (exponentiation n v.enc) = pure ((Spec.Gates.exponentiation n v.row).map embQ) := by
  rw [exponentiation]
  simp only [den_bind]
  rw [den_wire (by omega), pure_bind, den_mapRange (g := fun i => v.row.w (1 + i)) (fun i hi => den_wire (by omega)),
    pure_bind, den_mapRange (g := fun i => v.row.w (2 + n + i)) (fun i hi => den_wire (by omega)), pure_bind,
    den_wire (by omega), pure_bind, den_mapRange (g := fun i =>
      (if i = 0 then 1 else v.row.w (2 + n + (i - 1)) ^ 2) * (v.row.w (n - i) * v.row.w 0 + (1 - v.row.w (n - i)))
        - v.row.w (2 + n + i)), pure_bind, if_neg hn, den_bind, den_idx_rangeMap (by omega), pure_bind,
    den_bind, den_subExt, pure_bind,
    den_pure, Spec.Gates.exponentiation, List.map_append, List.map_cons, List.map_nil]
  intro i hi
  have h1 : den (expPrev (((List.range n).map fun i => v.row.w (2 + n + i)).map embQ) i) = pure (embQ (if i = 0 then 1 else v.row.w (2 + n + (i - 1)) ^ 2)) := by
    rw [expPrev]
    by_cases h0 : i = 0
    · rw [if_pos h0, if_pos h0, oneExt_eq, den_pure]
    · rw [if_neg h0, if_neg h0, den_bind, den_idx_rangeMap (by omega), pure_bind, den_mulExt, pow_two]
  rw [den_bind, h1, pure_bind]
  simp (disch := omega) only [den_bind, den_idx_rangeMap, oneExt_eq, den_mulExt, den_subExt, pure_bind]
  rw [show 1 + (n - i - 1) = n - i by omega]
  refine congrArg pure (congrArg embQ ?_)
  ring

/-! ## Reducing gates -/

theorem den_reducingLoop (α old : QA) (c a : ℕ → QA) (n : ℕ) :
    den (reducingLoop (embA α) (embA old) (((List.range n).map c).map embA) (((List.range n).map a).map embA) n) =
      pure (((List.range n).flatMap fun i =>
        coords ((if i = 0 then old else a (i - 1)) * α + c i - a i)).map embQ) := by
  rw [reducingLoop, den_bind, den_foldlM]
  have key := Den.foldlM_enc (l := List.range n) (s := (old, ([] : List QE)))
    (fun s : QA × List QE => (embA s.1, s.2.map embQ))
    (f := fun (st : QAV × List QEV) i => den (do
      let coeff ← idx (((List.range n).map c).map embA) i
      let tmp ← mulAlg st.1 (embA α)
      let tmp ← addAlg tmp coeff
      let a ← idx (((List.range n).map a).map embA) i
      let tmp ← subAlg tmp a
      pure (a, st.2 ++ coeffsV tmp)))
    (g := fun s i => (a i, s.2 ++ coords (s.1 * α + c i - a i))) (fun s i hi => by
      rw [List.mem_range] at hi
      simp (disch := omega) only [den_bind, den_idx_rangeMap, den_mulAlg, den_addAlg, den_subAlg, pure_bind, den_pure,
        coeffsV_embA, List.map_append])
  rw [show ((embA old, ([] : List QEV)) : QAV × List QEV) = (embA (old, ([] : List QE)).1,
    ((old, ([] : List QE)).2.map embQ)) from rfl, key, pure_bind, den_pure]
  refine congrArg pure (congrArg (List.map embQ) ?_)
  have h : ∀ m, (List.range m).foldl (fun (s : QA × List QE) i => (a i, s.2 ++ coords (s.1 * α + c i - a i))) (old, []) =
      (if m = 0 then old else a (m - 1),
        (List.range m).flatMap fun i => coords ((if i = 0 then old else a (i - 1)) * α + c i - a i)) := by
    intro m
    induction m with
    | zero => rfl
    | succ m ih =>
      rw [List.range_succ, List.foldl_append, ih, List.flatMap_append]
      simp
  rw [h]

theorem den_wiresAccs {n m i : ℕ} (hi : i < n) (hw : 6 + m + 2 * (n - 1) ≤ v.localWires.length) :
    den (v.enc.getLocalExtAlgebra (wiresAccs n (6 + m) i)) = pure (embA (Spec.Gates.acc n m v.row i)) := by
  rw [wiresAccs, Spec.Gates.acc]
  by_cases h : i = n - 1
  · rw [if_pos h, if_pos (by omega), den_alg rfl (by omega)]
  · rw [if_neg h, if_neg (by omega), den_alg (by omega) (by omega)]

theorem den_reducing {n : ℕ} (hw : 6 + n + 2 * (n - 1) ≤ v.localWires.length) :
    den (reducing n v.enc) = pure ((Spec.Gates.reducing n v.row).map embQ) := by
  rw [reducing]
  simp only [den_bind]
  rw [den_alg rfl (by omega), pure_bind, den_alg rfl (by omega), pure_bind,
    den_mapRangeA (g := fun i => ofExt (v.row.w (6 + i))), pure_bind,
    den_mapRangeA (g := Spec.Gates.acc n n v.row) (fun i hi => den_wiresAccs hi hw), pure_bind, den_reducingLoop]
  · rfl
  · intro i hi
    rw [den_bind, den_wire (by omega), pure_bind, den_pure, toQA_emb]

theorem den_reducingExtension {n : ℕ} (hw : 6 + 2 * n + 2 * (n - 1) ≤ v.localWires.length) :
    den (reducingExtension n v.enc) = pure ((Spec.Gates.reducingExtension n v.row).map embQ) := by
  rw [reducingExtension]
  simp only [den_bind]
  rw [den_alg rfl (by omega), pure_bind, den_alg rfl (by omega), pure_bind,
    den_mapRangeA (g := fun i => v.row.a (6 + 2 * i)) (fun i hi => den_alg (by omega) (by omega)), pure_bind,
    den_mapRangeA (g := Spec.Gates.acc n (2 * n) v.row) (fun i hi => by
      rw [Nat.mul_comm n 2]; exact den_wiresAccs hi hw), pure_bind, den_reducingLoop]
  rfl

end Gates

end Verif
