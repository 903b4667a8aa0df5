import Verif.Proofs.Gates
import Verif.Proofs.Roots

/-!
# CosetInterpolationGate
-/

set_option autoImplicit false

namespace Verif

open Circ

namespace Spec.Gates

variable {R : Type} [CommRing R]

theorem baryEval_self (t f : ℕ → R) (e0 p0 : R) (s : ℕ) : baryEval t f e0 p0 s s = e0 := by simp [baryEval]

theorem baryEval_succ (t f : ℕ → R) (e0 p0 : R) {s e : ℕ} (h : s ≤ e) :
    baryEval t f e0 p0 s (e + 1) =
      baryEval t f e0 p0 s e * t e + f e * (p0 * ∏ i ∈ Finset.Ico s e, t i) := by
  have hI : Finset.Ico s (e + 1) = insert e (Finset.Ico s e) := by
    ext i; simp only [Finset.mem_Ico, Finset.mem_insert]; omega
  have hn : e ∉ Finset.Ico s e := by simp
  have h1 : (insert e (Finset.Ico s e)).erase e = Finset.Ico s e := Finset.erase_insert hn
  have h2 : ∀ i ∈ Finset.Ico s e, ∏ j ∈ (insert e (Finset.Ico s e)).erase i, t j =
      (∏ j ∈ (Finset.Ico s e).erase i, t j) * t e := by
    intro i hi
    have hne : e ≠ i := fun h => hn (h ▸ hi)
    rw [Finset.erase_insert_of_ne hne, Finset.prod_insert (fun h => hn (Finset.mem_of_mem_erase h)), mul_comm]
  rw [baryEval, baryEval, hI, Finset.prod_insert hn, Finset.sum_insert hn, h1,
    Finset.sum_congr rfl fun i hi => by rw [h2 i hi, ← mul_assoc], ← Finset.sum_mul]
  ring

theorem prod_succ (t : ℕ → R) {s e : ℕ} (h : s ≤ e) :
    ∏ i ∈ Finset.Ico s (e + 1), t i = (∏ i ∈ Finset.Ico s e, t i) * t e := Finset.prod_Ico_succ_top h t

/-- Consecutive pieces. -/
theorem baryEval_trans (t f : ℕ → R) (e0 p0 : R) {s m e : ℕ} (h1 : s ≤ m) (h2 : m ≤ e) :
    baryEval t f (baryEval t f e0 p0 s m) (p0 * ∏ i ∈ Finset.Ico s m, t i) m e = baryEval t f e0 p0 s e := by
  induction e, h2 using Nat.le_induction with
  | base => rw [baryEval_self]
  | succ e h ih =>
    rw [baryEval_succ _ _ _ _ h, ih, baryEval_succ _ _ _ _ (h1.trans h), mul_assoc p0,
      Finset.prod_Ico_consecutive _ h1 h]

theorem bary_foldl (t f : ℕ → R) (e0 p0 : R) (s k : ℕ) :
    ((List.range' s k).map fun i => (t i, f i)).foldl (fun st tc => (st.1 * tc.1 + tc.2 * st.2, st.2 * tc.1)) (e0, p0) =
      (baryEval t f e0 p0 s (s + k), p0 * ∏ i ∈ Finset.Ico s (s + k), t i) := by
  induction k with
  | zero => simp [baryEval]
  | succ k ih =>
    rw [List.range'_concat, List.map_append, List.foldl_append, ih, ← Nat.add_assoc,
      baryEval_succ _ _ _ _ (by omega), prod_succ _ (by omega)]
    simp [mul_assoc]

end Spec.Gates

namespace Gates

open Spec.Gates (Row coords baryEval numInter chunkStart)
open Spec.Gates.Coset

variable {v : EvaluationVars Fp QE}

theorem den_interpRange (x : ℕ → Fp) (val : ℕ → QA) (wt : ℕ → Fp) (pt e0 p0 : QA) (s k : ℕ) (hk : k ≠ 0) :
    den (partialInterpolate ((List.range' s k).map x) ((List.range' s k).map fun i => embA (val i))
      ((List.range' s k).map wt) (embA pt) (embA e0) (embA p0)) =
    pure (embA (baryEval (fun i => pt - ofExt (ofBase (x i))) (fun i => ofExt (ofBase (wt i)) * val i) e0 p0 s (s + k)),
      embA (p0 * ∏ i ∈ Finset.Ico s (s + k), (pt - ofExt (ofBase (x i))))) := by
  have hz : ((List.range' s k).map x).zip (((List.range' s k).map fun i => embA (val i)).zip ((List.range' s k).map wt)) =
      ((List.range' s k).map fun i => (x i, val i, wt i)).map fun d => (d.1, embA d.2.1, d.2.2) := by
    rw [List.zip_map', List.zip_map', List.map_map]; rfl
  simp only [partialInterpolate, List.length_map, List.length_range', hk, ne_eq, not_true_eq_false, if_false, hz,
    den_foldlM, partialInterpolate_loop]
  rw [List.map_map]
  exact congrArg (fun z => (pure (Prod.map embA embA z) : Den _))
    (Spec.Gates.bary_foldl (fun i => pt - ofExt (ofBase (x i))) (fun i => ofExt (ofBase (wt i)) * val i) e0 p0 s k)

theorem slice_range {α : Type} (f : ℕ → α) {N a e : ℕ} (h1 : a ≤ e) (h2 : e ≤ N) :
    slice ((List.range N).map f) a e = pure ((List.range' a (e - a)).map f) := by
  rw [slice, if_pos ⟨h1, by simpa using h2⟩]
  refine congrArg pure ?_
  apply List.ext_getElem?
  intro i
  simp only [List.getElem?_drop, List.getElem?_take, List.getElem?_map]
  by_cases hi : i < e - a
  · rw [if_pos (by omega), List.getElem?_range (by omega), List.getElem?_range' hi, Nat.one_mul]
  · rw [if_neg (by omega), List.getElem?_eq_none (by simpa using hi)]; rfl

theorem shl1_pow {b : ℕ} (hb : b ≤ 32) : shl1 b = 2 ^ b := if_pos (by omega)

theorem numIntermediates_eq {b d : ℕ} (hb : b ≤ 32) (h2 : 2 ≤ 2 ^ b) : numIntermediates b d = numInter b d := by
  have : (2 : ℕ) ^ b ≤ 2 ^ 32 := Nat.pow_le_pow_right (by norm_num) hb
  rw [numIntermediates, shl1_pow hb, numInter]
  refine congrArg (· / (d - 1)) ?_
  generalize (2 : ℕ) ^ b = N at *
  omega

/-- Chunk `k + 1` starts inside the domain. -/
theorem chunkStart_lt {b d k : ℕ} (h2 : 2 ≤ 2 ^ b) (hk : k < numInter b d) : chunkStart d k < 2 ^ b := by
  have h3 : (k + 1) * (d - 1) ≤ 2 ^ b - 2 :=
    (Nat.mul_le_mul_right _ hk).trans (Nat.div_mul_le_self _ _)
  rw [chunkStart, Nat.mul_comm]
  omega

/-- The last chunk ends at the end of the domain. -/
theorem chunkStart_numInter {b d : ℕ} (hd : 2 ≤ d) (h2 : 2 ≤ 2 ^ b) : 2 ^ b ≤ chunkStart d (numInter b d) := by
  have h3 := Nat.lt_mul_div_succ (2 ^ b - 2) (show 0 < d - 1 by omega)
  rw [chunkStart, numInter]
  omega

theorem den_cosetStep {b d : ℕ} {g : Fp} {wt : ℕ → Fp} (hb : b ≤ 32) (hd : 2 ≤ d) (h2 : 2 ≤ 2 ^ b)
    (hw : 1 + 2 * 2 ^ b + 4 + 4 * numInter b d + 2 ≤ v.localWires.length) {k : ℕ} (hk : k < numInter b d)
    (cs : List QE) :
    den (cosetStep b d ((List.range (2 ^ b)).map (g ^ ·)) ((List.range (2 ^ b)).map fun i => embA (value v.row i))
      ((List.range (2 ^ b)).map wt) (embA (unshifted b d v.row)) v.enc
      ((embA (chunkEval b d g wt v.row k), embA (chunkProd b d g v.row k)), cs.map embQ) k) =
    pure ((embA (chunkEval b d g wt v.row (k + 1)), embA (chunkProd b d g v.row (k + 1))),
      (cs ++ (coords (interEval b v.row k - chunkEval b d g wt v.row k) ++
        coords (interProd b d v.row k - chunkProd b d g v.row k))).map embQ) := by
  have hlt := chunkStart_lt h2 hk
  have he : chunkStart d k < chunkStart d (k + 1) := by
    rw [chunkStart, chunkStart, Nat.mul_succ (d - 1) (k + 1)]; omega
  have e1 : (if 1 + (d - 1) * (k + 1) + d - 1 > 2 ^ b then 2 ^ b else 1 + (d - 1) * (k + 1) + d - 1) =
      min (chunkStart d (k + 1)) (2 ^ b) := by
    rw [chunkStart, Nat.mul_succ (d - 1) (k + 1)]
    generalize (d - 1) * (k + 1) = m
    split_ifs <;> omega
  rw [cosetStep]
  simp only
  rw [numIntermediates_eq hb h2, startIntermediates, shl1_pow hb, e1]
  rw [show 1 + (d - 1) * (k + 1) = chunkStart d k from rfl]
  simp only [den_bind]
  rw [show 1 + 2 ^ b * 2 + 2 + 2 = 1 + 2 * 2 ^ b + 4 by ring, den_alg rfl (by omega), pure_bind,
    den_alg rfl (by omega), pure_bind]
  rw [show v.row.a (1 + 2 * 2 ^ b + 4 + 2 * k) = interEval b v.row k from rfl,
    show v.row.a (1 + 2 * 2 ^ b + 4 + 2 * (numInter b d + k)) = interProd b d v.row k from rfl]
  rw [den_subAlg, pure_bind, den_subAlg, pure_bind, slice_range _ (by omega) (by omega), den_pure, pure_bind,
    slice_range _ (by omega) (by omega), den_pure, pure_bind, slice_range _ (by omega) (by omega), den_pure, pure_bind,
    den_interpRange _ _ _ _ _ _ _ _ (by omega), pure_bind, den_pure,
    Nat.add_sub_cancel' (by omega : chunkStart d k ≤ min (chunkStart d (k + 1)) (2 ^ b))]
  have c1 : chunkEval b d g wt v.row (k + 1) = baryEval (term b d g v.row) (weighted wt v.row) (interEval b v.row k)
      (interProd b d v.row k) (chunkStart d k) (min (chunkStart d (k + 1)) (2 ^ b)) := by
    rw [chunkEval, if_neg (Nat.succ_ne_zero k), Nat.add_sub_cancel]
  have c2 : chunkProd b d g v.row (k + 1) = interProd b d v.row k *
      ∏ i ∈ Finset.Ico (chunkStart d k) (min (chunkStart d (k + 1)) (2 ^ b)), term b d g v.row i := by
    rw [chunkProd, if_neg (Nat.succ_ne_zero k), Nat.add_sub_cancel]
  rw [c1, c2]
  simp only [coeffsV_embA, List.map_append, List.append_assoc]
  rfl

theorem den_cosetLoop {b d : ℕ} {g : Fp} {wt : ℕ → Fp} (hb : b ≤ 32) (hd : 2 ≤ d) (h2 : 2 ≤ 2 ^ b)
    (hw : 1 + 2 * 2 ^ b + 4 + 4 * numInter b d + 2 ≤ v.localWires.length) (cs : List QE) {m : ℕ} (hm : m ≤ numInter b d) :
    den ((List.range m).foldlM (cosetStep b d ((List.range (2 ^ b)).map (g ^ ·))
      ((List.range (2 ^ b)).map fun i => embA (value v.row i))
      ((List.range (2 ^ b)).map wt) (embA (unshifted b d v.row)) v.enc)
      ((embA (chunkEval b d g wt v.row 0), embA (chunkProd b d g v.row 0)), cs.map embQ)) =
    pure ((embA (chunkEval b d g wt v.row m), embA (chunkProd b d g v.row m)),
      (cs ++ (List.range m).flatMap fun k => coords (interEval b v.row k - chunkEval b d g wt v.row k) ++
        coords (interProd b d v.row k - chunkProd b d g v.row k)).map embQ) := by
  induction m with
  | zero => simp
  | succ m ih =>
    rw [List.range_succ, List.foldlM_append, den_bind, ih (by omega), pure_bind, List.foldlM_cons, den_bind,
      den_cosetStep hb hd h2 hw (by omega), pure_bind, List.foldlM_nil, den_pure,
      List.flatMap_append (xs := List.range m)]
    simp only [List.flatMap_cons, List.flatMap_nil, List.append_nil, List.append_assoc]

theorem den_cosetInterpolation {b d : ℕ} {g : Fp} {wt : List Fp} (hb : b ≤ 32) (hd : 2 ≤ d) (hdN : d ≤ 2 ^ b)
    (hg : primitiveRootOfUnity b = some g) (hwt : wt.length = 2 ^ b)
    (hw : 1 + 2 * 2 ^ b + 4 + 4 * numInter b d + 2 ≤ v.localWires.length) :
    den (cosetInterpolation b d wt v.enc) =
      pure ((Spec.Gates.cosetInterpolation b d g (fun i => wt.getD i 0) v.row).map embQ) := by
  have h2 : 2 ≤ 2 ^ b := hd.trans hdN
  obtain ⟨g', _, hg', hdom⟩ := twoAdicSubgroup_eq hb
  obtain rfl : g = g' := by rw [hg] at hg'; exact Option.some.inj hg'
  have hwtl : wt = (List.range (2 ^ b)).map fun i => wt.getD i 0 := by
    rw [← hwt]; exact Fri.list_eq_range_getD wt 0
  rw [cosetInterpolation, if_neg (by omega)]
  simp only [numIntermediates_eq hb h2, startIntermediates, shl1_pow hb, den_bind, hdom, orPanic]
  rw [show 1 + 2 ^ b * 2 + 2 + 2 = 1 + 2 * 2 ^ b + 4 by ring, show 1 + 2 ^ b * 2 = 1 + 2 * 2 ^ b by ring,
    show 2 * 2 * numInter b d = 4 * numInter b d by ring]
  rw [den_wire (by omega), pure_bind, den_alg rfl (by omega), pure_bind, den_alg rfl (by omega), pure_bind, negOne_eq,
    den_scalarMulExt, pure_bind, den_scalarMulAlg, pure_bind, den_addAlg, pure_bind, den_pure, pure_bind, den_mapM,
    Den.mapM_pure_of (g := fun i => embA (value v.row i)) (fun i hi => by
      rw [List.mem_range] at hi
      rw [Nat.mul_comm i 2]
      exact den_alg rfl (by omega)), pure_bind, slice_range _ (by omega) hdN, den_pure, pure_bind,
    slice_range _ (by omega) hdN, den_pure, pure_bind]
  generalize hW : (fun i => wt.getD i 0) = W at hwtl ⊢
  rw [hwtl, slice_range _ (by omega) hdN, den_pure, pure_bind, zeroAlg_eq, oneAlg_eq,
    den_interpRange _ _ _ _ _ _ _ _ (by omega), pure_bind, coeffsV_embA]
  have c1 : baryEval (fun i => v.row.a (1 + 2 * 2 ^ b + 4 + 4 * numInter b d) - ofExt (ofBase (g ^ i)))
      (fun i => ofExt (ofBase (W i)) * value v.row i) 0 1 0 (0 + (d - 0)) = chunkEval b d g W v.row 0 := by
    rw [chunkEval, if_pos rfl, Nat.sub_zero, Nat.zero_add]; rfl
  have c2 : 1 * ∏ i ∈ Finset.Ico 0 (0 + (d - 0)), (v.row.a (1 + 2 * 2 ^ b + 4 + 4 * numInter b d) - ofExt (ofBase (g ^ i)))
      = chunkProd b d g v.row 0 := by
    rw [chunkProd, if_pos rfl, Nat.sub_zero, Nat.zero_add, one_mul]; rfl
  rw [c1, c2, show v.row.a (1 + 2 * 2 ^ b + 4 + 4 * numInter b d) = unshifted b d v.row from rfl,
    den_cosetLoop hb hd h2 hw _ le_rfl, pure_bind, den_alg rfl (by omega), pure_bind, den_subAlg, pure_bind, den_pure,
    coeffsV_embA, ← List.map_append]
  refine congrArg pure (congrArg (List.map embQ) ?_)
  rw [Spec.Gates.cosetInterpolation]
  refine congrArg₂ (· ++ ·) (congrArg₂ (· ++ ·) (congrArg coords ?_) rfl) rfl
  have : ofExt (v.row.w 0 * ofBase (-1)) = - ofExt (v.row.w 0) := by
    rw [show ofBase (-1) = (-1 : QE) from QuadraticAlgebra.C_neg 1, mul_neg_one]
    exact QuadraticAlgebra.C_neg _
  rw [this]
  show - ofExt (v.row.w 0) * unshifted b d v.row + point b v.row = point b v.row - ofExt (v.row.w 0) * unshifted b d v.row
  ring

end Gates

end Verif
