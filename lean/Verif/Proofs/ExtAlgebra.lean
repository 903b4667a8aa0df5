import Verif.Model.ExtAlgebra
import Verif.Proofs.QuadExt
import Mathlib.Algebra.BigOperators.Fin

/-! # Proofs about the extension algebra -/

set_option autoImplicit false

namespace Verif

open Circ

theorem embA_inj {a b : QA} : embA a = embA b ↔ a = b := by
  simp only [embA, Prod.mk.injEq, embQ_inj]
  constructor
  · rintro ⟨h1, h2⟩; exact QuadraticAlgebra.ext h1 h2
  · rintro rfl; exact ⟨rfl, rfl⟩


@[simp] theorem toQA_emb (a : QE) : toQA (embQ a) = embA (ofExt a) := by simp [toQA, embA]
@[simp] theorem zeroAlg_eq : zeroAlg = embA 0 := by simp [zeroAlg, toQA, embA]
@[simp] theorem oneAlg_eq : oneAlg = embA 1 := by
  simp only [oneAlg, toQA, embA, oneExt_eq, zeroExt_eq]; rfl
theorem embQ_pair (a b : QE) : ((embQ a, embQ b) : QAV) = embA ⟨a, b⟩ := rfl

@[simp] theorem den_addAlg (a b : QA) : den (addAlg (embA a) (embA b)) = pure (embA (a + b)) := by
  simp [addAlg, embA]

@[simp] theorem den_subAlg (a b : QA) : den (subAlg (embA a) (embA b)) = pure (embA (a - b)) := by
  simp [subAlg, embA]

@[simp] theorem den_scalarMulAlg (a : QE) (b : QA) :
    den (scalarMulAlg (embQ a) (embA b)) = pure (embA (ofExt a * b)) := by
  simp [scalarMulAlg, embA]

theorem emb_seven : emb 7 = 7 := by
  have := @emb_natCast_of_lt 7 (by norm_num [p])
  simpa using this

theorem inner1 (c : Fp) (acc a b : QE) :
    den (innerProductExt (emb c) (embQ acc) [(embQ a, embQ b)]) =
      pure (embQ (acc + ofBase c * (a * b))) := by
  have := den_innerProductExt c acc [(a, b)] (by simp)
  simpa using this

theorem inner2 (c : Fp) (acc a b a' b' : QE) :
    den (innerProductExt (emb c) (embQ acc) [(embQ a, embQ b), (embQ a', embQ b')]) =
      pure (embQ (acc + (ofBase c * (a * b) + ofBase c * (a' * b')))) := by
  have := den_innerProductExt c acc [(a, b), (a', b')] (by simp)
  simpa using this

theorem inner0 (c : Fp) (acc : QE) :
    den (innerProductExt (emb c) (embQ acc) []) = pure (embQ acc) := by
  have := den_innerProductExt c acc [] (by simp)
  simpa using this

@[simp] theorem den_mulAlg (a b : QA) : den (mulAlg (embA a) (embA b)) = pure (embA (a * b)) := by
  have h7 : (7 : Fr) = emb 7 := emb_seven.symm
  have h1 : (1 : Fr) = emb 1 := emb_one.symm
  have b7 : ofBase 7 = (7 : QE) := rfl
  have b1 : ofBase 1 = (1 : QE) := rfl
  simp only [mulAlg, embA, zeroExt_eq, h7, h1, den_bind, inner1, inner2, inner0, pure_bind,
    den_pure, b7, b1]
  congr 1
  rw [Prod.mk.injEq, embQ_inj, embQ_inj]
  constructor
  · simp; ring
  · simp

@[simp] theorem den_partialInterpolateStep (point e pr : QA) (x : Fp) (v : QA) (w : Fp) :
    den (partialInterpolateStep (embA point) (embA e, embA pr) (x, embA v, w)) =
      pure (embA (e * (point - ofExt (ofBase x)) + ofExt (ofBase w) * v * pr),
        embA (pr * (point - ofExt (ofBase x)))) := by
  simp only [partialInterpolateStep, toQE_emb, toQA_emb, den_bind, den_subAlg, pure_bind,
    den_scalarMulAlg, den_mulAlg, den_addAlg, den_pure]

/-- The barycentric accumulation loop in any commutative ring. -/
theorem barycentric_fold {R : Type} [CommRing R] (n : ℕ) (t c : Fin n → R) (e0 p0 : R) :
    (List.ofFn fun i => (t i, c i)).foldl (fun st tc => (st.1 * tc.1 + tc.2 * st.2, st.2 * tc.1))
      (e0, p0) =
    (e0 * ∏ i, t i + p0 * ∑ i, c i * ∏ j ∈ Finset.univ.erase i, t j, p0 * ∏ i, t i) := by
  induction n with
  | zero => simp
  | succ n ih =>
    rw [List.ofFn_succ', List.concat_eq_append, List.foldl_append, ih]
    simp only [List.foldl_cons, List.foldl_nil, Fin.prod_univ_castSucc, Fin.sum_univ_castSucc]
    have h1 : ∀ i : Fin n, ∏ j ∈ Finset.univ.erase (Fin.castSucc i), t j =
        (∏ j ∈ Finset.univ.erase i, t j.castSucc) * t (Fin.last n) := by
      intro i
      have : (Finset.univ.erase (Fin.castSucc i)) =
          insert (Fin.last n) ((Finset.univ.erase i).map Fin.castSuccEmb) := by
        ext j
        refine Fin.lastCases ?_ (fun k => ?_) j
        · simp [Fin.ext_iff]; have := i.2; omega
        · simp
      rw [this, Finset.prod_insert (by simp), Finset.prod_map, mul_comm]; rfl
    have h2 : ∏ j ∈ Finset.univ.erase (Fin.last n), t j = ∏ j : Fin n, t j.castSucc := by
      have : (Finset.univ.erase (Fin.last n)) = Finset.univ.map Fin.castSuccEmb := by
        ext j
        refine Fin.lastCases ?_ (fun k => ?_) j <;> simp
      rw [this, Finset.prod_map]; rfl
    rw [h2]
    simp only [h1]
    rw [Prod.mk.injEq]
    constructor
    · simp only [← mul_assoc, ← Finset.sum_mul]; ring
    · ring

theorem partialInterpolate_loop (point : QA) (l : List (Fp × QA × Fp)) (e pr : QA) :
    (l.map fun d => (d.1, embA d.2.1, d.2.2)).foldlM
        (fun st d => den (partialInterpolateStep (embA point) st d)) (embA e, embA pr) =
      (pure (Prod.map embA embA ((l.map fun d =>
          (point - ofExt (ofBase d.1), ofExt (ofBase d.2.2) * d.2.1)).foldl
          (fun st tc => (st.1 * tc.1 + tc.2 * st.2, st.2 * tc.1)) (e, pr))) : Den _) := by
  induction l generalizing e pr with
  | nil => simp
  | cons d l ih =>
    simp only [List.map_cons, List.foldlM_cons, den_partialInterpolateStep, pure_bind, ih,
      List.foldl_cons]

theorem den_partialInterpolate (n : ℕ) (hn : n ≠ 0) (x : Fin n → Fp) (v : Fin n → QA)
    (w : Fin n → Fp) (point e0 p0 : QA) :
    den (partialInterpolate (List.ofFn x) (List.ofFn fun i => embA (v i)) (List.ofFn w)
      (embA point) (embA e0) (embA p0)) =
    pure (embA (e0 * ∏ i, (point - ofExt (ofBase (x i))) + p0 * ∑ i, ofExt (ofBase (w i)) * v i *
        ∏ j ∈ Finset.univ.erase i, (point - ofExt (ofBase (x j)))),
      embA (p0 * ∏ i, (point - ofExt (ofBase (x i))))) := by
  have hz : (List.ofFn x).zip ((List.ofFn fun i => embA (v i)).zip (List.ofFn w)) =
      (List.ofFn fun i => (x i, v i, w i)).map fun d => (d.1, embA d.2.1, d.2.2) := by
    apply List.ext_getElem
    · simp
    · intro i h1 h2; simp
  simp only [partialInterpolate, List.length_ofFn, hn, ne_eq, not_true_eq_false, if_false, hz,
    den_foldlM, partialInterpolate_loop]
  rw [List.map_ofFn]
  have := barycentric_fold n (fun i => point - ofExt (ofBase (x i)))
    (fun i => ofExt (ofBase (w i)) * v i) e0 p0
  simp only [Function.comp_def]
  rw [this]; rfl

end Verif
