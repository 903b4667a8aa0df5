import Verif.Proofs.PoseidonGL

/-! # Extension-field layers of Poseidon-Goldilocks (used by the Poseidon gates) -/

set_option autoImplicit false

namespace Verif.PoseidonGL

open Circ

theorem const1_embQ {t : List ℕ} (h : ∀ n ∈ t, n < p) (i : ℕ) :
    ((const1 t i, 0) : QEV) = embQ ((t.getD i 0 : ℕ) : QE) := by
  rw [const1_emb h, emb_pair_zero]
  congr 1

theorem const2_embQ {t : List (List ℕ)} (h : ∀ l ∈ t, ∀ n ∈ l, n < p) (i j : ℕ) :
    ((const2 t i j, 0) : QEV) = embQ (((t.getD i []).getD j 0 : ℕ) : QE) := by
  rw [const2_emb h, emb_pair_zero]
  congr 1

theorem mds0_embQ : (((MDS0TO0 : Fr), 0) : QEV) = embQ ((MDS0TO0 : ℕ) : QE) := by
  rw [← emb_natCast_of_lt (by norm_num [MDS0TO0, p]), emb_pair_zero]
  congr 1

theorem den_constantLayerExt (s : Fin 12 → QE) (rc : ℕ) :
    den (constantLayerExt (fun i => embQ (s i)) rc) = pure fun i => embQ (s i + (Spec.rc rc i : QE)) := by
  refine den_tabM fun i => ?_
  rw [const1_embQ all_lt, den_addExt, Spec.rc, Nat.add_comm]

theorem den_partialFirstConstantLayerExt (s : Fin 12 → QE) :
    den (partialFirstConstantLayerExt fun i => embQ (s i)) =
      pure fun i => embQ ((s + vecR firstEnt : Fin 12 → QE) i) := by
  refine den_tabM fun i => ?_
  rw [const1_embQ first_lt, den_addExt]; rfl

@[simp] theorem den_sBoxMonomialExt (a : QE) :
    den (sBoxMonomialExt (embQ a)) = pure (embQ (a ^ 7)) := by
  simp only [sBoxMonomialExt, den_bind, den_mulExt, pure_bind]
  congr 2; ring

theorem den_sBoxLayerExt (s : Fin 12 → QE) :
    den (sBoxLayerExt fun i => embQ (s i)) = pure fun i => embQ (s i ^ 7) :=
  den_tabM fun _ => den_sBoxMonomialExt _

/-- Accumulation of `Σ x_i * c_i`. -/
theorem den_accExt {ι : Type} (l : List ι) (x c : ι → QE) (a : QE) :
    den (l.foldlM (fun acc i => do
      let t ← mulExt (embQ (x i)) (embQ (c i))
      addExt acc t) (embQ a)) = pure (embQ (a + (l.map fun i => c i * x i).sum)) := by
  rw [den_foldlM, Den.foldlM_enc embQ (g := fun a i => a + c i * x i)]
  · congr 2
    induction l generalizing a with
    | nil => simp
    | cons i l ih => simp [ih, add_assoc]
  · intro s i _
    simp only [den_bind, den_mulExt, pure_bind, den_addExt, mul_comm]

theorem den_mdsRowShfExt (r : Fin 12) (s : Fin 12 → QE) :
    den (mdsRowShfExt r (fun i => embQ (s i))) = pure (embQ (Spec.mix s r)) := by
  simp only [mdsRowShfExt, const1_embQ circ_lt, const1_embQ diag_lt, zeroExt_eq]
  rw [den_bind, den_accExt (List.finRange 12) (fun i => s (i + r)), pure_bind, den_bind, den_mulExt,
    pure_bind, den_addExt, zero_add, sum_finRange, ← mds_row, mul_comm (s r)]

theorem den_mdsLayerExt (s : Fin 12 → QE) :
    den (mdsLayerExt fun i => embQ (s i)) = pure fun i => embQ (Spec.mix s i) :=
  den_tabM fun r => den_mdsRowShfExt r s

theorem cases_embQ (a : QE) (b : Fin 11 → QE) :
    (Fin.cases (motive := fun _ => QEV) (embQ a) fun i => embQ (b i)) =
      fun i => embQ (Fin.cases (motive := fun _ => QE) a b i) := by
  funext i
  induction i using Fin.cases <;> rfl

theorem den_mdsPartialLayerInitExt (s : Fin 12 → QE) :
    den (mdsPartialLayerInitExt fun i => embQ (s i)) =
      pure fun i => embQ (((matR iEnt).mulVec s) i) := by
  simp only [mdsPartialLayerInitExt, const2_embQ initial_lt, zeroExt_eq]
  rw [den_bind, den_tabM (fun d => den_accExt (List.finRange 11) (fun r => s r.succ)
    (fun r => ((FAST_PARTIAL_ROUND_INITIAL_MATRIX.getD r []).getD d 0 : ℕ)) 0), pure_bind, den_pure,
    cases_embQ]
  refine congrArg pure (funext fun i => congrArg embQ ?_)
  induction i using Fin.cases with
  | zero => simp [Matrix.mulVec, dotProduct, matR, Fin.sum_univ_succ, iEnt]
  | succ d =>
    rw [Fin.cases_succ, zero_add, sum_finRange, Matrix.mulVec, dotProduct,
      Fin.sum_univ_succ (n := 11)]
    simp [matR, iEnt]

theorem den_mdsPartialLayerFastExt (s : Fin 12 → QE) (i : ℕ) :
    den (mdsPartialLayerFastExt (fun i => embQ (s i)) i) =
      pure fun k => embQ (((matR (fEnt i)).mulVec s) k) := by
  simp only [mdsPartialLayerFastExt, const2_embQ w_hats_lt, const2_embQ vs_lt, mds0_embQ]
  rw [den_bind, den_mulExt, pure_bind, den_bind, den_accExt (List.finRange 11) (fun r => s r.succ),
    pure_bind, den_bind, den_tabM (g := fun k => embQ
      (s 0 * (((FAST_PARTIAL_ROUND_VS.getD i []).getD k 0 : ℕ) : QE) + s k.succ)), pure_bind, den_pure,
    cases_embQ]
  · refine congrArg pure (funext fun k => congrArg embQ ?_)
    induction k using Fin.cases with
    | zero =>
      rw [Fin.cases_zero, sum_finRange, Matrix.mulVec, dotProduct, Fin.sum_univ_succ (n := 11)]
      simp [matR, fEnt, MDS0TO0]
      ring
    | succ d =>
      rw [Fin.cases_succ, Matrix.mulVec, dotProduct, Fin.sum_univ_succ (n := 11)]
      simp [matR, fEnt, Fin.val_inj]
      ring
  · intro k
    rw [den_bind, den_mulExt, pure_bind, den_addExt]

end Verif.PoseidonGL
