import Verif.Proofs.Gates
import Verif.Proofs.PoseidonGLExt
import Verif.Proofs.PoseidonGLPerm

/-!
# PoseidonGate and PoseidonMdsGate
-/

set_option autoImplicit false

namespace Verif

open Circ

namespace PoseidonGL

open scoped Matrix

section
variable {R : Type} [CommRing R] [Algebra Fp R]

omit [Algebra Fp R] in
theorem p_update (i : ℕ) (hi : i < 22) (v : Fin 12 → R) (y : R) :
    Function.update (matR (pEnt i) *ᵥ v + vecR (dEnt i)) 0 y =
      matR (pEnt i) *ᵥ Function.update v 0 y + vecR (dEnt i) := by
  have hd : vecR (R := R) (dEnt i) 0 = 0 := by simp [vecR, check_d0 i hi]
  ext r
  by_cases hr : r = 0
  · subst hr
    simp only [Function.update_self, Pi.add_apply, p_row0 i (by omega), hd, add_zero]
  · rw [Function.update_of_ne hr, Pi.add_apply, Pi.add_apply]
    congr 1
    simp only [Matrix.mulVec, dotProduct]
    refine Finset.sum_congr rfl fun k _ => ?_
    by_cases hk : k = 0
    · subst hk
      have := (check_block i (by omega) r).2
      simp [matR, this, hr]
    · rw [Function.update_of_ne hk]

/-- A fast partial round with the S-box output `y` supplied from outside. -/
theorem fastOf_update (i : ℕ) (hi : i < 22) (x : Fin 12 → R) (y : R) :
    matR (fEnt i) *ᵥ Function.update (fastOf i x) 0 (y + (fcEnt i : R)) =
      fastOf (i + 1) (Spec.mix (Function.update (x + vecR (cEnt i)) 0 y)) := by
  have h : Function.update (fastOf i x) 0 (y + (fcEnt i : R)) =
      Function.update (fastOf i x) 0 y + Pi.single 0 (fcEnt i : R) := by
    ext k
    by_cases hk : k = 0
    · subst hk; simp
    · simp [hk]
  rw [h, fastOf, p_update i hi, add_assoc, Matrix.mulVec_add, f_offset i hi, Matrix.mulVec_mulVec,
    fp_mul i hi, fastOf, Matrix.mulVec_add, mix_eq, ← Matrix.mulVec_mulVec]
  abel

omit [Algebra Fp R] in
theorem fastOf_zero (i : ℕ) (hi : i < 22) (x : Fin 12 → R) : fastOf i x 0 = x 0 + (Spec.rc (4 + i) 0 : R) := by
  have hd : vecR (R := R) (dEnt i) 0 = 0 := by simp [vecR, check_d0 i hi]
  rw [fastOf, Pi.add_apply, hd, add_zero, p_row0 i (by omega), Pi.add_apply]
  simp [vecR, cEnt, hi]

end

theorem fcEnt_last : fcEnt 21 = 0 := by decide

end PoseidonGL

namespace Gates

open Spec.Gates (Row coords)
open Spec.Gates.Poseidon
open PoseidonGL

variable {v : EvaluationVars Fp QE}

theorem ofFn_map {α β : Type} {n : ℕ} (f : α → β) (g : Fin n → α) :
    List.ofFn (fun i => f (g i)) = (List.ofFn g).map f := by rw [List.map_ofFn]; rfl

/-! ## PoseidonMdsGate -/

theorem den_accAlg {ι : Type} (l : List ι) (x : ι → QA) (c : ι → QE) (a : QA) :
    den (l.foldlM (fun acc i => do
      let t ← scalarMulAlg (embQ (c i)) (embA (x i))
      addAlg acc t) (embA a)) = pure (embA (a + (l.map fun i => ofExt (c i) * x i).sum)) := by
  rw [den_foldlM, Den.foldlM_enc embA (g := fun a i => a + ofExt (c i) * x i)]
  · congr 2
    induction l generalizing a with
    | nil => simp
    | cons i l ih => simp [ih, add_assoc]
  · intro s i _
    simp only [den_bind, den_scalarMulAlg, pure_bind, den_addAlg]

theorem den_mdsRowShfAlgebra (r : Fin 12) (s : Fin 12 → QA) :
    den (mdsRowShfAlgebra r fun i => embA (s i)) = pure (embA (Spec.mix s r)) := by
  simp only [mdsRowShfAlgebra, const1_embQ circ_lt, const1_embQ diag_lt, zeroAlg_eq]
  rw [den_bind, den_accAlg (List.finRange 12) (fun i => s (i + r)), pure_bind, den_bind, den_scalarMulAlg,
    pure_bind, den_addAlg, zero_add, sum_finRange, ← mds_row]
  rfl

theorem den_poseidonMds (hw : 48 ≤ v.localWires.length) :
    den (poseidonMds v.enc) = pure ((Spec.Gates.poseidonMds v.row).map embQ) := by
  rw [poseidonMds, den_bind, den_tabM (g := fun i : Fin 12 => embA (v.row.a (2 * i)))
    (fun i => by
      have := i.2
      rw [Nat.mul_comm (i : ℕ) 2]
      exact den_alg (by omega) (by omega)), pure_bind, den_bind,
    den_tabM (fun r => den_mdsRowShfAlgebra r fun j : Fin 12 => v.row.a (2 * j)), pure_bind, den_bind,
    den_tabM (g := fun i : Fin 12 => embA (v.row.a (2 * (12 + i)) - Spec.mix (fun j : Fin 12 => v.row.a (2 * j)) i))
    (fun i => by
      have := i.2
      rw [Nat.mul_comm (12 + (i : ℕ)) 2, den_bind, den_alg (by omega) (by omega), pure_bind, den_subAlg]),
    pure_bind, den_pure, Spec.Gates.poseidonMds, List.map_flatMap]
  refine congrArg pure ?_
  rw [ofFn_map embA fun i : Fin 12 => v.row.a (2 * (12 + i)) -
    Spec.mix (fun j : Fin 12 => v.row.a (2 * j)) i, List.flatMap_map]
  rfl

/-! ## PoseidonGate -/

theorem den_sBoxInputs {wire : Fin 12 → ℕ} (h : ∀ i, wire i < v.localWires.length) (s : Fin 12 → QE) :
    den (sBoxInputs v.enc wire fun i => embQ (s i)) =
      pure ((List.ofFn fun i => s i - v.row.w (wire i)).map embQ, fun i => embQ (v.row.w (wire i))) := by
  rw [sBoxInputs, den_bind, den_tabM (g := fun i => (embQ (s i - v.row.w (wire i)), embQ (v.row.w (wire i))))
    (fun i => by
      simp only [den_bind]
      rw [den_wire (h i), pure_bind, den_subExt, pure_bind, den_pure]), pure_bind, den_pure, List.map_ofFn]
  rfl

theorem den_poseidonFull0 {r : ℕ} (hr : r < 4) (hw : 135 ≤ v.localWires.length) (cs : List QE) :
    den (poseidonFull0 v.enc (cs.map embQ, fun i => embQ (wired v.row r i)) r) =
      pure ((cs ++ if r = 0 then [] else List.ofFn (diff v.row r)).map embQ,
        fun i => embQ (wired v.row (r + 1) i)) := by
  rw [poseidonFull0]
  simp only
  rw [den_bind, den_constantLayerExt, pure_bind]
  by_cases h0 : r = 0
  · subst h0
    rw [if_neg (by simp), if_pos rfl, pure_bind]
    simp only
    rw [den_bind, den_sBoxLayerExt, pure_bind, den_bind, den_mdsLayerExt, pure_bind, den_pure, List.map_append]
    rfl
  · rw [if_pos h0, if_neg h0, den_bind, den_sBoxInputs (fun i => by have := i.2; omega), pure_bind]
    simp only
    rw [den_bind, den_sBoxLayerExt, pure_bind, den_bind, den_mdsLayerExt, pure_bind, den_pure, List.map_append]
    have hs : ∀ i : ℕ, sboxWire r i = 29 + (r - 1) * 12 + i := fun i => if_pos hr
    have hd : diff v.row r = fun i : Fin 12 => wired v.row r i + (Spec.rc r i : QE) - v.row.w (29 + (r - 1) * 12 + i) := by
      funext i; rw [diff, hs]
    rw [hd]
    simp only [wired, hs, h0, if_false, show ¬ (4 ≤ r) by omega, false_and]

theorem den_poseidonFull1 {r : ℕ} (hr : r < 4) (hw : 135 ≤ v.localWires.length) (cs : List QE) :
    den (poseidonFull1 v.enc (cs.map embQ, fun i => embQ (wired v.row (26 + r) i)) r) =
      pure ((cs ++ List.ofFn (diff v.row (26 + r))).map embQ, fun i => embQ (wired v.row (26 + r + 1) i)) := by
  rw [poseidonFull1]
  simp only
  rw [den_bind, den_constantLayerExt, pure_bind, den_bind, den_sBoxInputs (fun i => by have := i.2; omega), pure_bind]
  simp only
  rw [den_bind, den_sBoxLayerExt, pure_bind, den_bind, den_mdsLayerExt, pure_bind, den_pure, List.map_append]
  have hs : ∀ i : ℕ, sboxWire (26 + r) i = 87 + r * 12 + i := fun i => by
    rw [sboxWire, if_neg (by omega), if_neg (by omega), Nat.add_sub_cancel_left]
  have hd : diff v.row (26 + r) = fun i : Fin 12 => wired v.row (26 + r) i + (Spec.rc (26 + r) i : QE) -
      v.row.w (87 + r * 12 + i) := by
    funext i; rw [diff, hs]
  rw [hd]
  simp only [wired, hs, show ¬ (26 + r = 0) by omega, if_false, show ¬ (26 + r < 26) by omega, false_and,
    and_false]

theorem update_embQ (s : Fin 12 → QE) (y : QE) :
    Function.update (fun i => embQ (s i)) 0 (embQ y) = fun i => embQ (Function.update s 0 y i) := by
  funext i
  by_cases hi : i = 0
  · subst hi; simp
  · simp [hi]

theorem wired_partial {x : Row} {r : ℕ} (hr : r < 22) :
    wired x (4 + r + 1) =
      Spec.mix (Function.update (wired x (4 + r) + vecR (cEnt r)) 0 (x.w (sboxWire (4 + r) 0) ^ 7)) := by
  rw [wired]
  refine congrArg Spec.mix (funext fun i => ?_)
  rw [if_neg (by omega)]
  by_cases hi : i = 0
  · subst hi; simp
  · rw [if_pos ⟨by omega, by omega, hi⟩, Function.update_of_ne hi]
    simp [vecR, cEnt, hr]

theorem den_poseidonPartial {r : ℕ} (hr : r < 22) (hw : 135 ≤ v.localWires.length) (cs : List QE) :
    den (poseidonPartial v.enc (cs.map embQ, fun i => embQ (fastOf r (wired v.row (4 + r)) i)) r) =
      pure ((cs ++ [diff v.row (4 + r) 0]).map embQ, fun i => embQ (fastOf (r + 1) (wired v.row (4 + r + 1)) i)) := by
  have hs : sboxWire (4 + r) 0 = 65 + r := by
    rw [sboxWire, if_neg (by omega), if_pos (by omega), Nat.add_sub_cancel_left]
  have hd : fastOf r (wired v.row (4 + r)) 0 - v.row.w (65 + r) = diff v.row (4 + r) 0 := by
    rw [fastOf_zero r hr, diff, ← hs]; rfl
  have hu := fastOf_update r hr (wired v.row (4 + r)) (v.row.w (65 + r) ^ 7)
  rw [← hs, ← wired_partial hr, hs] at hu
  rw [poseidonPartial]
  simp only [den_bind]
  rw [den_wire (by omega), pure_bind, den_subExt, pure_bind, den_sBoxMonomialExt, pure_bind]
  by_cases h21 : r < 21
  · rw [if_pos h21, den_bind, const1_embQ fc_lt, den_addExt, pure_bind]
    rw [update_embQ, den_bind, den_mdsPartialLayerFastExt, pure_bind, den_pure, List.map_append, hd,
      ← hu]
    rfl
  · have h : r = 21 := by omega
    rw [if_neg h21, pure_bind]
    rw [update_embQ, den_bind, den_mdsPartialLayerFastExt, pure_bind, den_pure, List.map_append, hd, ← hu]
    rw [h, fcEnt_last, Nat.cast_zero, add_zero]
    rfl

theorem den_poseidonPartials (hw : 135 ≤ v.localWires.length) (cs : List QE) (n : ℕ) (hn : n ≤ 22) :
    den ((List.range n).foldlM (poseidonPartial v.enc) (cs.map embQ, fun i => embQ (fastOf 0 (wired v.row 4) i))) =
      pure ((cs ++ (List.range n).map fun r => diff v.row (4 + r) 0).map embQ,
        fun i => embQ (fastOf n (wired v.row (4 + n)) i)) := by
  induction n with
  | zero => simp
  | succ n ih =>
    rw [List.range_succ, List.foldlM_append, den_bind, ih (by omega), pure_bind, List.foldlM_cons, den_bind,
      den_poseidonPartial (by omega) hw, pure_bind, List.foldlM_nil, den_pure, List.map_append (l₁ := List.range n),
      ← List.append_assoc]
    rfl

theorem den_poseidonInput (hw : 135 ≤ v.localWires.length) :
    den (poseidonInput v.enc) = pure fun i => embQ (wired v.row 0 i) := by
  rw [poseidonInput, den_bind, den_tabM (g := fun i : Fin 4 =>
      (embQ (v.row.w i + v.row.w (25 + i)), embQ (v.row.w (i + 4) - v.row.w (25 + i)))) (fun i => by
        have := i.2
        simp (disch := omega) only [den_bind, den_wire, pure_bind, den_addExt, den_subExt, den_pure]), pure_bind,
    den_bind, den_tabM (g := fun i : Fin 4 => embQ (v.row.w (8 + i))) (fun i => den_wire (by have := i.2; omega)),
    pure_bind, den_pure]
  refine congrArg pure (funext fun i => ?_)
  rw [wired, input]
  refine Fin.addCases (m := 8) (n := 4) (fun j => ?_) (fun j => ?_) i
  · refine Fin.addCases (m := 4) (n := 4) (fun k => ?_) (fun k => ?_) j
    · rw [Fin.append_left, Fin.append_left, if_pos (by simp)]; rfl
    · have := k.2
      rw [Fin.append_left, Fin.append_right, if_neg (by simp), if_pos (by simp; omega)]
      have h1 : ((Fin.castAdd 4 (Fin.natAdd 4 k) : Fin 12) : ℕ) = 4 + k := rfl
      rw [h1, Nat.add_sub_cancel_left, Nat.add_comm 4]
  · rw [Fin.append_right, if_neg (by simp; omega), if_neg (by simp)]; rfl

theorem den_poseidon (hw : 135 ≤ v.localWires.length) :
    den (poseidon v.enc) = pure ((Spec.Gates.poseidon v.row).map embQ) := by
  have h0 : den (tabM 4 fun i => do
      let inputLhs ← idx v.enc.localWires i
      let inputRhs ← idx v.enc.localWires (i + 4)
      let deltaI ← idx v.enc.localWires (25 + i)
      let diff ← subExt inputRhs inputLhs
      let expectedDeltaI ← mulExt (embQ (v.row.w 24)) diff
      subExt expectedDeltaI deltaI) = pure fun i : Fin 4 =>
        embQ (v.row.w 24 * (v.row.w (i + 4) - v.row.w i) - v.row.w (25 + i)) := by
    refine den_tabM fun i => ?_
    have := i.2
    simp (disch := omega) only [den_bind, den_wire, pure_bind, den_mulExt, den_subExt]
  rw [poseidon]
  simp only [den_bind]
  rw [den_wire (by omega), pure_bind, oneExt_eq, den_subExt, pure_bind, den_mulExt, pure_bind, h0, pure_bind,
    den_poseidonInput hw, pure_bind]
  have e0 : (embQ (v.row.w 24 * (v.row.w 24 - 1)) :: List.ofFn fun i : Fin 4 =>
      embQ (v.row.w 24 * (v.row.w (i + 4) - v.row.w i) - v.row.w (25 + i))) =
      ((v.row.w 24 * (v.row.w 24 - 1)) :: List.ofFn fun i : Fin 4 =>
        v.row.w 24 * (v.row.w (i + 4) - v.row.w i) - v.row.w (25 + i)).map embQ := by
    rw [List.map_cons, List.map_ofFn]; rfl
  rw [e0]
  simp only [List.foldlM_cons, List.foldlM_nil, den_bind]
  rw [den_poseidonFull0 (by norm_num) hw, pure_bind, den_poseidonFull0 (by norm_num) hw, pure_bind,
    den_poseidonFull0 (by norm_num) hw, pure_bind, den_poseidonFull0 (by norm_num) hw, pure_bind, den_pure, pure_bind]
  simp only
  rw [den_partialFirstConstantLayerExt, pure_bind, den_mdsPartialLayerInitExt, pure_bind]
  have e1 : (fun i => embQ (((matR iEnt).mulVec (wired v.row (3 + 1) + vecR firstEnt)) i)) =
      fun i => embQ (fastOf 0 (wired v.row 4) i) := by
    rw [← fastInit_fastOf]; rfl
  rw [e1, den_poseidonPartials hw _ 22 le_rfl, pure_bind, fastOf_last]
  rw [den_poseidonFull1 (r := 0) (by norm_num) hw, pure_bind, den_poseidonFull1 (r := 1) (by norm_num) hw, pure_bind,
    den_poseidonFull1 (r := 2) (by norm_num) hw, pure_bind, den_poseidonFull1 (r := 3) (by norm_num) hw, pure_bind,
    den_pure, pure_bind]
  simp only
  rw [den_tabM (g := fun i : Fin 12 => embQ (wired v.row 30 i - v.row.w (12 + i))) (fun i => by
    have := i.2
    rw [den_bind, den_wire (by omega), pure_bind, den_subExt]), pure_bind, den_pure]
  refine congrArg pure ?_
  rw [ofFn_map embQ fun i : Fin 12 => wired v.row 30 i - v.row.w (12 + i), ← List.map_append]
  refine congrArg (List.map embQ) ?_
  rw [Spec.Gates.poseidon]
  simp only [List.flatMap_cons, List.flatMap_nil, List.append_assoc, List.append_nil, if_true,
    one_ne_zero, if_false, OfNat.ofNat_ne_zero, Nat.add_zero, Nat.reduceAdd, List.cons_append]

end Gates

end Verif
