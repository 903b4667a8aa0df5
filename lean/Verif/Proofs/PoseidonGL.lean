import Verif.Model.PoseidonGL
import Verif.Proofs.PoseidonGLFast
import Verif.Proofs.QuadExt

/-! # Proofs about the Poseidon-Goldilocks circuit -/

set_option autoImplicit false

namespace Verif.PoseidonGL

open Circ

/-! ## Tables -/

theorem const1_emb {t : List ℕ} (h : ∀ n ∈ t, n < p) (i : ℕ) :
    const1 t i = emb ((t.getD i 0 : ℕ) : Fp) := by
  rw [const1, emb_natCast_of_lt]
  by_cases hi : i < t.length
  · rw [List.getD_eq_getElem _ _ hi]; exact h _ (List.getElem_mem hi)
  · rw [List.getD_eq_default _ _ (by omega)]; norm_num [p]

theorem getD2_lt {t : List (List ℕ)} (h : ∀ l ∈ t, ∀ n ∈ l, n < p) (i j : ℕ) :
    (t.getD i []).getD j 0 < p := by
  by_cases hi : i < t.length
  · rw [List.getD_eq_getElem _ [] hi]
    by_cases hj : j < (t[i]).length
    · rw [List.getD_eq_getElem _ _ hj]; exact h _ (List.getElem_mem hi) _ (List.getElem_mem hj)
    · rw [List.getD_eq_default _ _ (by omega)]; norm_num [p]
  · rw [List.getD_eq_default t _ (by omega)]; norm_num [p]

theorem const2_emb {t : List (List ℕ)} (h : ∀ l ∈ t, ∀ n ∈ l, n < p) (i j : ℕ) :
    const2 t i j = emb (((t.getD i []).getD j 0 : ℕ) : Fp) := by
  rw [const2, emb_natCast_of_lt (getD2_lt h i j)]

theorem all_lt : ∀ n ∈ ALL_ROUND_CONSTANTS, n < p := by decide +kernel
theorem circ_lt : ∀ n ∈ MDS_MATRIX_CIRC, n < p := by decide +kernel
theorem circ_vars_lt : ∀ n ∈ MDS_MATRIX_CIRC_VARS, n < p := by decide +kernel
theorem diag_lt : ∀ n ∈ MDS_MATRIX_DIAG, n < p := by decide +kernel
theorem diag_vars_lt : ∀ n ∈ MDS_MATRIX_DIAG_VARS, n < p := by decide +kernel
theorem first_lt : ∀ n ∈ FAST_PARTIAL_FIRST_ROUND_CONSTANT, n < p := by decide +kernel
theorem fc_lt : ∀ n ∈ FAST_PARTIAL_ROUND_CONSTANTS, n < p := by decide +kernel
theorem vs_lt : ∀ l ∈ FAST_PARTIAL_ROUND_VS, ∀ n ∈ l, n < p := by decide +kernel
theorem w_hats_lt : ∀ l ∈ FAST_PARTIAL_ROUND_W_HATS, ∀ n ∈ l, n < p := by decide +kernel
theorem w_hats_vars_lt : ∀ l ∈ FAST_PARTIAL_ROUND_W_HATS_VARS, ∀ n ∈ l, n < p := by decide +kernel
theorem initial_lt : ∀ l ∈ FAST_PARTIAL_ROUND_INITIAL_MATRIX, ∀ n ∈ l, n < p := by decide +kernel
theorem w_hats_eq : FAST_PARTIAL_ROUND_W_HATS_VARS = FAST_PARTIAL_ROUND_W_HATS := by decide +kernel
theorem circ_vars_eq : MDS_MATRIX_CIRC_VARS = MDS_MATRIX_CIRC := by decide +kernel
theorem diag_vars_eq : MDS_MATRIX_DIAG_VARS = MDS_MATRIX_DIAG := by decide +kernel
theorem circ_spec : ∀ i : Fin 12, MDS_MATRIX_CIRC.getD i 0 = Spec.circ i := by decide +kernel
theorem diag_spec : ∀ i : Fin 12, MDS_MATRIX_DIAG.getD i 0 = if i = 0 then 8 else 0 := by
  decide +kernel

/-! ## S-box -/

theorem sbox_cube (a : Fp) : mulNoReduce (emb a) (mulNoReduce (emb a) (emb a)) =
    ((a.val ^ 3 : ℕ) : Fr) := by
  simp only [mulNoReduce, emb_eq]; push_cast; ring

theorem sbox_seven (a t : Fp) : mulNoReduce (emb a) (mulNoReduce (emb t) (emb t)) =
    ((a.val * t.val ^ 2 : ℕ) : Fr) := by
  simp only [mulNoReduce, emb_eq]; push_cast; ring

theorem cube_lt (a : Fp) : a.val ^ 3 < p ^ 3 := Nat.pow_lt_pow_left (ZMod.val_lt a) (by norm_num)

theorem prod_lt (a t : Fp) : a.val * t.val ^ 2 < p ^ 3 := by
  have h1 : t.val ^ 2 < p ^ 2 := Nat.pow_lt_pow_left (ZMod.val_lt t) (by norm_num)
  calc a.val * t.val ^ 2 ≤ p * t.val ^ 2 := Nat.mul_le_mul_right _ (ZMod.val_lt a).le
    _ < p * p ^ 2 := Nat.mul_lt_mul_of_pos_left h1 (by norm_num [p])
    _ = p ^ 3 := by ring

theorem p3_lt_r : p ^ 3 < r := by norm_num [p, r]

/-- Exact set of results of the S-box: two independent multiples of `r` may be slipped in. -/
theorem sat_sBoxMonomial (a : Fp) (y : Fr) :
    Sat (sBoxMonomial (emb a)) y ↔ ∃ (t : Fp) (k k' : ℕ),
      (a.val ^ 3 + k * r) / p < 2 ^ 192 ∧ t = a ^ 3 + k * (r : Fp) ∧
      (a.val * t.val ^ 2 + k' * r) / p < 2 ^ 192 ∧ y = emb (a * t ^ 2 + k' * (r : Fp)) := by
  have hlt : ∀ n : ℕ, n < 2 ^ 192 → n < r := fun n h => h.trans (by norm_num [r])
  simp only [sBoxMonomial, sat_bind, sbox_cube]
  constructor
  · rintro ⟨t, h1, h2⟩
    rw [sat_reduceWithMaxBits_nat, val_natCast_of_lt ((cube_lt a).trans p3_lt_r)] at h1
    obtain ⟨k, hk, _, rfl⟩ := h1
    rw [← emb_natCast, sbox_seven, sat_reduceWithMaxBits_nat,
      val_natCast_of_lt ((prod_lt _ _).trans p3_lt_r)] at h2
    obtain ⟨k', hk', _, rfl⟩ := h2
    refine ⟨((a.val ^ 3 + k * r : ℕ) : Fp), k, k', hk, ?_, hk', ?_⟩
    · push_cast; rw [cast_val_fp]
    · rw [← emb_natCast]; congr 1; push_cast; simp only [cast_val_fp]
  · rintro ⟨t, k, k', hk, ht, hk', rfl⟩
    refine ⟨emb t, ?_, ?_⟩
    · rw [sat_reduceWithMaxBits_nat, val_natCast_of_lt ((cube_lt a).trans p3_lt_r)]
      refine ⟨k, hk, hlt _ hk, ?_⟩
      rw [← emb_natCast, ht]; congr 1; push_cast; rw [cast_val_fp]
    · rw [sbox_seven, sat_reduceWithMaxBits_nat, val_natCast_of_lt ((prod_lt _ _).trans p3_lt_r)]
      refine ⟨k', hk', hlt _ hk', ?_⟩
      rw [← emb_natCast]; congr 1; push_cast; simp only [cast_val_fp]

theorem div_p_lt {n : ℕ} (h : n < p ^ 3) : n / p < 2 ^ 192 := by
  refine (Nat.div_le_self _ _).trans_lt (h.trans ?_)
  norm_num [p]

theorem honest_sBoxMonomial (a : Fp) : honest (sBoxMonomial (emb a)) = some (emb (a ^ 7)) := by
  refine honest_bind_of (a := emb (a ^ 3)) ?_ ?_
  · rw [sbox_cube, honest_reduceWithMaxBits _ _ (by
      rw [val_natCast_of_lt ((cube_lt a).trans p3_lt_r)]; exact div_p_lt (cube_lt a)),
      val_natCast_of_lt ((cube_lt a).trans p3_lt_r), ← emb_natCast]
    push_cast; rw [cast_val_fp]
  · show honest (reduceWithMaxBits (mulNoReduce (emb a) (mulNoReduce (emb (a ^ 3)) (emb (a ^ 3)))) 192) = _
    rw [sbox_seven, honest_reduceWithMaxBits _ _ (by
      rw [val_natCast_of_lt ((prod_lt _ _).trans p3_lt_r)]; exact div_p_lt (prod_lt _ _)),
      val_natCast_of_lt ((prod_lt _ _).trans p3_lt_r), ← emb_natCast]
    push_cast; simp only [cast_val_fp]; congr 2; ring

theorem r_fp_ne_zero : ((r : ℕ) : Fp) ≠ 0 := by
  rw [Ne, ZMod.natCast_eq_zero_iff]; decide +kernel

/-- For each of `k' = 1..4` the wrong value `a^7 + k' r mod p` is accepted. -/
theorem sat_sBoxMonomial_wrong (a : Fp) {k : ℕ} (hk : k ≤ 4) :
    Sat (sBoxMonomial (emb a)) (emb (a ^ 7 + k * (r : Fp))) := by
  rw [sat_sBoxMonomial]
  refine ⟨a ^ 3, 0, k, ?_, by simp, ?_, by congr 1; ring⟩
  · simpa using div_p_lt (cube_lt a)
  · rw [Nat.div_lt_iff_lt_mul (by norm_num [p])]
    have h1 := prod_lt a (a ^ 3)
    have h2 : k * r ≤ 4 * r := Nat.mul_le_mul_right _ hk
    have h3 : p ^ 3 + 4 * r < 2 ^ 192 * p := by norm_num [p, r]
    omega

/-! ## Linear layers -/

/-- Unreduced accumulation of `Σ x_i * c_i`. -/
theorem lazy_fold {ι : Type} (l : List ι) (x : ι → Fp) (c : ι → ℕ) (hc : ∀ i, c i < p) (B : ℕ)
    (acc : Fr) (a : Fp) (h : Lazy B acc a) :
    Lazy (B + l.length * p ^ 2)
      (l.foldl (fun acc i => mulAddNoReduce (emb (x i)) (c i : Fr) acc) acc)
      (a + (l.map fun i => (c i : Fp) * x i).sum) := by
  induction l generalizing B acc a with
  | nil => simpa using h
  | cons i l ih =>
    have hs : Lazy (B + p ^ 2) (mulAddNoReduce (emb (x i)) (c i : Fr) acc) (a + (c i : Fp) * x i) := by
      have h1 := h.add ((Lazy.emb (x i)).mul (Lazy.nat (c i)))
      have h2 : B + (p - 1) * c i ≤ B + p ^ 2 := by
        have : (p - 1) * c i ≤ p * p := Nat.mul_le_mul (by omega) (hc i).le
        rw [pow_two]; omega
      have h3 := h1.mono h2
      rw [mulAddNoReduce, mul_one]
      rwa [mul_comm (c i : Fp)]
    have := ih _ _ _ hs
    refine Eq.mpr ?_ (this.mono (C := B + (i :: l).length * p ^ 2) ?_)
    · rw [List.map_cons, List.sum_cons, add_assoc]; rfl
    · rw [List.length_cons]; ring_nf; omega

theorem sum_finRange {M : Type} [AddCommMonoid M] {n : ℕ} (f : Fin n → M) :
    ((List.finRange n).map f).sum = ∑ i, f i := (Fin.sum_univ_def f).symm

theorem getD_lt {t : List ℕ} (h : ∀ n ∈ t, n < p) (i : ℕ) : t.getD i 0 < p := by
  by_cases hi : i < t.length
  · rw [List.getD_eq_getElem _ _ hi]; exact h _ (List.getElem_mem hi)
  · rw [List.getD_eq_default _ _ (by omega)]; norm_num [p]

/-- Row of the MDS matrix, as computed. -/
theorem mds_row {R : Type} [CommRing R] (r : Fin 12) (s : Fin 12 → R) :
    (∑ i : Fin 12, ((MDS_MATRIX_CIRC.getD i 0 : ℕ) : R) * s (i + r)) +
      ((MDS_MATRIX_DIAG.getD r 0 : ℕ) : R) * s r = Spec.mix s r := by
  simp only [circ_spec, diag_spec, Spec.mix, Spec.mds]
  push_cast
  simp only [add_mul, Finset.sum_add_distrib]
  congr 1
  · rw [← Equiv.sum_comp (Equiv.addRight r) (fun j => (Spec.circ (j - r) : R) * s j)]
    simp
  · by_cases hr : r = 0
    · subst hr; simp
    · simp [hr]

theorem den_mdsRowShf (r : Fin 12) (s : Fin 12 → Fp) :
    den (mdsRowShf r (fun i => emb (s i))) = pure (emb (Spec.mix s r)) := by
  have h1 := lazy_fold (List.finRange 12) (fun i => s (i + r))
    (fun i => MDS_MATRIX_CIRC_VARS.getD i 0) (fun i => getD_lt circ_vars_lt _) 0 0 0 Lazy.zero
  have h2 := h1.add ((Lazy.emb (s r)).mul (Lazy.nat (MDS_MATRIX_DIAG_VARS.getD r 0)))
  have h3 := h2.den_reduce (by
    have := getD_lt diag_vars_lt r
    have h4 : (p - 1) * MDS_MATRIX_DIAG_VARS.getD r 0 ≤ (p - 1) * p := Nat.mul_le_mul_left _ this.le
    rw [List.length_finRange]
    have : 0 + 12 * p ^ 2 + (p - 1) * p < 2 ^ 144 * p := by norm_num [p]
    omega)
  unfold mdsRowShf
  simp only [mulAddNoReduce, mul_one, const1] at h3 ⊢
  rw [show den (reduce _) = _ from h3]
  rw [← mds_row r s, zero_add, sum_finRange, circ_vars_eq, diag_vars_eq, mul_comm (s r)]

theorem den_mdsLayer (s : Fin 12 → Fp) :
    den (mdsLayer fun i => emb (s i)) = pure fun i => emb (Spec.mix s i) :=
  den_tabM fun r => den_mdsRowShf r s

theorem den_constantLayer (s : Fin 12 → Fp) (rc : ℕ) :
    den (constantLayer (fun i => emb (s i)) rc) = pure fun i => emb (s i + (Spec.rc rc i : Fp)) := by
  refine den_tabM fun i => ?_
  rw [const1_emb all_lt, den_add, Spec.rc, Nat.add_comm]

theorem den_partialFirstConstantLayer (s : Fin 12 → Fp) :
    den (partialFirstConstantLayer fun i => emb (s i)) =
      pure fun i => emb ((s + vecR firstEnt : Fin 12 → Fp) i) := by
  refine den_tabM fun i => ?_
  rw [const1_emb first_lt, den_add]; rfl

theorem den_mdsPartialLayerInit (s : Fin 12 → Fp) :
    den (mdsPartialLayerInit fun i => emb (s i)) =
      pure fun i => emb (((matR iEnt).mulVec s) i) := by
  refine den_tabM fun i => ?_
  induction i using Fin.cases with
  | zero =>
    show den (reduce (emb _)) = _
    rw [den_reduce_emb]
    congr 2
    simp [Matrix.mulVec, dotProduct, matR, Fin.sum_univ_succ, iEnt]
  | succ d =>
    have h1 := lazy_fold (List.finRange 11) (fun i => s i.succ)
      (fun r => (FAST_PARTIAL_ROUND_INITIAL_MATRIX.getD r []).getD d 0)
      (fun r => getD2_lt initial_lt _ _) 0 0 0 Lazy.zero
    have h2 := h1.den_reduce (by norm_num [p])
    show den (reduce _) = _
    simp only [Fin.cases_succ, const2]
    rw [show den (reduce _) = _ from h2]
    congr 2
    rw [zero_add, sum_finRange, Matrix.mulVec, dotProduct, Fin.sum_univ_succ (n := 11)]
    simp [matR, iEnt]

theorem den_mdsPartialLayerFast (s : Fin 12 → Fp) (i : ℕ) :
    den (mdsPartialLayerFast (fun i => emb (s i)) i) =
      pure fun k => emb (((matR (fEnt i)).mulVec s) k) := by
  unfold mdsPartialLayerFast
  simp only [den_bind]
  have h1 := lazy_fold (List.finRange 11) (fun i => s i.succ)
    (fun k => (FAST_PARTIAL_ROUND_W_HATS_VARS.getD i []).getD k 0)
    (fun r => getD2_lt w_hats_vars_lt _ _) 0 0 0 Lazy.zero
  have h2 := h1.add ((Lazy.emb (s 0)).mul (Lazy.nat MDS0TO0_VAR))
  have h3 := h2.den_reduce (by norm_num [p, MDS0TO0_VAR])
  simp only [mulAddNoReduce, mul_one, const2] at h3 ⊢
  rw [show den (reduce _) = _ from h3, pure_bind]
  refine den_tabM fun k => ?_
  induction k using Fin.cases with
  | zero =>
    show den (reduce (emb _)) = _
    rw [den_reduce_emb]
    congr 2
    rw [zero_add, sum_finRange, Matrix.mulVec, dotProduct, Fin.sum_univ_succ (n := 11)]
    simp [matR, fEnt, w_hats_eq, MDS0TO0_VAR]
    ring
  | succ d =>
    have h4 := (Lazy.emb (s d.succ)).add ((Lazy.emb (s 0)).mul
      (Lazy.nat ((FAST_PARTIAL_ROUND_VS.getD i []).getD d 0)))
    have h5 := h4.den_reduce (by
      have := getD2_lt vs_lt i d
      have h4 : (p - 1) * (FAST_PARTIAL_ROUND_VS.getD i []).getD d 0 ≤ (p - 1) * p :=
        Nat.mul_le_mul_left _ this.le
      have : p - 1 + (p - 1) * p < 2 ^ 144 * p := by norm_num [p]
      omega)
    show den (reduce _) = _
    simp only [Fin.cases_succ]
    rw [show den (reduce _) = _ from h5]
    congr 2
    rw [Matrix.mulVec, dotProduct, Fin.sum_univ_succ (n := 11)]
    simp [matR, fEnt, Fin.val_inj]
    ring

end Verif.PoseidonGL
