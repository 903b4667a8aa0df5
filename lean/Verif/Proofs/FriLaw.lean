import Verif.Proofs.FriInstance
import Mathlib.Tactic.Linarith

/-!
# FRI: folding law, rounding of the non-canonical index test
-/

set_option autoImplicit false

namespace Verif.Fri

open Circ Spec.Fri Polynomial

theorem fold_eq_eval {a : ℕ} (ha : a ≤ 32) {x : Fp} (hx : x ≠ 0) (bits : List Bool) (evals : List QE) (β : QE)
    (P : QE[X]) (hd : P.degree < 2 ^ a) (he : ∀ i < 2 ^ a, P.eval (cosetPoint a x bits i) = evals.getD i 0) :
    fold a x bits evals β = P.eval β := by
  rw [fold, ← Lagrange.eq_interpolate_of_eval_eq (fun i => evals.getD i 0) (cosetPoint_injOn ha hx bits)
    (by simpa using hd) (fun i hi => he i (by simpa using hi))]

theorem cosetPoint_pow {a : ℕ} (ha : a ≤ 32) (x : Fp) (bits : List Bool) (i : ℕ) :
    cosetPoint a x bits i ^ 2 ^ a = ofBase x ^ 2 ^ a := by
  have h : ∀ k, (omega a ^ k) ^ 2 ^ a = 1 := fun k => by
    rw [← pow_mul, mul_comm, pow_mul, omega_pow_card ha, one_pow]
  rw [cosetPoint, ← ofBase_pow, ← ofBase_pow, div_pow, mul_pow, h, h, mul_one, div_one]

theorem fold_split {a : ℕ} (ha : a ≤ 32) {x : Fp} (hx : x ≠ 0) (bits : List Bool) (evals : List QE) (β : QE)
    (c : ℕ → QE[X])
    (he : ∀ i < 2 ^ a, evals.getD i 0 = ∑ j ∈ Finset.range (2 ^ a),
      cosetPoint a x bits i ^ j * (c j).eval (cosetPoint a x bits i ^ 2 ^ a)) :
    fold a x bits evals β = ∑ j ∈ Finset.range (2 ^ a), β ^ j * (c j).eval (ofBase x ^ 2 ^ a) := by
  set P : QE[X] := ∑ j ∈ Finset.range (2 ^ a), C ((c j).eval (ofBase x ^ 2 ^ a)) * X ^ j with hP
  have hev : ∀ y, P.eval y = ∑ j ∈ Finset.range (2 ^ a), y ^ j * (c j).eval (ofBase x ^ 2 ^ a) := by
    intro y
    rw [hP, eval_finsetSum]
    refine Finset.sum_congr rfl fun j _ => ?_
    rw [eval_mul, eval_C, eval_pow, eval_X, mul_comm]
  have hdeg : P.degree < 2 ^ a := by
    refine lt_of_le_of_lt (degree_sum_le _ _) ?_
    rw [Finset.sup_lt_iff (by exact_mod_cast WithBot.bot_lt_coe (2 ^ a))]
    intro j hj
    refine lt_of_le_of_lt (degree_C_mul_X_pow_le _ _) ?_
    exact_mod_cast Finset.mem_range.1 hj
  rw [fold_eq_eval ha hx bits evals β P hdeg, hev]
  intro i hi
  rw [hev, he i hi, cosetPoint_pow ha]

/-! ## Termination of the permutation loop -/

theorem permuteLoop_diverges {E : Type} (evals : List E) (hl : evals.length = 256) (a fuel i : ℕ) (hi : i < 256)
    (acc : List E) : permuteLoop evals a fuel i acc = none := by
  induction fuel generalizing i acc with
  | zero => rfl
  | succ fuel ih =>
    rw [permuteLoop, if_pos (by rw [hl]; omega)]
    exact ih _ (Nat.mod_lt _ (by norm_num)) _

/-! ## Rounding -/

theorem fl_bounds {fl : ℚ → ℚ} (hfl : ∀ x, |fl x - x| ≤ |x| / 1000) {x : ℚ} (hx : 0 < x) :
    999 / 1000 * x ≤ fl x ∧ fl x ≤ 1001 / 1000 * x := by
  have h := hfl x
  rw [abs_of_pos hx, abs_le] at h
  constructor <;> linarith [h.1, h.2]

theorem float_test {fl : ℚ → ℚ} (hfl : ∀ x, |fl x - x| ≤ |x| / 1000) (k : ℕ) :
    fl (fl (1 / fl (2 ^ k)) * fl (1 / 10 ^ 5)) ≤ fl (fl (2 ^ 32 - 1) / fl (p : ℚ)) ↔ 16 ≤ k := by
  have hA := fl_bounds hfl (x := 2 ^ 32 - 1) (by norm_num)
  have hB := fl_bounds hfl (x := (p : ℚ)) (by norm_num [p])
  have hB0 : 0 < fl (p : ℚ) := lt_of_lt_of_le (by norm_num [p]) hB.1
  have hA0 : 0 < fl (2 ^ 32 - 1) := lt_of_lt_of_le (by norm_num) hA.1
  have hQ := fl_bounds hfl (x := fl (2 ^ 32 - 1) / fl (p : ℚ)) (div_pos hA0 hB0)
  have h2k : (0 : ℚ) < 2 ^ k := by positivity
  have hR := fl_bounds hfl h2k
  have hR0 : 0 < fl (2 ^ k) := lt_of_lt_of_le (by positivity) hR.1
  have hS := fl_bounds hfl (x := 1 / fl (2 ^ k)) (by positivity)
  have hS0 : 0 < fl (1 / fl (2 ^ k)) := lt_of_lt_of_le (by positivity) hS.1
  have hT := fl_bounds hfl (x := 1 / 10 ^ 5) (by norm_num)
  have hT0 : 0 < fl (1 / 10 ^ 5) := lt_of_lt_of_le (by norm_num) hT.1
  have hU := fl_bounds hfl (x := fl (1 / fl (2 ^ k)) * fl (1 / 10 ^ 5)) (mul_pos hS0 hT0)
  -- quotient bounds
  have hq1 : 225 / 10 ^ 12 ≤ fl (2 ^ 32 - 1) / fl (p : ℚ) := by
    rw [le_div_iff₀ hB0]
    norm_num [p] at hA hB ⊢
    linarith [hA.1, hB.2]
  have hq2 : fl (2 ^ 32 - 1) / fl (p : ℚ) ≤ 240 / 10 ^ 12 := by
    rw [div_le_iff₀ hB0]
    norm_num [p] at hA hB ⊢
    linarith [hA.2, hB.1]
  have hr1 : 999 / 1001 / 2 ^ k ≤ 1 / fl (2 ^ k) := by
    rw [div_le_div_iff₀ h2k hR0]; linarith [hR.2]
  have hr2 : 1 / fl (2 ^ k) ≤ 1001 / 999 / 2 ^ k := by
    rw [div_le_div_iff₀ hR0 h2k]; linarith [hR.1]
  have hs1 : 99 / 100 / 2 ^ k ≤ fl (1 / fl (2 ^ k)) := by
    have : (99 : ℚ) / 100 / 2 ^ k ≤ 999 / 1000 * (999 / 1001 / 2 ^ k) := by
      rw [mul_div_assoc', div_le_div_iff_of_pos_right h2k]; norm_num
    linarith [hS.1]
  have hs2 : fl (1 / fl (2 ^ k)) ≤ 101 / 100 / 2 ^ k := by
    have : 1001 / 1000 * (1001 / 999 / 2 ^ k) ≤ (101 : ℚ) / 100 / 2 ^ k := by
      rw [mul_div_assoc', div_le_div_iff_of_pos_right h2k]; norm_num
    linarith [hS.2]
  constructor
  · intro h
    by_contra hk
    have hk' : (2 : ℚ) ^ k ≤ 2 ^ 15 := pow_le_pow_right₀ (by norm_num) (by omega)
    have h1 : (99 : ℚ) / 100 / 2 ^ 15 ≤ 99 / 100 / 2 ^ k := div_le_div_of_nonneg_left (by norm_num) h2k hk'
    have h2 : (99 : ℚ) / 100 / 2 ^ 15 * (999 / 1000 * (1 / 10 ^ 5)) ≤ fl (1 / fl (2 ^ k)) * fl (1 / 10 ^ 5) :=
      mul_le_mul (h1.trans hs1) hT.1 (by norm_num) hS0.le
    norm_num at h2 h hq2 hQ hU
    linarith [hU.1, hQ.2, h, hq2]
  · intro hk
    have hk' : (2 : ℚ) ^ 16 ≤ 2 ^ k := pow_le_pow_right₀ (by norm_num) hk
    have h1 : (101 : ℚ) / 100 / 2 ^ k ≤ 101 / 100 / 2 ^ 16 := div_le_div_of_nonneg_left (by norm_num) (by norm_num) hk'
    have h2 : fl (1 / fl (2 ^ k)) * fl (1 / 10 ^ 5) ≤ (101 : ℚ) / 100 / 2 ^ 16 * (1001 / 1000 * (1 / 10 ^ 5)) :=
      mul_le_mul (hs2.trans h1) hT.2 hT0.le (by norm_num)
    norm_num at h2 hq1 hQ hU ⊢
    linarith [hU.2, hQ.1, hq1]

end Verif.Fri
