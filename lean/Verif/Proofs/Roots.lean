import Verif.Model.Roots
import Verif.Proofs.Base
import Mathlib.GroupTheory.OrderOfElement

/-! # Proofs about the root-of-unity helpers -/

set_option autoImplicit false

namespace Verif

open Circ

theorem squareTimes_eq (n : ℕ) (x : Fp) : squareTimes n x = x ^ (2 ^ n) := by
  induction n generalizing x with
  | zero => simp [squareTimes]
  | succ n ih => rw [squareTimes, ih, ← pow_two, ← pow_mul, pow_succ 2 n, Nat.mul_comm]

theorem orderOf_generator : orderOf POWER_OF_TWO_GENERATOR = 2 ^ 32 := by
  apply orderOf_eq_prime_pow (p := 2) (n := 31)
  · exact zmod_pow_ne_one 64 (by norm_num) (by decide +kernel)
  · exact zmod_pow_eq_one 64 (by norm_num) (by decide +kernel)

theorem primitiveRoot_order {n : ℕ} (h : n ≤ 32) :
    ∃ g, primitiveRootOfUnity n = some g ∧ orderOf g = 2 ^ n := by
  refine ⟨_, by rw [primitiveRootOfUnity, if_neg (by simp [TWO_ADICITY]; omega)], ?_⟩
  rw [squareTimes_eq, TWO_ADICITY, orderOf_pow' _ (by positivity), orderOf_generator,
    Nat.gcd_eq_right (pow_dvd_pow 2 (by omega)), Nat.pow_div (by omega) (by norm_num)]
  congr 1; omega

theorem twoAdicLoop_eq (g : Fp) (k m : ℕ) :
    twoAdicLoop g k ((List.range (m + 1)).map (g ^ ·)) = (List.range (m + 1 + k)).map (g ^ ·) := by
  induction k generalizing m with
  | zero => rfl
  | succ k ih =>
    rw [twoAdicLoop]
    have : (List.range (m + 1)).map (g ^ ·) ++ [((List.range (m + 1)).map (g ^ ·)).getLastD 0 * g] =
        (List.range (m + 1 + 1)).map (g ^ ·) := by
      rw [List.range_succ (n := m + 1), List.map_append]
      congr 1
      rw [List.range_succ]
      simp [pow_succ]
    rw [this, ih]
    congr 2; omega

theorem twoAdicSubgroup_eq {n : ℕ} (h : n ≤ 32) :
    ∃ g, orderOf g = 2 ^ n ∧ primitiveRootOfUnity n = some g ∧
      twoAdicSubgroup n = some ((List.range (2 ^ n)).map (g ^ ·)) := by
  obtain ⟨g, h1, h2⟩ := primitiveRoot_order h
  refine ⟨g, h2, h1, ?_⟩
  rw [twoAdicSubgroup, if_neg (by simp [TWO_ADICITY]; omega), h1]
  simp only
  have := twoAdicLoop_eq g (2 ^ n - 1) 0
  simp only [zero_add, List.range_one, List.map_cons, pow_zero, List.map_nil] at this
  rw [this]
  congr 3
  have : 0 < 2 ^ n := by positivity
  omega

end Verif
