import Verif.Field
import Mathlib.Algebra.BigOperators.Group.List.Basic

/-!
# The order of BN254's scalar field is prime

Certificates in the style of Pratt: `n` is prime if some `a` has order `n - 1` modulo `n`.
-/

set_option autoImplicit false

namespace Verif

theorem prime_of_cert {n : ℕ} (a : ℕ) (fs : List ℕ) (f : ℕ) (hf : n < 2 ^ f) (hprod : fs.prod = n - 1) (hprime : ∀ q ∈ fs, q.Prime)
    (h1 : powMod f a (n - 1) n = 1 % n) (h2 : ∀ q ∈ fs, powMod f a ((n - 1) / q) n ≠ 1 % n) : n.Prime := by
  apply lucas_primality n (a : ℕ)
  · exact zmod_pow_eq_one f (by omega) h1
  · intro q hq hd
    rw [← hprod, hq.prime.dvd_prod_iff] at hd
    obtain ⟨q', hm, hd⟩ := hd
    obtain rfl := (Nat.prime_dvd_prime_iff_eq hq (hprime q' hm)).1 hd
    exact zmod_pow_ne_one f (lt_of_le_of_lt (Nat.div_le_self _ _) (by omega)) (h2 q hm)

theorem prime_405928799 : Nat.Prime 405928799 := by
  refine prime_of_cert 22 [2, 11, 3691, 4999] 29 (by norm_num) (by decide +kernel) ?_ (by decide +kernel) (by decide +kernel)
  have h : ∀ q ∈ ([2, 11, 3691, 4999] : List ℕ), q.Prime := by
    simp only [List.forall_mem_cons, List.not_mem_nil, false_imp_iff, implies_true, and_true]
    refine ⟨by norm_num, by norm_num, by norm_num, by norm_num⟩
  intro q hq
  apply h
  revert q
  decide +kernel

theorem prime_12048837557 : Nat.Prime 12048837557 := by
  refine prime_of_cert 2 [2, 2, 7, 7, 661, 93001] 34 (by norm_num) (by decide +kernel) ?_ (by decide +kernel) (by decide +kernel)
  have h : ∀ q ∈ ([2, 7, 661, 93001] : List ℕ), q.Prime := by
    simp only [List.forall_mem_cons, List.not_mem_nil, false_imp_iff, implies_true, and_true]
    refine ⟨by norm_num, by norm_num, by norm_num, by norm_num⟩
  intro q hq
  apply h
  revert q
  decide +kernel

theorem prime_5156902474397 : Nat.Prime 5156902474397 := by
  refine prime_of_cert 2 [2, 2, 107, 12048837557] 43 (by norm_num) (by decide +kernel) ?_ (by decide +kernel) (by decide +kernel)
  have h : ∀ q ∈ ([2, 107, 12048837557] : List ℕ), q.Prime := by
    simp only [List.forall_mem_cons, List.not_mem_nil, false_imp_iff, implies_true, and_true]
    refine ⟨by norm_num, by norm_num, prime_12048837557⟩
  intro q hq
  apply h
  revert q
  decide +kernel

theorem prime_1670836401704629 : Nat.Prime 1670836401704629 := by
  refine prime_of_cert 2 [2, 2, 3, 3, 3, 3, 5156902474397] 51 (by norm_num) (by decide +kernel) ?_ (by decide +kernel) (by decide +kernel)
  have h : ∀ q ∈ ([2, 3, 5156902474397] : List ℕ), q.Prime := by
    simp only [List.forall_mem_cons, List.not_mem_nil, false_imp_iff, implies_true, and_true]
    refine ⟨by norm_num, by norm_num, prime_5156902474397⟩
  intro q hq
  apply h
  revert q
  decide +kernel

theorem prime_639533339 : Nat.Prime 639533339 := by
  refine prime_of_cert 2 [2, 229, 853, 1637] 30 (by norm_num) (by decide +kernel) ?_ (by decide +kernel) (by decide +kernel)
  have h : ∀ q ∈ ([2, 229, 853, 1637] : List ℕ), q.Prime := by
    simp only [List.forall_mem_cons, List.not_mem_nil, false_imp_iff, implies_true, and_true]
    refine ⟨by norm_num, by norm_num, by norm_num, by norm_num⟩
  intro q hq
  apply h
  revert q
  decide +kernel

theorem prime_65865678001877903 : Nat.Prime 65865678001877903 := by
  refine prime_of_cert 5 [2, 83, 379, 1637, 639533339] 56 (by norm_num) (by decide +kernel) ?_ (by decide +kernel) (by decide +kernel)
  have h : ∀ q ∈ ([2, 83, 379, 1637, 639533339] : List ℕ), q.Prime := by
    simp only [List.forall_mem_cons, List.not_mem_nil, false_imp_iff, implies_true, and_true]
    refine ⟨by norm_num, by norm_num, by norm_num, by norm_num, prime_639533339⟩
  intro q hq
  apply h
  revert q
  decide +kernel

theorem prime_13818364434197438864469338081 : Nat.Prime 13818364434197438864469338081 := by
  refine prime_of_cert 3 [2, 2, 2, 2, 2, 5, 823, 1593227, 65865678001877903] 94 (by norm_num) (by decide +kernel) ?_ (by decide +kernel) (by decide +kernel)
  have h : ∀ q ∈ ([2, 5, 823, 1593227, 65865678001877903] : List ℕ), q.Prime := by
    simp only [List.forall_mem_cons, List.not_mem_nil, false_imp_iff, implies_true, and_true]
    refine ⟨by norm_num, by norm_num, by norm_num, by norm_num, prime_65865678001877903⟩
  intro q hq
  apply h
  revert q
  decide +kernel

theorem r_prime : Nat.Prime r := by
  unfold r
  refine prime_of_cert 5 (List.replicate 28 2 ++ [3, 3, 13, 29, 983, 11003, 237073, 405928799, 1670836401704629, 13818364434197438864469338081]) 254 (by norm_num) (by decide +kernel) ?_ (by decide +kernel) (by decide +kernel)
  have h : ∀ q ∈ ([2, 3, 13, 29, 983, 11003, 237073, 405928799, 1670836401704629, 13818364434197438864469338081] : List ℕ), q.Prime := by
    simp only [List.forall_mem_cons, List.not_mem_nil, false_imp_iff, implies_true, and_true]
    refine ⟨by norm_num, by norm_num, by norm_num, by norm_num, by norm_num, by norm_num, by norm_num, prime_405928799, prime_1670836401704629, prime_13818364434197438864469338081⟩
  intro q hq
  apply h
  revert q
  decide +kernel

instance : Fact (Nat.Prime r) := ⟨r_prime⟩

end Verif
