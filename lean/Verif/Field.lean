import Mathlib.NumberTheory.LucasPrimality
import Mathlib.Algebra.QuadraticAlgebra.Basic
import Mathlib.Data.ZMod.Basic
import Mathlib.Algebra.Field.ZMod
import Mathlib.FieldTheory.Finite.Basic
import Mathlib.Tactic.NormNum.Prime
import Mathlib.Tactic.Ring

/-!
# The two prime fields and the quadratic extension

* `r`: modulus of the BN254 scalar field, the field gnark circuits are compiled over
  (`poseidon/bn254.go:31-33` insists on it).
* `p`: the Goldilocks modulus `2^64 - 2^32 + 1` (`goldilocks/base.go:42`, `MODULUS`).
-/

set_option autoImplicit false

namespace Verif

/-- BN254 scalar field modulus (`ecc.BN254.ScalarField()`). -/
def r : ℕ := 21888242871839275222246405745257275088548364400416034343698204186575808495617

/-- Goldilocks modulus, `goldilocks/base.go:42` (`MODULUS`). -/
def p : ℕ := 18446744069414584321

theorem p_eq : p = 2 ^ 64 - 2 ^ 32 + 1 := by norm_num [p]

instance : NeZero r := ⟨by norm_num [r]⟩
instance : NeZero p := ⟨by norm_num [p]⟩
instance : Fact (1 < r) := ⟨by norm_num [r]⟩

/-- Circuit variables live in the BN254 scalar field. -/
abbrev Fr := ZMod r
/-- The Goldilocks field. -/
abbrev Fp := ZMod p

/-- Square-and-multiply modular exponentiation on naturals (used to check certificates). -/
def powMod : ℕ → ℕ → ℕ → ℕ → ℕ
  | 0, _, _, n => 1 % n
  | f + 1, a, e, n =>
    if e = 0 then 1 % n
    else
      let h := powMod f (a * a % n) (e / 2) n
      if e % 2 = 1 then a * h % n else h

theorem powMod_eq (f : ℕ) : ∀ a e n : ℕ, e < 2 ^ f → powMod f a e n = a ^ e % n := by
  induction f with
  | zero => intro a e n h; simp at h; subst h; simp [powMod]
  | succ f ih =>
    intro a e n h
    unfold powMod
    split
    · next h0 => subst h0; simp
    · have h2 : e / 2 < 2 ^ f := by
        rw [Nat.div_lt_iff_lt_mul (by norm_num)]; rw [pow_succ] at h; exact h
      simp only [ih _ _ _ h2]
      have hm : (a * a % n) ^ (e / 2) % n = a ^ (2 * (e / 2)) % n := by
        rw [← Nat.pow_mod, pow_mul, pow_two]
      rw [hm]
      split
      · next h1 =>
        rw [Nat.mul_mod, Nat.mod_mod, ← Nat.mul_mod, ← pow_succ']
        congr 2; omega
      · next h1 => congr 2; omega

theorem zmod_pow_ne_one {n a e : ℕ} (f : ℕ) (hf : e < 2 ^ f)
    (h : powMod f a e n ≠ 1 % n) : ((a : ℕ) : ZMod n) ^ e ≠ 1 := by
  intro hh
  apply h
  rw [← Nat.cast_pow, ← Nat.cast_one, ZMod.natCast_eq_natCast_iff] at hh
  rw [powMod_eq f _ _ _ hf]
  exact hh

theorem zmod_pow_eq_one {n a e : ℕ} (f : ℕ) (hf : e < 2 ^ f)
    (h : powMod f a e n = 1 % n) : ((a : ℕ) : ZMod n) ^ e = 1 := by
  rw [powMod_eq f _ _ _ hf] at h
  rw [← Nat.cast_pow, ← Nat.cast_one, ZMod.natCast_eq_natCast_iff]
  exact h

theorem p_prime : Nat.Prime p := by
  unfold p
  have hp1 : (18446744069414584321 - 1 : ℕ) = 2 ^ 32 * 3 * 5 * 17 * 257 * 65537 := by norm_num
  apply lucas_primality 18446744069414584321 (7 : ℕ)
  · exact zmod_pow_eq_one 64 (by norm_num) (by decide +kernel)
  · intro q hq hd
    rw [hp1] at hd
    have hqq : q = 2 ∨ q = 3 ∨ q = 5 ∨ q = 17 ∨ q = 257 ∨ q = 65537 := by
      have n2 : Nat.Prime 2 := by norm_num
      have n3 : Nat.Prime 3 := by norm_num
      have n5 : Nat.Prime 5 := by norm_num
      have n17 : Nat.Prime 17 := by norm_num
      have n257 : Nat.Prime 257 := by norm_num
      have n65537 : Nat.Prime 65537 := by norm_num
      rcases (Nat.Prime.dvd_mul hq).1 hd with hd | hd
      · rcases (Nat.Prime.dvd_mul hq).1 hd with hd | hd
        · rcases (Nat.Prime.dvd_mul hq).1 hd with hd | hd
          · rcases (Nat.Prime.dvd_mul hq).1 hd with hd | hd
            · rcases (Nat.Prime.dvd_mul hq).1 hd with hd | hd
              · left; exact (Nat.prime_dvd_prime_iff_eq hq n2).1 (hq.dvd_of_dvd_pow hd)
              · right; left; exact (Nat.prime_dvd_prime_iff_eq hq n3).1 hd
            · right; right; left; exact (Nat.prime_dvd_prime_iff_eq hq n5).1 hd
          · right; right; right; left; exact (Nat.prime_dvd_prime_iff_eq hq n17).1 hd
        · right; right; right; right; left; exact (Nat.prime_dvd_prime_iff_eq hq n257).1 hd
      · right; right; right; right; right; exact (Nat.prime_dvd_prime_iff_eq hq n65537).1 hd
    rcases hqq with rfl | rfl | rfl | rfl | rfl | rfl
    all_goals
      exact zmod_pow_ne_one 64 (by norm_num) (by decide +kernel)

instance : Fact (Nat.Prime p) := ⟨p_prime⟩

/-- 7 is not a square modulo `p` (Euler's criterion). -/
theorem seven_nonsquare (x : Fp) : x ^ 2 ≠ 7 := by
  intro h
  have hx : x ≠ 0 := by
    rintro rfl
    have : (7 : Fp) = ((7 : ℕ) : Fp) := by norm_num
    rw [zero_pow two_ne_zero, this] at h
    have h7 : ((7 : ℕ) : ZMod p).val = 7 := ZMod.val_natCast_of_lt (by norm_num [p])
    rw [← h] at h7
    simp at h7
  have h1 : x ^ (p - 1) = 1 := ZMod.pow_card_sub_one_eq_one hx
  have h2 : (p - 1) = 2 * 9223372034707292160 := by norm_num [p]
  rw [h2, pow_mul, h] at h1
  have h3 : ((7 : ℕ) : ZMod p) ^ 9223372034707292160 ≠ 1 :=
    zmod_pow_ne_one 64 (by norm_num) (by decide +kernel)
  exact h3 (by simpa using h1)

/-- The quadratic extension `GF(p)[X]/(X^2 - 7)` (`goldilocks/quadratic_extension.go:9`, `W = 7`). -/
abbrev QE := QuadraticAlgebra Fp 7 0

instance : Fact (∀ x : Fp, x ^ 2 ≠ (7 : Fp) + 0 * x) :=
  ⟨fun x => by simpa using seven_nonsquare x⟩

/-- Inclusion of the base field in the extension. -/
abbrev ofBase (a : Fp) : QE := QuadraticAlgebra.C a

/-- The "extension algebra" `QE[Y]/(Y^2 - 7)` (`goldilocks/quadratic_extension_algebra.go`). -/
abbrev QA := QuadraticAlgebra QE 7 0

/-- Canonical representative of a Goldilocks element as a circuit value. -/
def emb (x : Fp) : Fr := (x.val : Fr)

end Verif
