import Verif.Model.QuadExt
import Verif.Proofs.Base
import Mathlib.Algebra.BigOperators.Ring.List
import Mathlib.Data.List.GetD

/-! # Proofs about the quadratic extension -/

set_option autoImplicit false

namespace Verif

open Circ QuadraticAlgebra

/-! ## Lazily reduced values -/

/-- `x` is an unreduced circuit value, at most `B` as an integer, representing `y` modulo `p`. -/
def Lazy (B : ℕ) (x : Fr) (y : Fp) : Prop := ∃ n : ℕ, n ≤ B ∧ x = (n : Fr) ∧ (n : Fp) = y

theorem Lazy.emb (a : Fp) : Lazy (p - 1) (emb a) a :=
  ⟨a.val, by have := ZMod.val_lt a; omega, rfl, cast_val_fp a⟩

theorem Lazy.nat (n : ℕ) : Lazy n (n : Fr) (n : Fp) := ⟨n, le_rfl, rfl, rfl⟩

theorem Lazy.add {B C : ℕ} {x y : Fr} {a b : Fp} (h1 : Lazy B x a) (h2 : Lazy C y b) :
    Lazy (B + C) (x + y) (a + b) := by
  obtain ⟨n, hn, rfl, rfl⟩ := h1
  obtain ⟨m, hm, rfl, rfl⟩ := h2
  exact ⟨n + m, by omega, by push_cast; rfl, by push_cast; rfl⟩

theorem Lazy.mul {B C : ℕ} {x y : Fr} {a b : Fp} (h1 : Lazy B x a) (h2 : Lazy C y b) :
    Lazy (B * C) (x * y) (a * b) := by
  obtain ⟨n, hn, rfl, rfl⟩ := h1
  obtain ⟨m, hm, rfl, rfl⟩ := h2
  exact ⟨n * m, Nat.mul_le_mul hn hm, by push_cast; rfl, by push_cast; rfl⟩

theorem Lazy.mono {B C : ℕ} {x : Fr} {a : Fp} (h : Lazy B x a) (hB : B ≤ C) : Lazy C x a := by
  obtain ⟨n, hn, h1, h2⟩ := h
  exact ⟨n, le_trans hn hB, h1, h2⟩

theorem Lazy.zero : Lazy 0 0 0 := ⟨0, le_rfl, by simp, by simp⟩

theorem Lazy.den_reduce {B : ℕ} {x : Fr} {a : Fp} (h : Lazy B x a) (hB : B < 2 ^ 144 * p) :
    den (reduce x) = pure (Verif.emb a) := by
  obtain ⟨n, hn, h1, h2⟩ := h
  exact den_reduce_of h1 (lt_of_le_of_lt hn hB) h2

theorem Lazy.sub {B C : ℕ} {x y : Fr} {a b : Fp} (h1 : Lazy B x a) (h2 : Lazy C y b) :
    Lazy (B + C * (p - 1)) (subNoReduce x y) (a - b) := by
  have := h1.add (h2.mul (Lazy.emb (-1)))
  rw [← negOne_eq, mul_neg_one, ← sub_eq_add_neg] at this
  exact this

/-- Lazily reduced extension values. -/
def LazyQ (B : ℕ) (x : QEV) (y : QE) : Prop := Lazy B x.1 y.re ∧ Lazy B x.2 y.im

theorem LazyQ.emb (a : QE) : LazyQ (p - 1) (embQ a) a := ⟨Lazy.emb _, Lazy.emb _⟩

theorem LazyQ.mono {B C : ℕ} {x : QEV} {a : QE} (h : LazyQ B x a) (hB : B ≤ C) : LazyQ C x a :=
  ⟨h.1.mono hB, h.2.mono hB⟩

theorem LazyQ.add {B C : ℕ} {x y : QEV} {a b : QE} (h1 : LazyQ B x a) (h2 : LazyQ C y b) :
    LazyQ (B + C) (addExtNoReduce x y) (a + b) :=
  ⟨by simpa [addExtNoReduce, addNoReduce] using h1.1.add h2.1,
   by simpa [addExtNoReduce, addNoReduce] using h1.2.add h2.2⟩

theorem LazyQ.sub {B C : ℕ} {x y : QEV} {a b : QE} (h1 : LazyQ B x a) (h2 : LazyQ C y b) :
    LazyQ (B + C * (p - 1)) (subExtNoReduce x y) (a - b) :=
  ⟨h1.1.sub h2.1, h1.2.sub h2.2⟩

theorem LazyQ.mul {B C : ℕ} {x y : QEV} {a b : QE} (h1 : LazyQ B x a) (h2 : LazyQ C y b) :
    LazyQ (8 * (B * C)) (mulExtNoReduce x y) (a * b) := by
  constructor
  · have h := (h1.1.mul h2.1).add (((Lazy.nat 7).mul h1.2).mul h2.2)
    have e : (a * b).re = a.re * b.re + ((7 : ℕ) : Fp) * a.im * b.im := by simp
    rw [e]
    have h' := h.mono (C := 8 * (B * C)) (by rw [Nat.mul_assoc]; omega)
    simpa [mulExtNoReduce, addNoReduce, mulNoReduce] using h'
  · have h := (h1.1.mul h2.2).add (h1.2.mul h2.1)
    have e : (a * b).im = a.re * b.im + a.im * b.re := by simp
    rw [e]
    have h' := h.mono (C := 8 * (B * C)) (by omega)
    simpa [mulExtNoReduce, addNoReduce, mulNoReduce] using h'

theorem LazyQ.den_reduce {B : ℕ} {x : QEV} {a : QE} (h : LazyQ B x a) (hB : B < 2 ^ 144 * p) :
    den (reduceExt x) = pure (embQ a) := by
  simp [reduceExt, h.1.den_reduce hB, h.2.den_reduce hB, embQ]

/-! ## Encodings -/

theorem embQ_inj {a b : QE} : embQ a = embQ b ↔ a = b := by
  simp only [embQ, Prod.mk.injEq, emb_inj]
  constructor
  · rintro ⟨h1, h2⟩; exact QuadraticAlgebra.ext h1 h2
  · rintro rfl; exact ⟨rfl, rfl⟩

@[simp] theorem zeroExt_eq : zeroExt = embQ 0 := by simp [zeroExt, toQE, embQ]
@[simp] theorem oneExt_eq : oneExt = embQ 1 := by simp [oneExt, toQE, embQ]
@[simp] theorem toQE_emb (a : Fp) : toQE (emb a) = embQ (ofBase a) := by simp [toQE, embQ]
theorem emb_pair (a b : Fp) : ((emb a, emb b) : QEV) = embQ ⟨a, b⟩ := rfl
theorem emb_pair_zero (a : Fp) : ((emb a, 0) : QEV) = embQ (ofBase a) := by simp [embQ]

theorem exists_embQ {x : QEV} (h1 : x.1.val < p) (h2 : x.2.val < p) : ∃ a : QE, x = embQ a := by
  obtain ⟨a, ha⟩ := exists_emb h1
  obtain ⟨b, hb⟩ := exists_emb h2
  exact ⟨⟨a, b⟩, by rw [← emb_pair, ← ha, ← hb]⟩

/-! ## Operations -/

@[simp] theorem den_addExt (a b : QE) : den (addExt (embQ a) (embQ b)) = pure (embQ (a + b)) := by
  simp [addExt, embQ]

@[simp] theorem den_subExt (a b : QE) : den (subExt (embQ a) (embQ b)) = pure (embQ (a - b)) := by
  simp [subExt, embQ]

@[simp] theorem den_reduceExt_emb (a : QE) : den (reduceExt (embQ a)) = pure (embQ a) :=
  (LazyQ.emb a).den_reduce (by norm_num [p])

@[simp] theorem den_mulExt (a b : QE) : den (mulExt (embQ a) (embQ b)) = pure (embQ (a * b)) :=
  ((LazyQ.emb a).mul (LazyQ.emb b)).den_reduce (by norm_num [p])

@[simp] theorem den_mulAddExt (a b c : QE) :
    den (mulAddExt (embQ a) (embQ b) (embQ c)) = pure (embQ (a * b + c)) :=
  (((LazyQ.emb a).mul (LazyQ.emb b)).add (LazyQ.emb c)).den_reduce (by norm_num [p])

@[simp] theorem den_subMulExt (a b c : QE) :
    den (subMulExt (embQ a) (embQ b) (embQ c)) = pure (embQ ((a - b) * c)) :=
  (((LazyQ.emb a).sub (LazyQ.emb b)).mul (LazyQ.emb c)).den_reduce (by norm_num [p])

/-- `MulAddExtension` on an unreduced difference, as used in `fri.go:240-256`. -/
@[simp] theorem den_mulAddExt_subNoReduce (a b c d : QE) :
    den (mulAddExt (subExtNoReduce (embQ a) (embQ b)) (embQ c) (embQ d)) =
      pure (embQ ((a - b) * c + d)) :=
  ((((LazyQ.emb a).sub (LazyQ.emb b)).mul (LazyQ.emb c)).add (LazyQ.emb d)).den_reduce
    (by norm_num [p])

@[simp] theorem den_scalarMulExt (a : QE) (b : Fp) :
    den (scalarMulExt (embQ a) (emb b)) = pure (embQ (a * ofBase b)) := by
  simp [scalarMulExt, embQ]

theorem innerProduct_loop (c : Fp) (pairs : List (QE × QE)) : ∀ (B : ℕ) (x : QEV) (a : QE),
    LazyQ B x a → ∃ y, LazyQ (B + pairs.length * (8 * (p - 1) ^ 2)) y
        (a + (pairs.map fun ab => ofBase c * (ab.1 * ab.2)).sum) ∧
      (pairs.map fun ab => (embQ ab.1, embQ ab.2)).foldlM (fun acc ab => do
        let m ← den (scalarMulExt ab.1 (emb c))
        pure (mulAddExtNoReduce m ab.2 acc)) x = pure y := by
  induction pairs with
  | nil => intro B x a h; exact ⟨x, by simpa using h, by simp⟩
  | cons ab l ih =>
    intro B x a h
    have h1 := ((LazyQ.emb (ab.1 * ofBase c)).mul (LazyQ.emb ab.2)).add h
    obtain ⟨y, hy, he⟩ := ih _ _ _ h1
    refine ⟨y, ?_, ?_⟩
    · have e : ab.1 * ofBase c * ab.2 + a + (l.map fun ab => ofBase c * (ab.1 * ab.2)).sum =
          a + ((ab :: l).map fun ab => ofBase c * (ab.1 * ab.2)).sum := by
        simp only [List.map_cons, List.sum_cons]; ring
      rw [e] at hy
      refine hy.mono ?_
      simp only [List.length_cons]
      rw [Nat.add_mul, pow_two]; omega
    · simp only [List.map_cons, List.foldlM_cons, den_scalarMulExt, pure_bind]
      simpa [mulAddExtNoReduce] using he

theorem den_innerProductExt (c : Fp) (a : QE) (pairs : List (QE × QE))
    (hl : pairs.length ≤ 2 ^ 64) :
    den (innerProductExt (emb c) (embQ a) (pairs.map fun ab => (embQ ab.1, embQ ab.2))) =
      pure (embQ (a + (pairs.map fun ab => ofBase c * (ab.1 * ab.2)).sum)) := by
  obtain ⟨y, hy, he⟩ := innerProduct_loop c pairs _ _ _ (LazyQ.emb a)
  simp only [innerProductExt, den_bind, den_foldlM, den_pure]
  rw [he, pure_bind]
  refine hy.den_reduce ?_
  have : pairs.length * (8 * (p - 1) ^ 2) ≤ 2 ^ 64 * (8 * (p - 1) ^ 2) :=
    Nat.mul_le_mul_right _ hl
  have h2 : (p - 1) + 2 ^ 64 * (8 * (p - 1) ^ 2) < 2 ^ 144 * p := by norm_num [p]
  omega

theorem isZeroExt_emb (a : QE) : isZeroExt (embQ a) = if a = 0 then 1 else 0 := by
  have h : a = 0 ↔ a.re = 0 ∧ a.im = 0 := by
    constructor
    · rintro rfl; simp
    · rintro ⟨h1, h2⟩; exact QuadraticAlgebra.ext h1 h2
  simp only [isZeroExt, embQ, isZero, emb_eq_zero, h]
  by_cases h1 : a.re = 0 <;> by_cases h2 : a.im = 0 <;> simp [h1, h2]

theorem dth_root : (DTH_ROOT : Fr) = emb (-1) := by
  rw [emb, val_neg_one_fp]; norm_num [DTH_ROOT, p]

theorem den_inverseExt_of_ne {a : QE} (h : a ≠ 0) :
    den (inverseExt (embQ a)) = pure (embQ a⁻¹, 1) := by
  have e1 : (a.re, a.im * -1) = ((star a).re, (star a).im) := by simp
  have hn : norm a ≠ 0 := fun h' => h (norm_eq_zero_iff_eq_zero.1 h')
  have e2 : ((star a) * a).re = norm a := by simp [norm_def]; ring
  simp only [inverseExt, isZeroExt_emb, if_neg h, den_bind, den_assertEq, Den.guard_true, pure_bind,
    dth_root]
  simp only [embQ, den_mul, pure_bind]
  have e3 : ((emb a.re, emb (a.im * -1)) : QEV) = embQ (star a) := by simp [embQ]
  rw [e3]
  have e4 : ((emb a.re, emb a.im) : QEV) = embQ a := rfl
  rw [e4, den_mulExt, pure_bind]
  have e5 : (embQ (star a * a)).1 = emb (norm a) := by rw [← e2]; rfl
  rw [e5, den_inverse_of_ne hn, pure_bind, den_scalarMulExt, pure_bind, den_pure]
  have e6 : star a * ofBase (norm a)⁻¹ = a⁻¹ := by
    rw [inv_def, mul_comm, C_mul_eq_smul]
  rw [e6]; rfl

theorem den_inverseExt_zero : den (inverseExt (embQ 0)) = Den.fail := by
  simp [inverseExt, isZeroExt_emb, Den.guard_false]

theorem den_inverseExt (a : QE) :
    den (inverseExt (embQ a)) = if a = 0 then Den.fail else pure (embQ a⁻¹, 1) := by
  split
  · next h => rw [h, den_inverseExt_zero]
  · next h => exact den_inverseExt_of_ne h

theorem den_divExt_of_ne (a : QE) {b : QE} (h : b ≠ 0) :
    den (divExt (embQ a) (embQ b)) = pure (embQ (a / b), 1) := by
  simp [divExt, den_inverseExt_of_ne h, div_eq_mul_inv]

theorem den_divExt_zero (a : QE) : den (divExt (embQ a) (embQ 0)) = Den.fail := by
  simp only [divExt, den_bind, den_inverseExt_zero, Den.fail_bind]

/-! ## Exponentiation -/

theorem exp_loop (a : QE) (e : ℕ) (n : ℕ) :
    (List.range (n + 1)).foldlM (fun (st : QEV × QEV) i => do
      let current ← den (if i ≠ 0 then mulExt st.1 st.1 else pure st.1)
      let product ← den (if e >>> i &&& 1 ≠ 0 then mulExt st.2 current else pure st.2)
      pure (current, product)) (embQ a, embQ 1) =
    (pure (embQ (a ^ (2 ^ n)), embQ (a ^ (e % 2 ^ (n + 1)))) : Den (QEV × QEV)) := by
  have bit : ∀ (k m : ℕ) (b : QE), b ^ 1 = b →
      b ^ (e % 2 ^ k) * (if e >>> k &&& 1 ≠ 0 then b ^ (2 ^ k) else 1) = b ^ (e % 2 ^ (k + 1)) := by
    intro k m b _
    rw [Nat.and_one_is_mod, Nat.shiftRight_eq_div_pow, Nat.mod_pow_succ]
    rcases Nat.mod_two_eq_zero_or_one (e / 2 ^ k) with h | h
    · rw [h]; simp
    · rw [h]; simp [pow_add]
  induction n with
  | zero =>
    have := bit 0 0 a (pow_one a)
    by_cases h : e >>> 0 &&& 1 ≠ 0
    · rw [if_pos h] at this
      simp only [List.range_one, zero_add, List.foldlM_cons, List.foldlM_nil, if_pos h, ne_eq,
        not_true_eq_false, if_false, den_pure, pure_bind, den_mulExt]
      rw [← this]; simp [Nat.mod_one]
    · rw [if_neg h] at this
      simp only [List.range_one, zero_add, List.foldlM_cons, List.foldlM_nil, if_neg h, ne_eq,
        not_true_eq_false, if_false, den_pure, pure_bind]
      rw [← this]; simp [Nat.mod_one]
  | succ n ih =>
    rw [List.range_succ, List.foldlM_append, ih, pure_bind]
    have := bit (n + 1) 0 a (pow_one a)
    have e2 : a ^ 2 ^ n * a ^ 2 ^ n = a ^ 2 ^ (n + 1) := by rw [← pow_add, pow_succ 2 n]; congr 1; ring
    by_cases h : e >>> (n + 1) &&& 1 ≠ 0
    · rw [if_pos h] at this
      simp only [List.foldlM_cons, List.foldlM_nil, if_pos h, ne_eq, Nat.add_eq_zero_iff,
        one_ne_zero, and_false, not_false_eq_true, if_true, den_mulExt, pure_bind]
      rw [e2, this]
    · rw [if_neg h, mul_one] at this
      simp only [List.foldlM_cons, List.foldlM_nil, if_neg h, ne_eq, Nat.add_eq_zero_iff,
        one_ne_zero, and_false, not_false_eq_true, if_true, den_mulExt, den_pure, pure_bind]
      rw [e2, this]

@[simp] theorem den_expExt (a : QE) (e : ℕ) : den (expExt (embQ a) e) = pure (embQ (a ^ e)) := by
  unfold expExt
  split
  · simp
  · simp
  · simp [pow_two]
  · next h0 h1 h2 =>
    have hs : ∃ n, Nat.size e = n + 1 := by
      refine ⟨Nat.size e - 1, ?_⟩
      have : 0 < Nat.size e := Nat.size_pos.2 (Nat.pos_of_ne_zero h0)
      omega
    obtain ⟨n, hn⟩ := hs
    have hl : e % 2 ^ (n + 1) = e := Nat.mod_eq_of_lt (by rw [← hn]; exact Nat.lt_size_self e)
    have hx := exp_loop a e n
    rw [hl] at hx
    simp only [oneExt_eq, den_bind, den_foldlM, den_pure, hn]
    rw [hx, pure_bind]

/-! ## ReduceWithPowers -/

theorem den_reduceWithPowers_foldr (terms : List QE) (s : QE) :
    den (reduceWithPowers (terms.map embQ) (embQ s)) =
      pure (embQ (terms.foldr (fun t acc => acc * s + t) 0)) := by
  simp only [reduceWithPowers, den_foldlM, zeroExt_eq]
  rw [← List.map_reverse, List.foldlM_map]
  have : ∀ l : List QE, ∀ x : QE, l.foldlM (fun sum t =>
      den (reduceExt (addExtNoReduce (mulExtNoReduce sum (embQ s)) (embQ t)))) (embQ x) =
      pure (embQ (l.foldl (fun acc t => acc * s + t) x)) := by
    intro l x
    apply Den.foldlM_enc embQ
    intro a t _
    exact den_mulAddExt a s t
  rw [this, List.foldl_reverse]

theorem horner_eq_sum (terms : List QE) (s : QE) :
    terms.foldr (fun t acc => acc * s + t) 0 =
      ∑ i ∈ Finset.range terms.length, terms.getD i 0 * s ^ i := by
  induction terms with
  | nil => simp
  | cons t l ih =>
    rw [List.foldr_cons, ih, List.length_cons, Finset.sum_range_succ', Finset.sum_mul]
    simp [pow_succ, mul_assoc]

theorem den_reduceWithPowers (terms : List QE) (s : QE) :
    den (reduceWithPowers (terms.map embQ) (embQ s)) =
      pure (embQ (∑ i ∈ Finset.range terms.length, terms.getD i 0 * s ^ i)) := by
  rw [den_reduceWithPowers_foldr, horner_eq_sum]

/-! ## Lookups -/

theorem den_lookup (b : Fr) (x y : QEV) :
    den (lookup b x y) = Den.guard (b = 0 ∨ b = 1) >>= fun _ => pure (if b = 1 then y else x) := by
  by_cases h0 : b = 0
  · subst h0; simp [lookup, Den.guard_true]
  · by_cases h1 : b = 1
    · subst h1; simp [lookup, Den.guard_true]
    · simp [lookup, den_select_of_ne h0 h1, Den.guard_false, h0, h1]

@[simp] theorem den_lookup_zero (x y : QEV) : den (lookup 0 x y) = pure x := by
  simp [lookup]
@[simp] theorem den_lookup_one (x y : QEV) : den (lookup 1 x y) = pure y := by
  simp [lookup]

@[simp] theorem den_assertIsEqualExt (a b : QEV) :
    den (assertIsEqualExt a b) = Den.guard (a = b) := by
  simp only [assertIsEqualExt, den_bind, den_glAssertIsEqual, Den.guard_bind_guard]
  exact Den.guard_congr Prod.ext_iff.symm

@[simp] theorem den_rangeCheckQE (a : QEV) :
    den (rangeCheckQE a) = Den.guard (a.1.val < p ∧ a.2.val < p) := by
  simp only [rangeCheckQE, den_bind, den_rangeCheck, Den.guard_bind_guard]

end Verif
