import Verif.Model.Base
import Mathlib.Tactic.LinearCombination
import Mathlib.Tactic.Linarith

/-! # Proofs about the arithmetic chip -/

set_option autoImplicit false

namespace Verif

open Circ

/-! ## Casting lemmas -/

theorem val_natCast_of_lt {n : ℕ} (h : n < r) : ((n : Fr)).val = n := ZMod.val_natCast_of_lt h

theorem natCast_val_fr (x : Fr) : ((x.val : ℕ) : Fr) = x := ZMod.natCast_zmod_val x

theorem fr_natCast_inj {a b : ℕ} (ha : a < r) (hb : b < r) : ((a : Fr) = b) ↔ a = b := by
  constructor
  · intro h
    have := congrArg ZMod.val h
    rwa [val_natCast_of_lt ha, val_natCast_of_lt hb] at this
  · rintro rfl; rfl

theorem fr_eq_natCast_iff {x : Fr} {n : ℕ} (hn : n < r) : (x = (n : Fr)) ↔ x.val = n := by
  rw [← natCast_val_fr x, fr_natCast_inj (ZMod.val_lt x) hn, natCast_val_fr]

theorem p_lt_r : p < r := by norm_num [p, r]

theorem emb_val (a : Fp) : (emb a).val = a.val :=
  val_natCast_of_lt (lt_trans (ZMod.val_lt a) p_lt_r)

theorem emb_lt (a : Fp) : (emb a).val < p := by rw [emb_val]; exact ZMod.val_lt a

theorem emb_inj {a b : Fp} : emb a = emb b ↔ a = b := by
  constructor
  · intro h
    have := congrArg ZMod.val h
    rw [emb_val, emb_val] at this
    exact ZMod.val_injective p this
  · rintro rfl; rfl

theorem emb_natCast {n : ℕ} : emb (n : Fp) = ((n % p : ℕ) : Fr) := by
  simp [emb, ZMod.val_natCast]

theorem emb_natCast_of_lt {n : ℕ} (h : n < p) : emb (n : Fp) = (n : Fr) := by
  rw [emb_natCast, Nat.mod_eq_of_lt h]

/-- Canonical circuit values are exactly the image of `emb`. -/
theorem exists_emb {x : Fr} (h : x.val < p) : ∃ a : Fp, x = emb a :=
  ⟨(x.val : Fp), by rw [emb_natCast_of_lt h, natCast_val_fr]⟩

@[simp] theorem emb_zero : emb 0 = 0 := by simp [emb]
@[simp] theorem emb_one : emb 1 = 1 := by
  have := @emb_natCast_of_lt 1 (by norm_num [p])
  simpa using this

theorem emb_eq_zero {a : Fp} : emb a = 0 ↔ a = 0 := by rw [← emb_zero, emb_inj]

theorem val_neg_one_fp : ((-1 : Fp)).val = p - 1 := by
  have h : (-1 : Fp) = ((p - 1 : ℕ) : Fp) := by
    rw [Nat.cast_sub (by norm_num [p])]; simp
  rw [h, ZMod.val_natCast_of_lt (by norm_num [p])]

theorem negOne_eq : negOne = emb (-1) := by
  rw [negOne, emb, val_neg_one_fp]

theorem emb_eq (a : Fp) : emb a = (a.val : Fr) := rfl

theorem cast_val_fp (a : Fp) : ((a.val : ℕ) : Fp) = a := ZMod.natCast_zmod_val a

/-! ## Denotations of the primitives -/

@[simp] theorem den_assertEq (x y : Fr) : den (assertEq x y) = Den.guard (x = y) := by
  simp only [assertEq, den_require, decide_eq_true_eq, den_ret, bind_pure_unit]

@[simp] theorem den_glAssertIsEqual (x y : Fr) : den (glAssertIsEqual x y) = Den.guard (x = y) :=
  den_assertEq x y

@[simp] theorem den_rangeCheckerCheck (x : Fr) (n : ℕ) :
    den (rangeCheckerCheck x n) = Den.guard (x.val < 2 ^ n) := by
  simp only [rangeCheckerCheck, den_check, den_ret, bind_pure_unit]

theorem den_select (b x y : Fr) : den (select b x y) =
    Den.guard (b = 0 ∨ b = 1) >>= fun _ => pure (if b = 1 then x else y) := by
  simp only [select, den_require, decide_eq_true_eq, den_ret]

theorem fr_one_ne_zero : (1 : Fr) ≠ 0 := one_ne_zero

@[simp] theorem den_select_zero (x y : Fr) : den (select 0 x y) = pure y := by
  rw [den_select, Den.guard_true (by simp)]; simp

@[simp] theorem den_select_one (x y : Fr) : den (select 1 x y) = pure x := by
  rw [den_select, Den.guard_true (by simp)]; simp

theorem den_select_of_ne {b : Fr} (h0 : b ≠ 0) (h1 : b ≠ 1) (x y : Fr) :
    den (select b x y) = Den.fail := by
  rw [den_select, Den.guard_false (by simp [h0, h1])]; simp

theorem sat_assertEq (x y : Fr) (u : Unit) : Sat (assertEq x y) u ↔ x = y := by
  simp [assertEq, Sat]

theorem sat_rangeCheckerCheck (x : Fr) (n : ℕ) (u : Unit) :
    Sat (rangeCheckerCheck x n) u ↔ x.val < 2 ^ n := by
  simp [rangeCheckerCheck, Sat]

theorem sat_select (b x y z : Fr) :
    Sat (select b x y) z ↔ (b = 0 ∨ b = 1) ∧ z = if b = 1 then x else y := by
  simp [select, Sat]

theorem sat_newHint (n : ℕ) (h : Option (Fin n → Fr)) (v : Fin n → Fr) :
    Sat (newHint n h) v := by
  simp [newHint, Sat]

theorem honest_newHint (n : ℕ) (h : Option (Fin n → Fr)) : honest (newHint n h) = h := by
  cases h <;> simp [newHint, honest]

theorem honest_assertEq (x y : Fr) :
    honest (assertEq x y) = if x = y then some () else none := by
  simp [assertEq, honest]

theorem honest_rangeCheckerCheck (x : Fr) (n : ℕ) :
    honest (rangeCheckerCheck x n) = if x.val < 2 ^ n then some () else none := by
  simp [rangeCheckerCheck, honest]

theorem honest_select (b x y : Fr) :
    honest (select b x y) = if b = 0 ∨ b = 1 then some (if b = 1 then x else y) else none := by
  simp [select, honest]

theorem honest_assertEq_of {x y : Fr} (h : x = y) : honest (assertEq x y) = some () := by
  rw [honest_assertEq, if_pos h]

theorem honest_rangeCheckerCheck_of {x : Fr} {n : ℕ} (h : x.val < 2 ^ n) :
    honest (rangeCheckerCheck x n) = some () := by
  rw [honest_rangeCheckerCheck, if_pos h]

theorem honest_select_of {b x y : Fr} (h : b = 0 ∨ b = 1) :
    honest (select b x y) = some (if b = 1 then x else y) := by
  rw [honest_select, if_pos h]

theorem honest_bind_of {α β : Type} {c : Circ α} {a : α} {f : α → Circ β} {o : Option β}
    (h1 : honest c = some a) (h2 : honest (f a) = o) : honest (c >>= f) = o := by
  rw [honest_bind, h1]; exact h2

theorem isZero_eq_one_iff (x : Fr) : isZero x = 1 ↔ x = 0 := by
  unfold isZero; split <;> simp_all

theorem isZero_bool (x : Fr) : isZero x = 0 ∨ isZero x = 1 := by
  unfold isZero; split <;> simp

/-! ## RangeCheck -/

theorem limbs_val {a b : Fr} (ha : a.val < 2 ^ 32) (hb : b.val < 2 ^ 32) :
    (a * two32 + b).val = a.val * 2 ^ 32 + b.val := by
  have : a * two32 + b = ((a.val * 2 ^ 32 + b.val : ℕ) : Fr) := by
    rw [Nat.cast_add, Nat.cast_mul, natCast_val_fr, natCast_val_fr, two32]
  rw [this, val_natCast_of_lt]
  have hr : 2 ^ 64 < r := by norm_num [r]
  omega

theorem sub_max_eq_zero_iff (a : Fr) : isZero (a - max32) = 1 ↔ a.val = 2 ^ 32 - 1 := by
  rw [isZero_eq_one_iff, sub_eq_zero, max32, fr_eq_natCast_iff (by norm_num [r])]

theorem sat_rangeCheck_imp (x : Fr) (h : Sat (rangeCheck x) ()) : x.val < p := by
  simp only [rangeCheck, sat_bind, sat_assertEq, sat_rangeCheckerCheck, sat_select, sat_newHint,
      true_and] at h
  obtain ⟨v, _, h1, _, h2, _, h3, s, ⟨_, rfl⟩, h4⟩ := h
  have hp : p = 2 ^ 64 - 2 ^ 32 + 1 := p_eq
  rw [← h1, limbs_val h2 h3]
  by_cases hm : (v 0).val = 2 ^ 32 - 1
  · rw [if_pos ((sub_max_eq_zero_iff _).2 hm)] at h4
    rw [h4, hm, ZMod.val_zero, hp]; norm_num
  · omega

theorem honest_rangeCheck_of_lt (x : Fr) (h : x.val < p) : honest (rangeCheck x) = some () := by
  have hp : p = 2 ^ 64 - 2 ^ 32 + 1 := p_eq
  have e0 : (x.val / 2 ^ 32) < 2 ^ 32 := by omega
  have e1 : (x.val % 2 ^ 32) < 2 ^ 32 := by omega
  have hr : 2 ^ 32 < r := by norm_num [r]
  have v0 : (((x.val / 2 ^ 32 : ℕ)) : Fr).val = x.val / 2 ^ 32 := val_natCast_of_lt (by omega)
  have v1 : (((x.val % 2 ^ 32 : ℕ)) : Fr).val = x.val % 2 ^ 32 := val_natCast_of_lt (by omega)
  have hs : isZero (((x.val / 2 ^ 32 : ℕ) : Fr) - max32) = 1 → x.val % 2 ^ 32 = 0 := by
    intro hs
    rw [sub_max_eq_zero_iff, v0] at hs
    omega
  have hx : ((x.val / 2 ^ 32 : ℕ) : Fr) * two32 + ((x.val % 2 ^ 32 : ℕ) : Fr) = x := by
    apply ZMod.val_injective
    rw [limbs_val (by rw [v0]; exact e0) (by rw [v1]; exact e1), v0, v1]
    omega
  have hh : splitLimbsHint x = some ![((x.val / 2 ^ 32 : ℕ) : Fr), ((x.val % 2 ^ 32 : ℕ) : Fr)] := by
    rw [splitLimbsHint, if_neg (by omega)]
  generalize (x.val / 2 ^ 32) = a at *
  generalize (x.val % 2 ^ 32) = b at *
  have hs' : (if isZero ((a : Fr) - max32) = 1 then (b : Fr) else 0) = 0 := by
    by_cases h' : isZero ((a : Fr) - max32) = 1
    · rw [if_pos h', hs h', Nat.cast_zero]
    · rw [if_neg h']
  unfold rangeCheck
  refine honest_bind_of ((honest_newHint _ _).trans hh) ?_
  refine honest_bind_of (honest_assertEq_of hx) ?_
  refine honest_bind_of (honest_rangeCheckerCheck_of (x := (a : Fr)) (by rw [v0]; exact e0)) ?_
  refine honest_bind_of (honest_rangeCheckerCheck_of (x := (b : Fr)) (by rw [v1]; exact e1)) ?_
  refine honest_bind_of (honest_select_of (isZero_bool _)) ?_
  exact honest_assertEq_of hs'

@[simp] theorem den_rangeCheck (x : Fr) : den (rangeCheck x) = Den.guard (x.val < p) :=
  den_guard_of (sat_rangeCheck_imp x) (honest_rangeCheck_of_lt x)

theorem sat_rangeCheck (x : Fr) (u : Unit) : Sat (rangeCheck x) u ↔ x.val < p :=
  sat_of_den_guard (den_rangeCheck x) u

theorem honest_rangeCheck (x : Fr) :
    honest (rangeCheck x) = if x.val < p then some () else none := by
  have h := congrArg Den.hon (den_rangeCheck x)
  simp only [den] at h
  rw [h]
  by_cases hx : x.val < p <;> simp [hx, Den.guard, Den.pure_def, Den.fail]

/-! ## MulAdd -/

theorem den_mulAdd (a b c : Fp) : den (mulAdd (emb a) (emb b) (emb c)) = pure (emb (a * b + c)) := by
  have ha := ZMod.val_lt a
  have hb := ZMod.val_lt b
  have hc := ZMod.val_lt c
  have hab : a.val * b.val ≤ (p - 1) * (p - 1) := Nat.mul_le_mul (by omega) (by omega)
  have hpp : (p - 1) * (p - 1) + p < r := by norm_num [p, r]
  have hlhs : emb c * 1 + emb a * emb b = ((a.val * b.val + c.val : ℕ) : Fr) := by
    simp only [emb]; push_cast; ring
  have hlt : a.val * b.val + c.val < r := by omega
  have hcast : ((a.val * b.val + c.val : ℕ) : Fp) = a * b + c := by
    push_cast; simp
  apply den_pure_of
  · simp only [mulAdd, sat_bind, sat_assertEq, sat_rangeCheck, sat_newHint, true_and, sat_pure]
    rintro z ⟨v, _, h1, _, h2, _, h3, rfl⟩
    rw [hlhs] at h1
    have h4 : v 1 + (p : Fr) * v 0 = (((v 1).val + p * (v 0).val : ℕ) : Fr) := by
      push_cast; simp
    have h5 : (v 1).val + p * (v 0).val < r := by
      have : p * (v 0).val ≤ p * (p - 1) := Nat.mul_le_mul_left _ (by omega)
      have : p * (p - 1) + p < r := by norm_num [p, r]
      omega
    rw [h4, fr_natCast_inj hlt h5] at h1
    rw [← hcast, h1, emb_natCast, Nat.add_mul_mod_self_left, Nat.mod_eq_of_lt h3, natCast_val_fr]
  · have hh : mulAddHint (emb a) (emb b) (emb c) =
        some ![(((a.val * b.val + c.val) / p : ℕ) : Fr), (((a.val * b.val + c.val) % p : ℕ) : Fr)] := by
      rw [mulAddHint, emb_val, emb_val, emb_val, if_neg (by omega)]
    have hq : (a.val * b.val + c.val) / p < p := by
      rw [Nat.div_lt_iff_lt_mul (by norm_num [p])]
      have : (p - 1) * (p - 1) + p ≤ p * p := by norm_num [p]
      omega
    have hm : (a.val * b.val + c.val) % p < p := Nat.mod_lt _ (by norm_num [p])
    have vq := val_natCast_of_lt (lt_trans hq p_lt_r)
    have vm := val_natCast_of_lt (lt_trans hm p_lt_r)
    have he : emb c * 1 + emb a * emb b =
        (((a.val * b.val + c.val) % p : ℕ) : Fr) + (p : Fr) * (((a.val * b.val + c.val) / p : ℕ) : Fr) := by
      rw [hlhs, ← Nat.cast_mul, ← Nat.cast_add, Nat.mod_add_div]
    simp only [mulAdd, honest_bind, honest_newHint, hh, Option.bind_some, honest_assertEq,
      Matrix.cons_val_zero, Matrix.cons_val_one, Matrix.cons_val_fin_one, he, if_true,
      honest_rangeCheck, vq, vm, hq, hm, honest_pure]
    rw [← hcast, emb_natCast]

@[simp] theorem den_add (a b : Fp) : den (add (emb a) (emb b)) = pure (emb (a + b)) := by
  have := den_mulAdd a 1 b
  rwa [emb_one, mul_one] at this

@[simp] theorem den_sub (a b : Fp) : den (sub (emb a) (emb b)) = pure (emb (a - b)) := by
  have := den_mulAdd b (-1) a
  rw [← negOne_eq] at this
  rw [sub, this]; congr 2; ring

@[simp] theorem den_mul (a b : Fp) : den (mul (emb a) (emb b)) = pure (emb (a * b)) := by
  have := den_mulAdd a b 0
  rwa [emb_zero, add_zero] at this

/-! ## Reduce -/

/-- Exact set of outputs of `ReduceWithMaxBits`. -/
theorem sat_reduceWithMaxBits (x : Fr) (n : ℕ) (y : Fr) :
    Sat (reduceWithMaxBits x n) y ↔
      y.val < p ∧ ∃ q : Fr, q.val < 2 ^ n ∧ x = q * (p : Fr) + y := by
  simp only [reduceWithMaxBits, sat_bind, sat_assertEq, sat_rangeCheck, sat_newHint, true_and,
    sat_pure, sat_rangeCheckerCheck]
  constructor
  · rintro ⟨v, _, h1, _, h2, _, h3, rfl⟩
    exact ⟨h2, v 0, h1, h3⟩
  · rintro ⟨h1, q, h2, h3⟩
    exact ⟨![q, y], (), by simpa using h2, (), by simpa using h1, (), by simpa using h3, by simp⟩

/-- Exact set of outputs of `ReduceWithMaxBits`, in terms of natural numbers. -/
theorem sat_reduceWithMaxBits_nat (x : Fr) (n : ℕ) (y : Fr) :
    Sat (reduceWithMaxBits x n) y ↔
      ∃ k : ℕ, (x.val + k * r) / p < 2 ^ n ∧ (x.val + k * r) / p < r ∧
        y = (((x.val + k * r) % p : ℕ) : Fr) := by
  have hp : 0 < p := by norm_num [p]
  rw [sat_reduceWithMaxBits]
  constructor
  · rintro ⟨hy, q, hq, h⟩
    have h4 : q * (p : Fr) + y = ((q.val * p + y.val : ℕ) : Fr) := by push_cast; simp
    have h5 : (q.val * p + y.val) % r = x.val := by rw [h, h4, ZMod.val_natCast]
    refine ⟨(q.val * p + y.val) / r, ?_⟩
    have h6 : x.val + (q.val * p + y.val) / r * r = q.val * p + y.val := by
      rw [← h5]; exact Nat.mod_add_div' _ _
    rw [h6]
    have h7 : (q.val * p + y.val) / p = q.val := by
      rw [Nat.mul_comm, Nat.mul_add_div hp, Nat.div_eq_of_lt hy, add_zero]
    have h8 : (q.val * p + y.val) % p = y.val := by
      rw [Nat.mul_comm, Nat.mul_add_mod, Nat.mod_eq_of_lt hy]
    rw [h7, h8, natCast_val_fr]
    exact ⟨hq, ZMod.val_lt q, rfl⟩
  · rintro ⟨k, h1, h2, rfl⟩
    have hm : (x.val + k * r) % p < p := Nat.mod_lt _ hp
    refine ⟨by rwa [val_natCast_of_lt (hm.trans p_lt_r)], (((x.val + k * r) / p : ℕ) : Fr),
      by rwa [val_natCast_of_lt h2], ?_⟩
    rw [← Nat.cast_mul, ← Nat.cast_add, Nat.div_add_mod', Nat.cast_add, Nat.cast_mul,
      natCast_val_fr, show ((r : ℕ) : Fr) = 0 from ZMod.natCast_self r, mul_zero, add_zero]

theorem honest_reduceWithMaxBits (x : Fr) (n : ℕ) (h : x.val / p < 2 ^ n) :
    honest (reduceWithMaxBits x n) = some ((x.val % p : ℕ) : Fr) := by
  have hq : x.val / p < r := lt_of_le_of_lt (Nat.div_le_self _ _) (ZMod.val_lt x)
  have hm : x.val % p < p := Nat.mod_lt _ (by norm_num [p])
  have vq := val_natCast_of_lt hq
  have vm := val_natCast_of_lt (lt_trans hm p_lt_r)
  have he : x = ((x.val / p : ℕ) : Fr) * (p : Fr) + ((x.val % p : ℕ) : Fr) := by
    rw [← Nat.cast_mul, ← Nat.cast_add, Nat.div_add_mod', natCast_val_fr]
  simp only [reduceWithMaxBits, honest_bind, honest_newHint, reduceHint, Option.bind_some,
    honest_assertEq, Matrix.cons_val_zero, Matrix.cons_val_one, Matrix.cons_val_fin_one, if_true,
    honest_rangeCheck, vq, vm, hm, honest_pure, honest_rangeCheckerCheck, h]
  rw [if_pos he]; rfl

theorem den_reduceWithMaxBits {n m : ℕ} (hm : 2 ^ m * p ≤ r) (hn : n < 2 ^ m * p) :
    den (reduceWithMaxBits (n : Fr) m) = pure (emb (n : Fp)) := by
  have hnr : n < r := lt_of_lt_of_le hn hm
  apply den_pure_of
  · intro z
    rw [sat_reduceWithMaxBits]
    rintro ⟨hz, q, hq, h⟩
    have h4 : q * (p : Fr) + z = ((q.val * p + z.val : ℕ) : Fr) := by
      push_cast; simp
    have h5 : q.val * p + z.val < r := by
      have h6 : (q.val + 1) * p ≤ 2 ^ m * p := Nat.mul_le_mul_right _ hq
      rw [Nat.add_mul] at h6
      omega
    rw [h4, fr_natCast_inj hnr h5] at h
    rw [h, emb_natCast, Nat.mul_comm, Nat.mul_add_mod, Nat.mod_eq_of_lt hz, natCast_val_fr]
  · rw [honest_reduceWithMaxBits]
    · rw [val_natCast_of_lt hnr, emb_natCast]
    · rw [val_natCast_of_lt hnr, Nat.div_lt_iff_lt_mul (by norm_num [p])]; exact hn

theorem den_reduce_nat {n : ℕ} (hn : n < 2 ^ 144 * p) :
    den (reduce (n : Fr)) = pure (emb (n : Fp)) :=
  den_reduceWithMaxBits (by norm_num [p, r, RANGE_CHECK_NB_BITS]) hn

theorem den_reduce_of {x : Fr} {n : ℕ} {y : Fp} (hx : x = (n : Fr)) (hn : n < 2 ^ 144 * p)
    (hy : (n : Fp) = y) : den (reduce x) = pure (emb y) := by
  rw [hx, den_reduce_nat hn, hy]

@[simp] theorem den_reduce_emb (a : Fp) : den (reduce (emb a)) = pure (emb a) :=
  den_reduce_of rfl (lt_trans (ZMod.val_lt a) (by norm_num [p])) (cast_val_fp a)

/-! ## Inverse -/

theorem den_inverse_of_ne {a : Fp} (h : a ≠ 0) : den (inverse (emb a)) = pure (emb a⁻¹, 1) := by
  have hz : isZero (emb a) = 0 := by
    rw [isZero, if_neg (by rw [emb_eq_zero]; exact h)]
  have hmul : ∀ v : Fr, v.val < p → den (mul v (emb a)) = pure (emb ((v.val : Fp) * a)) := by
    intro v hv
    obtain ⟨b, rfl⟩ := exists_emb hv
    rw [den_mul, emb_val, cast_val_fp]
  apply den_pure_of
  · intro z
    simp only [inverse, sat_bind, sat_assertEq, sat_rangeCheck, sat_newHint, true_and, sat_pure,
      sat_select, hz, sub_zero, or_true, if_true]
    rintro ⟨v, _, h1, w, h2, s, rfl, _, h3, rfl⟩
    rw [sat_of_den_pure (hmul _ h1)] at h2
    rw [h2, ← emb_one, emb_inj] at h3
    rw [← eq_inv_of_mul_eq_one_left h3, emb_natCast_of_lt h1, natCast_val_fr]
  · have hh : inverseHint (emb a) = some ![emb a⁻¹] := by
      rw [inverseHint, if_neg (by have := emb_lt a; omega), emb_val, cast_val_fp]
    have hm : honest (mul (emb a⁻¹) (emb a)) = some 1 := by
      rw [honest_of_den_pure (den_mul _ _), inv_mul_cancel₀ h, emb_one]
    simp only [inverse, honest_bind, honest_newHint, hh, Option.bind_some, honest_rangeCheck,
      Matrix.cons_val_fin_one, emb_lt, if_true, hm, hz, sub_zero, honest_select, or_true,
      honest_assertEq, honest_pure]

/-- For zero the inverse output is *unconstrained* (any canonical value), only `hasInv = 0` is
forced. -/
theorem sat_inverse_zero (z : Fr × Fr) : Sat (inverse 0) z ↔ z.1.val < p ∧ z.2 = 0 := by
  have hz : isZero 0 = 1 := by simp [isZero]
  have hmul : ∀ v : Fr, v.val < p → den (mul v 0) = pure 0 := by
    intro v hv
    obtain ⟨b, rfl⟩ := exists_emb hv
    rw [← emb_zero, den_mul, mul_zero]
  simp only [inverse, sat_bind, sat_assertEq, sat_rangeCheck, sat_newHint, true_and, sat_pure,
      sat_select, hz, sub_self, true_or, (one_ne_zero (α := Fr)).symm, if_false]
  constructor
  · rintro ⟨v, _, h1, w, h2, s, rfl, _, h3, rfl⟩
    exact ⟨h1, rfl⟩
  · rintro ⟨h1, h2⟩
    refine ⟨![z.1], (), by simpa using h1, 0, ?_, 1, rfl, (), rfl, ?_⟩
    · simpa using (sat_of_den_pure (hmul _ h1) 0).2 rfl
    · ext <;> simp [h2]

theorem honest_inverse_zero : honest (inverse 0) = some (0, 0) := by
  have hh : inverseHint 0 = some ![0] := by
    rw [inverseHint, if_neg (by simp [p])]; simp
  have hm : honest (mul 0 0) = some 0 := by
    have := honest_of_den_pure (den_mul 0 0)
    rwa [mul_zero, emb_zero] at this
  have hz : isZero 0 = 1 := by simp [isZero]
  have hp0 : (0 : Fr).val < p := by simp [p]
  simp only [inverse, honest_bind, honest_newHint, hh, Option.bind_some, honest_rangeCheck,
      Matrix.cons_val_fin_one, hp0, if_true, hm, hz, sub_self, honest_select, true_or,
      honest_assertEq, honest_pure, (one_ne_zero (α := Fr)).symm, if_false]

end Verif
