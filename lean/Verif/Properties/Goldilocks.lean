import Verif.Proofs.QuadExt
import Verif.Proofs.ExtAlgebra
import Verif.Proofs.Roots
import Verif.Proofs.RangeCheckUtils
import Verif.Proofs.NewChip

/-!
# Properties C01–C18: the Goldilocks chip

Statements use `Computes`, `Enforces`, `Unsat`, `Sat` (`Verif/Circ.lean`) and Mathlib's fields only.
`emb`/`embQ`/`embA` are canonical representatives (`emb x = x.val`).
-/

set_option autoImplicit false

namespace Verif

open Circ

/-! ## C01 -/

/-- **C01** `RangeCheck` accepts exactly the canonical values. -/
theorem C01_rangeCheck (x : Fr) : Enforces (rangeCheck x) (x.val < p) :=
  (den_eq_guard_iff _ _).1 (den_rangeCheck x)

/-- `p - 1` is accepted (high limb all ones, low limb zero) ... -/
example : Sat (rangeCheck ((p - 1 : ℕ) : Fr)) () :=
  (C01_rangeCheck _).1.2 (by rw [val_natCast_of_lt] <;> norm_num [p, r])
/-- ... `p` and `2^64 - 1` are not. -/
example : Unsat (rangeCheck (p : Fr)) := fun _ h =>
  absurd ((C01_rangeCheck _).1.1 h) (by rw [val_natCast_of_lt] <;> norm_num [p, r])
example : Unsat (rangeCheck ((2 ^ 64 - 1 : ℕ) : Fr)) := fun _ h =>
  absurd ((C01_rangeCheck _).1.1 h) (by rw [val_natCast_of_lt] <;> norm_num [p, r])

/-! ## C02 -/

theorem C02_mulAdd (a b c : Fp) : Computes (mulAdd (emb a) (emb b) (emb c)) (emb (a * b + c)) :=
  (den_eq_pure_iff _ _).1 (den_mulAdd a b c)
theorem C02_add (a b : Fp) : Computes (add (emb a) (emb b)) (emb (a + b)) :=
  (den_eq_pure_iff _ _).1 (den_add a b)
theorem C02_sub (a b : Fp) : Computes (sub (emb a) (emb b)) (emb (a - b)) :=
  (den_eq_pure_iff _ _).1 (den_sub a b)
theorem C02_mul (a b : Fp) : Computes (mul (emb a) (emb b)) (emb (a * b)) :=
  (den_eq_pure_iff _ _).1 (den_mul a b)

/-- `0 - 1` is `p - 1`. -/
example : Computes (sub 0 1) ((p - 1 : ℕ) : Fr) := by
  have := C02_sub 0 1
  rwa [zero_sub, ← negOne_eq, emb_zero, emb_one] at this

/-! ## C03 -/

/-- **C03** `Reduce` on the circuit value of a natural number below `2^144 p`. -/
theorem C03_reduce {n : ℕ} (hn : n < 2 ^ 144 * p) :
    Computes (reduce (n : Fr)) ((n % p : ℕ) : Fr) := by
  rw [← emb_natCast]; exact (den_eq_pure_iff _ _).1 (den_reduce_nat hn)

/-- `Reduce(7 (p-1)^2 + p)` is `7`. -/
example : Computes (reduce ((7 * (p - 1) ^ 2 + p : ℕ) : Fr)) ((7 : ℕ) : Fr) :=
  C03_reduce (by norm_num [p])

/-! ## C04 -/

/-- **C04** the exact set of outputs of `ReduceWithMaxBits(x, n)`. -/
theorem C04_reduceWithMaxBits_exact (x : Fr) (n : ℕ) (y : Fr) :
    Sat (reduceWithMaxBits x n) y ↔
      ∃ k : ℕ, (x.val + k * r) / p < 2 ^ n ∧ (x.val + k * r) / p < r ∧
        y = (((x.val + k * r) % p : ℕ) : Fr) :=
  sat_reduceWithMaxBits_nat x n y

/-- **C04** for `n ≤ 189` the result is unique and correct (and the circuit is satisfiable exactly when
the honest quotient fits). -/
theorem C04_reduceWithMaxBits_unique (x : Fr) {n : ℕ} (hn : n ≤ 189) (y : Fr) :
    Sat (reduceWithMaxBits x n) y ↔ x.val / p < 2 ^ n ∧ y = ((x.val % p : ℕ) : Fr) := by
  rw [C04_reduceWithMaxBits_exact]
  constructor
  · rintro ⟨k, h1, _, rfl⟩
    have hk : k = 0 := by
      by_contra hk
      have h3 : (x.val + k * r) / p < 2 ^ 189 :=
        h1.trans_le (Nat.pow_le_pow_right (by norm_num) hn)
      rw [Nat.div_lt_iff_lt_mul (by norm_num [p])] at h3
      have h4 : (2 : ℕ) ^ 189 * p < r := by norm_num [p, r]
      have h5 : r ≤ k * r := Nat.le_mul_of_pos_left _ (Nat.pos_of_ne_zero hk)
      omega
    subst hk
    simpa using h1
  · rintro ⟨h1, rfl⟩
    exact ⟨0, by simpa using h1, by simpa using (Nat.div_le_self _ _).trans_lt (ZMod.val_lt x),
      by simp⟩

/-- **C04** for `n = 190` and small `x`, and for every `x` when `n ≥ 191`, a second (wrong) result is
accepted. -/
theorem C04_reduceWithMaxBits_not_unique (x : Fr) {n : ℕ}
    (hn : 191 ≤ n ∨ (n = 190 ∧ x.val + r < 2 ^ 190 * p)) :
    ∃ y y', y ≠ y' ∧ Sat (reduceWithMaxBits x n) y ∧ Sat (reduceWithMaxBits x n) y' ∧
      y = ((x.val % p : ℕ) : Fr) ∧ y' = (((x.val + r) % p : ℕ) : Fr) := by
  have hp : 0 < p := by norm_num [p]
  have hx := ZMod.val_lt x
  have hb : x.val + r < 2 ^ n * p := by
    rcases hn with h | ⟨rfl, h⟩
    · have h1 : (2 : ℕ) ^ 191 * p ≤ 2 ^ n * p :=
        Nat.mul_le_mul_right _ (Nat.pow_le_pow_right (by norm_num) h)
      have h2 : r + r < 2 ^ 191 * p := by norm_num [r, p]
      omega
    · exact h
  refine ⟨_, _, ?_, ?_, ?_, rfl, rfl⟩
  · intro h
    rw [fr_natCast_inj ((Nat.mod_lt _ hp).trans p_lt_r) ((Nat.mod_lt _ hp).trans p_lt_r)] at h
    have h1 : r % p = 12983339531537517832 := by norm_num [r, p]
    rw [Nat.add_mod, h1] at h
    have : x.val % p < p := Nat.mod_lt _ hp
    clear hb hn
    generalize x.val % p = m at *
    simp only [p] at *
    omega
  · refine (C04_reduceWithMaxBits_exact _ _ _).2 ⟨0, ?_, ?_, by rw [zero_mul, add_zero]⟩
    · rw [Nat.div_lt_iff_lt_mul hp]; omega
    · rw [zero_mul, add_zero]; exact (Nat.div_le_self _ _).trans_lt hx
  · refine (C04_reduceWithMaxBits_exact _ _ _).2 ⟨1, ?_, ?_, by rw [one_mul]⟩
    · rw [Nat.div_lt_iff_lt_mul hp, one_mul]; exact hb
    · rw [Nat.div_lt_iff_lt_mul hp]
      have : r + r ≤ r * p := by norm_num [r, p]
      rw [one_mul]; omega

/-- Concrete witness: `ReduceWithMaxBits(5, 192)` may return `5` or `12983339531537517837`. -/
example : Sat (reduceWithMaxBits ((5 : ℕ) : Fr) 192) ((12983339531537517837 : ℕ) : Fr) := by
  refine (C04_reduceWithMaxBits_exact _ _ _).2 ⟨1, ?_⟩
  rw [val_natCast_of_lt (by norm_num [r])]
  norm_num [r, p]

/-! ## C05 -/

/-- **C05** nonzero input. -/
theorem C05_inverse {a : Fp} (h : a ≠ 0) : Computes (inverse (emb a)) (emb a⁻¹, 1) :=
  (den_eq_pure_iff _ _).1 (den_inverse_of_ne h)

/-- **C05** zero input: the flag is forced to 0 (the first component is any canonical value). -/
theorem C05_inverse_zero (z : Fr × Fr) : Sat (inverse 0) z ↔ z.1.val < p ∧ z.2 = 0 :=
  sat_inverse_zero z

theorem C05_inverse_zero_honest : honest (inverse 0) = some (0, 0) := honest_inverse_zero

example : (7 : Fp) ≠ 0 := by decide +kernel

/-! ## C06 -/

theorem C06_addExtension (a b : QE) : Computes (addExt (embQ a) (embQ b)) (embQ (a + b)) :=
  (den_eq_pure_iff _ _).1 (den_addExt a b)
theorem C06_subExtension (a b : QE) : Computes (subExt (embQ a) (embQ b)) (embQ (a - b)) :=
  (den_eq_pure_iff _ _).1 (den_subExt a b)
theorem C06_mulExtension (a b : QE) : Computes (mulExt (embQ a) (embQ b)) (embQ (a * b)) :=
  (den_eq_pure_iff _ _).1 (den_mulExt a b)
theorem C06_mulAddExtension (a b c : QE) :
    Computes (mulAddExt (embQ a) (embQ b) (embQ c)) (embQ (a * b + c)) :=
  (den_eq_pure_iff _ _).1 (den_mulAddExt a b c)
theorem C06_subMulExtension (a b c : QE) :
    Computes (subMulExt (embQ a) (embQ b) (embQ c)) (embQ ((a - b) * c)) :=
  (den_eq_pure_iff _ _).1 (den_subMulExt a b c)
theorem C06_scalarMulExtension (a : QE) (b : Fp) :
    Computes (scalarMulExt (embQ a) (emb b)) (embQ (a * ofBase b)) :=
  (den_eq_pure_iff _ _).1 (den_scalarMulExt a b)

/-- In `QE` the generator squares to 7, so this pins down `X^2 = 7`. -/
example : (⟨0, 1⟩ * ⟨0, 1⟩ : QE) = ⟨7, 0⟩ := by
  ext <;> simp
example : Computes (mulExt (0, 1) (0, 1)) (7, 0) := by
  have h : (⟨0, 1⟩ * ⟨0, 1⟩ : QE) = ⟨7, 0⟩ := by ext <;> simp
  have := C06_mulExtension ⟨0, 1⟩ ⟨0, 1⟩
  rw [h] at this
  simpa [embQ, emb_seven] using this

/-! ## C07 -/

theorem C07_inverseExtension {a : QE} (h : a ≠ 0) : Computes (inverseExt (embQ a)) (embQ a⁻¹, 1) :=
  (den_eq_pure_iff _ _).1 (den_inverseExt_of_ne h)
theorem C07_inverseExtension_zero : Unsat (inverseExt (embQ 0)) :=
  den_eq_fail den_inverseExt_zero
theorem C07_divExtension (a : QE) {b : QE} (h : b ≠ 0) :
    Computes (divExt (embQ a) (embQ b)) (embQ (a / b), 1) :=
  (den_eq_pure_iff _ _).1 (den_divExt_of_ne a h)
theorem C07_divExtension_zero (a : QE) : Unsat (divExt (embQ a) (embQ 0)) :=
  den_eq_fail (den_divExt_zero a)

example : (⟨0, 1⟩ : QE) ≠ 0 := by
  intro h; have := congrArg QuadraticAlgebra.im h; simp at this

/-! ## C08 -/

theorem C08_expExtension (a : QE) (e : ℕ) : Computes (expExt (embQ a) e) (embQ (a ^ e)) :=
  (den_eq_pure_iff _ _).1 (den_expExt a e)

example (a : QE) : Computes (expExt (embQ a) 13) (embQ (a ^ 13)) := C08_expExtension a 13

/-! ## C09 -/

theorem C09_reduceWithPowers (terms : List QE) (s : QE) :
    Computes (reduceWithPowers (terms.map embQ) (embQ s))
      (embQ (∑ i ∈ Finset.range terms.length, terms.getD i 0 * s ^ i)) :=
  (den_eq_pure_iff _ _).1 (den_reduceWithPowers terms s)

example (a b c s : QE) : Computes (reduceWithPowers [embQ a, embQ b, embQ c] (embQ s))
    (embQ (a + b * s + c * s ^ 2)) := by
  simpa [Finset.sum_range_succ] using C09_reduceWithPowers [a, b, c] s

/-! ## C10 -/

/-- **C10** the lazily reduced inner product is exact for every slice Go can allocate. -/
theorem C10_innerProductExtension (c : Fp) (a : QE) (pairs : List (QE × QE))
    (hl : pairs.length < 2 ^ 63) :
    Computes (innerProductExt (emb c) (embQ a) (pairs.map fun ab => (embQ ab.1, embQ ab.2)))
      (embQ (a + ofBase c * (pairs.map fun ab => ab.1 * ab.2).sum)) := by
  have := (den_eq_pure_iff _ _).1 (den_innerProductExt c a pairs (by omega))
  rwa [List.sum_map_mul_left] at this

/-- **C10** the other unreduced shapes used in the repository. -/
theorem C10_mulAddSubNoReduce (a b c d : QE) :
    Computes (mulAddExt (subExtNoReduce (embQ a) (embQ b)) (embQ c) (embQ d))
      (embQ ((a - b) * c + d)) :=
  (den_eq_pure_iff _ _).1 (den_mulAddExt_subNoReduce a b c d)

example (a x y z w : QE) : Computes (innerProductExt (emb 3) (embQ a) [(embQ x, embQ y), (embQ z, embQ w)])
    (embQ (a + ofBase 3 * (x * y + z * w))) := by
  simpa using C10_innerProductExtension 3 a [(x, y), (z, w)] (by simp)

/-! ## C11 -/

theorem C11_lookup (b : Bool) (x y : QEV) :
    Computes (lookup (if b then 1 else 0) x y) (if b then y else x) := by
  rw [← den_eq_pure_iff]; cases b <;> simp
theorem C11_lookup_unsat {b : Fr} (h : b ≠ 0 ∧ b ≠ 1) (x y : QEV) : Unsat (lookup b x y) := by
  rw [← den_eq_fail_iff, den_lookup, Den.guard_false (by tauto)]; simp
/-- `Lookup2(b0, b1, q)` is `q (b0 + 2 b1)`. -/
theorem C11_lookup2 (b0 b1 : Bool) (q : Fin 4 → QEV) :
    Computes (lookup2 (if b0 then 1 else 0) (if b1 then 1 else 0) (q 0) (q 1) (q 2) (q 3))
      (q ⟨b0.toNat + 2 * b1.toNat, by cases b0 <;> cases b1 <;> simp⟩) := by
  rw [← den_eq_pure_iff]; cases b0 <;> cases b1 <;> simp [lookup2]
theorem C11_lookup2_unsat {b0 b1 : Fr} (h : (b0 ≠ 0 ∧ b0 ≠ 1) ∨ (b1 ≠ 0 ∧ b1 ≠ 1))
    (x y z w : QEV) : Unsat (lookup2 b0 b1 x y z w) := by
  rw [← den_eq_fail_iff]
  simp only [lookup2, den_bind, den_lookup]
  rcases h with h | h
  · rw [Den.guard_false (by tauto)]; simp
  · by_cases h0 : b0 = 0 ∨ b0 = 1
    · rw [Den.guard_true h0, Den.guard_false (by tauto)]; simp
    · rw [Den.guard_false h0]; simp

example : (2 : Fr) ≠ 0 ∧ (2 : Fr) ≠ 1 := by decide +kernel

/-! ## C12 -/

theorem C12_addExtensionAlgebra (a b : QA) : Computes (addAlg (embA a) (embA b)) (embA (a + b)) :=
  (den_eq_pure_iff _ _).1 (den_addAlg a b)
theorem C12_subExtensionAlgebra (a b : QA) : Computes (subAlg (embA a) (embA b)) (embA (a - b)) :=
  (den_eq_pure_iff _ _).1 (den_subAlg a b)
theorem C12_mulExtensionAlgebra (a b : QA) : Computes (mulAlg (embA a) (embA b)) (embA (a * b)) :=
  (den_eq_pure_iff _ _).1 (den_mulAlg a b)
theorem C12_scalarMulExtensionAlgebra (a : QE) (b : QA) :
    Computes (scalarMulAlg (embQ a) (embA b)) (embA (ofExt a * b)) :=
  (den_eq_pure_iff _ _).1 (den_scalarMulAlg a b)

/-- `QA` is `QE[Y]/(Y^2-7)`. -/
example : (⟨0, 1⟩ * ⟨0, 1⟩ : QA) = ⟨7, 0⟩ := by ext1 <;> simp

/-! ## C13 -/

/-- **C13** closed form of a barycentric step over any non-empty list of points. -/
theorem C13_partialInterpolate (n : ℕ) (hn : n ≠ 0) (x : Fin n → Fp) (v : Fin n → QA)
    (w : Fin n → Fp) (point e0 p0 : QA) :
    Computes (partialInterpolate (List.ofFn x) (List.ofFn fun i => embA (v i)) (List.ofFn w)
      (embA point) (embA e0) (embA p0))
    (embA (e0 * ∏ i, (point - ofExt (ofBase (x i))) + p0 * ∑ i, ofExt (ofBase (w i)) * v i *
        ∏ j ∈ Finset.univ.erase i, (point - ofExt (ofBase (x j)))),
      embA (p0 * ∏ i, (point - ofExt (ofBase (x i))))) :=
  (den_eq_pure_iff _ _).1 (den_partialInterpolate n hn x v w point e0 p0)

example (x0 x1 : Fp) (v0 v1 pt : QA) : Computes
    (partialInterpolate [x0, x1] [embA v0, embA v1] [1, 1] (embA pt) (embA 0) (embA 1))
    (embA (v0 * (pt - ofExt (ofBase x1)) + v1 * (pt - ofExt (ofBase x0))),
      embA ((pt - ofExt (ofBase x0)) * (pt - ofExt (ofBase x1)))) := by
  have := C13_partialInterpolate 2 (by norm_num) ![x0, x1] ![v0, v1] ![1, 1] pt 0 1
  have e0 : (Finset.univ : Finset (Fin 2)).erase 0 = {1} := by decide
  have e1 : (Finset.univ : Finset (Fin 2)).erase 1 = {0} := by decide
  simpa [Fin.sum_univ_two, Fin.prod_univ_two, e0, e1] using this

/-- **C13** processing a list in two consecutive pieces is the same circuit. -/
theorem C13_chain (d1 d2 : List Fp) (v1 v2 : List QAV) (w1 w2 : List Fp) (point e0 p0 : QAV)
    (h1 : d1.length = v1.length) (h1' : w1.length = v1.length) (h2 : d2.length = v2.length)
    (h2' : w2.length = v2.length) (hn1 : v1 ≠ []) (hn2 : v2 ≠ []) :
    partialInterpolate (d1 ++ d2) (v1 ++ v2) (w1 ++ w2) point e0 p0 =
      (do
        let st ← partialInterpolate d1 v1 w1 point e0 p0
        partialInterpolate d2 v2 w2 point st.1 st.2) := by
  have hl : v1.length + v2.length ≠ 0 := by simp [hn1]
  have hl1 : v1.length ≠ 0 := by simp [hn1]
  have hl2 : v2.length ≠ 0 := by simp [hn2]
  simp only [partialInterpolate, hl, hl1, hl2,
    List.length_append, h1, h1', h2, h2', ne_eq, not_true_eq_false, if_false]
  rw [List.zip_append (by simp [h1']), List.zip_append (by simp [h1, h1']), List.foldlM_append]

/-- **C13** lists of other lengths are refused. -/
theorem C13_panics (domain : List Fp) (values : List QAV) (weights : List Fp) (point e0 p0 : QAV)
    (h : values = [] ∨ domain.length ≠ values.length ∨ weights.length ≠ values.length) :
    Panics (partialInterpolate domain values weights point e0 p0) := by
  rw [partialInterpolate]
  by_cases h1 : values.length = 0
  · rw [if_pos h1]; trivial
  · rw [if_neg h1]
    by_cases h2 : values.length = domain.length
    · rw [if_neg (not_not.2 h2)]
      by_cases h3 : values.length = weights.length
      · rcases h with rfl | h | h
        · exact absurd rfl h1
        · exact absurd h2.symm h
        · exact absurd h3.symm h
      · rw [if_pos h3]; trivial
    · rw [if_pos h2]; trivial

/-- One weight too few. -/
example (v0 v1 pt : QAV) : Panics (partialInterpolate [1, 2] [v0, v1] [1] pt pt pt) :=
  C13_panics _ _ _ _ _ _ (Or.inr (Or.inr (by simp)))

/-! ## C14 -/

/-- **C14** `PrimitiveRootOfUnity(n)` has order exactly `2^n`, for every `n ≤ 32`. -/
theorem C14_primitiveRootOfUnity {n : ℕ} (h : n ≤ 32) :
    ∃ g, primitiveRootOfUnity n = some g ∧ orderOf g = 2 ^ n := primitiveRoot_order h

/-- **C14** `TwoAdicSubgroup(n)` lists the `2^n` distinct powers, in order. -/
theorem C14_twoAdicSubgroup {n : ℕ} (h : n ≤ 32) :
    ∃ g l, primitiveRootOfUnity n = some g ∧ twoAdicSubgroup n = some l ∧ l.length = 2 ^ n ∧
      (∀ i (hi : i < l.length), l[i] = g ^ i) ∧ l.Nodup ∧ ∀ y : Fp, y ∈ l ↔ y ^ 2 ^ n = 1 := by
  obtain ⟨g, h1, h2, h3⟩ := twoAdicSubgroup_eq h
  have hinj : Set.InjOn (fun i => g ^ i) (Set.Iio (orderOf g)) := pow_injOn_Iio_orderOf
  have hnd : ((List.range (2 ^ n)).map (g ^ ·)).Nodup := by
    refine (List.nodup_map_iff_inj_on List.nodup_range).2 ?_
    intro a ha b hb hab
    rw [List.mem_range] at ha hb
    exact hinj (by rw [h1]; exact ha) (by rw [h1]; exact hb) hab
  refine ⟨g, _, h2, h3, by simp, by simp, hnd, ?_⟩
  have hsub : ((List.range (2 ^ n)).map (g ^ ·)).toFinset ⊆ (Polynomial.nthRoots (2 ^ n) (1 : Fp)).toFinset := by
    intro y hy
    simp only [List.mem_toFinset, List.mem_map, List.mem_range] at hy
    obtain ⟨i, _, rfl⟩ := hy
    rw [Multiset.mem_toFinset, Polynomial.mem_nthRoots (by positivity), ← pow_mul, Nat.mul_comm,
      pow_mul, ← h1, pow_orderOf_eq_one, one_pow]
  have heq := Finset.eq_of_subset_of_card_le hsub (by
    rw [List.toFinset_card_of_nodup hnd, List.length_map, List.length_range]
    exact (Multiset.toFinset_card_le _).trans (Polynomial.card_nthRoots _ _))
  intro y
  rw [← List.mem_toFinset, heq, Multiset.mem_toFinset, Polynomial.mem_nthRoots (by positivity)]

theorem C14_panics {n : ℕ} (h : 32 < n) : primitiveRootOfUnity n = none ∧ twoAdicSubgroup n = none := by
  simp [primitiveRootOfUnity, twoAdicSubgroup, TWO_ADICITY, h]

/-- `n = 1`: the root is `-1`. -/
example : primitiveRootOfUnity 1 = some ((p - 1 : ℕ) : Fp) := by decide +kernel

/-! ## C15 -/

/-- **C15** the width chosen is the smallest minimiser of the cost over 2..17 (the cost of at least
one width must be representable as a Go `int`). -/
theorem C15_optimalWidth (ft : Option FrontendType) (l : List ℕ) :
    ∃ cost : ℕ → ℕ,
      (∀ j, cost j = if ft = some .SCS
        then 3 * 2 ^ j + 4 * (l.map fun b => (b + j - 1) / j).sum + 1
        else 2 ^ j + (l.map fun b => (b + j - 1) / j).sum + l.length + 1) ∧
      ((∃ j, 2 ≤ j ∧ j < 18 ∧ cost j < 2 ^ 63 - 1) →
        let w := getOptimalBasewidth ft l
        2 ≤ w ∧ w < 18 ∧ (∀ j, 2 ≤ j → j < 18 → cost w ≤ cost j) ∧
          ∀ j, 2 ≤ j → j < w → cost w < cost j) := by
  refine ⟨fun j => (if ft = some .SCS then nbPLONKConstraints else nbR1CSConstraints) j l, ?_, ?_⟩
  · intro j
    by_cases h : ft = some .SCS
    · simp [h, nbPLONK_eq, limbCount, decompSize]
    · simp [h, nbR1CS_eq, limbCount, decompSize]
  · intro h
    have hw : getOptimalBasewidth ft l =
        optimalWidth (if ft = some .SCS then nbPLONKConstraints else nbR1CSConstraints) l := by
      rcases ft with _ | (_ | _) <;> simp [getOptimalBasewidth]
    rw [hw]
    exact optimalWidth_spec _ l h

/-- Three 32-bit checks: the costs of widths 2,3,4,5 are 56, 45, 44, 57. -/
example : getOptimalBasewidth none [32, 32, 32] = 4 := by decide +kernel
example : getOptimalBasewidth (some .SCS) [32, 32, 32] = 4 := by decide +kernel

/-! ## C16 -/

/-- **C16 is violated by the native backend**: the recorded bound is ignored, whatever it is. -/
theorem C16_native_violates : ∀ log, Backend.native.accepts log := fun _ => trivial

/-- ... so with a builder providing native range checks `RangeCheck` accepts *every* scalar. -/
theorem C16_native_rangeCheck_accepts_all (x : Fr) : SatWith .native (rangeCheck x) () := by
  have h0 : max32 ≠ 0 := by
    intro h
    have := (fr_eq_natCast_iff (x := 0) (by norm_num [r] : 2 ^ 32 - 1 < r)).1 h.symm
    rw [ZMod.val_zero] at this
    norm_num at this
  refine ⟨[(0, 32), (x, 32)], ?_, trivial⟩
  simp only [rangeCheck, newHint, assertEq, rangeCheckerCheck, select, bind_eq, Circ.bind, Out]
  refine ⟨![0, x], ?_⟩
  simp [isZero, h0]

/-- **C16, partial**: the bound is enforced by the bit-decomposition and the commit-based backends.
Missing: the native backend, which enforces nothing (see above). -/
theorem C16_backends_partial (b : Backend) (hb : b ≠ .native) (log : List (Fr × ℕ))
    (hw : ∀ e ∈ log, e.2 ≤ 256) (hl : log.length ≤ 2 ^ 50) (h : b.accepts log) :
    ∀ e ∈ log, e.1.val < 2 ^ e.2 := by
  cases b with
  | native => exact absurd rfl hb
  | bitDecomp => exact h
  | commit ft => exact ((commit_accepts_iff ft log hw hl).1 h).2

/-- Which builders end up with which backend. -/
theorem C16_selection (isR isC env : Bool) (ft : FrontendType) :
    selectBackend isR isC ft env = .native ↔ (isR = true ∧ env = false) := by
  cases isR <;> cases isC <;> cases env <;> simp [selectBackend]

example : Backend.bitDecomp.accepts [((5 : Fr), 3)] := by
  intro e he; simp at he; subst he; decide +kernel

/-! ## C17 -/

/-- **C17** if the commit-based checker does not abort, exactly the requested bounds are enforced,
for both builders. -/
theorem C17_commit_exact (ft : FrontendType) (log : List (Fr × ℕ)) (hw : ∀ e ∈ log, e.2 ≤ 256)
    (hl : log.length ≤ 2 ^ 50) (hok : checkCollectedOk (log.map Prod.snd) = true) :
    (Backend.commit ft).accepts log ↔ ∀ e ∈ log, e.1.val < 2 ^ e.2 := by
  rw [commit_accepts_iff ft log hw hl]; simp [hok]

/-- **C17** it aborts when a width is not a multiple of 16, or when 16 is not the optimal width. -/
theorem C17_commit_aborts (l : List ℕ)
    (h : (∃ b ∈ l, b % 16 ≠ 0) ∨ getOptimalBasewidth none l ≠ 16) :
    checkCollectedOk l = false := by
  rw [Bool.eq_false_iff]
  intro hok
  simp only [checkCollectedOk, EXPECTED_OPTIMAL_BASEWIDTH, Bool.and_eq_true,
    List.all_eq_true, beq_iff_eq] at hok
  obtain ⟨h1, h2⟩ := hok
  have h1 := of_decide_eq_true h1
  rw [h1] at h2
  rcases h with ⟨b, hb, h⟩ | h
  · exact h (h2 b hb)
  · exact h h1

/-- **C17** a circuit with at least 65536 aligned checks compiles. -/
theorem C17_commit_compiles (l : List ℕ) (h : ∀ b ∈ l, b % 16 = 0 ∧ 0 < b ∧ b ≤ 256)
    (h1 : 65536 ≤ l.length) (h2 : l.length ≤ 2 ^ 50) : checkCollectedOk l = true :=
  checkCollectedOk_of_many h h1 h2

/-- **C17** for whole circuits: acceptance under the commit backend implies the strict semantics. -/
theorem C17_commit_sound {α : Type} (ft : FrontendType) (c : Circ α) (y : α)
    (hb : ∀ y log, Out c y log → (∀ e ∈ log, e.2 ≤ 256) ∧ log.length ≤ 2 ^ 50)
    (h : SatWith (.commit ft) c y) : Sat c y := sat_of_satWith_commit hb h

/-- 70000 checks of 32 bits compile; a single check of 144 bits does not. -/
example : checkCollectedOk (List.replicate 70000 32) = true :=
  C17_commit_compiles _ (fun b hb => by
    rw [List.eq_of_mem_replicate hb]; norm_num) (by rw [List.length_replicate]; norm_num)
    (by rw [List.length_replicate]; norm_num)
example : checkCollectedOk [144] = false := by decide +kernel

/-! ## C18 -/

open NewChip in
/-- **C18** in every reachable state of any number of concurrent `New` calls: returned chips agree
iff the apis agree, and the deferred width check has been registered exactly once per api with
a commit checker (never for other backends). -/
theorem C18_new_memoised {A T : Type} [DecidableEq A] [DecidableEq T] (api : T → A)
    (mode : A → Backend) (s : State A T) (h : Reachable api mode s) (t t' : T) (c c' : ℕ)
    (ht : s.pc t = .done c) (ht' : s.pc t' = .done c') :
    (api t = api t' ↔ c = c') ∧
    s.defers (api t) = (match mode (api t) with | .commit _ => 1 | _ => 0) := by
  have inv := inv_reachable h
  have h1 := inv.fin t c ht
  have h2 := inv.fin t' c' ht'
  refine ⟨⟨fun he => ?_, fun he => ?_⟩, ?_⟩
  · rw [he, h2] at h1; simpa using h1.symm
  · subst he; exact inv.inj _ _ _ h1 h2
  · rw [inv.defers _ _ h1]
    cases mode (api t) <;> simp [isCommit]

open NewChip in
/-- **C18** at no time is the check registered twice. -/
theorem C18_defer_at_most_once {A T : Type} [DecidableEq A] [DecidableEq T] (api : T → A)
    (mode : A → Backend) (s : State A T) (h : Reachable api mode s) (a : A) : s.defers a ≤ 1 := by
  have inv := inv_reachable h
  cases hc : s.chips a with
  | some c => rw [inv.defers a c hc]; split <;> simp
  | none =>
    rcases inv.quiet a hc with h0 | ⟨t, c, rfl, h1⟩
    · omega
    · rw [(inv.ready t c h1).2.2.2]; split <;> simp

open NewChip in
/-- **C18** no deadlock: as long as some caller has not returned, some goroutine can step. -/
theorem C18_no_deadlock {A T : Type} [DecidableEq A] [DecidableEq T] (api : T → A)
    (mode : A → Backend) (s : State A T) (h : Reachable api mode s) (t : T)
    (ht : ∀ c, s.pc t ≠ .done c) : ∃ s', Step api mode s s' :=
  progress h (holder_inside h) t ht

open NewChip in
/-- Two goroutines with the same api: a complete run exists, both return chip 0 and one `Defer` is
registered. -/
example : ∃ s : State Unit Bool, Reachable (fun _ => ()) (fun _ => .commit .R1CS) s ∧
    s.pc true = .done 0 ∧ s.pc false = .done 0 ∧ s.defers () = 1 := by
  have h0 : Reachable (fun _ : Bool => ()) (fun _ => .commit .R1CS) init := .init
  have h1 := h0.step (.lock _ true rfl rfl)
  have h2 := h1.step (.miss _ true rfl rfl)
  have h3 := h2.step (.alloc _ true rfl)
  have h4 := h3.step (.setup _ true 0 rfl)
  have h5 := h4.step (.store _ true 0 rfl)
  have h6 := h5.step (.unlock _ true 0 rfl)
  have h7 := h6.step (.lock _ false rfl rfl)
  have h8 := h7.step (.hit _ false 0 rfl rfl)
  have h9 := h8.step (.unlock _ false 0 rfl)
  exact ⟨_, h9, rfl, rfl, rfl⟩

end Verif
