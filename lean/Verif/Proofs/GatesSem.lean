import Verif.Proofs.GatesRandom
import Verif.Proofs.GatesCoset
import Verif.Proofs.GatesPoseidon

/-!
# What vanishing of all constraints of a gate means
-/

set_option autoImplicit false

namespace Verif.Spec.Gates

theorem vanish_nil : Vanish [] := fun _ h => absurd h List.not_mem_nil

theorem vanish_cons {a : QE} {l : List QE} : Vanish (a :: l) ↔ a = 0 ∧ Vanish l := by simp [Vanish]

theorem vanish_append {l l' : List QE} : Vanish (l ++ l') ↔ Vanish l ∧ Vanish l' := by
  simp [Vanish, or_imp, forall_and]

theorem vanish_coords {a : QA} : Vanish (coords a) ↔ a = 0 := by
  rw [coords, vanish_cons, vanish_cons, QuadraticAlgebra.ext_iff (R := QE)]
  exact ⟨fun h => ⟨h.1, h.2.1⟩, fun h => ⟨h.1, h.2, vanish_nil⟩⟩

theorem vanish_map {n : ℕ} {f : ℕ → QE} : Vanish ((List.range n).map f) ↔ ∀ i < n, f i = 0 := by
  simp [Vanish]

theorem vanish_flatMap {σ : Type} {l : List σ} {f : σ → List QE} :
    Vanish (l.flatMap f) ↔ ∀ i ∈ l, Vanish (f i) := by
  simp only [Vanish, List.mem_flatMap]
  exact ⟨fun h i hi y hy => h y ⟨i, hi, hy⟩, fun h y ⟨i, hi, hy⟩ => h i hi y hy⟩

theorem vanish_ofFn {n : ℕ} {f : Fin n → QE} : Vanish (List.ofFn f) ↔ ∀ i, f i = 0 := by
  simp [Vanish, List.mem_ofFn]

theorem vanish_rangeFlatMap {n : ℕ} {f : ℕ → List QE} :
    Vanish ((List.range n).flatMap f) ↔ ∀ i < n, Vanish (f i) := by
  simp [vanish_flatMap]

/-! ## Simple gates -/

theorem vanish_arithmetic {n : ℕ} {x : Row} : Vanish (arithmetic n x) ↔
    ∀ i < n, x.w (4 * i + 3) = x.c 0 * x.w (4 * i) * x.w (4 * i + 1) + x.c 1 * x.w (4 * i + 2) := by
  rw [arithmetic, vanish_map]
  simp only [sub_eq_zero, mul_assoc]

theorem vanish_arithmeticExtension {n : ℕ} {x : Row} : Vanish (arithmeticExtension n x) ↔
    ∀ i < n, x.a (8 * i + 6) =
      ofExt (x.c 0) * x.a (8 * i) * x.a (8 * i + 2) + ofExt (x.c 1) * x.a (8 * i + 4) := by
  rw [arithmeticExtension, vanish_rangeFlatMap]
  simp only [vanish_coords, sub_eq_zero, mul_assoc]

theorem vanish_mulExtension {n : ℕ} {x : Row} : Vanish (mulExtension n x) ↔
    ∀ i < n, x.a (6 * i + 4) = ofExt (x.c 0) * x.a (6 * i) * x.a (6 * i + 2) := by
  rw [mulExtension, vanish_rangeFlatMap]
  simp only [vanish_coords, sub_eq_zero, mul_assoc]

theorem vanish_constant {n : ℕ} {x : Row} : Vanish (constant n x) ↔ ∀ i < n, x.w i = x.c i := by
  rw [constant, vanish_map]
  exact forall_congr' fun i => imp_congr_right fun _ => by rw [sub_eq_zero, eq_comm]

theorem vanish_publicInput {x : Row} : Vanish (publicInput x) ↔ ∀ i : Fin 4, x.w i = ofBase (x.h i) := by
  rw [publicInput, vanish_ofFn]
  simp only [sub_eq_zero]

theorem vanish_baseSum {n B : ℕ} {x : Row} : Vanish (baseSum n B x) ↔
    x.w 0 = ∑ i ∈ Finset.range n, x.w (1 + i) * (B : QE) ^ i ∧ ∀ i < n, ∃ k < B, x.w (1 + i) = (k : QE) := by
  rw [baseSum, vanish_cons, vanish_map, sub_eq_zero, eq_comm]
  simp only [Finset.prod_eq_zero_iff, sub_eq_zero, Finset.mem_range]

theorem vanish_poseidonMds {x : Row} : Vanish (poseidonMds x) ↔
    ∀ i : Fin 12, x.a (2 * (12 + i)) = ∑ j : Fin 12, (mds i j : QA) * x.a (2 * j) := by
  rw [poseidonMds, vanish_flatMap]
  simp only [List.mem_ofFn, forall_exists_index, forall_apply_eq_imp_iff, vanish_coords, sub_eq_zero, mix]

/-! ## Bits -/

variable {R : Type} [CommRing R]

theorem bits_exist (b : ℕ) (β : ℕ → R) (h : ∀ i < b, β i = 0 ∨ β i = 1) :
    ∃ n < 2 ^ b, ∀ i < b, β i = if n.testBit i then 1 else 0 := by
  induction b generalizing β with
  | zero => exact ⟨0, by norm_num, fun i hi => absurd hi (by omega)⟩
  | succ b ih =>
    obtain ⟨n, hn, hb⟩ := ih (fun i => β (i + 1)) fun i hi => h (i + 1) (by omega)
    have key : ∀ c : ℕ, c < 2 → β 0 = (if c = 1 then 1 else 0) → ∃ n < 2 ^ (b + 1), ∀ i < b + 1,
        β i = if n.testBit i then 1 else 0 := by
      intro c hc h0
      refine ⟨2 * n + c, by rw [pow_succ]; omega, fun i hi => ?_⟩
      cases i with
      | zero =>
        rw [h0, Nat.testBit_zero]
        rcases (show c = 0 ∨ c = 1 by omega) with rfl | rfl <;> simp
      | succ i =>
        rw [hb i (by omega), Nat.testBit_add_one, show (2 * n + c) / 2 = n by omega]
    rcases h 0 (by omega) with h0 | h0
    · exact key 0 (by norm_num) (by simpa using h0)
    · exact key 1 (by norm_num) (by simpa using h0)

theorem sum_bits (b : ℕ) (n : ℕ) (hn : n < 2 ^ b) :
    ∑ i ∈ Finset.range b, (if n.testBit i then 1 else 0 : R) * 2 ^ i = (n : R) := by
  induction b generalizing n with
  | zero => obtain rfl : n = 0 := by simpa using hn
            simp
  | succ b ih =>
    rw [Finset.sum_range_succ', show (n : R) = ((2 * (n / 2) + n % 2 : ℕ) : R) by rw [Nat.div_add_mod],
      Nat.cast_add, Nat.cast_mul, ← ih (n / 2) (by rw [pow_succ] at hn; omega), Finset.mul_sum]
    congr 1
    · refine Finset.sum_congr rfl fun i _ => ?_
      rw [Nat.testBit_add_one, pow_succ]; push_cast; ring
    · rw [Nat.testBit_zero]
      rcases Nat.mod_two_eq_zero_or_one n with h | h <;> simp [h]

theorem bool_iff {a : QE} : a ^ 2 - a = 0 ↔ a = 0 ∨ a = 1 := by
  rw [show a ^ 2 - a = a * (a - 1) by ring, mul_eq_zero, sub_eq_zero]

/-! ## Exponentiation -/

theorem vanish_exponentiation {n e : ℕ} {x : Row} (hn : n ≠ 0)
    (he : e < 2 ^ n) (hb : ∀ i < n, x.w (1 + i) = if e.testBit i then 1 else 0) :
    Vanish (exponentiation n x) ↔
      (∀ i < n, x.w (2 + n + i) = x.w 0 ^ (e / 2 ^ (n - 1 - i))) ∧ x.w (1 + n) = x.w 0 ^ e := by
  have step : ∀ i < n, (x.w (n - i) * x.w 0 + (1 - x.w (n - i))) = x.w 0 ^ (e / 2 ^ (n - 1 - i) % 2) := by
    intro i hi
    have := hb (n - 1 - i) (by omega)
    rw [show 1 + (n - 1 - i) = n - i by omega, Nat.testBit_eq_decide_div_mod_eq] at this
    rw [this]
    rcases Nat.mod_two_eq_zero_or_one (e / 2 ^ (n - 1 - i)) with h | h <;> simp [h]
  have half : ∀ i, i + 1 < n → e / 2 ^ (n - 1 - (i + 1)) / 2 = e / 2 ^ (n - 1 - i) := by
    intro i hi
    rw [Nat.div_div_eq_div_mul, ← pow_succ, show n - 1 - (i + 1) + 1 = n - 1 - i by omega]
  have pw : ∀ m : ℕ, (x.w 0 ^ (m / 2)) ^ 2 * x.w 0 ^ (m % 2) = x.w 0 ^ m := by
    intro m
    rw [← pow_mul, ← pow_add]
    congr 1; omega
  rw [exponentiation, vanish_append, vanish_map, vanish_cons]
  simp only [vanish_nil, and_true, sub_eq_zero]
  have hlast : x.w 0 ^ (e / 2 ^ (n - 1 - (n - 1))) = x.w 0 ^ e := by simp
  have top : e / 2 ^ (n - 1 - 0) / 2 = 0 := by
    rw [Nat.div_div_eq_div_mul, ← pow_succ, show n - 1 - 0 + 1 = n by omega, Nat.div_eq_of_lt he]
  constructor
  · rintro ⟨h1, h2⟩
    have : ∀ i < n, x.w (2 + n + i) = x.w 0 ^ (e / 2 ^ (n - 1 - i)) := by
      intro i
      induction i with
      | zero =>
        intro hi
        rw [← h1 0 hi, step 0 hi, if_pos rfl, ← pw (e / 2 ^ (n - 1 - 0)), top, pow_zero, one_pow]
      | succ i ih =>
        intro hi
        rw [← h1 (i + 1) hi, step (i + 1) hi, if_neg (Nat.succ_ne_zero i), Nat.add_sub_cancel, ih (by omega),
          ← half i hi, pw]
    refine ⟨this, ?_⟩
    rw [h2, this (n - 1) (by omega), hlast]
  · rintro ⟨h1, h2⟩
    refine ⟨fun i hi => ?_, by rw [h2, h1 (n - 1) (by omega), hlast]⟩
    rw [step i hi, h1 i hi]
    cases i with
    | zero => rw [if_pos rfl, ← pw (e / 2 ^ (n - 1 - 0)), top, pow_zero, one_pow]
    | succ i => rw [if_neg (Nat.succ_ne_zero i), Nat.add_sub_cancel, h1 i (by omega), ← half i hi, pw]

/-! ## Random access -/

theorem vanish_randomAccess {b copies extra : ℕ} {x : Row} : Vanish (randomAccess b copies extra x) ↔
    (∀ k < copies, ∃ n : ℕ, n < 2 ^ b ∧ x.w ((2 + 2 ^ b) * k) = (n : QE) ∧
      x.w ((2 + 2 ^ b) * k + 1) = x.w ((2 + 2 ^ b) * k + 2 + n) ∧
      ∀ i < b, x.w ((2 + 2 ^ b) * copies + extra + k * b + i) = if n.testBit i then 1 else 0) ∧
    ∀ i < extra, x.w ((2 + 2 ^ b) * copies + i) = x.c i := by
  rw [randomAccess, vanish_append, vanish_rangeFlatMap, vanish_map]
  simp only [vanish_append, vanish_map, vanish_cons, bool_iff, vanish_nil, and_true]
  simp only [sub_eq_zero]
  refine and_congr (forall_congr' fun k => imp_congr_right fun hk => ?_)
    (forall_congr' fun i => imp_congr_right fun _ => eq_comm)
  constructor
  · rintro ⟨h1, h2, h3⟩
    obtain ⟨n, hn, hb⟩ := bits_exist b (fun i => x.w (raBit b copies extra k i)) h1
    refine ⟨n, hn, ?_, ?_, hb⟩
    · rw [← h2, ← sum_bits b n hn]
      exact Finset.sum_congr rfl fun i hi => by rw [hb i (Finset.mem_range.1 hi)]
    · rw [← h3, multilinear_bits b _ _ n hn hb]
  · rintro ⟨n, hn, h1, h2, hb⟩
    refine ⟨fun i hi => ?_, ?_, ?_⟩
    · rw [raBit, hb i hi]
      cases n.testBit i <;> simp
    · rw [h1, ← sum_bits b n hn]
      exact Finset.sum_congr rfl fun i hi => by rw [raBit, hb i (Finset.mem_range.1 hi)]
    · rw [h2]
      exact multilinear_bits b _ (fun i => x.w (raBit b copies extra k i)) n hn hb

/-! ## Reducing -/

theorem horner {n m : ℕ} {x : Row} (co : ℕ → QA) :
    (∀ i < n, prevAcc n m x i * x.a 2 + co i = acc n m x i) ↔
      ∀ i < n, acc n m x i = x.a 4 * x.a 2 ^ (i + 1) + ∑ j ∈ Finset.range (i + 1), co j * x.a 2 ^ (i - j) := by
  have step : ∀ i, (x.a 4 * x.a 2 ^ (i + 1) + ∑ j ∈ Finset.range (i + 1), co j * x.a 2 ^ (i - j)) * x.a 2 + co (i + 1) =
      x.a 4 * x.a 2 ^ (i + 1 + 1) + ∑ j ∈ Finset.range (i + 1 + 1), co j * x.a 2 ^ (i + 1 - j) := by
    intro i
    rw [Finset.sum_range_succ _ (i + 1), Nat.sub_self, pow_zero, mul_one, add_mul, Finset.sum_mul, pow_succ _ (i + 1),
      ← mul_assoc, ← add_assoc]
    refine congrArg (· + _) (congrArg (_ + ·) (Finset.sum_congr rfl fun j hj => ?_))
    rw [Finset.mem_range] at hj
    rw [mul_assoc, ← pow_succ, show i - j + 1 = i + 1 - j by omega]
  constructor
  · intro h i
    induction i with
    | zero => intro hi; rw [← h 0 hi, prevAcc, if_pos rfl]; simp
    | succ i ih =>
      intro hi
      rw [← h (i + 1) hi, prevAcc, if_neg (Nat.succ_ne_zero i), Nat.add_sub_cancel, ih (by omega), step]
  · intro h i hi
    rw [h i hi, prevAcc]
    cases i with
    | zero => rw [if_pos rfl]; simp
    | succ i => rw [if_neg (Nat.succ_ne_zero i), Nat.add_sub_cancel, h i (by omega), step]

theorem vanish_reducing {n : ℕ} {x : Row} : Vanish (reducing n x) ↔
    ∀ i < n, acc n n x i = x.a 4 * x.a 2 ^ (i + 1) +
      ∑ j ∈ Finset.range (i + 1), ofExt (x.w (6 + j)) * x.a 2 ^ (i - j) := by
  rw [reducing, vanish_rangeFlatMap, ← horner]
  simp only [vanish_coords, sub_eq_zero]

theorem vanish_reducingExtension {n : ℕ} {x : Row} : Vanish (reducingExtension n x) ↔
    ∀ i < n, acc n (2 * n) x i = x.a 4 * x.a 2 ^ (i + 1) +
      ∑ j ∈ Finset.range (i + 1), x.a (6 + 2 * j) * x.a 2 ^ (i - j) := by
  rw [reducingExtension, vanish_rangeFlatMap, ← horner]
  simp only [vanish_coords, sub_eq_zero]

/-! ## Poseidon -/

namespace Poseidon

theorem stateAt_poseidon (s : Fin 12 → QE) : stateAt s 30 = Spec.poseidon s := by
  have h : ∀ n ≤ 22, stateAt s (4 + n) = (List.range' 4 n).foldl partialRound (stateAt s 4) := by
    intro n
    induction n with
    | zero => intro; rfl
    | succ n ih =>
      intro hn
      rw [List.range'_concat, List.foldl_append, ← ih (by omega), Nat.one_mul]
      show stateAt s (4 + n + 1) = _
      rw [stateAt, if_pos (by omega)]
      rfl
  have h4 : stateAt s 4 = [0, 1, 2, 3].foldl fullRound s := by simp [stateAt]
  have h26 : stateAt s 26 = (List.range' 4 22).foldl partialRound (stateAt s 4) := h 22 le_rfl
  have h30 : stateAt s 30 = [26, 27, 28, 29].foldl fullRound (stateAt s 26) := by
    rw [stateAt, if_neg (by omega), stateAt, if_neg (by omega), stateAt, if_neg (by omega), stateAt, if_neg (by omega)]
    rfl
  rw [h30, h26, h4]
  rfl

theorem wired_eq {x : Row} {n : ℕ} (h : ∀ r, 1 ≤ r → r < n → Stored x r) : ∀ r ≤ n, wired x r = stateAt (input x) r := by
  intro r
  induction r with
  | zero => intro; rfl
  | succ r ih =>
    intro hr
    have e := ih (by omega)
    rw [wired, stateAt, e]
    by_cases h0 : r = 0
    · subst h0; rfl
    have hs := h r (by omega) (by omega)
    by_cases hp : 4 ≤ r ∧ r < 26
    · rw [if_pos hp, partialRound]
      refine congrArg mix (funext fun i => ?_)
      rw [if_neg h0]
      by_cases hi : i = 0
      · rw [if_neg (by tauto), if_pos hi, hs i (fun _ => hi)]
      · rw [if_pos ⟨hp.1, hp.2, hi⟩, if_neg hi]
    · rw [if_neg hp, fullRound]
      refine congrArg mix (funext fun i => ?_)
      rw [if_neg h0, if_neg (by tauto), hs i (fun h => absurd h hp)]

theorem vanish_iff {x : Row} : Vanish (poseidon x) ↔
    (x.w 24 = 0 ∨ x.w 24 = 1) ∧ (∀ i : Fin 4, x.w (25 + i) = x.w 24 * (x.w (i + 4) - x.w i)) ∧
    (∀ r, 1 ≤ r → r < 30 → Stored x r) ∧ ∀ i : Fin 12, x.w (12 + i) = Spec.poseidon (input x) i := by
  have hd : Vanish (poseidon x) ↔ (x.w 24 = 0 ∨ x.w 24 = 1) ∧
      (∀ i : Fin 4, x.w (25 + i) = x.w 24 * (x.w (i + 4) - x.w i)) ∧
      (∀ r, 1 ≤ r → r < 30 → ∀ i : Fin 12, (4 ≤ r ∧ r < 26 → i = 0) → diff x r i = 0) ∧
      ∀ i : Fin 12, wired x 30 i = x.w (12 + i) := by
    simp only [poseidon, vanish_append, vanish_cons, vanish_flatMap, vanish_ofFn, vanish_map, sub_eq_zero, mul_eq_zero,
      List.mem_cons, List.not_mem_nil, or_false]
    constructor
    · rintro ⟨⟨⟨⟨⟨h1, h2⟩, h3⟩, h4⟩, h5⟩, h6⟩
      refine ⟨h1, fun i => (h2 i).symm, fun r hr1 hr2 i hi => ?_, h6⟩
      by_cases ha : r < 4
      · exact h3 r (by omega) i
      by_cases hb : r < 26
      · have := h4 (r - 4) (by omega)
        rw [show 4 + (r - 4) = r by omega] at this
        rw [hi (by omega)]; exact this
      · exact h5 r (by omega) i
    · rintro ⟨h1, h2, h3, h4⟩
      refine ⟨⟨⟨⟨⟨h1, fun i => (h2 i).symm⟩, fun r hr i => h3 r (by omega) (by omega) i (by omega)⟩,
        fun r hr => h3 (4 + r) (by omega) (by omega) 0 (fun _ => rfl)⟩,
        fun r hr i => h3 r (by omega) (by omega) i (by omega)⟩, h4⟩
  rw [hd]
  refine and_congr_right fun _ => and_congr_right fun _ => ?_
  constructor
  · rintro ⟨h1, h2⟩
    have hS : ∀ r, 1 ≤ r → r < 30 → Stored x r := by
      intro r
      induction r using Nat.strong_induction_on with
      | _ r ih =>
        intro hr1 hr2 i hi
        have := h1 r hr1 hr2 i hi
        rw [diff, sub_eq_zero, wired_eq (n := r) (fun r' h h' => ih r' h' h (by omega)) r le_rfl] at this
        exact this.symm
    refine ⟨hS, fun i => ?_⟩
    rw [← h2 i, wired_eq hS 30 le_rfl, stateAt_poseidon]
  · rintro ⟨hS, h2⟩
    refine ⟨fun r hr1 hr2 i hi => ?_, fun i => ?_⟩
    · rw [diff, wired_eq hS r (by omega), hS r hr1 hr2 i hi, sub_self]
    · rw [h2 i, wired_eq hS 30 le_rfl, stateAt_poseidon]

end Poseidon

end Verif.Spec.Gates
