import Verif.Model.Gnark
import Verif.Proofs.Base

/-!
# Bit decomposition: lemmas
-/

set_option autoImplicit false

namespace Verif

open Circ

def IsBit (b : Fr) : Prop := b = 0 ∨ b = 1

instance (b : Fr) : Decidable (IsBit b) := inferInstanceAs (Decidable (_ ∨ _))

theorem den_assertBool (b : Fr) : den (assertBool b) = Den.guard (IsBit b) := by
  rw [assertBool, den_require]
  by_cases h : b = 0 ∨ b = 1
  · rw [Den.guard_true (by simpa using h), Den.guard_true (show IsBit b from h)]; simp
  · rw [Den.guard_false (by simpa using h), Den.guard_false (show ¬ IsBit b from h)]; simp

theorem den_forM_assertBool (l : List Fr) :
    den (l.forM assertBool) = Den.guard (∀ b ∈ l, IsBit b) := by
  induction l with
  | nil => rw [Den.guard_true (by simp)]; exact den_pure ()
  | cons b l ih =>
    rw [List.forM, den_bind, ih, den_assertBool, Den.guard_bind_guard]
    exact Den.guard_congr (by simp)

theorem fromBinary_eq (l : List Fr) (h : ∀ b ∈ l, IsBit b) : fromBinary l = (natOfBits l : Fr) := by
  induction l with
  | nil => simp [fromBinary, natOfBits]
  | cons b l ih =>
    rw [fromBinary, natOfBits, ih fun b hb => h b (by simp [hb])]
    rcases h b (by simp) with rfl | rfl <;> simp

theorem natOfBits_lt (l : List Fr) : natOfBits l < 2 ^ l.length := by
  induction l with
  | nil => simp [natOfBits]
  | cons b l ih => rw [natOfBits, List.length_cons, pow_succ]; split_ifs <;> omega

theorem bitsLE_zero (v : ℕ) : bitsLE 0 v = [] := rfl

theorem bitsLE_succ (n v : ℕ) : bitsLE (n + 1) v = (if v.testBit 0 then 1 else 0) :: bitsLE n (v / 2) := by
  simp [bitsLE, List.range_succ_eq_map, Function.comp_def, Nat.testBit_succ]

@[simp] theorem bitsLE_length (n v : ℕ) : (bitsLE n v).length = n := by simp [bitsLE]

theorem bitsLE_isBit (n v : ℕ) : ∀ b ∈ bitsLE n v, IsBit b := by
  intro b hb
  simp only [bitsLE, List.mem_map] at hb
  obtain ⟨i, _, rfl⟩ := hb
  split_ifs <;> simp [IsBit]

theorem bitsLE_natOfBits (l : List Fr) (h : ∀ b ∈ l, IsBit b) : bitsLE l.length (natOfBits l) = l := by
  induction l with
  | nil => rfl
  | cons b l ih =>
    rw [List.length_cons, bitsLE_succ, natOfBits]
    have ih := ih fun b hb => h b (by simp [hb])
    rcases h b (by simp) with rfl | rfl
    · simp [ih]
    · have : (1 + 2 * natOfBits l) / 2 = natOfBits l := by omega
      simp [this, ih]

theorem natOfBits_bitsLE (n v : ℕ) : natOfBits (bitsLE n v) = v % 2 ^ n := by
  induction n generalizing v with
  | zero => simp [bitsLE_zero, natOfBits, Nat.mod_one]
  | succ n ih =>
    rw [bitsLE_succ, natOfBits, ih, Nat.testBit_zero, pow_succ', Nat.mod_mul]
    rcases Nat.mod_two_eq_zero_or_one v with h | h <;> simp [h]

theorem fromBinary_bitsLE (n v : ℕ) : fromBinary (bitsLE n v) = ((v % 2 ^ n : ℕ) : Fr) := by
  rw [fromBinary_eq _ (bitsLE_isBit n v), natOfBits_bitsLE]

theorem bitsLE_drop (n v i : ℕ) : (bitsLE n v).drop i = bitsLE (n - i) (v / 2 ^ i) := by
  induction i generalizing n v with
  | zero => simp
  | succ i ih =>
    cases n with
    | zero => simp [bitsLE_zero]
    | succ n =>
      rw [bitsLE_succ, List.drop_succ_cons, ih, Nat.add_sub_add_right, Nat.div_div_eq_div_mul, pow_succ']

theorem bitsLE_take (n v i : ℕ) : (bitsLE n v).take i = bitsLE (min i n) v := by
  simp [bitsLE, ← List.map_take, List.take_range]

theorem two_pow_lt_r {n : ℕ} (h : n < 254) : 2 ^ n < r :=
  lt_of_le_of_lt (Nat.pow_le_pow_right (by norm_num) (by omega : n ≤ 253)) (by norm_num [r])

theorem r_lt_two_pow : r < 2 ^ 254 := by norm_num [r]

theorem ofFn_bits (n v : ℕ) :
    List.ofFn (fun i : Fin n => if v.testBit i then (1 : Fr) else 0) = bitsLE n v := by
  rw [bitsLE, List.ofFn_eq_map, ← List.map_coe_finRange_eq_range, List.map_map]; rfl

/-- A hint followed by constraints `Q` on it that admit exactly the value `y`, when `C` holds. -/
theorem den_hint_guard {α : Type} {n : ℕ} {h0 : Fin n → Fr} {k : (Fin n → Fr) → Circ α}
    {Q : (Fin n → Fr) → Prop} [DecidablePred Q] {g : (Fin n → Fr) → α} {C : Prop} [Decidable C] {y : α}
    (hk : ∀ v, den (k v) = Den.guard (Q v) >>= fun _ => pure (g v))
    (h1 : ∀ v, Q v → C ∧ g v = y) (h2 : C → Q h0) :
    den (newHint n (some h0) >>= k) = if C then pure y else Den.fail := by
  rw [den_bind]
  simp only [hk]
  ext z
  · simp only [Den.bind_def, den, sat_newHint, Den.pure_def, true_and]
    constructor
    · rintro ⟨b, u, hu, rfl⟩
      by_cases hq : Q b
      · rw [if_pos (h1 b hq).1, (h1 b hq).2]
      · rw [Den.guard_false hq] at hu; exact hu.elim
    · intro hz
      by_cases hc : C
      · rw [if_pos hc] at hz
        refine ⟨h0, (), ?_, ?_⟩
        · rw [Den.guard_true (h2 hc)]; rfl
        · rw [(h1 _ (h2 hc)).2]; exact hz
      · rw [if_neg hc] at hz; exact hz.elim
  · simp only [Den.bind_def, den, honest_newHint, Den.pure_def, Option.bind_some]
    by_cases hc : C
    · rw [if_pos hc, Den.guard_true (h2 hc), (h1 _ (h2 hc)).2]; rfl
    · rw [if_neg hc, Den.guard_false fun hq => hc (h1 _ hq).1]; rfl

/-- The constraints of `ToBinary`. -/
def BitsOk (n : ℕ) (x : Fr) (l : List Fr) : Prop :=
  (∀ b ∈ l, IsBit b) ∧ fromBinary l = x ∧ (254 ≤ n → natOfBits l < r)

noncomputable instance (n : ℕ) (x : Fr) (l : List Fr) : Decidable (BitsOk n x l) := Classical.dec _

theorem den_assertBits (n : ℕ) (x : Fr) (l : List Fr) :
    den (assertBits n x l) = Den.guard (BitsOk n x l) := by
  have h3 : den (if 254 ≤ n then Circ.require (decide (natOfBits l < r)) (.ret ()) else pure ()) =
      Den.guard (254 ≤ n → natOfBits l < r) := by
    split_ifs with h
    · rw [den_require, den_ret]
      by_cases h' : natOfBits l < r
      · rw [Den.guard_true (by simpa using h'), Den.guard_true (fun _ => h'), pure_bind]
      · rw [Den.guard_false (by simpa using h'), Den.guard_false (fun g => h' (g h)), Den.fail_bind]
    · rw [den_pure, Den.guard_true (by simp [h])]
  rw [assertBits, den_bind, den_forM_assertBool, den_bind, den_assertEq, h3, Den.guard_bind_guard,
    Den.guard_bind_guard]
  exact Den.guard_congr Iff.rfl

/-- `ToBinary` is exact. -/
theorem den_toBinary (n : ℕ) (x : Fr) :
    den (toBinary n x) = if x.val < 2 ^ n then pure (bitsLE n x.val) else Den.fail := by
  have key : ∀ l : List Fr, l.length = n → (∀ b ∈ l, IsBit b) → fromBinary l = x →
      (254 ≤ n → natOfBits l < r) → x.val < 2 ^ n ∧ l = bitsLE n x.val := by
    intro l hl hb hx hr
    have hlt : natOfBits l < r := by
      rcases Nat.lt_or_ge n 254 with h | h
      · exact (natOfBits_lt l).trans (hl ▸ two_pow_lt_r h)
      · exact hr h
    have hv : x.val = natOfBits l := by
      rw [← hx, fromBinary_eq l hb, ZMod.val_natCast, Nat.mod_eq_of_lt hlt]
    exact ⟨hv ▸ hl ▸ natOfBits_lt l, by rw [hv, ← hl, bitsLE_natOfBits l hb]⟩
  rw [toBinary]
  refine den_hint_guard (Q := fun b => BitsOk n x (List.ofFn b)) (g := fun b => List.ofFn b)
    (fun b => ?_) (fun b hb => ?_) (fun hx => ?_)
  · rw [den_bind, den_assertBits, den_pure]
  · exact key _ (by simp) hb.1 hb.2.1 hb.2.2
  · rw [ofFn_bits]
    refine ⟨bitsLE_isBit _ _, ?_, fun _ => ?_⟩
    · rw [fromBinary_bitsLE, Nat.mod_eq_of_lt hx, ZMod.natCast_zmod_val]
    · rw [natOfBits_bitsLE, Nat.mod_eq_of_lt hx]; exact ZMod.val_lt x

end Verif
