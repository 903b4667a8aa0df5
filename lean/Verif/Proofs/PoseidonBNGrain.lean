import Verif.Spec.PoseidonBN
import Verif.Proofs.PoseidonBNTables
import Mathlib.Logic.Function.Iterate

/-!
# The round constants and the Cauchy points come out of the Grain LFSR

`grainCerts` lists, for every 254-bit word drawn, the register before the draw, the number of bit pairs consumed and the
value. Each entry is checked by kernel evaluation; the entries are then chained.
-/

set_option autoImplicit false

namespace Verif.PoseidonBN

open Spec.BN

/-- Consume `m` pairs of bits: register, number of bits output, value accumulated. -/
def run : ℕ → ℕ → ℕ → ℕ → ℕ × ℕ × ℕ
  | 0, s, cnt, acc => (s, cnt, acc)
  | m + 1, s, cnt, acc =>
    if newBit s = 1 then run m (step (step s)) (cnt + 1) (2 * acc + newBit (step s))
    else run m (step (step s)) cnt acc

theorem run_eq (m : ℕ) : ∀ s cnt acc, run m s cnt acc =
    (step^[2 * m] s, cnt + (shrink (raw (2 * m) s)).length,
      (shrink (raw (2 * m) s)).foldl (fun v b => 2 * v + b) acc) := by
  induction m with
  | zero => intro s cnt acc; rfl
  | succ m ih =>
    intro s cnt acc
    have e : 2 * (m + 1) = 2 * m + 1 + 1 := by omega
    rw [run, e]
    simp only [raw, shrink, Function.iterate_succ, Function.comp]
    split_ifs
    · rw [ih]; simp [Nat.add_assoc, Nat.add_comm]
    · rw [ih]

theorem raw_add (a b s : ℕ) : raw (a + b) s = raw a s ++ raw b (step^[a] s) := by
  induction a generalizing s with
  | zero => simp [raw]
  | succ a ih => rw [Nat.add_right_comm, raw, ih]; simp [raw]

theorem shrink_append (m s : ℕ) (l : List ℕ) :
    shrink (raw (2 * m) s ++ l) = shrink (raw (2 * m) s) ++ shrink l := by
  induction m generalizing s with
  | zero => simp [raw, shrink]
  | succ m ih =>
    have e : 2 * (m + 1) = 2 * m + 1 + 1 := by omega
    rw [e]
    simp only [raw, shrink, List.cons_append]
    split_ifs
    · rw [ih]; rfl
    · rw [ih]

/-- The entry is correct and is followed by register `t`. -/
def certOk (c : ℕ × ℕ × ℕ) (t : ℕ) : Bool := run c.2.1 c.1 0 0 = (t, 254, c.2.2)

/-- A list of consecutive correct entries from register `s` to register `t`. -/
inductive Chain : ℕ → List (ℕ × ℕ × ℕ) → ℕ → Prop
  | nil (s : ℕ) : Chain s [] s
  | cons (c : ℕ × ℕ × ℕ) (l : List (ℕ × ℕ × ℕ)) (t u : ℕ) :
      certOk c t = true → Chain t l u → Chain c.1 (c :: l) u

theorem Chain.words {s t : ℕ} {l : List (ℕ × ℕ × ℕ)} (h : Chain s l t) :
    ∃ m, ∃ L : List (List ℕ), shrink (raw (2 * m) s) = L.flatten ∧ L.map value = l.map (·.2.2) ∧
      (∀ w ∈ L, w.length = 254) := by
  induction h with
  | nil s => exact ⟨0, [], rfl, rfl, by simp⟩
  | cons c l t u hc _ ih =>
    obtain ⟨m, L, h1, h2, h3⟩ := ih
    have hc := of_decide_eq_true hc
    rw [run_eq] at hc
    simp only [Prod.mk.injEq] at hc
    obtain ⟨e1, e2, e3⟩ := hc
    refine ⟨c.2.1 + m, shrink (raw (2 * c.2.1) c.1) :: L, ?_, ?_, ?_⟩
    · rw [Nat.mul_add, raw_add, shrink_append, e1, h1]; rfl
    · rw [List.map_cons, List.map_cons, h2, value, e3]
    · intro w hw
      rcases List.mem_cons.1 hw with rfl | hw
      · omega
      · exact h3 w hw

theorem word_flatten (L : List (List ℕ)) (h : ∀ w ∈ L, w.length = 254) :
    (List.range L.length).map (word L.flatten) = L.map value := by
  induction L with
  | nil => rfl
  | cons w L ih =>
    have hw := h w (by simp)
    rw [List.length_cons, List.range_succ_eq_map, List.map_cons, List.map_map, List.map_cons,
      ← ih (fun w hw => h w (by simp [hw]))]
    refine congrArg₂ List.cons ?_ ?_
    · simp [word, ← hw]
    · refine List.map_congr_left fun i _ => ?_
      simp only [Function.comp, word]
      have e : 254 * i.succ = w.length + 254 * i := by rw [hw]; omega
      rw [e, List.flatten_cons, List.drop_length_add_append]

/-- First register of a list of entries, `t` if there is none. -/
def headReg (l : List (ℕ × ℕ × ℕ)) (t : ℕ) : ℕ := (l.map (·.1)).headD t

def chkList : List (ℕ × ℕ × ℕ) → ℕ → Bool
  | [], _ => true
  | c :: l, t => certOk c (headReg l t) && chkList l t

theorem chain_of_chk (l : List (ℕ × ℕ × ℕ)) (t : ℕ) (h : chkList l t = true) :
    Chain (headReg l t) l t := by
  induction l with
  | nil => exact .nil t
  | cons c l ih =>
    simp only [chkList, Bool.and_eq_true] at h
    exact .cons c l _ t h.1 (ih h.2)

theorem chkList_append (a b : List (ℕ × ℕ × ℕ)) (t : ℕ) (ha : chkList a (headReg b t) = true)
    (hb : chkList b t = true) : chkList (a ++ b) t = true := by
  induction a with
  | nil => exact hb
  | cons c a ih =>
    simp only [chkList, Bool.and_eq_true] at ha
    simp only [List.cons_append, chkList, Bool.and_eq_true]
    refine ⟨?_, ih ha.2⟩
    convert ha.1 using 1
    cases a <;> rfl

/-- `n` entries from index `i`. -/
def part (i n : ℕ) : List (ℕ × ℕ × ℕ) := (grainCerts.drop i).take n

set_option maxRecDepth 100000

theorem chk_0 :
    chkList (part 0 57) (headReg (grainCerts.drop 57) grainFinal) = true := by decide +kernel

theorem chk_1 :
    chkList (part 57 57) (headReg (grainCerts.drop 114) grainFinal) = true := by decide +kernel

theorem chk_2 :
    chkList (part 114 57) (headReg (grainCerts.drop 171) grainFinal) = true := by decide +kernel

theorem chk_3 :
    chkList (part 171 57) (headReg (grainCerts.drop 228) grainFinal) = true := by decide +kernel

theorem chk_4 :
    chkList (part 228 57) (headReg (grainCerts.drop 285) grainFinal) = true := by decide +kernel

theorem chk_5 :
    chkList (part 285 57) (headReg (grainCerts.drop 342) grainFinal) = true := by decide +kernel

theorem chk_drop (i n : ℕ)
    (h : chkList (part i n) (headReg (grainCerts.drop (i + n)) grainFinal) = true)
    (h' : chkList (grainCerts.drop (i + n)) grainFinal = true) :
    chkList (grainCerts.drop i) grainFinal = true := by
  rw [← List.take_append_drop n (grainCerts.drop i), List.drop_drop]
  exact chkList_append _ _ _ h h'

theorem grain_chain : Chain (headReg grainCerts grainFinal) grainCerts grainFinal := by
  refine chain_of_chk _ _ ?_
  refine chk_drop 0 57 chk_0 (chk_drop 57 57 chk_1 (chk_drop 114 57 chk_2 (chk_drop 171 57 chk_3
    (chk_drop 228 57 chk_4 (chk_drop 285 57 chk_5 ?_)))))
  decide +kernel

theorem grain_start : headReg grainCerts grainFinal = warmRegister := by decide +kernel

theorem grain_length : grainCerts.length = 342 := by decide +kernel

theorem grain_rc : ((grainCerts.take 334).map (·.2.2)).filter (· < Verif.r) = roundConstants := by
  decide +kernel

theorem grain_last : (((grainCerts.drop 333).take 1).map (·.2.2)).all (· < Verif.r) = true := by
  decide +kernel

theorem grain_xy : ((grainCerts.drop 334).map fun c => c.2.2 % Verif.r) = xs ++ ys := by
  decide +kernel

/-- The words drawn. -/
theorem grain_words : ∃ n, (shrink (raw n warmRegister)).length = 254 * 342 ∧
    (List.range 342).map (word (shrink (raw n warmRegister))) = grainCerts.map (·.2.2) := by
  obtain ⟨m, L, h1, h2, h3⟩ := grain_chain.words
  have hl : L.length = 342 := by rw [← grain_length, ← List.length_map (f := value), h2, List.length_map]
  rw [grain_start] at h1
  refine ⟨2 * m, ?_, ?_⟩
  · rw [h1, List.length_flatten, List.map_congr_left (g := fun _ => 254) h3]
    simp [hl]
  · rw [h1, ← h2, ← word_flatten L h3, hl]

end Verif.PoseidonBN
