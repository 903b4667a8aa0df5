import Verif.Model.RangeCheckUtils
import Verif.Proofs.Base
import Mathlib.Tactic.IntervalCases

/-! # Proofs about the range-checker utilities and backends -/

set_option autoImplicit false

namespace Verif

open Circ

/-- `w` is the least minimiser of `f` over `2 ≤ j < 2 + k`. -/
def LeastMin (f : ℕ → ℕ) (k w : ℕ) : Prop :=
  2 ≤ w ∧ w < 2 + k ∧ (∀ j, 2 ≤ j → j < 2 + k → f w ≤ f j) ∧ ∀ j, 2 ≤ j → j < w → f w < f j

theorem optimal_loop (f : ℕ → ℕ) (k : ℕ) :
    let st := (List.range' 2 k).foldl (fun (st : ℕ × ℕ) j =>
      if f j < st.1 then (f j, j) else st) (maxInt64, 0)
    ((∀ j, 2 ≤ j → j < 2 + k → maxInt64 ≤ f j) ∧ st = (maxInt64, 0)) ∨
    (st.1 = f st.2 ∧ f st.2 < maxInt64 ∧ LeastMin f k st.2) := by
  induction k with
  | zero => left; simp; intros; omega
  | succ k ih =>
    rw [List.range'_concat, List.foldl_append]
    simp only [Nat.one_mul, List.foldl_cons, List.foldl_nil] at ih ⊢
    rcases ih with ⟨h1, h2⟩ | ⟨h1, h2, h3, h4, h5, h6⟩
    · rw [h2]
      split
      · rename_i hlt
        right
        refine ⟨rfl, hlt, by simp, by simp, ?_, ?_⟩
        · intro j hj hj'
          rcases Nat.lt_or_ge j (2 + k) with h | h
          · exact (hlt.trans_le (h1 j hj h)).le
          · have : j = 2 + k := by omega
            subst this; exact le_rfl
        · intro j hj hj'
          exact hlt.trans_le (h1 j hj hj')
      · rename_i hlt
        left
        refine ⟨?_, rfl⟩
        intro j hj hj'
        rcases Nat.lt_or_ge j (2 + k) with h | h
        · exact h1 j hj h
        · have : j = 2 + k := by omega
          subst this; simpa using hlt
    · generalize hst : (List.range' 2 k).foldl _ _ = st at *
      right
      split
      · rename_i hlt
        refine ⟨rfl, by simp only; omega, by simp, by simp, ?_, ?_⟩
        · intro j hj hj'
          rcases Nat.lt_or_ge j (2 + k) with h | h
          · have := h5 j hj h; simp only; omega
          · have : j = 2 + k := by omega
            subst this; exact le_rfl
        · intro j hj hj'
          have := h5 j hj hj'; simp only; omega
      · rename_i hlt
        refine ⟨h1, h2, h3, by omega, ?_, h6⟩
        intro j hj hj'
        rcases Nat.lt_or_ge j (2 + k) with h | h
        · exact h5 j hj h
        · have : j = 2 + k := by omega
          subst this; omega

theorem LeastMin.unique {f : ℕ → ℕ} {k w w' : ℕ} (h : LeastMin f k w) (h' : LeastMin f k w') :
    w = w' := by
  obtain ⟨a, b, c, d⟩ := h
  obtain ⟨a', b', c', d'⟩ := h'
  rcases Nat.lt_trichotomy w w' with hl | hl | hl
  · have := d' w a hl; have := c w' a' b'; omega
  · exact hl
  · have := d w' a' hl; have := c' w a b; omega

theorem optimalWidth_spec (cost : ℕ → List ℕ → ℕ) (l : List ℕ)
    (h : ∃ j, 2 ≤ j ∧ j < 18 ∧ cost j l < maxInt64) :
    LeastMin (fun j => cost j l) 16 (optimalWidth cost l) := by
  obtain ⟨j, h1, h2, h3⟩ := h
  rcases optimal_loop (fun j => cost j l) 16 with ⟨ha, _⟩ | ⟨_, _, hc⟩
  · have := ha j h1 h2; omega
  · exact hc

theorem optimalWidth_eq_zero (cost : ℕ → List ℕ → ℕ) (l : List ℕ)
    (h : ∀ j, 2 ≤ j → j < 18 → maxInt64 ≤ cost j l) : optimalWidth cost l = 0 := by
  rcases optimal_loop (fun j => cost j l) 16 with ⟨_, hb⟩ | ⟨ha, hb, hc⟩
  · unfold optimalWidth; simp only [hb]
  · have := h _ hc.1 hc.2.1
    omega

/-- Total number of limbs. -/
def limbCount (j : ℕ) (l : List ℕ) : ℕ := (l.map (fun b => decompSize b j)).sum

theorem foldl_limbs (j : ℕ) (l : List ℕ) (a : ℕ) :
    l.foldl (fun acc b => acc + decompSize b j) a = a + limbCount j l := by
  induction l generalizing a with
  | nil => simp [limbCount]
  | cons b l ih => rw [List.foldl_cons, ih]; simp [limbCount]; omega

theorem nbR1CS_eq (j : ℕ) (l : List ℕ) :
    nbR1CSConstraints j l = 2 ^ j + limbCount j l + l.length + 1 := by
  simp [nbR1CSConstraints, foldl_limbs, Nat.shiftLeft_eq]

theorem nbPLONK_eq (j : ℕ) (l : List ℕ) :
    nbPLONKConstraints j l = 3 * 2 ^ j + 4 * limbCount j l + 1 := by
  simp [nbPLONKConstraints, foldl_limbs, Nat.shiftLeft_eq]; ring

theorem limbCount_16_17 {l : List ℕ} (h : ∀ b ∈ l, b % 16 = 0 ∧ b ≤ 256) :
    limbCount 16 l = limbCount 17 l := by
  unfold limbCount
  congr 1
  apply List.map_congr_left
  intro b hb
  obtain ⟨h1, h2⟩ := h b hb
  unfold decompSize
  obtain ⟨m, rfl⟩ : ∃ m, b = 16 * m := ⟨b / 16, by omega⟩
  omega

theorem limbCount_16_le {l : List ℕ} (h : ∀ b ∈ l, b ≤ 256) :
    limbCount 16 l ≤ 16 * l.length := by
  induction l with
  | nil => simp [limbCount]
  | cons b l ih =>
    have h1 := ih (fun b hb => h b (List.mem_cons_of_mem _ hb))
    have h2 := h b List.mem_cons_self
    simp only [limbCount, List.map_cons, List.sum_cons, List.length_cons] at *
    have : decompSize b 16 ≤ 16 := by unfold decompSize; omega
    omega

theorem r1cs16_imp_plonk16 {l : List ℕ} (h : ∀ b ∈ l, b % 16 = 0 ∧ b ≤ 256) (hl : l.length ≤ 2 ^ 50)
    (h16 : optimalWidth nbR1CSConstraints l = 16) : optimalWidth nbPLONKConstraints l = 16 := by
  have hle := limbCount_16_le (fun b hb => (h b hb).2)
  have hm : maxInt64 = 2 ^ 63 - 1 := rfl
  have h1 := optimalWidth_spec nbR1CSConstraints l ⟨16, by norm_num, by norm_num, by
    rw [nbR1CS_eq, hm]; omega⟩
  rw [h16] at h1
  obtain ⟨_, _, _, hs⟩ := h1
  have h2 := optimalWidth_spec nbPLONKConstraints l ⟨16, by norm_num, by norm_num, by
    rw [nbPLONK_eq, hm]; omega⟩
  refine h2.unique ⟨by norm_num, by norm_num, ?_, ?_⟩
  · intro j hj hj'
    rcases Nat.lt_trichotomy j 16 with hlt | rfl | hgt
    · have := hs j hj hlt
      simp only [nbR1CS_eq, nbPLONK_eq] at this ⊢
      have : 2 ^ j ≤ 2 ^ 16 := Nat.pow_le_pow_right (by norm_num) (by omega)
      omega
    · exact le_rfl
    · have : j = 17 := by omega
      subst this
      simp only [nbPLONK_eq]
      rw [limbCount_16_17 h]
      omega
  · intro j hj hj'
    have := hs j hj hj'
    simp only [nbR1CS_eq, nbPLONK_eq] at this ⊢
    have : 2 ^ j ≤ 2 ^ 16 := Nat.pow_le_pow_right (by norm_num) (by omega)
    omega

theorem gnarkBasewidth_of_ok {l : List ℕ} (ft : FrontendType) (hb : ∀ b ∈ l, b ≤ 256)
    (hl : l.length ≤ 2 ^ 50) (h : checkCollectedOk l = true) :
    gnarkBasewidth ft l = 16 ∧ ∀ b ∈ l, b % 16 = 0 := by
  simp only [checkCollectedOk, getOptimalBasewidth, EXPECTED_OPTIMAL_BASEWIDTH, Bool.and_eq_true,
    List.all_eq_true, beq_iff_eq] at h
  obtain ⟨h1, h2⟩ := h
  have h1 := of_decide_eq_true h1
  rw [h1] at h2
  refine ⟨?_, h2⟩
  cases ft with
  | R1CS => exact h1
  | SCS => exact r1cs16_imp_plonk16 (fun b hb' => ⟨h2 b hb', hb b hb'⟩) hl h1

theorem commit_accepts_iff (ft : FrontendType) (log : List (Fr × ℕ)) (hb : ∀ e ∈ log, e.2 ≤ 256)
    (hl : log.length ≤ 2 ^ 50) :
    (Backend.commit ft).accepts log ↔
      checkCollectedOk (log.map Prod.snd) = true ∧ ∀ e ∈ log, e.1.val < 2 ^ e.2 := by
  unfold Backend.accepts
  constructor
  · rintro ⟨h1, h2⟩
    obtain ⟨h3, h4⟩ := gnarkBasewidth_of_ok ft (by simpa using fun x y h => hb (y, x) h) (by simpa) h1
    refine ⟨h1, fun e he => ?_⟩
    have := h2 e he
    have h5 := h4 e.2 (List.mem_map_of_mem he)
    rw [h3] at this
    have : 16 * decompSize e.2 16 = e.2 := by unfold decompSize; omega
    simp_all
  · rintro ⟨h1, h2⟩
    obtain ⟨h3, h4⟩ := gnarkBasewidth_of_ok ft (by simpa using fun x y h => hb (y, x) h) (by simpa) h1
    refine ⟨h1, fun e he => ?_⟩
    have := h2 e he
    have h5 := h4 e.2 (List.mem_map_of_mem he)
    have : 16 * decompSize e.2 16 = e.2 := by unfold decompSize; omega
    rw [h3, this]; exact h2 e he

theorem limbCount_lt {l : List ℕ} {j : ℕ} (h : ∀ b ∈ l, b % 16 = 0 ∧ 0 < b ∧ b ≤ 256) (hj : 2 ≤ j)
    (hj' : j < 16) : limbCount 16 l + l.length ≤ limbCount j l := by
  induction l with
  | nil => simp [limbCount]
  | cons b l ih =>
    have h1 := ih (fun b hb => h b (List.mem_cons_of_mem _ hb))
    obtain ⟨h2, h3, h4⟩ := h b List.mem_cons_self
    simp only [limbCount, List.map_cons, List.sum_cons, List.length_cons] at *
    have : decompSize b 16 + 1 ≤ decompSize b j := by
      unfold decompSize
      obtain ⟨m, rfl⟩ : ∃ m, b = 16 * m := ⟨b / 16, by omega⟩
      interval_cases j <;> omega
    omega

theorem checkCollectedOk_of_many {l : List ℕ} (h : ∀ b ∈ l, b % 16 = 0 ∧ 0 < b ∧ b ≤ 256)
    (h1 : 65536 ≤ l.length) (h2 : l.length ≤ 2 ^ 50) : checkCollectedOk l = true := by
  have hle := limbCount_16_le (fun b hb => (h b hb).2.2)
  have hm : maxInt64 = 2 ^ 63 - 1 := rfl
  have h16 : optimalWidth nbR1CSConstraints l = 16 := by
    have hspec := optimalWidth_spec nbR1CSConstraints l ⟨16, by norm_num, by norm_num, by
      rw [nbR1CS_eq, hm]; omega⟩
    refine hspec.unique ⟨by norm_num, by norm_num, ?_, ?_⟩
    · intro j hj hj'
      rcases Nat.lt_trichotomy j 16 with hlt | rfl | hgt
      · have := limbCount_lt h hj hlt
        simp only [nbR1CS_eq]
        have : 0 < 2 ^ j := by positivity
        omega
      · exact le_rfl
      · have : j = 17 := by omega
        subst this
        simp only [nbR1CS_eq]
        rw [limbCount_16_17 (fun b hb => ⟨(h b hb).1, (h b hb).2.2⟩)]
        omega
    · intro j hj hj'
      have := limbCount_lt h hj hj'
      simp only [nbR1CS_eq]
      have : 0 < 2 ^ j := by positivity
      omega
  unfold checkCollectedOk getOptimalBasewidth EXPECTED_OPTIMAL_BASEWIDTH
  simp only [h16, decide_true, Bool.true_and, List.all_eq_true, beq_iff_eq]
  exact fun b hb => (h b hb).1

theorem satWith_bitDecomp {α : Type} (c : Circ α) (y : α) : SatWith .bitDecomp c y ↔ Sat c y := by
  rw [sat_iff_out]; rfl

theorem sat_of_satWith_commit {α : Type} {ft : FrontendType} {c : Circ α} {y : α}
    (hb : ∀ y log, Out c y log → (∀ e ∈ log, e.2 ≤ 256) ∧ log.length ≤ 2 ^ 50)
    (h : SatWith (.commit ft) c y) : Sat c y := by
  obtain ⟨log, h1, h2⟩ := h
  rw [sat_iff_out]
  exact ⟨log, h1, ((commit_accepts_iff ft log (hb _ _ h1).1 (hb _ _ h1).2).1 h2).2⟩

end Verif
