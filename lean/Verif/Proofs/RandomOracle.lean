import Verif.Proofs.Interactive
import Verif.Spec.FiatShamir

/-!
# Adaptive queries to a random function
-/

set_option autoImplicit false

namespace Verif.RandomOracle

open Spec Spec.Verifier Finset Interactive

section Run

variable {I O : Type} (oracle : I → O) (next : List O → I)

theorem run_length (k : ℕ) : (run oracle next k).length = k := by
  induction k with
  | zero => rfl
  | succ k ih => simp [run, ih]

theorem run_take {j k : ℕ} (h : j ≤ k) : (run oracle next k).take j = run oracle next j := by
  induction k with
  | zero => obtain rfl := Nat.le_zero.1 h; rfl
  | succ k ih =>
    rcases Nat.lt_or_ge j (k + 1) with hj | hj
    · rw [run, List.take_append_of_le_length (by rw [run_length]; omega), ih (by omega)]
    · obtain rfl : j = k + 1 := by omega
      rw [List.take_of_length_le (by rw [run_length])]

theorem run_getD {j k : ℕ} (h : j < k) (d : O) : (run oracle next k).getD j d = oracle (next (run oracle next j)) := by
  have h1 := run_take oracle next (show j + 1 ≤ k by omega)
  have h2 : (run oracle next k).getD j d = ((run oracle next k).take (j + 1)).getD j d := by
    simp [List.getD_eq_getElem?_getD]
  rw [h2, h1, run, List.getD_append_right _ _ _ _ (by rw [run_length]), run_length, Nat.sub_self]
  rfl

/-- Answers agree as long as the oracles agree on the queries. -/
theorem run_congr {oracle oracle' : I → O} (k : ℕ)
    (h : ∀ j < k, oracle (next (run oracle next j)) = oracle' (next (run oracle next j))) :
    run oracle next k = run oracle' next k := by
  induction k with
  | zero => rfl
  | succ k ih =>
    have ih := ih fun j hj => h j (by omega)
    rw [run, run, ← ih, h k (by omega)]

/-- A strategy that goes on with another one after `k` queries. -/
theorem run_append (next' : List O → List O → I) (k m : ℕ) :
    let both := fun l => if l.length < k then next l else next' (l.take k) (l.drop k)
    run oracle both (k + m) = run oracle next k ++ run oracle (next' (run oracle next k)) m := by
  intro both
  have h1 : ∀ j ≤ k, run oracle both j = run oracle next j := by
    intro j hj
    induction j with
    | zero => rfl
    | succ j ih =>
      rw [run, run, ih (by omega)]
      simp only [both, run_length, show j < k by omega, if_true]
  induction m with
  | zero => simp [run, h1]
  | succ m ih =>
    rw [← Nat.add_assoc, run, run, ih]
    have : both (run oracle next k ++ run oracle (next' (run oracle next k)) m) =
        next' (run oracle next k) (run oracle (next' (run oracle next k)) m) := by
      simp only [both, List.length_append, run_length, show ¬ k + m < k by omega, if_false]
      rw [List.take_left' (run_length _ _ _), List.drop_left' (run_length _ _ _)]
    rw [this, List.append_assoc]

end Run

variable {I O : Type} [Fintype O] [Nonempty O] [DecidableEq I]

/-- The chance that one of the first `k` queries is answered badly. -/
theorem prob_run (S : Finset I) (ext : (S → O) → I → O) (hext : ∀ f (q : S), ext f q = f q) (next : List O → I) (k : ℕ)
    (hS : ∀ l, l.length < k → next l ∈ S) (bad : I → O → Prop) (ε : ℚ) (hε : ∀ q, prob (bad q) ≤ ε) :
    prob (fun f : S → O => ∃ j < k, bad (next (run (ext f) next j)) (ext f (next (run (ext f) next j)))) ≤ k * ε := by
  classical
  obtain ⟨o⟩ := ‹Nonempty O›
  -- the query asked at time `j`
  let at_ : Fin k → (S → O) → S := fun j f => ⟨next (run (ext f) next j), hS _ (by rw [run_length]; exact j.2)⟩
  -- `q` is asked at time `j` and not before
  let E : Fin k → S → (S → O) → Prop := fun j q f => at_ j f = q ∧ ∀ i < j, at_ i f ≠ q
  have hE : ∀ j q f g, (∀ q', q' ≠ q → f q' = g q') → E j q f → E j q g := by
    intro j q f g hfg ⟨h1, h2⟩
    have hrun : ∀ i ≤ j, run (ext f) next i = run (ext g) next i := by
      intro i hi
      refine run_congr next _ fun m hm => ?_
      have hmk : m < k := by have := j.2; have hi : (i : ℕ) ≤ j := hi; omega
      have := h2 ⟨m, hmk⟩ (Fin.lt_def.2 (lt_of_lt_of_le hm hi))
      have h3 := hfg _ this
      exact (hext f _).trans (h3.trans (hext g _).symm)
    refine ⟨?_, fun i hi => ?_⟩
    · rw [← h1]; exact Subtype.ext (congrArg next (hrun j le_rfl).symm)
    · have := h2 i hi
      rwa [show at_ i g = at_ i f from Subtype.ext (congrArg next (hrun i hi.le).symm)]
  have hind : ∀ j q, prob (fun f => E j q f ∧ bad q (f q)) ≤ prob (E j q) * ε := by
    intro j q
    let e := Equiv.funSplitAt q O
    let E' : ({q' // q' ≠ q} → O) → Prop := fun g => E j q (e.symm (o, g))
    have h1 : ∀ f, E j q f ↔ E' (e f).2 := by
      intro f
      have : ∀ q', q' ≠ q → f q' = e.symm (o, (e f).2) q' := by
        intro q' hq'
        simp [e, Equiv.funSplitAt, Equiv.piSplitAt, hq']
      exact ⟨hE _ _ _ _ this, hE _ _ _ _ fun q' hq' => (this q' hq').symm⟩
    have h2 : prob (fun f => E j q f ∧ bad q (f q)) = prob (fun f => bad q (e f).1 ∧ E' (e f).2) :=
      prob_congr fun f => by rw [h1 f, and_comm]; rfl
    have h3 : prob (E j q) = prob (fun f => True ∧ E' (e f).2) := prob_congr fun f => by rw [h1 f, true_and]
    rw [h2, h3, prob_equiv e fun ω => bad q ω.1 ∧ E' ω.2, prob_equiv e fun ω => True ∧ E' ω.2, prob_and (bad q) E',
      prob_and (fun _ => True) E', @prob_true O _ ⟨o⟩, one_mul, mul_comm]
    exact mul_le_mul_of_nonneg_left (hε q) (prob_nonneg _)
  have hε0 : 0 ≤ ε ∨ k = 0 := by
    rcases Nat.eq_zero_or_pos k with h | h
    · exact Or.inr h
    · exact Or.inl ((prob_nonneg _).trans (hε (next [])))
  have hsum : ∀ j, ∑ q, prob (E j q) ≤ 1 := by
    intro j
    simp only [prob_eq]
    rw [← Finset.sum_div]
    refine div_le_one_of_le₀ ?_ (Nat.cast_nonneg _)
    rw [← Nat.cast_sum, Nat.cast_le, ← card_univ, ← card_biUnion]
    · exact card_le_card (subset_univ _)
    · intro q _ q' _ hq
      rw [Function.onFun, disjoint_left]
      intro f hf hf'
      simp only [mem_filter, mem_univ, true_and] at hf hf'
      exact hq (hf.1.symm.trans hf'.1)
  have hj : ∀ j, prob (fun f => ∃ q, E j q f ∧ bad q (f q)) ≤ ε := by
    intro j
    have h0 : 0 ≤ ε := hε0.resolve_right fun h => by have := j.2; omega
    have h1 : prob (fun f => ∃ q, E j q f ∧ bad q (f q)) ≤ ∑ q, prob (fun f => E j q f ∧ bad q (f q)) := by
      simp only [prob_eq]
      rw [← Finset.sum_div]
      refine div_le_div_of_nonneg_right ?_ (Nat.cast_nonneg _)
      have : (univ.filter fun f => ∃ q, E j q f ∧ bad q (f q)) ⊆ univ.biUnion fun q => univ.filter fun f => E j q f ∧ bad q (f q) := by
        intro ω hω
        simpa using hω
      exact_mod_cast (card_le_card this).trans card_biUnion_le
    refine h1.trans ((sum_le_sum fun q _ => hind j q).trans ?_)
    rw [← sum_mul]
    exact (mul_le_mul_of_nonneg_right (hsum j) h0).trans (one_mul ε).le
  refine le_trans (prob_mono fun f hf => ?_) (prob_exists k _ ε hj)
  obtain ⟨j, hj, hb⟩ := hf
  -- the first time at which this query is asked
  have hex : ∃ i, ∃ hi : i < k, at_ ⟨i, hi⟩ f = at_ ⟨j, hj⟩ f := ⟨j, hj, rfl⟩
  obtain ⟨hi, hq⟩ := Nat.find_spec hex
  refine ⟨⟨Nat.find hex, hi⟩, at_ ⟨j, hj⟩ f, ⟨hq, fun i hlt h => ?_⟩, ?_⟩
  · exact Nat.find_min hex (Fin.lt_def.1 hlt) ⟨i.2, h⟩
  · rw [show f (at_ ⟨j, hj⟩ f) = ext f _ from (hext f _).symm]
    exact hb

end Verif.RandomOracle
