import Verif.Spec.Interactive
import Mathlib.Algebra.BigOperators.Ring.Finset
import Mathlib.Algebra.BigOperators.Fin
import Mathlib.Algebra.BigOperators.Field
import Mathlib.Algebra.Order.BigOperators.Group.Finset
import Mathlib.Data.Fintype.BigOperators
import Mathlib.Data.List.GetD
import Mathlib.Data.Rat.Cast.Order
import Mathlib.Algebra.Order.Field.Basic
import Mathlib.Tactic.Ring
import Mathlib.Tactic.FieldSimp
import Mathlib.Tactic.Linarith
import Mathlib.Tactic.Positivity

/-!
# Probability of exceptional challenges
-/

set_option autoImplicit false

namespace Verif.Interactive

open Spec Spec.Verifier Finset

variable {Ω α β : Type} [Fintype Ω] [Fintype α] [Fintype β]

theorem prob_eq (P : Ω → Prop) [DecidablePred P] : prob P = ((univ.filter P).card : ℚ) / Fintype.card Ω := by
  unfold prob
  congr!

theorem prob_mono {P Q : Ω → Prop} (h : ∀ ω, P ω → Q ω) : prob P ≤ prob Q := by
  classical
  unfold prob
  refine div_le_div_of_nonneg_right (Nat.cast_le.2 (card_le_card fun ω => ?_)) (Nat.cast_nonneg _)
  simpa using h ω

theorem prob_nonneg (P : Ω → Prop) : 0 ≤ prob P := div_nonneg (Nat.cast_nonneg _) (Nat.cast_nonneg _)

theorem prob_congr {P Q : Ω → Prop} (h : ∀ ω, P ω ↔ Q ω) : prob P = prob Q :=
  le_antisymm (prob_mono fun ω => (h ω).1) (prob_mono fun ω => (h ω).2)

theorem prob_or (P Q : Ω → Prop) : prob (fun ω => P ω ∨ Q ω) ≤ prob P + prob Q := by
  classical
  rw [prob_eq, prob_eq, prob_eq, ← add_div]
  refine div_le_div_of_nonneg_right ?_ (Nat.cast_nonneg _)
  rw [filter_or]
  exact_mod_cast card_union_le _ _

theorem prob_exists (k : ℕ) (P : Fin k → Ω → Prop) (ε : ℚ) (h : ∀ j, prob (P j) ≤ ε) :
    prob (fun ω => ∃ j, P j ω) ≤ k * ε := by
  classical
  have h1 : prob (fun ω => ∃ j, P j ω) ≤ ∑ j, prob (P j) := by
    simp only [prob_eq]
    rw [← Finset.sum_div]
    refine div_le_div_of_nonneg_right ?_ (Nat.cast_nonneg _)
    have : (univ.filter fun ω => ∃ j, P j ω) ⊆ univ.biUnion fun j => univ.filter (P j) := by
      intro ω hω
      simpa using hω
    exact_mod_cast (card_le_card this).trans card_biUnion_le
  refine h1.trans ((sum_le_sum fun j _ => h j).trans ?_)
  simp

/-- Average over the first component. -/
theorem prob_prod [Nonempty α] {P : α × β → Prop} {ε : ℚ} (h : ∀ a, prob (fun b => P (a, b)) ≤ ε) : prob P ≤ ε := by
  classical
  have hα : (0 : ℚ) < Fintype.card α := by exact_mod_cast Fintype.card_pos
  have h1 : (univ.filter P).card = ∑ a, (univ.filter fun b => P (a, b)).card := by
    rw [card_filter, Fintype.sum_prod_type]
    exact sum_congr rfl fun a _ => (card_filter _ _).symm
  have h2 : prob P = (∑ a, prob fun b => P (a, b)) / Fintype.card α := by
    simp only [prob_eq]
    rw [h1, ← Finset.sum_div, Fintype.card_prod, Nat.cast_mul, Nat.cast_sum, div_div, mul_comm]
  rw [h2, div_le_iff₀ hα]
  refine (sum_le_sum fun a _ => h a).trans ?_
  rw [sum_const, card_univ, nsmul_eq_mul, mul_comm]

/-- An event that does not depend on the second component. -/
theorem prob_fst [Nonempty β] (P : α → Prop) : prob (fun ω : α × β => P ω.1) = prob P := by
  classical
  have hβ : (Fintype.card β : ℚ) ≠ 0 := by exact_mod_cast Fintype.card_ne_zero
  rw [prob_eq, prob_eq]
  have : (univ.filter fun ω : α × β => P ω.1) = (univ.filter P) ×ˢ univ := by
    ext ω; simp
  rw [this, card_product, Fintype.card_prod, card_univ, Nat.cast_mul, Nat.cast_mul, mul_div_mul_right _ _ hβ]

theorem prob_equiv (e : Ω ≃ α) (P : α → Prop) : prob (fun ω => P (e ω)) = prob P := by
  classical
  rw [prob_eq, prob_eq, Fintype.card_congr e]
  congr 2
  refine card_bij (fun ω _ => e ω) (fun ω h => ?_) (fun _ _ _ _ h => e.injective h) fun a h => ⟨e.symm a, ?_, ?_⟩ <;> simp_all

theorem prob_mem [DecidableEq α] (S : Finset α) : prob (· ∈ S) = S.card / Fintype.card α := by
  rw [prob_eq]
  congr 3
  ext; simp

theorem prob_mem_le [DecidableEq α] {S : Finset α} {m : ℕ} (h : S.card ≤ m) : prob (· ∈ S) ≤ m / Fintype.card α := by
  rw [prob_mem]
  exact div_le_div_of_nonneg_right (Nat.cast_le.2 h) (Nat.cast_nonneg _)

/-- Independent repetitions. -/
theorem prob_forall (n : ℕ) (P : α → Prop) : prob (fun f : Fin n → α => ∀ i, P (f i)) = prob P ^ n := by
  classical
  rw [prob_eq, prob_eq]
  have : (univ.filter fun f : Fin n → α => ∀ i, P (f i)) = Fintype.piFinset fun _ => univ.filter P := by
    ext f; simp
  rw [this, Fintype.card_piFinset_const, Fintype.card_fun, Fintype.card_fin, Nat.cast_pow, Nat.cast_pow, div_pow]

/-- One component of a vector, bad values depending on the others. -/
theorem prob_component {k : ℕ} [Nonempty α] [DecidableEq α] (j : Fin k) (S : (Fin k → α) → Finset α) (m : ℕ)
    (hS : ∀ f, (S f).card ≤ m) (h : ∀ f g, (∀ i, i ≠ j → f i = g i) → S f = S g) :
    prob (fun f : Fin k → α => f j ∈ S f) ≤ m / Fintype.card α := by
  classical
  let e := (Equiv.funSplitAt j α).trans (Equiv.prodComm _ _)
  have h1 : prob (fun f : Fin k → α => f j ∈ S f) = prob (fun ω => ω.2 ∈ S (e.symm ω)) := by
    rw [← prob_equiv e]
    simp only [Equiv.symm_apply_apply]
    rfl
  rw [h1]
  refine prob_prod fun a => ?_
  obtain ⟨x⟩ := ‹Nonempty α›
  have h2 : ∀ b, S (e.symm (a, b)) = S (e.symm (a, x)) := by
    intro b
    refine h _ _ fun i hi => ?_
    simp [e, Equiv.funSplitAt, Equiv.piSplitAt, hi]
  simp only [h2]
  exact prob_mem_le (hS _)

/-- In all repetitions, `b` or `g` or `a` is bad; bad values of `a` depend on all `b` and `g`. -/
theorem prob_repetitions {n : ℕ} [Nonempty α] [DecidableEq α] (B : Finset α) (G : α → Finset α)
    (A : (Fin n → α) → (Fin n → α) → Finset α) (m l : ℕ) (hB : B.card ≤ m) (hG : ∀ b, (G b).card ≤ m)
    (hA : ∀ bs gs, (A bs gs).card ≤ l) :
    prob (fun ω : (Fin n → α) × (Fin n → α) × (Fin n → α) => ∀ i, ω.1 i ∈ B ∨ ω.2.1 i ∈ G (ω.1 i) ∨ ω.2.2 i ∈ A ω.1 ω.2.1) ≤
      ((2 * m + l : ℕ) / (Fintype.card α : ℚ)) ^ n := by
  classical
  set q := Fintype.card α with hq
  have hq0 : (0 : ℚ) < q := by exact_mod_cast Fintype.card_pos
  let w : α × α → ℕ := fun x => if x.1 ∈ B ∨ x.2 ∈ G x.1 then q else l
  have h1 : ∀ bs gs : Fin n → α, (univ.filter fun as : Fin n → α => ∀ i, bs i ∈ B ∨ gs i ∈ G (bs i) ∨ as i ∈ A bs gs).card ≤
      ∏ i, w (bs i, gs i) := by
    intro bs gs
    have : (univ.filter fun as : Fin n → α => ∀ i, bs i ∈ B ∨ gs i ∈ G (bs i) ∨ as i ∈ A bs gs) =
        Fintype.piFinset fun i => if bs i ∈ B ∨ gs i ∈ G (bs i) then univ else A bs gs := by
      ext as
      simp only [mem_filter, mem_univ, true_and, Fintype.mem_piFinset]
      refine forall_congr' fun i => ?_
      split_ifs with h
      · simp only [mem_univ, iff_true]; rw [← or_assoc]; exact Or.inl h
      · rw [← or_assoc, or_iff_right h]
    rw [this, Fintype.card_piFinset]
    refine prod_le_prod (fun _ _ => Nat.zero_le _) fun i _ => ?_
    simp only [w]
    split_ifs with h
    · rw [card_univ]
    · exact hA _ _
  have h2 : (univ.filter fun ω : (Fin n → α) × (Fin n → α) × (Fin n → α) =>
      ∀ i, ω.1 i ∈ B ∨ ω.2.1 i ∈ G (ω.1 i) ∨ ω.2.2 i ∈ A ω.1 ω.2.1).card ≤
      ∑ x : (Fin n → α) × (Fin n → α), ∏ i, w (x.1 i, x.2 i) := by
    rw [card_filter, Fintype.sum_prod_type, Fintype.sum_prod_type]
    refine sum_le_sum fun bs _ => ?_
    rw [Fintype.sum_prod_type]
    refine sum_le_sum fun gs _ => ?_
    rw [← card_filter]
    exact h1 bs gs
  have h3 : ∑ x : (Fin n → α) × (Fin n → α), ∏ i, w (x.1 i, x.2 i) = (∑ y : α × α, w y) ^ n := by
    have := Finset.prod_univ_sum (fun _ : Fin n => (univ : Finset (α × α))) fun _ y => w y
    rw [prod_const, card_univ, Fintype.card_fin, Fintype.piFinset_univ] at this
    rw [this]
    exact (Fintype.sum_equiv (Equiv.arrowProdEquivProdArrow (Fin n) (fun _ => α) fun _ => α) _ _ fun f => rfl).symm
  have h4 : ∑ y : α × α, w y ≤ (2 * m + l) * q ^ 2 := by
    have h5 : ∀ y : α × α, w y ≤ (if y.1 ∈ B then q else 0) + (if y.2 ∈ G y.1 then q else 0) + l := by
      intro y
      simp only [w]
      by_cases h : y.1 ∈ B <;> by_cases h' : y.2 ∈ G y.1 <;> simp only [h, h', if_true, if_false, or_self, or_true, true_or] <;> omega
    refine (sum_le_sum fun y _ => h5 y).trans ?_
    rw [sum_add_distrib, sum_add_distrib, sum_const, card_univ, Fintype.card_prod, smul_eq_mul, Fintype.sum_prod_type,
      Fintype.sum_prod_type]
    have h6 : ∑ x : α, ∑ _y : α, (if x ∈ B then q else 0) ≤ q * (m * q) := by
      rw [sum_comm]
      refine (sum_le_card_nsmul _ _ (m * q) fun y _ => ?_).trans (by rw [smul_eq_mul, card_univ])
      rw [← sum_filter, sum_const, smul_eq_mul]
      refine Nat.mul_le_mul_right _ ((card_le_card fun x hx => ?_).trans hB)
      simpa using hx
    have h7 : ∑ x : α, ∑ y : α, (if y ∈ G x then q else 0) ≤ q * (m * q) := by
      refine (sum_le_card_nsmul _ _ (m * q) fun x _ => ?_).trans (by rw [smul_eq_mul, card_univ])
      rw [← sum_filter, sum_const, smul_eq_mul]
      refine Nat.mul_le_mul_right _ ((card_le_card fun y hy => ?_).trans (hG x))
      simpa using hy
    dsimp only
    nlinarith [h6, h7]
  have h5 := h2.trans (h3.le.trans (Nat.pow_le_pow_left h4 n))
  rw [prob_eq, Fintype.card_prod, Fintype.card_prod, Fintype.card_fun, Fintype.card_fin, ← hq, div_pow, div_le_div_iff₀ (by positivity) (by positivity)]
  have h6 : ((univ.filter fun ω : (Fin n → α) × (Fin n → α) × (Fin n → α) =>
      ∀ i, ω.1 i ∈ B ∨ ω.2.1 i ∈ G (ω.1 i) ∨ ω.2.2 i ∈ A ω.1 ω.2.1).card : ℚ) ≤ (((2 * m + l) * q ^ 2) ^ n : ℕ) := by
    exact_mod_cast h5
  refine (mul_le_mul_of_nonneg_right h6 (pow_nonneg hq0.le n)).trans (le_of_eq ?_)
  push_cast
  rw [mul_pow]
  ring

/-- Query indices are reduced modulo the size of the domain. -/
theorem prob_mod (M : ℕ) (S : Finset ℕ) :
    prob (fun z : Fp => z.val % M ∈ S) ≤ (S.card * (p / M + 1) : ℕ) / (p : ℚ) := by
  classical
  have hp : Fintype.card Fp = p := ZMod.card p
  rw [prob_eq, hp]
  refine div_le_div_of_nonneg_right (Nat.cast_le.2 ?_) (Nat.cast_nonneg _)
  rw [card_eq_sum_card_fiberwise (f := fun z : Fp => z.val % M) (t := S) (fun z hz => by simpa using hz)]
  refine sum_le_card_nsmul _ _ _ fun u _ => ?_
  refine (card_le_card_of_injOn (t := range (p / M + 1)) (fun z : Fp => z.val / M) (fun z hz => ?_) ?_).trans (by rw [card_range])
  · rw [coe_range, Set.mem_Iio]
    exact Nat.lt_succ_of_le (Nat.div_le_div_right (ZMod.val_lt z).le)
  · intro z hz z' hz' h
    simp only [coe_filter, Set.mem_ofPred_eq, mem_filter, mem_univ, true_and] at hz hz'
    refine ZMod.val_injective p ?_
    rw [← Nat.div_add_mod z.val M, ← Nat.div_add_mod z'.val M, hz.2, hz'.2]
    have h : z.val / M = z'.val / M := h
    rw [h]

theorem card_QE : Fintype.card QE = p ^ 2 := by
  rw [Fintype.ofEquiv_card, Fintype.card_prod, show Fintype.card Fp = p from ZMod.card p, sq]

theorem getD_ofFn {n : ℕ} {γ : Type} (f : Fin n → γ) (d : γ) (i : Fin n) : (List.ofFn f).getD i d = f i := by
  rw [List.getD_eq_getElem _ _ (by simp)]; simp

instance : Nonempty Fp := ⟨0⟩
instance : Nonempty QE := ⟨0⟩

/-- The probability of hitting exceptional challenges. -/
theorem hit_le {T : Traps} {c : CommonCircuitData} {e : ℕ} (hT : T.Small c e) (A : Adversary) :
    prob (fun ω : Coins c => T.Hit c (A.proof ω) ω.challenges) ≤ error c e := by
  classical
  have hp : Fintype.card Fp = p := ZMod.card p
  have hQ : (Fintype.card QE : ℚ) = (p : ℚ) ^ 2 := by rw [card_QE, Nat.cast_pow]
  unfold Traps.Hit error
  refine (prob_or _ _).trans ?_
  rw [add_assoc, add_assoc, add_assoc]
  refine add_le_add ?_ ((prob_or _ _).trans (add_le_add ?_ ((prob_or _ _).trans (add_le_add ?_ ((prob_or _ _).trans
    (add_le_add ?_ ?_))))))
  · have h := prob_repetitions (n := c.config.numChallenges) (T.beta A.wiresCap) (T.gamma A.wiresCap)
      (fun bs gs => T.alpha A.wiresCap (List.ofFn bs) (List.ofFn gs) (A.zsCap (List.ofFn bs) (List.ofFn gs))) _ _ (hT.beta _)
      (hT.gamma _) fun bs gs => hT.alpha _ _ _ _
    rw [hp] at h
    refine le_trans (le_of_eq ?_) h
    let V := Fin c.config.numChallenges → Fp
    let R := QE × QE × (Fin c.friParams.reductionArityBits.length → QE) × Fp × (Fin c.config.friConfig.numQueryRounds → Fp)
    let eqv : (V × V × V) × R ≃ Coins c := (Equiv.prodAssoc V (V × V) R).trans ((Equiv.refl V).prodCongr (Equiv.prodAssoc V V R))
    refine ((prob_equiv eqv _).symm.trans ?_).trans (prob_fst (β := R) _)
    refine prob_congr ?_
    rintro ⟨⟨bs, gs, as⟩, r⟩
    have hw : ∀ i : Fin c.config.numChallenges, (bs i ∈ T.beta A.wiresCap ∨ gs i ∈ T.gamma A.wiresCap (bs i) ∨
        as i ∈ T.alpha A.wiresCap (List.ofFn bs) (List.ofFn gs) (A.zsCap (List.ofFn bs) (List.ofFn gs))) ↔
        ((List.ofFn bs).getD i 0 ∈ T.beta A.wiresCap ∨
          (List.ofFn gs).getD i 0 ∈ T.gamma A.wiresCap ((List.ofFn bs).getD i 0) ∨
          (List.ofFn as).getD i 0 ∈ T.alpha A.wiresCap (List.ofFn bs) (List.ofFn gs) (A.zsCap (List.ofFn bs) (List.ofFn gs))) := by
      intro i
      rw [getD_ofFn, getD_ofFn, getD_ofFn]
    exact ⟨fun h i => (hw i).2 (h i i.2), fun h i hi => (hw ⟨i, hi⟩).1 (h ⟨i, hi⟩)⟩
  · refine prob_prod fun bs => prob_prod fun gs => prob_prod fun as => ?_
    refine (prob_fst (α := QE) (· ∈ T.zeta A.wiresCap (List.ofFn bs) (List.ofFn gs) (A.zsCap (List.ofFn bs) (List.ofFn gs))
      (List.ofFn as) (A.quotientCap (List.ofFn bs) (List.ofFn gs) (List.ofFn as)))).le.trans ?_
    rw [← hQ]
    exact prob_mem_le (hT.zeta _ _ _ _ _ _)
  · refine prob_prod fun bs => prob_prod fun gs => prob_prod fun as => prob_prod fun ζ => ?_
    refine (prob_fst (α := QE) (· ∈ T.mix A.wiresCap (A.zsCap (List.ofFn bs) (List.ofFn gs))
      (A.quotientCap (List.ofFn bs) (List.ofFn gs) (List.ofFn as)) ζ (A.openings _ _ _ _))).le.trans ?_
    rw [← hQ]
    exact prob_mem_le (hT.mix _ _ _ _ _)
  · refine prob_prod fun bs => prob_prod fun gs => prob_prod fun as => prob_prod fun ζ => prob_prod fun α => ?_
    let S : Fin c.friParams.reductionArityBits.length → (Fin c.friParams.reductionArityBits.length → QE) → Finset QE :=
      fun j f => T.fold j (A.commitCap (List.ofFn bs) (List.ofFn gs) (List.ofFn as) ζ α ((List.ofFn f).take j))
    have h1 : prob (fun f => ∃ j, f j ∈ S j f) ≤ c.friParams.reductionArityBits.length *
        ((15 * (Plonk.n c * e + e + 1) : ℕ) / (Fintype.card QE : ℚ)) := by
      refine prob_exists _ _ _ fun j => prob_component j (S j) _ (fun f => hT.fold _ _) fun f g hfg => ?_
      refine congrArg (fun l => T.fold j (A.commitCap (List.ofFn bs) (List.ofFn gs) (List.ofFn as) ζ α l)) ?_
      refine List.ext_getElem (by simp) fun i h1 h2 => ?_
      simp only [List.getElem_take, List.getElem_ofFn]
      refine hfg _ fun h => ?_
      have : i < j := by simp at h1; exact h1
      rw [Fin.ext_iff] at h
      exact this.ne h
    rw [hQ, ← mul_div_assoc, ← Nat.cast_mul] at h1
    refine le_trans ?_ h1
    refine le_trans ?_ (prob_fst (β := Fp × (Fin c.config.friConfig.numQueryRounds → Fp)) fun f => ∃ j, f j ∈ S j f).le
    refine prob_mono ?_
    rintro ⟨f, r⟩ ⟨j, hj, h⟩
    refine ⟨⟨j, hj⟩, ?_⟩
    have h2 : ((List.range c.friParams.reductionArityBits.length).map fun j =>
        A.commitCap (List.ofFn bs) (List.ofFn gs) (List.ofFn as) ζ α ((List.ofFn f).take j)).getD j [] =
        A.commitCap (List.ofFn bs) (List.ofFn gs) (List.ofFn as) ζ α ((List.ofFn f).take j) := by
      rw [List.getD_eq_getElem _ _ (by simpa using hj)]; simp
    have h3 : (List.ofFn f).getD j 0 = f ⟨j, hj⟩ := getD_ofFn f 0 ⟨j, hj⟩
    have h : (List.ofFn f).getD j 0 ∈ T.fold j (((List.range c.friParams.reductionArityBits.length).map fun j =>
        A.commitCap (List.ofFn bs) (List.ofFn gs) (List.ofFn as) ζ α ((List.ofFn f).take j)).getD j []) := h
    rw [h2, h3] at h
    exact h
  · refine prob_prod fun bs => prob_prod fun gs => prob_prod fun as => prob_prod fun ζ => prob_prod fun α => prob_prod fun f =>
      prob_prod fun r => ?_
    set M := 2 ^ (c.friParams.degreeBits + c.friParams.config.rateBits) with hM
    set S := T.query A.wiresCap (A.zsCap (List.ofFn bs) (List.ofFn gs)) (A.quotientCap (List.ofFn bs) (List.ofFn gs) (List.ofFn as)) ζ
      (A.openings (List.ofFn bs) (List.ofFn gs) (List.ofFn as) ζ) α
      ((List.range c.friParams.reductionArityBits.length).map fun j =>
        A.commitCap (List.ofFn bs) (List.ofFn gs) (List.ofFn as) ζ α ((List.ofFn f).take j)) (List.ofFn f)
      (A.finalPoly (List.ofFn bs) (List.ofFn gs) (List.ofFn as) ζ α (List.ofFn f)) with hS
    have hcard : S.card ≤ M - e - 1 := by
      have := hT.query A.wiresCap (A.zsCap (List.ofFn bs) (List.ofFn gs)) (A.quotientCap (List.ofFn bs) (List.ofFn gs) (List.ofFn as)) ζ
        (A.openings (List.ofFn bs) (List.ofFn gs) (List.ofFn as) ζ) α
        ((List.range c.friParams.reductionArityBits.length).map fun j =>
          A.commitCap (List.ofFn bs) (List.ofFn gs) (List.ofFn as) ζ α ((List.ofFn f).take j)) (List.ofFn f)
        (A.finalPoly (List.ofFn bs) (List.ofFn gs) (List.ofFn as) ζ α (List.ofFn f))
      rw [← hM, ← hS] at this
      omega
    have h0 : (0 : ℚ) ≤ prob (fun z : Fp => z.val % M ∈ S) := prob_nonneg _
    refine le_trans ?_ (pow_le_pow_left₀ h0 ((prob_mod M S).trans (div_le_div_of_nonneg_right
      (Nat.cast_le.2 (Nat.mul_le_mul_right _ hcard)) (Nat.cast_nonneg _))) _)
    rw [← prob_forall]
    refine prob_mono fun qs h i => ?_
    have h : ∀ z ∈ List.ofFn qs, z.val % M ∈ S := h
    exact h _ (List.mem_ofFn.2 ⟨i, rfl⟩)

/-- Events on different components. -/
theorem prob_and (P : α → Prop) (Q : β → Prop) : prob (fun ω : α × β => P ω.1 ∧ Q ω.2) = prob P * prob Q := by
  classical
  rw [prob_eq, prob_eq, prob_eq]
  have : (univ.filter fun ω : α × β => P ω.1 ∧ Q ω.2) = (univ.filter P) ×ˢ (univ.filter Q) := by
    ext ω; simp
  rw [this, card_product, Fintype.card_prod, Nat.cast_mul, Nat.cast_mul, div_mul_div_comm]

theorem prob_true [Nonempty α] : prob (fun _ : α => True) = 1 := by
  classical
  rw [prob_eq, filter_true, card_univ]
  exact div_self (by exact_mod_cast Fintype.card_ne_zero)

/-- The challenges with the proof-of-work response first. -/
def powEquiv (c : CommonCircuitData) : Coins c ≃ Fp × ((Fin c.config.numChallenges → Fp) × (Fin c.config.numChallenges → Fp) ×
    (Fin c.config.numChallenges → Fp) × QE × QE × (Fin c.friParams.reductionArityBits.length → QE) ×
    (Fin c.config.friConfig.numQueryRounds → Fp)) where
  toFun := fun (bs, gs, as, ζ, α, βs, r, qs) => (r, bs, gs, as, ζ, α, βs, qs)
  invFun := fun (r, bs, gs, as, ζ, α, βs, qs) => (bs, gs, as, ζ, α, βs, r, qs)
  left_inv := fun _ => rfl
  right_inv := fun _ => rfl

theorem prob_pow (m : ℕ) : prob (fun z : Fp => z.val < m) = (min p m : ℕ) / (p : ℚ) := by
  classical
  have hp : Fintype.card Fp = p := ZMod.card p
  rw [prob_eq, hp]
  refine congrArg (fun k : ℕ => (k : ℚ) / (p : ℚ)) ?_
  refine (card_bij (t := range (min p m)) (fun z _ => z.val) (fun z hz => ?_) (fun z _ z' _ h => ZMod.val_injective p h)
    fun k hk => ⟨(k : Fp), ?_, ?_⟩).trans (card_range _)
  · rw [mem_filter] at hz
    exact mem_range.2 (lt_min (ZMod.val_lt z) hz.2)
  · have hk := lt_min_iff.1 (mem_range.1 hk)
    rw [mem_filter, ZMod.val_natCast_of_lt hk.1]
    exact ⟨mem_univ _, hk.2⟩
  · exact ZMod.val_natCast_of_lt (lt_min_iff.1 (mem_range.1 hk)).1

/-- The exceptional challenges do not include the proof-of-work response. -/
theorem hit_pow_le {T : Traps} {c : CommonCircuitData} {e : ℕ} (hT : T.Small c e) (A : Adversary) :
    prob (fun ω : Coins c => ω.challenges.friChallenges.powResponse.val < 2 ^ (64 - c.friParams.config.proofOfWorkBits) ∧
      T.Hit c (A.proof ω) ω.challenges) ≤ powChance c * error c e := by
  let Q := fun y => T.Hit c (A.proof ((powEquiv c).symm (0, y))) ((powEquiv c).symm (0, y)).challenges
  have h1 : prob (fun ω : Coins c => T.Hit c (A.proof ω) ω.challenges) = prob Q := by
    have h : prob (fun ω : Coins c => T.Hit c (A.proof ω) ω.challenges) =
        prob (fun ω => True ∧ Q (powEquiv c ω).2) := prob_congr fun ω => ⟨fun h => ⟨trivial, h⟩, fun h => h.2⟩
    rw [h, prob_equiv (powEquiv c) fun ω => True ∧ Q ω.2, prob_and (fun _ => True) Q, prob_true, one_mul]
  have h2 : prob (fun ω : Coins c => ω.challenges.friChallenges.powResponse.val < 2 ^ (64 - c.friParams.config.proofOfWorkBits) ∧
      T.Hit c (A.proof ω) ω.challenges) = prob (fun ω => (powEquiv c ω).1.val < 2 ^ (64 - c.friParams.config.proofOfWorkBits) ∧
        Q (powEquiv c ω).2) := prob_congr fun ω => Iff.rfl
  rw [h2, prob_equiv (powEquiv c) fun ω => ω.1.val < 2 ^ (64 - c.friParams.config.proofOfWorkBits) ∧ Q ω.2,
    prob_and (fun z : Fp => z.val < 2 ^ (64 - c.friParams.config.proofOfWorkBits)) Q, prob_pow, ← h1]
  exact mul_le_mul_of_nonneg_left (hit_le hT A) (div_nonneg (Nat.cast_nonneg _) (Nat.cast_nonneg _))

end Verif.Interactive
