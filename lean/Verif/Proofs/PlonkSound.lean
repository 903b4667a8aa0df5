import Verif.Proofs.PlonkComplete

/-!
# PLONK: a trace that is not satisfied is rejected for all but few challenges
-/

set_option autoImplicit false

namespace Verif.Plonk

open Polynomial Spec.Plonk Degree
open Spec.Fri (omega)
open Spec.Fri.Prover (base)
open Verif.Fri (omega_pow_card orderOf_omega omega_ne_zero ofBase_mul ofBase_pow)

variable {c : CommonCircuitData} {t : Trace} {zs pps qs : List Fp[X]} {bs gs as : List Fp} {fri : FriChallenges Fp QE}

/-! ## Roots -/

theorem few_roots {N : ℕ} {P : Fp[X]} (hP : P ≠ 0) (hd : P.natDegree ≤ N) :
    ∃ S : Finset QE, S.card ≤ N ∧ ∀ z ∉ S, P.eval₂ base z ≠ 0 := by
  have hinj : Function.Injective base := fun a b h => ofBase_inj.1 h
  have h0 : P.map base ≠ 0 := (Polynomial.map_ne_zero_iff hinj).2 hP
  classical
  refine ⟨(P.map base).roots.toFinset, (Multiset.toFinset_card_le _).trans ((card_roots' _).trans
    (natDegree_map_le.trans hd)), fun z hz h => hz ?_⟩
  rw [Multiset.mem_toFinset, mem_roots h0, IsRoot, eval_map, h]

theorem few_roots_base {N : ℕ} {P : Fp[X]} (hP : P ≠ 0) (hd : P.natDegree ≤ N) :
    ∃ S : Finset Fp, S.card ≤ N ∧ ∀ z ∉ S, P.eval z ≠ 0 := by
  classical
  refine ⟨P.roots.toFinset, (Multiset.toFinset_card_le _).trans ((card_roots' _).trans hd), fun z hz h => hz ?_⟩
  rw [Multiset.mem_toFinset, mem_roots hP, IsRoot, h]

/-! ## zeta -/

theorem bad_zeta (hd1 : 1 ≤ c.degreeBits) (hq : c.quotientDegreeFactor ≠ 0)
    {gates : List Verif.Gates.Gate} {h : Fin 4 → Fp} (ht : t.AtMost (n c)) (hz : AtMost (n c) zs) (hp : AtMost (n c) pps) (hqs : AtMost (n c) qs)
    (hd : c.degreeBits ≤ 32)
    (hdeg : ∀ gi ∈ gates.zipIdx, Spec.Gates.degree gi.1 + Spec.Gates.filterDegree c.selectorsInfo gi.2 ≤
      c.quotientDegreeFactor + 1) {i : ℕ} (hi : i < c.config.numChallenges) {m : ℕ}
    (hm : ∑ j ∈ Finset.range (termsP c gates (chAt bs gs as ⟨0, [], 0, []⟩ (ofBase (omega c.degreeBits ^ m)))
        (openings c t zs pps [] (ofBase (omega c.degreeBits ^ m))) h).length,
      (termsP c gates (chAt bs gs as ⟨0, [], 0, []⟩ (ofBase (omega c.degreeBits ^ m)))
        (openings c t zs pps [] (ofBase (omega c.degreeBits ^ m))) h).getD j 0 * ofBase (as.getD i 0) ^ j ≠ 0) :
    ∃ S : Finset QE, S.card ≤ (c.quotientDegreeFactor + 1) * n c ∧ ∀ z ∉ S, z ≠ 1 → ∀ fri : FriChallenges Fp QE,
      ¬ Identity c gates (chAt bs gs as fri z) (openings c t zs pps qs z) h := by
  have hn : 2 ≤ n c := by
    calc 2 = 2 ^ 1 := rfl
      _ ≤ 2 ^ c.degreeBits := Nat.pow_le_pow_right (by norm_num) hd1
  obtain ⟨P, hP1, hP2⟩ := (poly_termsP (qs := []) (D := n c) (by omega) (by omega) hq ht hz hp gates h bs gs as ⟨0, [], 0, []⟩ hdeg).reduce (as.getD i 0)
  set Q : Fp[X] := ∑ k ∈ Finset.range c.quotientDegreeFactor, qs.getD (i * c.quotientDegreeFactor + k) 0 * (X ^ n c) ^ k with hQ
  have hQe : ∀ z, Q.eval₂ base z = ∑ k ∈ Finset.range c.quotientDegreeFactor,
      value z (qs.getD (i * c.quotientDegreeFactor + k) 0) * (z ^ n c) ^ k := by
    intro z
    rw [hQ, eval₂_finsetSum]
    exact Finset.sum_congr rfl fun k _ => by rw [eval₂_mul, eval₂_pow, eval₂_X_pow]; rfl
  have hQd : Q.natDegree ≤ c.quotientDegreeFactor * n c := by
    refine natDegree_sum_le_of_forall_le _ _ fun k hk => ?_
    have hk := Finset.mem_range.1 hk
    refine natDegree_mul_le.trans ?_
    rw [← pow_mul, natDegree_X_pow]
    have h1 := atMost_getD hqs (i * c.quotientDegreeFactor + k)
    calc _ ≤ n c + n c * k := Nat.add_le_add_right h1 _
      _ ≤ n c * (k + 1) := by rw [Nat.mul_succ]; omega
      _ ≤ n c * c.quotientDegreeFactor := Nat.mul_le_mul_left _ hk
      _ = _ := mul_comm _ _
  set R := P - (X ^ n c - C 1) * Q with hR
  have hRd : R.natDegree ≤ (c.quotientDegreeFactor + 1) * n c := by
    refine (natDegree_sub_le _ _).trans (max_le hP1 ?_)
    refine natDegree_mul_le.trans ?_
    rw [natDegree_X_pow_sub_C, Nat.add_mul, one_mul, Nat.add_comm]
    exact Nat.add_le_add_right hQd _
  have hR0 : R ≠ 0 := by
    intro h0
    apply hm
    have h1 := congrArg (eval₂ base (ofBase (omega c.degreeBits ^ m))) h0
    rw [hR, eval₂_sub, eval₂_mul, eval₂_sub, eval₂_X_pow, eval₂_C, eval₂_zero, map_one, ← ofBase_pow, ← pow_mul,
      mul_comm m, pow_mul, show omega c.degreeBits ^ n c = 1 from omega_pow_card hd, one_pow,
      show ofBase (1 : Fp) = 1 from map_one base, sub_self, zero_mul, sub_zero] at h1
    exact (hP2 _).trans h1
  obtain ⟨S, hS1, hS2⟩ := few_roots hR0 hRd
  refine ⟨S, hS1, fun z hz hz1 fri hI => hS2 z hz ?_⟩
  have h1 := hI i hi
  rw [vanishing, terms_eq _ _ _ _ hz1, Spec.Plonk.quotient] at h1
  rw [hR, eval₂_sub, eval₂_mul, eval₂_sub, eval₂_X_pow, eval₂_C, map_one, hQe, ← hP2 z, sub_eq_zero]
  refine h1.trans ?_
  simp only [openings, map_getD]

/-! ## alpha -/

theorem bad_alpha {l : List QE} (hl : ¬ ∀ y ∈ l, y = 0) :
    ∃ S : Finset Fp, S.card ≤ l.length - 1 ∧
      ∀ a ∉ S, ∑ j ∈ Finset.range l.length, l.getD j 0 * ofBase a ^ j ≠ 0 := by
  set P : QE[X] := ∑ j ∈ Finset.range l.length, C (l.getD j 0) * X ^ j with hP
  have hc : ∀ j < l.length, P.coeff j = l.getD j 0 := by
    intro j hj
    rw [hP, finsetSum_coeff, Finset.sum_eq_single j]
    · rw [coeff_C_mul_X_pow, if_pos rfl]
    · intro b _ hb; rw [coeff_C_mul_X_pow, if_neg (Ne.symm hb)]
    · intro h; exact absurd (Finset.mem_range.2 hj) h
  have hP0 : P ≠ 0 := by
    intro h0
    apply hl
    intro y hy
    obtain ⟨j, hj, rfl⟩ := List.getElem_of_mem hy
    have := hc j hj
    rw [h0, coeff_zero, List.getD_eq_getElem _ _ hj] at this
    exact this.symm
  have hPd : P.natDegree ≤ l.length - 1 := by
    refine natDegree_sum_le_of_forall_le _ _ fun j hj => (natDegree_C_mul_X_pow_le _ _).trans ?_
    have := Finset.mem_range.1 hj
    omega
  classical
  have hinj : Function.Injective (fun a : Fp => ofBase a) := fun a b h => ofBase_inj.1 h
  refine ⟨P.roots.toFinset.preimage (fun a : Fp => ofBase a) hinj.injOn, ?_, fun a ha h => ha ?_⟩
  · refine le_trans ?_ ((Multiset.toFinset_card_le _).trans ((card_roots' _).trans hPd))
    exact Finset.card_le_card_of_injOn (fun a : Fp => ofBase a) (fun a ha => Finset.mem_preimage.1 ha) hinj.injOn
  · rw [Finset.mem_preimage, Multiset.mem_toFinset, mem_roots hP0, IsRoot, hP, eval_finsetSum]
    refine Eq.trans (Finset.sum_congr rfl fun j _ => ?_) h
    rw [eval_mul, eval_C, eval_pow, eval_X]

/-! ## beta and gamma -/

theorem accRow_last (zs pps : List Fp[X]) (i m : ℕ) :
    accRow c zs pps i m (c.numPartialProducts + 1) = (zs.getD i 0).eval (omega c.degreeBits ^ (m + 1)) := by
  rw [accRow, if_neg (by omega), if_neg (by omega)]

theorem accRow_first (zs pps : List Fp[X]) (i m : ℕ) :
    accRow c zs pps i m 0 = (zs.getD i 0).eval (omega c.degreeBits ^ m) := by rw [accRow, if_pos rfl]

theorem products_eq (hd : c.degreeBits ≤ 32)
    (hJ : (c.numPartialProducts + 1) * c.quotientDegreeFactor = c.config.numRoutedWires) {i : ℕ} {b g : Fp}
    (h1 : (zs.getD i 0).eval 1 = 1)
    (hpp : ∀ m < n c, ∀ k ≤ c.numPartialProducts, ppRow c t zs pps b g i m k = 0) :
    ∏ x : Fin (n c) × Fin c.config.numRoutedWires, t.num c b g x.1 x.2 =
      ∏ x : Fin (n c) × Fin c.config.numRoutedWires, t.den c b g x.1 x.2 := by
  have hrow : ∀ m < n c, ∀ k ≤ c.numPartialProducts + 1,
      accRow c zs pps i m k * ∏ j ∈ Finset.range (k * c.quotientDegreeFactor), t.den c b g m j =
      accRow c zs pps i m 0 * ∏ j ∈ Finset.range (k * c.quotientDegreeFactor), t.num c b g m j := by
    intro m hm k
    induction k with
    | zero => intro _; simp
    | succ k ih =>
      intro hk
      have h2 := ih (by omega)
      have h3 := hpp m hm k (by omega)
      rw [ppRow, sub_eq_zero] at h3
      rw [Nat.succ_mul, Finset.prod_range_add, Finset.prod_range_add]
      linear_combination (∏ j ∈ Finset.range c.quotientDegreeFactor,
        t.num c b g m (k * c.quotientDegreeFactor + j)) * h2 -
        (∏ j ∈ Finset.range (k * c.quotientDegreeFactor), t.den c b g m j) * h3
  have hrun : ∀ m ≤ n c, (zs.getD i 0).eval (omega c.degreeBits ^ m) *
      ∏ r ∈ Finset.range m, ∏ j ∈ Finset.range c.config.numRoutedWires, t.den c b g r j =
      ∏ r ∈ Finset.range m, ∏ j ∈ Finset.range c.config.numRoutedWires, t.num c b g r j := by
    intro m
    induction m with
    | zero => intro _; rw [pow_zero, h1, Finset.prod_range_zero, Finset.prod_range_zero, one_mul]
    | succ m ih =>
      intro hm
      have h2 := ih (by omega)
      have h3 := hrow m (by omega) _ le_rfl
      rw [accRow_last, accRow_first, hJ] at h3
      rw [Finset.prod_range_succ, Finset.prod_range_succ]
      linear_combination (∏ j ∈ Finset.range c.config.numRoutedWires, t.num c b g m j) * h2 +
        (∏ r ∈ Finset.range m, ∏ j ∈ Finset.range c.config.numRoutedWires, t.den c b g r j) * h3
  have h4 := hrun _ le_rfl
  rw [show omega c.degreeBits ^ n c = 1 from omega_pow_card hd, h1, one_mul, Finset.prod_range, Finset.prod_range] at h4
  rw [Fintype.prod_prod_type, Fintype.prod_prod_type]
  simp only [Finset.prod_range] at h4
  exact h4.symm

theorem bad_beta_gamma {s : Equiv.Perm (Fin (n c) × Fin c.config.numRoutedWires)} (hs : t.Routes c s)
    (hc : ¬ t.Copies c s)
    (hname : Function.Injective fun x : Fin (n c) × Fin c.config.numRoutedWires => name c x.1 x.2) :
    ∃ B : Finset Fp, B.card ≤ n c * c.config.numRoutedWires ∧ ∀ b ∉ B,
      ∃ G : Finset Fp, G.card ≤ n c * c.config.numRoutedWires ∧ ∀ g ∉ G,
        ∏ x : Fin (n c) × Fin c.config.numRoutedWires, t.num c b g x.1 x.2 ≠
          ∏ x : Fin (n c) × Fin c.config.numRoutedWires, t.den c b g x.1 x.2 := by
  rw [Trace.Copies] at hc
  push Not at hc
  obtain ⟨m0, j0, hne⟩ := hc
  set x0 : Fin (n c) × Fin c.config.numRoutedWires := (m0, j0) with hx0
  let a : Fin (n c) × Fin c.config.numRoutedWires → Fp := fun x => name c x.1 x.2
  let w : Fin (n c) × Fin c.config.numRoutedWires → Fp := fun x => t.wire c x.1 x.2
  have hw : w x0 ≠ w (s x0) := hne
  have hcard : Fintype.card (Fin (n c) × Fin c.config.numRoutedWires) = n c * c.config.numRoutedWires := by simp
  classical
  refine ⟨Finset.univ.image fun y => (w y - w x0) / (a (s x0) - a y), ?_, fun b hb => ?_⟩
  · exact Finset.card_image_le.trans (by rw [Finset.card_univ, hcard])
  · have hfac : ∀ y, b * a y + w y ≠ b * a (s x0) + w x0 := by
      intro y hy
      by_cases hys : y = s x0
      · subst hys
        exact hw (add_left_cancel hy).symm
      · have h1 : a (s x0) - a y ≠ 0 := sub_ne_zero.2 fun h => hys (hname h).symm
        refine hb (Finset.mem_image.2 ⟨y, Finset.mem_univ _, ?_⟩)
        rw [div_eq_iff h1]
        linear_combination hy
    set P : Fp[X] := ∏ x, (X + C (b * a x + w x)) - ∏ x, (X + C (b * a (s x) + w x)) with hP
    have hev : ∀ g, P.eval g = ∏ x : Fin (n c) × Fin c.config.numRoutedWires, t.num c b g x.1 x.2 -
        ∏ x : Fin (n c) × Fin c.config.numRoutedWires, t.den c b g x.1 x.2 := by
      intro g
      rw [hP, eval_sub, eval_prod, eval_prod]
      refine congrArg₂ _ (Finset.prod_congr rfl fun x _ => ?_) (Finset.prod_congr rfl fun x _ => ?_)
      · rw [eval_add, eval_X, eval_C, Trace.num]; simp only [a, w]; ring
      · rw [eval_add, eval_X, eval_C, Trace.den, show (t.sigmas.getD x.2 0).eval (omega c.degreeBits ^ (x.1 : ℕ)) = _
          from hs x.1 x.2]
        simp only [a, w]; ring
    have hP0 : P ≠ 0 := by
      intro h0
      have h1 := congrArg (eval (-(b * a (s x0) + w x0))) h0
      have h3 : ∏ x, eval (-(b * a (s x0) + w x0)) (X + C (b * a (s x) + w x)) = 0 :=
        Finset.prod_eq_zero (Finset.mem_univ x0) (by rw [eval_add, eval_X, eval_C, neg_add_cancel])
      rw [hP, eval_sub, eval_prod, eval_prod, eval_zero, h3, sub_zero, Finset.prod_eq_zero_iff] at h1
      obtain ⟨y, -, h2⟩ := h1
      rw [eval_add, eval_X, eval_C] at h2
      exact hfac y (by linear_combination h2)
    have hdeg : ∀ f : Fin (n c) × Fin c.config.numRoutedWires → Fp, (∏ x, (X + C (f x))).natDegree ≤
        n c * c.config.numRoutedWires := by
      intro f
      refine (natDegree_prod_le _ _).trans ?_
      rw [← hcard, ← Finset.card_univ, Finset.card_eq_sum_ones]
      exact Finset.sum_le_sum fun x _ => (natDegree_X_add_C (f x)).le
    obtain ⟨G, hG1, hG2⟩ := few_roots_base hP0 ((natDegree_sub_le _ _).trans (max_le (hdeg _) (hdeg _)))
    exact ⟨G, hG1, fun g hg h => hG2 g hg (by rw [hev, h, sub_self])⟩

/-! ## All rounds -/

/-- Number of terms of the vanishing polynomial. -/
def numTerms (c : CommonCircuitData) : ℕ :=
  c.config.numChallenges + c.config.numChallenges * (c.numPartialProducts + 1) + c.numGateConstraints

theorem termsP_length (gates : List Verif.Gates.Gate) (ch : ProofChallenges Fp QE) (o : OpeningSet QE) (h : Fin 4 → Fp) :
    (termsP c gates ch o h).length = numTerms c := by
  simp [termsP, numTerms, List.length_flatMap, Nat.add_assoc]

theorem sound (hd1 : 1 ≤ c.degreeBits) (hd : c.degreeBits ≤ 32) (hq : c.quotientDegreeFactor ≠ 0)
    (hJ : (c.numPartialProducts + 1) * c.quotientDegreeFactor = c.config.numRoutedWires)
    {gates : List Verif.Gates.Gate} {h : Fin 4 → Fp} (ht : t.AtMost (n c))
    (hdeg : ∀ gi ∈ gates.zipIdx, Spec.Gates.degree gi.1 + Spec.Gates.filterDegree c.selectorsInfo gi.2 ≤
      c.quotientDegreeFactor + 1)
    {s : Equiv.Perm (Fin (n c) × Fin c.config.numRoutedWires)} (hs : t.Routes c s)
    (hname : Function.Injective fun x : Fin (n c) × Fin c.config.numRoutedWires => name c x.1 x.2)
    (hbad : ¬ (GatesHold c gates t h ∧ t.Copies c s)) :
    ∃ B : Finset Fp, B.card ≤ n c * c.config.numRoutedWires ∧
    ∃ G : Fp → Finset Fp, (∀ b, (G b).card ≤ n c * c.config.numRoutedWires) ∧
    ∀ bs gs : List Fp, ∀ zs pps : List Fp[X], AtMost (n c) zs → AtMost (n c) pps →
    ∃ A : Finset Fp, A.card ≤ numTerms c - 1 ∧
    ∀ (as : List Fp) (qs : List Fp[X]), AtMost (n c) qs →
    ∃ S : Finset QE, S.card ≤ (c.quotientDegreeFactor + 1) * n c ∧ ∀ z ∉ S, z ≠ 1 → ∀ fri : FriChallenges Fp QE,
      Identity c gates (chAt bs gs as fri z) (openings c t zs pps qs z) h →
      ∀ i < c.config.numChallenges, bs.getD i 0 ∈ B ∨ gs.getD i 0 ∈ G (bs.getD i 0) ∨ as.getD i 0 ∈ A := by
  classical
  obtain ⟨B, hB, G, hG, hBG⟩ : ∃ B : Finset Fp, B.card ≤ n c * c.config.numRoutedWires ∧
      ∃ G : Fp → Finset Fp, (∀ b, (G b).card ≤ n c * c.config.numRoutedWires) ∧
      ∀ bs gs zs pps, RowsOk c gates t h zs pps bs gs → ∀ i < c.config.numChallenges,
        bs.getD i 0 ∈ B ∨ gs.getD i 0 ∈ G (bs.getD i 0) := by
    by_cases hg : GatesHold c gates t h
    · obtain ⟨B, hB1, hB2⟩ := bad_beta_gamma hs (fun hc => hbad ⟨hg, hc⟩) hname
      choose! G hG1 hG2 using hB2
      refine ⟨B, hB1, fun b => if b ∈ B then ∅ else G b, fun b => ?_, fun bs gs zs pps hr i hi => ?_⟩
      · dsimp only
        split_ifs with hb
        · simp
        · exact hG1 b hb
      · by_contra hno
        push Not at hno
        obtain ⟨h1, h2⟩ := hno
        rw [if_neg h1] at h2
        exact hG2 _ h1 _ h2 (products_eq hd hJ (hr.start i hi) (hr.product i hi))
    · exact ⟨∅, by simp, fun _ => ∅, by simp, fun bs gs zs pps hr => absurd hr.gates hg⟩
  refine ⟨B, hB, G, hG, fun bs gs zs pps hz hp => ?_⟩
  by_cases hr : RowsOk c gates t h zs pps bs gs
  · exact ⟨∅, by simp, fun as qs _ => ⟨∅, by simp, fun z _ _ fri _ i hi => (hBG bs gs zs pps hr i hi).imp_right Or.inl⟩⟩
  · rw [← termsP_row (qs := []) (as := []) (fri := ⟨0, [], 0, []⟩) hd] at hr
    push Not at hr
    obtain ⟨m, -, y, hy, hy0⟩ := hr
    obtain ⟨A, hA1, hA2⟩ := bad_alpha fun hall => hy0 (hall y hy)
    rw [termsP_length] at hA1
    refine ⟨A, hA1, fun as qs hqs => ?_⟩
    by_cases hall : ∀ i < c.config.numChallenges, as.getD i 0 ∈ A
    · exact ⟨∅, by simp, fun z _ _ fri _ i hi => Or.inr (Or.inr (hall i hi))⟩
    · push Not at hall
      obtain ⟨i, hi, ha⟩ := hall
      obtain ⟨S, hS1, hS2⟩ := bad_zeta (as := as) hd1 hq ht hz hp hqs hd hdeg hi (hA2 _ ha)
      exact ⟨S, hS1, fun z hz hz1 fri hI => absurd hI (hS2 z hz hz1 fri)⟩

end Verif.Plonk
