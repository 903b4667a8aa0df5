import Verif.Spec.FriWords
import Verif.Proofs.FriComplete
import Verif.Proofs.Proximity

/-!
# FRI: words accepted at most positions are close to polynomials
-/

set_option autoImplicit false

namespace Verif.Fri

open Spec.Fri Spec.Fri.Prover Polynomial Proximity

/-- Leaf of oracle `i` at position `v`. -/
abbrev Words := ℕ → ℕ → List Fp

/-- Value of polynomial `f` at position `v`, according to the words. -/
def wordAt (W : Words) (f : PolynomialInfo) (v : ℕ) : Fp := (W f.oracleIndex v).getD f.polynomialInfo 0

/-- Leaf of 16 evaluations at each position of a folded layer. -/
abbrev Layer := ℕ → List QE

/-! ## Points -/

theorem domain_injOn {m : ℕ} (hm : m ≤ 32) {s : Fp} (hs : s ≠ 0) : Set.InjOn (domain s m) (Finset.range (2 ^ m)) := by
  intro a ha b hb h
  have ha := Finset.mem_range.1 (Finset.mem_coe.1 ha)
  have hb := Finset.mem_range.1 (Finset.mem_coe.1 hb)
  have h1 : omega m ^ bitRev m a = omega m ^ bitRev m b := mul_left_cancel₀ hs h
  have h2 : bitRev m a = bitRev m b :=
    pow_injOn_Iio_orderOf (by rw [orderOf_omega hm]; exact bitRev_lt m a) (by rw [orderOf_omega hm]; exact bitRev_lt m b) h1
  rw [← bitRev_bitRev ha, h2, bitRev_bitRev hb]

theorem ofBase_domain_injOn {m : ℕ} (hm : m ≤ 32) {s : Fp} (hs : s ≠ 0) :
    Set.InjOn (fun v => ofBase (domain s m v)) (Finset.range (2 ^ m)) :=
  fun _ ha _ hb h => domain_injOn hm hs ha hb (congrArg QuadraticAlgebra.re h)

/-! ## Folding -/

/-- The polynomial through a leaf of a layer. -/
noncomputable def leafPoly (s : Fp) (m : ℕ) (L : ℕ → List QE) (w : ℕ) : QE[X] :=
  Lagrange.interpolate (Finset.range 16) (fun i => ofBase (domain s m (16 * w + i))) fun i => (L w).getD i 0

theorem leaf_injOn {k : ℕ} (hk : k + 4 ≤ 32) {s : Fp} (hs : s ≠ 0) (w : ℕ) :
    Set.InjOn (fun i => ofBase (domain s (k + 4) (16 * w + i))) (Finset.range 16) := by
  have h := cosetPoint_injOn (a := 4) (by norm_num) (domain_ne_zero hs (k + 4) (16 * w)) (lowBits 4 (16 * w))
  intro i hi j hj hij
  refine h (by simpa using hi) (by simpa using hj) ?_
  rw [cosetPoint_domain hk s (16 * w) (by simpa using hi), cosetPoint_domain hk s (16 * w) (by simpa using hj)]
  simpa only [Nat.mul_div_cancel_left w (show 0 < 16 by norm_num)] using hij

theorem leafPoly_eval {k : ℕ} (hk : k + 4 ≤ 32) {s : Fp} (hs : s ≠ 0) (L : ℕ → List QE) (w : ℕ) {i : ℕ} (hi : i < 16) :
    (leafPoly s (k + 4) L w).eval (ofBase (domain s (k + 4) (16 * w + i))) = (L w).getD i 0 :=
  Lagrange.eval_interpolate_at_node (v := fun i => ofBase (domain s (k + 4) (16 * w + i))) _ (leaf_injOn hk hs w)
    (Finset.mem_range.2 hi)

theorem leafPoly_sum {k : ℕ} (hk : k + 4 ≤ 32) {s : Fp} (hs : s ≠ 0) (L : ℕ → List QE) (w : ℕ) (y : QE) :
    (leafPoly s (k + 4) L w).eval y = ∑ j ∈ Finset.range 16, y ^ j * (leafPoly s (k + 4) L w).coeff j := by
  have h : (leafPoly s (k + 4) L w).degree < (16 : ℕ) := by
    have h := Lagrange.degree_interpolate_lt (fun i => (L w).getD i 0) (leaf_injOn hk hs w)
    rwa [Finset.card_range] at h
  rw [← value_coeff (d := 16) (by norm_num) h, Prover.value]
  exact Finset.sum_congr rfl fun j _ => mul_comm _ _

theorem fold_eq_curve {k : ℕ} (hk : k + 4 ≤ 32) {s : Fp} (hs : s ≠ 0) (L : ℕ → List QE) (v : ℕ) (β : QE) :
    fold 4 (domain s (k + 4) v) (lowBits 4 v) (L (v / 16)) β =
      curve 16 (fun j w => (leafPoly s (k + 4) L w).coeff j) β (v / 16) := by
  rw [fold_split (by norm_num) (domain_ne_zero hs _ _) _ _ _ (fun j => C ((leafPoly s (k + 4) L (v / 16)).coeff j)), curve]
  · exact Finset.sum_congr rfl fun j _ => by rw [eval_C]
  · intro i hi
    rw [cosetPoint_domain hk s v hi, ← leafPoly_eval hk hs L (v / 16) hi, leafPoly_sum hk hs]
    exact Finset.sum_congr rfl fun j _ => by rw [eval_C]

/-! ## The commit phase -/

/-- Consistency at position `v` of the layers (with their challenges) with each other and with the final polynomial. -/
def Passes (final : List QE) : List (Layer × QE) → Fp → ℕ → ℕ → QE → Prop
  | [], s, m, v, old => old = evalPoly final (ofBase (domain s m v))
  | Lβ :: l, s, m, v, old => (Lβ.1 (v / 16)).getD (v % 16) 0 = old ∧
      Passes final l (s ^ 16) (m - 4) (v / 16) (fold 4 (domain s m v) (lowBits 4 v) (Lβ.1 (v / 16)) Lβ.2)

theorem evalPoly_eq (l : List QE) : ∃ P : QE[X], P.degree < l.length ∧ ∀ y, evalPoly l y = P.eval y := by
  refine ⟨polyOf l.length fun i => l.getD i 0, ?_, fun y => ?_⟩
  · rw [← mem_degreeLT, polyOf]
    refine Submodule.sum_mem _ fun m hm => ?_
    rw [mem_degreeLT]
    exact lt_of_le_of_lt (degree_C_mul_X_pow_le _ _) (by exact_mod_cast Finset.mem_range.1 hm)
  · rw [polyOf_eval, evalPoly, Prover.value]

theorem unfold_degree {d : ℕ} {p : ℕ → QE[X]} (hp : ∀ i, (p i).degree < d) :
    (∑ j ∈ Finset.range 16, X ^ j * (p j).comp (X ^ 16)).degree < ((16 * d : ℕ) : WithBot ℕ) := by
  rw [← mem_degreeLT]
  refine Submodule.sum_mem _ fun j hj => ?_
  rw [mem_degreeLT]
  by_cases h0 : p j = 0
  · rw [h0, zero_comp, mul_zero, degree_zero]; exact WithBot.bot_lt_coe _
  · have h1 : (p j).natDegree < d := (natDegree_lt_iff_degree_lt h0).2 (hp j)
    refine lt_of_le_of_lt degree_le_natDegree ?_
    have h2 : (X ^ j * (p j).comp (X ^ 16)).natDegree ≤ j + (p j).natDegree * 16 := by
      refine natDegree_mul_le.trans (Nat.add_le_add (natDegree_X_pow_le _) ?_)
      rw [natDegree_comp, natDegree_X_pow]
    have h3 := Finset.mem_range.1 hj
    exact_mod_cast (show (X ^ j * (p j).comp (X ^ 16)).natDegree < 16 * d by omega)

theorem commit_sound (k : ℕ) {s : Fp} (hs : s ≠ 0) (m M e : ℕ) (hm : m ≤ 32) (hk : 4 * k ≤ m)
    (he : 2 * e + 16 ^ k * M ≤ 2 ^ m) :
    ∃ bad : ℕ → Layer → Finset QE, (∀ j L, (bad j L).card ≤ 15 * (16 ^ k * M * e + e + 1)) ∧
      ∀ layers : List (Layer × QE), layers.length = k → (∀ j L β, layers[j]? = some (L, β) → β ∉ bad j L) →
      ∀ final : List QE, final.length ≤ M → ∀ (f : ℕ → QE) (R : Finset ℕ), R.card ≤ e →
        (∀ v < 2 ^ m, v ∉ R → Passes final layers s m v (f v)) →
      ∃ P : QE[X], P.degree < ((16 ^ k * M : ℕ) : WithBot ℕ) ∧ ∀ v < 2 ^ m, v ∉ R → f v = P.eval (ofBase (domain s m v)) := by
  induction k generalizing s m e with
  | zero =>
    refine ⟨fun _ _ => ∅, by simp, fun layers hl _ final hM f R _ hR => ?_⟩
    obtain rfl := List.length_eq_zero_iff.1 hl
    obtain ⟨P, hP, hPe⟩ := evalPoly_eq final
    refine ⟨P, lt_of_lt_of_le hP ?_, fun v hv hvR => ?_⟩
    · rw [pow_zero, one_mul]; exact_mod_cast hM
    · have h := hR v hv hvR
      rw [Passes, hPe] at h
      exact h
  | succ k ih =>
    obtain ⟨m, rfl⟩ : ∃ m', m = m' + 4 := ⟨m - 4, by omega⟩
    have hs16 : s ^ 16 ≠ 0 := pow_ne_zero _ hs
    have hsize : 2 * (e / 16) + 16 ^ k * M ≤ 2 ^ m := by
      have h1 : 2 * e + 16 * (16 ^ k * M) ≤ 16 * 2 ^ m := by
        rw [pow_succ, pow_add] at he
        calc _ = 2 * e + 16 ^ k * 16 * M := by ring
          _ ≤ 2 ^ m * 2 ^ 4 := he
          _ = _ := by ring
      omega
    have hbound : 15 * (16 ^ k * M * (e / 16) + e / 16 + 1) ≤ 15 * (16 ^ (k + 1) * M * e + e + 1) := by
      have h1 : 16 ^ k * M * (e / 16) ≤ 16 ^ (k + 1) * M * e :=
        Nat.mul_le_mul (Nat.mul_le_mul_right _ (Nat.pow_le_pow_right (by norm_num) (by omega))) (Nat.div_le_self _ _)
      have h2 := Nat.div_le_self e 16
      omega
    have hinj := ofBase_domain_injOn (m := m) (by omega) hs16
    choose p hp B hB H using fun L : Layer => curve_close hinj (K := 16) (d := 16 ^ k * M) (e := e / 16) (by norm_num)
      (by rw [Finset.card_range]; exact hsize) fun j w => (leafPoly s (m + 4) L w).coeff j
    obtain ⟨bad', hbad', H'⟩ := ih hs16 m (e / 16) (by omega) (by omega) hsize
    refine ⟨fun j => match j with
      | 0 => B
      | j + 1 => bad' j, ?_, ?_⟩
    · intro j L
      cases j with
      | zero => exact (hB L).trans hbound
      | succ j => exact (hbad' j L).trans hbound
    intro layers hl hb final hM f R hRe hR
    cases layers with
    | nil => simp at hl
    | cons Lβ l =>
    obtain ⟨L, β⟩ := Lβ
    classical
    have hβ : β ∉ B L := hb 0 L β rfl
    set g : ℕ → ℕ → QE := fun j w => (leafPoly s (m + 4) L w).coeff j with hg
    set R' : Finset ℕ := (Finset.range (2 ^ m)).filter fun w => ¬ Passes final l (s ^ 16) m w (curve 16 g β w) with hR'
    have hpass : ∀ v < 2 ^ (m + 4), v ∉ R → (L (v / 16)).getD (v % 16) 0 = f v ∧ v / 16 ∉ R' := by
      intro v hv hvR
      have h := hR v hv hvR
      rw [Passes, fold_eq_curve hm hs, Nat.add_sub_cancel] at h
      exact ⟨h.1, fun h' => (Finset.mem_filter.1 h').2 h.2⟩
    have hcard : R'.card ≤ e / 16 := by
      have h1 : (R'.biUnion fun w => (Finset.range 16).image fun i => 16 * w + i) ⊆ R := by
        intro v hv
        obtain ⟨w, hw, hv⟩ := Finset.mem_biUnion.1 hv
        obtain ⟨i, hi, rfl⟩ := Finset.mem_image.1 hv
        have hi := Finset.mem_range.1 hi
        have hw' := Finset.mem_range.1 (Finset.mem_filter.1 hw).1
        by_contra hnR
        have h2 := (hpass (16 * w + i) (by rw [pow_add]; omega) hnR).2
        rw [show (16 * w + i) / 16 = w by omega] at h2
        exact h2 hw
      have h2 := Finset.card_le_card h1
      rw [Finset.card_biUnion] at h2
      · have h3 : ∀ w ∈ R', ((Finset.range 16).image fun i => 16 * w + i).card = 16 := by
          intro w _
          rw [Finset.card_image_of_injective _ fun a b h => by simpa using h, Finset.card_range]
        rw [Finset.sum_congr rfl h3, Finset.sum_const, smul_eq_mul] at h2
        omega
      · intro a _ b _ hab
        rw [Function.onFun, Finset.disjoint_left]
        intro v hv hv'
        obtain ⟨i, hi, rfl⟩ := Finset.mem_image.1 hv
        obtain ⟨j, hj, h⟩ := Finset.mem_image.1 hv'
        have hi := Finset.mem_range.1 hi
        have hj := Finset.mem_range.1 hj
        omega
    obtain ⟨P', hP', hPe⟩ := H' l (by simpa using hl) (fun j L γ hj => hb (j + 1) L γ (by simpa using hj)) final hM
      (curve 16 g β) R' hcard fun w hw hwR => by
        by_contra h
        exact hwR (Finset.mem_filter.2 ⟨Finset.mem_range.2 hw, h⟩)
    have herr : errors (Finset.range (2 ^ m)) (fun v => ofBase (domain (s ^ 16) m v)) (curve 16 g β) P' ⊆ R' := by
      intro w hw
      obtain ⟨hw, hne⟩ := Finset.mem_filter.1 hw
      by_contra h
      exact hne (hPe w (Finset.mem_range.1 hw) h)
    have hpe := H L β hβ P' hP' ((Finset.card_le_card herr).trans hcard)
    refine ⟨∑ j ∈ Finset.range 16, X ^ j * (p L j).comp (X ^ 16), ?_, fun v hv hvR => ?_⟩
    · rw [show 16 ^ (k + 1) * M = 16 * (16 ^ k * M) by rw [pow_succ]; ring]
      exact unfold_degree (hp L)
    · obtain ⟨h1, h2⟩ := hpass v hv hvR
      have hv' : v / 16 < 2 ^ m := by rw [pow_add] at hv; omega
      have h3 := hpe (v / 16) (Finset.mem_range.2 hv') (hPe (v / 16) hv' h2)
      rw [← h1, ← leafPoly_eval hm hs L (v / 16) (Nat.mod_lt v (by norm_num)), Nat.div_add_mod, leafPoly_sum hm hs,
        eval_finsetSum]
      refine Finset.sum_congr rfl fun j hj => ?_
      rw [eval_mul, eval_pow, eval_X, eval_comp, eval_pow, eval_X, ← ofBase_pow, ← ofBase_pow, domain_pow hm,
        ← h3 j (Finset.mem_range.1 hj)]

theorem passes_of_chain {ci : ℕ} {final : List QE} (layers : List Layer) (betas : List QE) (caps : List (List Fr))
    (steps : List (FriQueryStep QE)) (s : Fp) (m v : ℕ) (old : QE) (hm : m ≤ 32) (hl : 4 * layers.length ≤ m)
    (hst : steps.length = layers.length) (hbetas : layers.length ≤ betas.length) (hcaps : layers.length ≤ caps.length)
    (h : ∀ (j : ℕ) (st : FriQueryStep QE) (L : Layer), steps[j]? = some st → layers[j]? = some L → st.evals = L (v / 16 ^ (j + 1)))
    (hc : Chain ci final ((steps.zip (betas.zip caps)).map fun s => ⟨s.1, s.2.1, s.2.2⟩) (lowBits m v) (domain s m v) old) :
    Passes final (layers.zip betas) s m v old := by
  induction layers generalizing betas caps steps s m v old with
  | nil =>
    obtain rfl := List.length_eq_zero_iff.1 hst
    rw [List.zip_nil_left, List.map_nil, Chain] at hc
    rw [List.zip_nil_left, Passes, hc]
  | cons L l ih =>
    rw [List.length_cons] at hl hst hcaps hbetas
    obtain ⟨m, rfl⟩ : ∃ m', m = m' + 4 := ⟨m - 4, by omega⟩
    cases steps with
    | nil => simp at hst
    | cons st steps =>
    cases caps with
    | nil => simp at hcaps
    | cons cap caps =>
    cases betas with
    | nil => simp at hbetas
    | cons β betas =>
    have hev : st.evals = L (v / 16) := by simpa using h 0 st L rfl rfl
    rw [List.zip_cons_cons, List.zip_cons_cons, List.map_cons, Chain, lowBits_take (by omega), lowBits_drop (by omega),
      Nat.add_sub_cancel, domain_pow hm] at hc
    obtain ⟨h1, -, -, h4⟩ := hc
    dsimp only at h1 h4
    rw [hev] at h1 h4
    rw [List.zip_cons_cons, Passes, Nat.add_sub_cancel]
    refine ⟨?_, ih betas caps steps (s ^ 16) m (v / 16) _ (by omega) (by omega) (by simpa using hst)
      (by simpa using hbetas) (by simpa using hcaps) (fun j t L hj hL => ?_) h4⟩
    · rw [bitsVal_lowBits] at h1
      exact h1
    · have := h (j + 1) t L (by simpa using hj) (by simpa using hL)
      rw [this, pow_succ' 16 (j + 1), ← Nat.div_div_eq_div_mul]

/-! ## The batched quotient -/

/-- The quotients combined by `alpha`, in the order of its powers. -/
def quots (ev : PolynomialInfo → QE) (x : QE) : List (BatchInfo QE × List QE) → List QE
  | [] => []
  | bo :: l => quots ev x l ++ (bo.1.polynomials.zip bo.2).map fun fy => (ev fy.1 - fy.2) / (x - bo.1.point)

theorem evalPoly_append (a b : List QE) (α : QE) : evalPoly (a ++ b) α = evalPoly a α + α ^ a.length * evalPoly b α := by
  rw [evalPoly, evalPoly, evalPoly, List.length_append, Finset.sum_range_add, Finset.mul_sum]
  refine congrArg₂ _ (Finset.sum_congr rfl fun i hi => ?_) (Finset.sum_congr rfl fun i _ => ?_)
  · rw [List.getD_append _ _ _ _ (Finset.mem_range.1 hi)]
  · rw [List.getD_append_right _ _ _ _ (by omega), Nat.add_sub_cancel_left, pow_add]; ring

theorem quots_length (ev : PolynomialInfo → QE) (x : QE) (l : List (BatchInfo QE × List QE))
    (h : ∀ bo ∈ l, bo.2.length = bo.1.polynomials.length) :
    (quots ev x l).length = (l.map fun bo => bo.1.polynomials.length).sum := by
  induction l with
  | nil => rfl
  | cons bo l ih =>
    rw [quots, List.length_append, ih fun b hb => h b (by simp [hb]), List.length_map, List.length_zip, h bo (by simp),
      min_self, List.map_cons, List.sum_cons, Nat.add_comm]

theorem evalPoly_quot (ev : PolynomialInfo → QE) (d α : QE) (fs : List PolynomialInfo) (ys : List QE)
    (h : ys.length = fs.length) :
    evalPoly ((fs.zip ys).map fun fy => (ev fy.1 - fy.2) / d) α = (evalPoly (fs.map ev) α - evalPoly ys α) / d := by
  simp only [evalPoly, List.length_map, List.length_zip, h, min_self, ← Finset.sum_sub_distrib, div_eq_mul_inv, Finset.sum_mul]
  refine Finset.sum_congr rfl fun i hi => ?_
  have hi := Finset.mem_range.1 hi
  rw [List.getD_eq_getElem _ _ (by simpa [h] using hi), List.getD_eq_getElem _ _ (by simpa using hi),
    List.getD_eq_getElem _ _ (by omega)]
  simp only [List.getElem_map, List.getElem_zip]
  ring

theorem combine_quots (ev : PolynomialInfo → QE) (x α : QE) (l : List (BatchInfo QE × List QE))
    (h : ∀ bo ∈ l, bo.2.length = bo.1.polynomials.length) :
    combine α x (l.map fun bo => ⟨bo.1.point, bo.1.polynomials.map ev, evalPoly bo.2 α⟩) = evalPoly (quots ev x l) α := by
  induction l with
  | nil => simp [combine, quots, evalPoly]
  | cons bo l ih =>
    have h' : ∀ b ∈ l, b.2.length = b.1.polynomials.length := fun b hb => h b (by simp [hb])
    rw [List.map_cons, combine, ih h', quots, evalPoly_append, evalPoly_quot _ _ _ _ _ (h bo (by simp)), quots_length _ _ _ h',
      List.map_map]
    simp only [Function.comp_def, List.length_map]
    ring

theorem quots_mem (l : List (BatchInfo QE × List QE)) (h : ∀ bo ∈ l, bo.2.length = bo.1.polynomials.length)
    {bo : BatchInfo QE × List QE} (hbo : bo ∈ l) {fy : PolynomialInfo × QE} (hfy : fy ∈ bo.1.polynomials.zip bo.2) :
    ∃ t < (l.map fun bo => bo.1.polynomials.length).sum, ∀ (ev : PolynomialInfo → QE) (x : QE),
      (quots ev x l).getD t 0 = (ev fy.1 - fy.2) / (x - bo.1.point) := by
  induction l with
  | nil => simp at hbo
  | cons b l ih =>
    have h' : ∀ b ∈ l, b.2.length = b.1.polynomials.length := fun b hb => h b (by simp [hb])
    rw [List.map_cons, List.sum_cons]
    rcases List.mem_cons.1 hbo with rfl | hbo
    · obtain ⟨i, hi, rfl⟩ := List.getElem_of_mem hfy
      have hi' := hi
      rw [List.length_zip, h bo (by simp), min_self] at hi'
      refine ⟨(l.map fun bo => bo.1.polynomials.length).sum + i, by omega, fun ev x => ?_⟩
      rw [quots, List.getD_append_right _ _ _ _ (by rw [quots_length _ _ _ h']; omega), quots_length _ _ _ h',
        Nat.add_sub_cancel_left, List.getD_eq_getElem _ _ (by simpa using hi), List.getElem_map]
    · obtain ⟨t, ht, H⟩ := ih h' hbo
      refine ⟨t, by omega, fun ev x => ?_⟩
      rw [quots, List.getD_append _ _ _ _ (by rw [quots_length _ _ _ h']; exact ht), H]

theorem evalPoly_curve {T : ℕ} (q : ℕ → List QE) (hT : ∀ v, (q v).length = T) (α : QE) (v : ℕ) :
    evalPoly (q v) α = curve T (fun t v => (q v).getD t 0) α v := by
  rw [evalPoly, curve, hT]
  exact Finset.sum_congr rfl fun i _ => mul_comm _ _

/-! ## Polynomials over the base field -/

/-- A polynomial of degree at most `d` over the extension with base values at more than `d` base points comes from the
base field. -/
theorem base_poly {D : Finset ℕ} {x w : ℕ → Fp} (hx : Set.InjOn x D) {d : ℕ} (hD : D.card = d + 1) {G : QE[X]}
    (hG : G.natDegree ≤ d) (h : ∀ v ∈ D, G.eval (ofBase (x v)) = ofBase (w v)) :
    G = (Lagrange.interpolate D x w).map base := by
  have hd := Lagrange.degree_interpolate_lt w hx
  rw [← sub_eq_zero]
  refine eq_zero_of_degree_lt_of_eval_index_eq_zero (s := D) (v := fun v => ofBase (x v))
    (fun a ha b hb h => hx ha hb (congrArg QuadraticAlgebra.re h)) ?_ fun v hv => ?_
  · refine lt_of_le_of_lt (degree_sub_le _ _) (max_lt ?_ (lt_of_le_of_lt degree_map_le hd))
    rw [hD]
    exact lt_of_le_of_lt degree_le_natDegree (by exact_mod_cast Nat.lt_succ_of_le hG)
  · rw [eval_sub, h v hv, eval_map, eval₂_base, Lagrange.eval_interpolate_at_node _ hx hv, sub_self]

/-! ## Decoding -/

/-- `P` agrees with the word up to `e` positions. -/
def Near (n d e : ℕ) (w : ℕ → Fp) (P : Fp[X]) : Prop :=
  P.natDegree ≤ d ∧ ∃ R : Finset ℕ, R.card ≤ e ∧ ∀ v < 2 ^ n, v ∉ R → w v = P.eval (domain 7 n v)

open Classical in
/-- The polynomial near to a word, if there is one. -/
noncomputable def decode (n d e : ℕ) (w : ℕ → Fp) : Fp[X] := if h : ∃ P, Near n d e w P then h.choose else 0

theorem decode_natDegree (n d e : ℕ) (w : ℕ → Fp) : (decode n d e w).natDegree ≤ d := by
  rw [decode]
  split_ifs with h
  · exact h.choose_spec.1
  · rw [natDegree_zero]; exact Nat.zero_le _

theorem decode_eq {n d e : ℕ} (hn : n ≤ 32) (he : 2 * e + d < 2 ^ n) {w : ℕ → Fp} {P : Fp[X]} (hP : Near n d e w P) :
    decode n d e w = P := by
  classical
  have h : ∃ P, Near n d e w P := ⟨P, hP⟩
  rw [decode, dif_pos h]
  obtain ⟨hd, R, hR, hw⟩ := h.choose_spec
  obtain ⟨hd', R', hR', hw'⟩ := hP
  rw [← sub_eq_zero]
  refine eq_zero_of_degree_lt_of_eval_index_eq_zero (s := Finset.range (2 ^ n) \ (R ∪ R')) (v := domain 7 n)
    ((domain_injOn hn seven_ne_zero).mono fun v hv => (Finset.mem_sdiff.1 hv).1) ?_ fun v hv => ?_
  · refine lt_of_le_of_lt degree_le_natDegree ?_
    have h1 := natDegree_sub_le h.choose P
    have h2 := Finset.le_card_sdiff (R ∪ R') (Finset.range (2 ^ n))
    have h3 := Finset.card_union_le R R'
    rw [Finset.card_range] at h2
    exact_mod_cast (show (h.choose - P).natDegree < (Finset.range (2 ^ n) \ (R ∪ R')).card by omega)
  · obtain ⟨h1, h2⟩ := Finset.mem_sdiff.1 hv
    rw [Finset.mem_union, not_or] at h2
    rw [eval_sub, ← hw v (Finset.mem_range.1 h1) h2.1, ← hw' v (Finset.mem_range.1 h1) h2.2, sub_self]

/-! ## Soundness -/

/-- Sum of the quotients at position `v`, according to the words. -/
noncomputable def quotientAt (n : ℕ) (W : Words) (l : List (BatchInfo QE × List QE)) (α : QE) (v : ℕ) : QE :=
  evalPoly (quots (fun f => ofBase (wordAt W f v)) (ofBase (domain 7 n v)) l) α

theorem batch_sound (n d e : ℕ) (hn : n ≤ 32) (hd0 : 1 ≤ d) (he : 2 * e + d < 2 ^ n) (W : Words)
    (l : List (BatchInfo QE × List QE)) (hopen : ∀ bo ∈ l, bo.2.length = bo.1.polynomials.length) (T : ℕ)
    (hT : T = (l.map fun bo => bo.1.polynomials.length).sum) :
    ∃ A : Finset QE, A.card ≤ (T - 1) * (d * e + e + 1) ∧ ∀ α ∉ A, ∀ P : QE[X], P.degree < d →
      ∀ R : Finset ℕ, R.card ≤ e →
      (∀ v < 2 ^ n, v ∉ R → (∀ bo ∈ l, ofBase (domain 7 n v) ≠ bo.1.point) ∧
        quotientAt n W l α v = P.eval (ofBase (domain 7 n v))) →
      ∀ bo ∈ l, ∀ fy ∈ bo.1.polynomials.zip bo.2, (decode n d e (wordAt W fy.1)).eval₂ base bo.1.point = fy.2 := by
  classical
  rcases Nat.eq_zero_or_pos T with hT0 | hTpos
  · refine ⟨∅, by simp, fun α _ P _ R _ _ bo hbo fy hfy => ?_⟩
    obtain ⟨t, ht, -⟩ := quots_mem l hopen hbo hfy
    omega
  set ev : ℕ → PolynomialInfo → QE := fun v f => ofBase (wordAt W f v) with hev
  set x : ℕ → QE := fun v => ofBase (domain 7 n v) with hx
  have hinj : Set.InjOn x (Finset.range (2 ^ n)) := ofBase_domain_injOn hn seven_ne_zero
  have hqT : ∀ v, (quots (ev v) (x v) l).length = T := fun v => by rw [quots_length _ _ _ hopen, hT]
  obtain ⟨p, hp, A, hA, HA⟩ := curve_close hinj (d := d) hTpos (by rw [Finset.card_range]; exact he.le)
    (fun t v => (quots (ev v) (x v) l).getD t 0)
  refine ⟨A, hA, fun α hα P hP R hR hpass bo hbo fy hfy => ?_⟩
  have hPe : ∀ v < 2 ^ n, v ∉ R → curve T (fun t v => (quots (ev v) (x v) l).getD t 0) α v = P.eval (x v) := by
    intro v hv hvR
    rw [← evalPoly_curve (fun v => quots (ev v) (x v) l) hqT]
    exact (hpass v hv hvR).2
  -- there are enough positions
  have hcard : d + 1 ≤ (Finset.range (2 ^ n) \ R).card := by
    have h1 := Finset.le_card_sdiff R (Finset.range (2 ^ n))
    rw [Finset.card_range] at h1
    omega
  obtain ⟨D, hDR, hD⟩ := Finset.exists_subset_card_eq hcard
  have hDmem : ∀ v ∈ D, v < 2 ^ n ∧ v ∉ R := fun v hv => by
    have := Finset.mem_sdiff.1 (hDR hv)
    exact ⟨Finset.mem_range.1 this.1, this.2⟩
  have hDinj : Set.InjOn (domain 7 n) D := (domain_injOn hn seven_ne_zero).mono fun v hv => by
    simpa using (hDmem v hv).1
  have herr : (errors (Finset.range (2 ^ n)) x (curve T (fun t v => (quots (ev v) (x v) l).getD t 0) α) P).card ≤ e := by
    refine le_trans (Finset.card_le_card fun v hv => ?_) hR
    obtain ⟨hv, hne⟩ := Finset.mem_filter.1 hv
    by_contra h
    exact hne (hPe v (Finset.mem_range.1 hv) h)
  have hpe := HA α hα P hP herr
  obtain ⟨t, ht, hq⟩ := quots_mem l hopen hbo hfy
  rw [← hT] at ht
  set G : QE[X] := C fy.2 + (X - C bo.1.point) * p t with hG
  have hGe : ∀ v < 2 ^ n, v ∉ R → G.eval (x v) = ofBase (wordAt W fy.1 v) := by
    intro v hv hvR
    have h1 := hpe v (Finset.mem_range.2 hv) (hPe v hv hvR) t ht
    rw [hq] at h1
    have h2 : x v - bo.1.point ≠ 0 := sub_ne_zero.2 ((hpass v hv hvR).1 _ hbo)
    rw [hG, eval_add, eval_mul, eval_sub, eval_X, eval_C, eval_C, ← h1, mul_div_cancel₀ _ h2]
    ring
  have hGd : G.natDegree ≤ d := by
    refine natDegree_add_le_of_degree_le (by rw [natDegree_C]; exact Nat.zero_le _) ?_
    refine natDegree_mul_le.trans ?_
    rw [natDegree_X_sub_C]
    by_cases h0 : p t = 0
    · rw [h0, natDegree_zero]; exact hd0
    · have := (natDegree_lt_iff_degree_lt h0).2 (hp t)
      omega
  have hGm := base_poly hDinj hD hGd fun v hv => hGe v (hDmem v hv).1 (hDmem v hv).2
  have hd := Lagrange.degree_interpolate_lt (fun v => wordAt W fy.1 v) hDinj
  rw [decode_eq hn he (P := Lagrange.interpolate D (domain 7 n) fun v => wordAt W fy.1 v) ⟨?_, R, hR, fun v hv hvR => ?_⟩]
  · rw [← eval_map, ← hGm, hG]
    simp
  · rw [hD] at hd
    by_cases h0 : Lagrange.interpolate D (domain 7 n) (fun v => wordAt W fy.1 v) = 0
    · rw [h0, natDegree_zero]; exact Nat.zero_le _
    · exact Nat.le_of_lt_succ ((natDegree_lt_iff_degree_lt h0).2 hd)
  · have := hGe v hv hvR
    rw [hGm, eval_map, eval₂_base] at this
    exact (congrArg QuadraticAlgebra.re this).symm

end Verif.Fri
