import Mathlib.LinearAlgebra.Lagrange
import Mathlib.Algebra.Polynomial.Roots
import Mathlib.LinearAlgebra.FiniteDimensional.Lemmas
import Mathlib.LinearAlgebra.Dimension.Constructions
import Mathlib.RingTheory.Polynomial.Basic

/-!
# Words on a curve that are close to a Reed–Solomon code

Within the unique decoding radius: if `Σ_i β^i f_i` differs from a polynomial of degree below `d` in at most `e` of at
least `2e + d` positions for more than a few `β`, then all `f_i` agree with polynomials of degree below `d` outside of these
positions.  The proof is that of Berlekamp and Welch, with `β` as an indeterminate.
-/

set_option autoImplicit false

namespace Verif.Proximity

open Polynomial

variable {F ι : Type} [Field F] [Fintype F] [DecidableEq F]

/-- The word `Σ_i β^i f_i`. -/
def curve (K : ℕ) (f : ℕ → ι → F) (β : F) (u : ι) : F := ∑ i ∈ Finset.range K, β ^ i * f i u

/-- Positions where the word `f` differs from the polynomial `P`. -/
def errors (D : Finset ι) (x : ι → F) (f : ι → F) (P : F[X]) : Finset ι := D.filter fun u => f u ≠ P.eval (x u)

omit [Fintype F] [DecidableEq F] in
/-- A polynomial with given coefficients which has `K` roots is zero. -/
theorem coeffs_zero {K : ℕ} {a : ℕ → F} {s : Finset F} (hs : K ≤ s.card)
    (h : ∀ β ∈ s, ∑ i ∈ Finset.range K, β ^ i * a i = 0) : ∀ i < K, a i = 0 := by
  classical
  set A : F[X] := ∑ i ∈ Finset.range K, C (a i) * X ^ i with hA
  have hc : ∀ j < K, A.coeff j = a j := by
    intro j hj
    rw [hA, finsetSum_coeff, Finset.sum_eq_single j]
    · rw [coeff_C_mul_X_pow, if_pos rfl]
    · intro b _ hb; rw [coeff_C_mul_X_pow, if_neg (Ne.symm hb)]
    · intro h; exact absurd (Finset.mem_range.2 hj) h
  have hd : A ∈ degreeLT F K := by
    refine Submodule.sum_mem _ fun i hi => ?_
    rw [mem_degreeLT]
    exact lt_of_le_of_lt (degree_C_mul_X_pow_le _ _) (by exact_mod_cast Finset.mem_range.1 hi)
  rw [mem_degreeLT] at hd
  have h0 : A = 0 := by
    refine eq_zero_of_degree_lt_of_eval_finset_eq_zero s (lt_of_lt_of_le hd (by exact_mod_cast hs)) fun β hβ => ?_
    rw [hA, eval_finsetSum, ← h β hβ]
    refine Finset.sum_congr rfl fun i _ => ?_
    rw [eval_mul, eval_C, eval_pow, eval_X, mul_comm]
  intro i hi
  rw [← hc i hi, h0, coeff_zero]

/-- The few `β` with `Σ_i β^i a_i = 0`. -/
def rootsOf (K : ℕ) (a : ℕ → F) : Finset F := Finset.univ.filter fun β => ∑ i ∈ Finset.range K, β ^ i * a i = 0

theorem card_rootsOf {K : ℕ} {a : ℕ → F} (h : ∃ i < K, a i ≠ 0) : (rootsOf K a).card ≤ K - 1 := by
  by_contra hc
  obtain ⟨i, hi, h0⟩ := h
  exact h0 (coeffs_zero (s := rootsOf K a) (by omega) (fun β hβ => (Finset.mem_filter.1 hβ).2) i hi)

omit [Fintype F] in
theorem not_mem_errors {D : Finset ι} {x f : ι → F} {P : F[X]} {u : ι} (hu : u ∈ D) :
    u ∉ errors D x f P ↔ f u = P.eval (x u) := by
  simp [errors, hu]

/-! ## The key equation -/

omit [Fintype F] [DecidableEq F] in
theorem finrank_degreeLT (n : ℕ) : Module.finrank F (degreeLT F n) = n := by
  rw [(degreeLTEquiv F n).finrank_eq, Module.finrank_fin_fun]

instance (n : ℕ) : FiniteDimensional F (degreeLT F n) := (degreeLTEquiv F n).symm.finiteDimensional

/-- The key equation at a point `y` for a word with the value `w` there. -/
noncomputable def keyAt {a b c : ℕ} (m : ℕ) (y : F) (w : F[X]) :
    ((Fin a → degreeLT F b) × (Fin c → degreeLT F m)) →ₗ[F] F[X] where
  toFun v := ∑ i : Fin c, C (y ^ (i : ℕ)) * (v.2 i : F[X]) - (∑ i : Fin a, C (y ^ (i : ℕ)) * (v.1 i : F[X])) * w
  map_add' v v' := by
    simp only [Prod.snd_add, Prod.fst_add, Pi.add_apply, Submodule.coe_add, mul_add, Finset.sum_add_distrib, add_mul]
    ring
  map_smul' r v := by
    simp only [Prod.smul_snd, Prod.smul_fst, Pi.smul_apply, Submodule.coe_smul, smul_eq_C_mul, RingHom.id_apply, mul_sub,
      Finset.mul_sum, Finset.sum_mul]
    refine congrArg₂ _ (Finset.sum_congr rfl fun i _ => by ring) (Finset.sum_congr rfl fun i _ => by ring)

omit [Fintype F] [DecidableEq F] in
theorem sum_mem_degreeLT {a b : ℕ} (y : F) (v : Fin a → degreeLT F b) :
    ∑ i : Fin a, C (y ^ (i : ℕ)) * (v i : F[X]) ∈ degreeLT F b := by
  refine Submodule.sum_mem _ fun i _ => ?_
  rw [← smul_eq_C_mul]
  exact Submodule.smul_mem _ _ (v i).2

omit [Fintype F] [DecidableEq F] in
theorem keyAt_mem {a c K N : ℕ} (y : F) {w : F[X]} (hK : 0 < K) (hw : w.natDegree ≤ K - 1)
    (v : (Fin a → degreeLT F (N + 1)) × (Fin c → degreeLT F (N + K))) : keyAt (N + K) y w v ∈ degreeLT F (N + K) := by
  refine Submodule.sub_mem _ (sum_mem_degreeLT y v.2) ?_
  have h1 := sum_mem_degreeLT y v.1
  rw [mem_degreeLT] at h1 ⊢
  set A := ∑ i : Fin a, C (y ^ (i : ℕ)) * (v.1 i : F[X]) with hA
  by_cases h0 : A * w = 0
  · rw [h0, degree_zero]; exact WithBot.bot_lt_coe _
  · rw [← natDegree_lt_iff_degree_lt h0]
    have h2 := (natDegree_lt_iff_degree_lt (left_ne_zero_of_mul h0)).2 h1
    have h3 := natDegree_mul_le (p := A) (q := w)
    omega

omit [Fintype F] [DecidableEq F] in
/-- A nonzero solution of the key equation at all points, for words of degree below `K` in the indeterminate. -/
theorem exists_key {D : Finset ι} {d e K : ℕ} (hK : 0 < K) (hD : D.card = 2 * e + d) (x : ι → F) (w : ι → F[X])
    (hw : ∀ u, (w u).natDegree ≤ K - 1) :
    ∃ v : (Fin (e + 1) → degreeLT F (e * (K - 1) + 1)) × (Fin (e + d) → degreeLT F (e * (K - 1) + K)), v ≠ 0 ∧
      ∀ u ∈ D, ∑ i : Fin (e + d), C (x u ^ (i : ℕ)) * (v.2 i : F[X]) = (∑ i : Fin (e + 1), C (x u ^ (i : ℕ)) * (v.1 i : F[X])) * w u := by
  set N := e * (K - 1) with hN
  let T : ((Fin (e + 1) → degreeLT F (N + 1)) × (Fin (e + d) → degreeLT F (N + K))) →ₗ[F] (D → degreeLT F (N + K)) :=
    LinearMap.pi fun u => LinearMap.codRestrict _ (keyAt (N + K) (x u) (w u)) fun v => keyAt_mem _ hK (hw _) v
  have hker : LinearMap.ker T ≠ ⊥ := by
    refine LinearMap.ker_ne_bot_of_finrank_lt ?_
    rw [Module.finrank_prod, Module.finrank_pi_fintype, Module.finrank_pi_fintype, Module.finrank_pi_fintype]
    simp only [finrank_degreeLT, Finset.sum_const, Finset.card_univ, Fintype.card_coe, hD, Fintype.card_fin, smul_eq_mul]
    obtain ⟨K, rfl⟩ : ∃ K', K = K' + 1 := ⟨K - 1, by omega⟩
    rw [Nat.add_sub_cancel] at hN
    have h1 : e * (N + (K + 1)) = e * N + N + e := by rw [hN]; ring
    have h2 : (e + 1) * (N + 1) = e * N + N + e + 1 := by ring
    have h3 : (2 * e + d) * (N + (K + 1)) = e * (N + (K + 1)) + (e + d) * (N + (K + 1)) := by ring
    omega
  obtain ⟨v, hv, hv0⟩ := Submodule.exists_mem_ne_zero_of_ne_bot hker
  refine ⟨v, hv0, fun u hu => ?_⟩
  have h := congrArg Subtype.val (congrFun (LinearMap.mem_ker.1 hv) ⟨u, hu⟩)
  exact sub_eq_zero.1 h

omit [Fintype F] [DecidableEq F] in
theorem sum_fin_degree {n : ℕ} (c : Fin n → F) : (∑ i, C (c i) * X ^ (i : ℕ) : F[X]).degree < n := by
  rw [← mem_degreeLT]
  refine Submodule.sum_mem _ fun i _ => ?_
  rw [mem_degreeLT]
  exact lt_of_le_of_lt (degree_C_mul_X_pow_le _ _) (by exact_mod_cast i.2)

omit [Fintype F] [DecidableEq F] in
theorem sum_fin_coeff {n : ℕ} (c : Fin n → F) (j : Fin n) : (∑ i, C (c i) * X ^ (i : ℕ) : F[X]).coeff j = c j := by
  rw [finsetSum_coeff, Finset.sum_eq_single j]
  · rw [coeff_C_mul_X_pow, if_pos rfl]
  · intro b _ hb; rw [coeff_C_mul_X_pow, if_neg fun h => hb (Fin.ext h.symm)]
  · intro h; exact absurd (Finset.mem_univ _) h

omit [Fintype F] [DecidableEq F] in
theorem sum_fin_eval {n : ℕ} (c : Fin n → F) (y : F) :
    (∑ i, C (c i) * X ^ (i : ℕ) : F[X]).eval y = ∑ i : Fin n, y ^ (i : ℕ) * c i := by
  rw [eval_finsetSum]
  exact Finset.sum_congr rfl fun i _ => by rw [eval_mul, eval_C, eval_pow, eval_X, mul_comm]

/-! ## Decoding -/

omit [Fintype F] in
/-- There are `p_i` of degree below `d` such that for all but few `β` every polynomial close to `Σ_i β^i f_i` is
`Σ_i β^i p_i`. -/
theorem curve_decode {D : Finset ι} {x : ι → F} (hx : Set.InjOn x D) {K d e : ℕ} (hK : 0 < K) (hD : D.card = 2 * e + d)
    (f : ℕ → ι → F) :
    ∃ p : ℕ → F[X], (∀ i, (p i).degree < d) ∧ ∃ B : Finset F, B.card ≤ d * (e * (K - 1)) ∧ ∀ β ∉ B, ∀ P : F[X],
      P.degree < d → (errors D x (curve K f β) P).card ≤ e → P = ∑ i ∈ Finset.range K, C (β ^ i) * p i := by
  classical
  let w : ι → F[X] := fun u => ∑ i ∈ Finset.range K, C (f i u) * X ^ i
  have hw : ∀ u, (w u).natDegree ≤ K - 1 := fun u => natDegree_sum_le_of_forall_le _ _ fun i hi =>
    (natDegree_C_mul_X_pow_le _ _).trans (by have := Finset.mem_range.1 hi; omega)
  have hwe : ∀ u β, (w u).eval β = curve K f β u := fun u β => by
    simp only [w, curve, eval_finsetSum, eval_mul, eval_C, eval_pow, eval_X, mul_comm]
  obtain ⟨⟨E, Q⟩, hv0, hkey⟩ := exists_key hK hD x w hw
  -- the locator does not vanish
  have hE : ∃ j i, (E i : F[X]).coeff j ≠ 0 := by
    by_contra hno
    push Not at hno
    have hE0 : E = 0 := funext fun i => Subtype.ext (Polynomial.ext fun j => by rw [hno j i]; rfl)
    apply hv0
    have hQ0 : Q = 0 := by
      refine funext fun i => Subtype.ext (Polynomial.ext fun j => ?_)
      have h0 : (∑ i, C ((Q i : F[X]).coeff j) * X ^ (i : ℕ) : F[X]) = 0 := by
        refine eq_zero_of_degree_lt_of_eval_index_eq_zero (s := D) (v := x) hx
          (lt_of_lt_of_le (sum_fin_degree _) (by exact_mod_cast (by omega : e + d ≤ D.card))) fun u hu => ?_
        have h1 := congrArg (fun P => coeff P j) (hkey u hu)
        simp only [hE0] at h1
        rw [sum_fin_eval]
        simpa [finsetSum_coeff, -map_pow, coeff_C_mul] using h1
      have h1 := sum_fin_coeff (fun i => (Q i : F[X]).coeff j) i
      rw [h0, coeff_zero] at h1
      rw [← h1]
      rfl
    rw [hE0, hQ0]
    rfl
  obtain ⟨j, i0, hj⟩ := hE
  set g : F[X] := ∑ i, C ((E i : F[X]).coeff j) * X ^ (i : ℕ) with hg
  have hg0 : g ≠ 0 := fun h => hj (by rw [← sum_fin_coeff (fun i => (E i : F[X]).coeff j) i0, ← hg, h, coeff_zero])
  have hroots : (D.filter fun u => g.eval (x u) = 0).card ≤ e := by
    by_contra hlt
    refine hg0 (eq_zero_of_degree_lt_of_eval_index_eq_zero (s := D.filter fun u => g.eval (x u) = 0) (v := x)
      (hx.mono fun u hu => (Finset.mem_filter.1 hu).1) (lt_of_lt_of_le (sum_fin_degree _)
        (by exact_mod_cast (by omega : e + 1 ≤ _))) fun u hu => (Finset.mem_filter.1 hu).2)
  have hcard : d ≤ (D.filter fun u => g.eval (x u) ≠ 0).card := by
    have := Finset.card_filter_add_card_filter_not (s := D) (fun u => g.eval (x u) = 0)
    simp only [ne_eq]
    omega
  obtain ⟨T, hTD, hT⟩ := Finset.exists_subset_card_eq hcard
  have hTmem : ∀ u ∈ T, u ∈ D ∧ g.eval (x u) ≠ 0 := fun u hu => Finset.mem_filter.1 (hTD hu)
  have hTinj : Set.InjOn x T := hx.mono fun u hu => (hTmem u hu).1
  let A : ι → F[X] := fun u => ∑ i : Fin (e + 1), C (x u ^ (i : ℕ)) * (E i : F[X])
  have hA0 : ∀ u ∈ T, A u ≠ 0 := by
    intro u hu h0
    apply (hTmem u hu).2
    have h1 := congrArg (fun P => coeff P j) h0
    simp only [A, finsetSum_coeff, coeff_C_mul, coeff_zero] at h1
    rw [hg, sum_fin_eval, h1]
  have hAd : ∀ u ∈ T, (A u).roots.toFinset.card ≤ e * (K - 1) := by
    intro u hu
    refine (Multiset.toFinset_card_le _).trans ((card_roots' _).trans ?_)
    have h1 := mem_degreeLT.1 (sum_mem_degreeLT (x u) E)
    exact Nat.lt_succ_iff.1 ((natDegree_lt_iff_degree_lt (hA0 u hu)).2 h1)
  refine ⟨fun i => Lagrange.interpolate T x (f i), fun i => ?_, T.biUnion fun u => (A u).roots.toFinset, ?_, ?_⟩
  · rw [← hT]; exact Lagrange.degree_interpolate_lt _ hTinj
  · refine Finset.card_biUnion_le.trans ((Finset.sum_le_card_nsmul _ _ _ hAd).trans ?_)
    rw [hT, smul_eq_mul]
  · intro β hβ P hP hPe
    have hAβ : ∀ u ∈ T, (A u).eval β ≠ 0 := fun u hu h => hβ (Finset.mem_biUnion.2 ⟨u, hu, by
      rw [Multiset.mem_toFinset, mem_roots (hA0 u hu)]; exact h⟩)
    have hev : ∀ {n m : ℕ} (v : Fin n → degreeLT F m) (u : ι), (∑ i : Fin n, C (x u ^ (i : ℕ)) * (v i : F[X])).eval β =
        (∑ i, C ((v i : F[X]).eval β) * X ^ (i : ℕ) : F[X]).eval (x u) := by
      intro n m v u
      rw [sum_fin_eval, eval_finsetSum]
      simp only [eval_mul, eval_C]
    have hpt : ∀ u ∈ T, curve K f β u = P.eval (x u) := by
      have hh : (∑ i, C ((Q i : F[X]).eval β) * X ^ (i : ℕ) : F[X]) - (∑ i, C ((E i : F[X]).eval β) * X ^ (i : ℕ)) * P = 0 := by
        refine eq_zero_of_degree_lt_of_eval_index_eq_zero (s := D \ errors D x (curve K f β) P) (v := x)
          (hx.mono fun u hu => (Finset.mem_sdiff.1 hu).1) (lt_of_lt_of_le (b := ((e + d : ℕ) : WithBot ℕ)) ?_ ?_) fun u hu => ?_
        · rw [← mem_degreeLT]
          refine Submodule.sub_mem _ (mem_degreeLT.2 (sum_fin_degree _)) ?_
          rw [mem_degreeLT]
          have hE1 := sum_fin_degree fun i => (E i : F[X]).eval β
          set Eβ := ∑ i, C ((E i : F[X]).eval β) * X ^ (i : ℕ) with hEβ
          by_cases h0 : Eβ * P = 0
          · rw [h0, degree_zero]; exact WithBot.bot_lt_coe _
          · rw [← natDegree_lt_iff_degree_lt h0]
            have h1 := (natDegree_lt_iff_degree_lt (left_ne_zero_of_mul h0)).2 hE1
            have h2 := (natDegree_lt_iff_degree_lt (right_ne_zero_of_mul h0)).2 hP
            have h3 := natDegree_mul_le (p := Eβ) (q := P)
            omega
        · have := Finset.le_card_sdiff (errors D x (curve K f β) P) D
          exact_mod_cast (by omega : e + d ≤ _)
        · obtain ⟨hu, hne⟩ := Finset.mem_sdiff.1 hu
          have h1 := congrArg (eval β) (hkey u hu)
          rw [eval_mul, hev, hev, hwe, (not_mem_errors hu).1 hne] at h1
          rw [eval_sub, eval_mul, h1, sub_self]
      intro u hu
      have h1 := congrArg (eval β) (hkey u (hTmem u hu).1)
      have h2 := congrArg (eval (x u)) hh
      rw [eval_sub, eval_mul, eval_zero, ← hev, ← hev, h1, eval_mul, hwe, ← mul_sub] at h2
      exact sub_eq_zero.1 ((mul_eq_zero.1 h2).resolve_left (hAβ u hu))
    have hPT : P - ∑ i ∈ Finset.range K, C (β ^ i) * Lagrange.interpolate T x (f i) = 0 := by
      refine eq_zero_of_degree_lt_of_eval_index_eq_zero (s := T) (v := x) hTinj ?_ fun u hu => ?_
      · rw [hT, ← mem_degreeLT]
        refine Submodule.sub_mem _ (mem_degreeLT.2 hP) (Submodule.sum_mem _ fun i _ => ?_)
        rw [← smul_eq_C_mul]
        refine Submodule.smul_mem _ _ (mem_degreeLT.2 ?_)
        rw [← hT]; exact Lagrange.degree_interpolate_lt _ hTinj
      · rw [eval_sub, ← hpt u hu, curve, eval_finsetSum, sub_eq_zero]
        exact Finset.sum_congr rfl fun i _ => by
          rw [eval_mul, eval_C, Lagrange.eval_interpolate_at_node _ hTinj hu]
    exact sub_eq_zero.1 hPT

/-- Words on a curve: correlated agreement within the unique decoding radius. -/
theorem curve_close {D : Finset ι} {x : ι → F} (hx : Set.InjOn x D) {K d e : ℕ} (hK : 0 < K) (hD : 2 * e + d ≤ D.card)
    (f : ℕ → ι → F) :
    ∃ p : ℕ → F[X], (∀ i, (p i).degree < d) ∧ ∃ B : Finset F, B.card ≤ (K - 1) * (d * e + e + 1) ∧ ∀ β ∉ B, ∀ P : F[X],
      P.degree < d → (errors D x (curve K f β) P).card ≤ e →
      ∀ u ∈ D, curve K f β u = P.eval (x u) → ∀ i < K, f i u = (p i).eval (x u) := by
  classical
  obtain ⟨D', hD', hc⟩ := Finset.exists_subset_card_eq hD
  obtain ⟨p, hp, B, hB, H⟩ := curve_decode (hx.mono hD') hK hc f
  have hH : ∀ β ∉ B, ∀ P : F[X], P.degree < d → (errors D x (curve K f β) P).card ≤ e →
      ∀ y, P.eval y = ∑ i ∈ Finset.range K, β ^ i * (p i).eval y := by
    intro β hβ P hP he y
    rw [H β hβ P hP ((Finset.card_le_card (Finset.filter_subset_filter _ hD')).trans he), eval_finsetSum]
    simp only [eval_mul, eval_C]
  have hroot : ∀ β ∉ B, ∀ P : F[X], P.degree < d → (errors D x (curve K f β) P).card ≤ e → ∀ u,
      curve K f β u = P.eval (x u) → β ∈ rootsOf K (fun i => f i u - (p i).eval (x u)) := by
    intro β hβ P hP he u h
    refine Finset.mem_filter.2 ⟨Finset.mem_univ _, ?_⟩
    rw [hH β hβ P hP he, curve] at h
    simp only [mul_sub, Finset.sum_sub_distrib]
    rw [h, sub_self]
  -- positions where some coefficient differs, at most `e + 1` of them
  set U : Finset ι := D.filter fun u => ∃ i < K, f i u ≠ (p i).eval (x u) with hU
  obtain ⟨V, hVU, hV1, hV2⟩ : ∃ V ⊆ U, V.card ≤ e + 1 ∧ (V = U ∨ e < V.card) := by
    by_cases h : U.card ≤ e
    · exact ⟨U, subset_rfl, by omega, Or.inl rfl⟩
    · obtain ⟨V, hV, hVc⟩ := Finset.exists_subset_card_eq (show e + 1 ≤ U.card by omega)
      exact ⟨V, hV, hVc.le, Or.inr (by omega)⟩
  refine ⟨p, hp, B ∪ V.biUnion fun u => rootsOf K (fun i => f i u - (p i).eval (x u)), ?_, ?_⟩
  · have h1 : (V.biUnion fun u => rootsOf K (fun i => f i u - (p i).eval (x u))).card ≤ (e + 1) * (K - 1) := by
      refine Finset.card_biUnion_le.trans ((Finset.sum_le_card_nsmul _ _ (K - 1) fun u hu => ?_).trans ?_)
      · obtain ⟨i, hi, hne⟩ := (Finset.mem_filter.1 (hVU hu)).2
        exact card_rootsOf ⟨i, hi, sub_ne_zero.2 hne⟩
      · rw [smul_eq_mul]
        exact Nat.mul_le_mul_right _ hV1
    calc _ ≤ d * (e * (K - 1)) + (e + 1) * (K - 1) := (Finset.card_union_le _ _).trans (Nat.add_le_add hB h1)
      _ = _ := by ring
  · intro β hβ P hP he u hu hv i hi
    rw [Finset.mem_union, not_or] at hβ
    have hnot : ∀ u ∈ V, curve K f β u ≠ P.eval (x u) := fun u hu h =>
      hβ.2 (Finset.mem_biUnion.2 ⟨u, hu, hroot β hβ.1 P hP he u h⟩)
    rcases hV2 with rfl | hV2
    · by_contra hne
      exact hnot u (Finset.mem_filter.2 ⟨hu, i, hi, hne⟩) hv
    · refine absurd (lt_of_lt_of_le hV2 (Finset.card_le_card fun u hu => ?_)) (not_lt.2 he)
      exact Finset.mem_filter.2 ⟨(Finset.mem_filter.1 (hVU hu)).1, hnot u hu⟩

end Verif.Proximity
