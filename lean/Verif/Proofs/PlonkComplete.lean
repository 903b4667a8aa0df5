import Verif.Proofs.PlonkPoly

/-!
# PLONK: every satisfied trace has a proof
-/

set_option autoImplicit false

namespace Verif

open Polynomial

theorem PolyL.reduce {D k : ℕ} {F : QE → List QE} (h : PolyL D k F) (a : Fp) :
    Poly D k fun z => ∑ j ∈ Finset.range (F z).length, (F z).getD j 0 * ofBase a ^ j := by
  obtain ⟨L, h1, h2⟩ := h
  have h3 : (fun z => ∑ j ∈ Finset.range (F z).length, (F z).getD j 0 * ofBase a ^ j) =
      fun z => ∑ j ∈ Finset.range L.length, (F z).getD j 0 * ofBase (a ^ j) := by
    funext z
    rw [h1, List.length_map]
    exact Finset.sum_congr rfl fun j _ => by rw [Verif.Fri.ofBase_pow]
  rw [h3]
  exact Poly.sum _ fun j _ => ((PolyL.getD ⟨L, h1, h2⟩ j).mul (Poly.base (k := 0) _) le_rfl)

namespace Plonk

open Spec.Plonk Degree
open Spec.Fri (omega)
open Spec.Fri.Prover (base)
open Verif.Fri (omega_pow_card orderOf_omega omega_ne_zero ofBase_mul ofBase_pow)

variable {c : CommonCircuitData}

theorem omega_injOn (hd : c.degreeBits ≤ 32) : Set.InjOn (fun m => omega c.degreeBits ^ m) (Finset.range (n c)) := by
  intro a ha b hb h
  exact pow_injOn_Iio_orderOf (by rw [orderOf_omega hd]; simpa [n] using ha) (by rw [orderOf_omega hd]; simpa [n] using hb) h

/-! ## Division by the vanishing polynomial -/

/-- The `k`-th chunk of `N` coefficients. -/
noncomputable def chunk (N : ℕ) (Q : Fp[X]) (k : ℕ) : Fp[X] := ∑ m ∈ Finset.range N, C (Q.coeff (N * k + m)) * X ^ m

theorem chunk_degree (N : ℕ) (Q : Fp[X]) (k : ℕ) : (chunk N Q k).degree < N := by
  rw [chunk, ← mem_degreeLT]
  refine Submodule.sum_mem _ fun m hm => ?_
  rw [mem_degreeLT]
  exact lt_of_le_of_lt (degree_C_mul_X_pow_le _ _) (by exact_mod_cast Finset.mem_range.1 hm)

theorem sum_range_chunks (N M : ℕ) (f : ℕ → QE) :
    ∑ k ∈ Finset.range (N * M), f k = ∑ t ∈ Finset.range M, ∑ j ∈ Finset.range N, f (N * t + j) := by
  induction M with
  | zero => simp
  | succ M ih => rw [Nat.mul_succ, Finset.sum_range_add, ih, Finset.sum_range_succ _ M]

theorem chunks_eval (N M : ℕ) (Q : Fp[X]) (h : Q.natDegree < N * M) (z : QE) :
    value z Q = ∑ k ∈ Finset.range M, value z (chunk N Q k) * (z ^ N) ^ k := by
  rw [value, eval₂_eq_sum_range' _ h, sum_range_chunks]
  refine Finset.sum_congr rfl fun k _ => ?_
  rw [value, chunk, eval₂_finsetSum, Finset.sum_mul]
  refine Finset.sum_congr rfl fun m _ => ?_
  rw [eval₂_mul, eval₂_C, eval₂_X_pow, pow_add, pow_mul]; ring

theorem vanish_divides (hd : c.degreeBits ≤ 32) (P : Fp[X]) (hP : ∀ m < n c, P.eval (omega c.degreeBits ^ m) = 0) :
    P = (X ^ n c - C 1) * (P /ₘ (X ^ n c - C 1)) := by
  have hm : (X ^ n c - C (1 : Fp)).Monic := monic_X_pow_sub_C 1 n_pos.ne'
  have hdiv := modByMonic_add_div P (X ^ n c - C (1 : Fp))
  have hR : P %ₘ (X ^ n c - C 1) = 0 := by
    refine eq_zero_of_degree_lt_of_eval_index_eq_zero (s := Finset.range (n c))
      (omega_injOn hd) ?_ fun m hm' => ?_
    · rw [Finset.card_range]
      have := degree_modByMonic_lt P hm
      rwa [degree_X_pow_sub_C n_pos] at this
    · have h1 := congrArg (eval (omega c.degreeBits ^ m)) hdiv
      rw [eval_add, eval_mul, hP m (Finset.mem_range.1 hm'), eval_sub, eval_pow, eval_X, eval_C, ← pow_mul, mul_comm m,
        pow_mul, show omega c.degreeBits ^ n c = 1 from omega_pow_card hd, one_pow, sub_self, zero_mul, add_zero] at h1
      exact h1
  rw [hR, zero_add] at hdiv
  exact hdiv.symm

theorem quotient_exists (hd : c.degreeBits ≤ 32) {q : ℕ} (hq : q ≠ 0) (P : Fp[X])
    (hP : ∀ m < n c, P.eval (omega c.degreeBits ^ m) = 0) (hdeg : P.natDegree ≤ (q + 1) * (n c - 1)) :
    ∃ Q : Fp[X], ∀ z, value z P = (z ^ n c - 1) * ∑ k ∈ Finset.range q, value z (chunk (n c) Q k) * (z ^ n c) ^ k := by
  refine ⟨P /ₘ (X ^ n c - C 1), fun z => ?_⟩
  rw [← chunks_eval]
  · conv_lhs => rw [vanish_divides hd P hP]
    rw [value, eval₂_mul, eval₂_sub, eval₂_X_pow, eval₂_C, map_one]; rfl
  · rw [natDegree_divByMonic _ (monic_X_pow_sub_C 1 n_pos.ne'), natDegree_X_pow_sub_C]
    have h1 : 0 < n c := n_pos
    obtain ⟨N, hN⟩ : ∃ N, n c = N + 1 := ⟨n c - 1, by omega⟩
    rw [hN] at hdeg ⊢
    rw [Nat.add_sub_cancel] at hdeg
    obtain ⟨q, rfl⟩ : ∃ r, q = r + 1 := ⟨q - 1, by omega⟩
    have h2 : (q + 1 + 1) * N < (N + 1) * (q + 1) + (N + 1) := by ring_nf; omega
    have h3 : 0 < (N + 1) * (q + 1) := by positivity
    omega

/-! ## Rows -/

variable {t : Trace} {zs pps qs : List Fp[X]} {bs gs as : List Fp} {fri : FriChallenges Fp QE}

theorem numerator_row (m i j : ℕ) : numerator c (chAt bs gs as fri (ofBase (omega c.degreeBits ^ m)))
    (openings c t zs pps qs (ofBase (omega c.degreeBits ^ m))) i j =
      ofBase (t.num c (bs.getD i 0) (gs.getD i 0) m j) := by
  simp only [numerator, openings, map_getD, value_ofBase, Trace.num, name, Trace.wire]
  rw [← ofBase_nat]
  simp only [QuadraticAlgebra.C_add, ofBase_mul]
  ring

theorem denominator_row (m i j : ℕ) : denominator (chAt bs gs as fri (ofBase (omega c.degreeBits ^ m)))
    (openings c t zs pps qs (ofBase (omega c.degreeBits ^ m))) i j =
      ofBase (t.den c (bs.getD i 0) (gs.getD i 0) m j) := by
  simp only [denominator, openings, map_getD, value_ofBase, Trace.den, Trace.wire]
  simp only [QuadraticAlgebra.C_add, ofBase_mul]
  ring

variable (c) in
/-- Accumulators in row `m`. -/
noncomputable def accRow (zs pps : List Fp[X]) (i m k : ℕ) : Fp :=
  if k = 0 then (zs.getD i 0).eval (omega c.degreeBits ^ m)
  else if k ≤ c.numPartialProducts then
    (pps.getD (i * c.numPartialProducts + (k - 1)) 0).eval (omega c.degreeBits ^ m)
  else (zs.getD i 0).eval (omega c.degreeBits ^ (m + 1))

theorem acc_row (m i k : ℕ) : acc c (openings c t zs pps qs (ofBase (omega c.degreeBits ^ m))) i k =
    ofBase (accRow c zs pps i m k) := by
  rw [acc, accRow]
  split_ifs
  · simp only [openings, map_getD, value_ofBase]
  · simp only [openings, map_getD, value_ofBase]
  · simp only [openings, map_getD, ← ofBase_mul, ← pow_succ', value_ofBase]

theorem row_row (m : ℕ) (h : Fin 4 → Fp) : row (openings c t zs pps qs (ofBase (omega c.degreeBits ^ m))) h =
    ⟨fun i => ofBase ((t.constants.getD i 0).eval (omega c.degreeBits ^ m)),
      fun i => ofBase ((t.wires.getD i 0).eval (omega c.degreeBits ^ m)), h⟩ := by
  simp only [row, openings, map_getD, value_ofBase]

theorem ofBase_prod {ι : Type} (s : Finset ι) (f : ι → Fp) : ofBase (∏ i ∈ s, f i) = ∏ i ∈ s, ofBase (f i) :=
  map_prod base f s

variable (c) in
/-- Partial product check in row `m`. -/
noncomputable def ppRow (t : Trace) (zs pps : List Fp[X]) (b g : Fp) (i m k : ℕ) : Fp :=
  accRow c zs pps i m k * (∏ j ∈ Finset.range c.quotientDegreeFactor, t.num c b g m (k * c.quotientDegreeFactor + j)) -
  accRow c zs pps i m (k + 1) *
    (∏ j ∈ Finset.range c.quotientDegreeFactor, t.den c b g m (k * c.quotientDegreeFactor + j))

theorem partialProduct_row (m i k : ℕ) :
    partialProduct c (openings c t zs pps qs (ofBase (omega c.degreeBits ^ m)))
      (numerator c (chAt bs gs as fri (ofBase (omega c.degreeBits ^ m)))
        (openings c t zs pps qs (ofBase (omega c.degreeBits ^ m))) i)
      (denominator (chAt bs gs as fri (ofBase (omega c.degreeBits ^ m)))
        (openings c t zs pps qs (ofBase (omega c.degreeBits ^ m))) i) i k =
      ofBase (ppRow c t zs pps (bs.getD i 0) (gs.getD i 0) i m k) := by
  simp only [partialProduct, numerator_row, denominator_row, acc_row, ppRow]
  rw [show ∀ a b : Fp, ofBase (a - b) = ofBase a - ofBase b from map_sub base, ofBase_mul, ofBase_mul, ofBase_prod,
    ofBase_prod]

/-- All checks hold in every row. -/
structure RowsOk (c : CommonCircuitData) (gates : List Verif.Gates.Gate) (t : Trace) (h : Fin 4 → Fp)
    (zs pps : List Fp[X]) (bs gs : List Fp) : Prop where
  start : ∀ i < c.config.numChallenges, (zs.getD i 0).eval 1 = 1
  product : ∀ i < c.config.numChallenges, ∀ m < n c, ∀ k ≤ c.numPartialProducts,
    ppRow c t zs pps (bs.getD i 0) (gs.getD i 0) i m k = 0
  gates : GatesHold c gates t h

theorem termsP_row (hd : c.degreeBits ≤ 32) {gates : List Verif.Gates.Gate} {h : Fin 4 → Fp} :
    (∀ m < n c, ∀ y ∈ termsP c gates (chAt bs gs as fri (ofBase (omega c.degreeBits ^ m)))
        (openings c t zs pps qs (ofBase (omega c.degreeBits ^ m))) h, y = 0) ↔ RowsOk c gates t h zs pps bs gs := by
  have hmem : ∀ m < n c, (∀ y ∈ termsP c gates (chAt bs gs as fri (ofBase (omega c.degreeBits ^ m)))
        (openings c t zs pps qs (ofBase (omega c.degreeBits ^ m))) h, y = 0) ↔
      (∀ i < c.config.numChallenges, (if m = 0 then 1 else 0) *
        (ofBase ((zs.getD i 0).eval (omega c.degreeBits ^ m)) - 1) = 0) ∧
      (∀ i < c.config.numChallenges, ∀ k ≤ c.numPartialProducts,
        ppRow c t zs pps (bs.getD i 0) (gs.getD i 0) i m k = 0) ∧
      ∀ j < c.numGateConstraints, Spec.Gates.combined gates c.selectorsInfo
        ⟨fun i => ofBase ((t.constants.getD i 0).eval (omega c.degreeBits ^ m)),
          fun i => ofBase ((t.wires.getD i 0).eval (omega c.degreeBits ^ m)), h⟩ j = 0 := by
    intro m hm
    rw [termsP, L0p_row hd hm, row_row]
    simp only [partialProduct_row, List.mem_append, List.mem_map, List.mem_range, List.mem_flatMap]
    constructor
    · intro hy
      refine ⟨fun i hi => ?_, fun i hi k hk => ?_, fun j hj => hy _ (Or.inr ⟨j, hj, rfl⟩)⟩
      · have := hy _ (Or.inl (Or.inl ⟨i, hi, rfl⟩))
        simpa only [openings, map_getD, value_ofBase] using this
      · exact ofBase_eq_zero.1 (hy _ (Or.inl (Or.inr ⟨i, hi, k, by omega, rfl⟩)))
    · rintro ⟨h1, h2, h3⟩ y ((⟨i, hi, rfl⟩ | ⟨i, hi, k, hk, rfl⟩) | ⟨j, hj, rfl⟩)
      · simpa only [openings, map_getD, value_ofBase] using h1 i hi
      · exact ofBase_eq_zero.2 (h2 i hi k (by omega))
      · exact h3 j hj
  constructor
  · intro H
    have H' := fun m hm => (hmem m hm).1 (H m hm)
    refine ⟨fun i hi => ?_, fun i hi m hm k hk => (H' m hm).2.1 i hi k hk, fun m hm j hj => (H' m hm).2.2 j hj⟩
    have := (H' 0 n_pos).1 i hi
    rw [if_pos rfl, one_mul, pow_zero, sub_eq_zero] at this
    exact ofBase_inj.1 (this.trans (map_one base).symm)
  · rintro ⟨h1, h2, h3⟩ m hm
    refine (hmem m hm).2 ⟨fun i hi => ?_, fun i hi k hk => h2 i hi m hm k hk, fun j hj => h3 m hm j hj⟩
    split_ifs with h0
    · subst h0
      rw [one_mul, pow_zero, h1 i hi, sub_eq_zero]; exact map_one base
    · rw [zero_mul]

/-! ## Completeness of the quotient -/

theorem list_sum_zero {l : List QE} (hl : ∀ y ∈ l, y = 0) (a : QE) :
    ∑ j ∈ Finset.range l.length, l.getD j 0 * a ^ j = 0 := by
  refine Finset.sum_eq_zero fun j hj => ?_
  rw [List.getD_eq_getElem _ _ (by simpa using hj), hl _ (List.getElem_mem _), zero_mul]

/-- Chunk `k` of the `i`-th quotient in a flat list. -/
noncomputable def flatten (q num : ℕ) (f : ℕ → ℕ → Fp[X]) : List Fp[X] := (List.range (num * q)).map fun s => f (s / q) (s % q)

theorem flatten_getD {q num : ℕ} (f : ℕ → ℕ → Fp[X]) {i k : ℕ} (hi : i < num) (hk : k < q) :
    (flatten q num f).getD (i * q + k) 0 = f i k := by
  have h1 : i * q + k < num * q := by
    calc i * q + k < i * q + q := by omega
      _ = (i + 1) * q := by ring
      _ ≤ num * q := Nat.mul_le_mul_right _ hi
  rw [flatten, List.getD_eq_getElem _ _ (by simpa using h1), List.getElem_map, List.getElem_range, mul_comm i,
    Nat.mul_add_div (by omega), Nat.mul_add_mod, Nat.div_eq_of_lt hk, Nat.mod_eq_of_lt hk, add_zero]

theorem flatten_length (q num : ℕ) (f : ℕ → ℕ → Fp[X]) : (flatten q num f).length = num * q := by simp [flatten]

theorem flatten_low {q num : ℕ} {f : ℕ → ℕ → Fp[X]} (h : ∀ i k, (f i k).degree < n c) : Low c (flatten q num f) := by
  intro g hg
  obtain ⟨s, -, rfl⟩ := List.mem_map.1 hg
  exact_mod_cast h _ _

theorem quotients_exist (hd1 : 1 ≤ c.degreeBits) (hd : c.degreeBits ≤ 32) (hq : c.quotientDegreeFactor ≠ 0)
    {gates : List Verif.Gates.Gate} {h : Fin 4 → Fp} (ht : t.Low c) (hz : Low c zs) (hp : Low c pps)
    (hdeg : ∀ gi ∈ gates.zipIdx, Spec.Gates.degree gi.1 + Spec.Gates.filterDegree c.selectorsInfo gi.2 ≤
      c.quotientDegreeFactor + 1) (hr : RowsOk c gates t h zs pps bs gs) (as : List Fp) :
    ∃ qs : List Fp[X], Low c qs ∧ qs.length = c.config.numChallenges * c.quotientDegreeFactor ∧
      ∀ (z : QE) (fri : FriChallenges Fp QE), z ≠ 1 →
        Identity c gates (chAt bs gs as fri z) (openings c t zs pps qs z) h := by
  have hn : 2 ≤ n c := by
    calc 2 = 2 ^ 1 := rfl
      _ ≤ 2 ^ c.degreeBits := Nat.pow_le_pow_right (by norm_num) hd1
  have key : ∀ i, ∃ Q : Fp[X], ∀ (z : QE) (fri : FriChallenges Fp QE) (qs : List Fp[X]),
      ∑ j ∈ Finset.range (termsP c gates (chAt bs gs as fri z) (openings c t zs pps qs z) h).length,
        (termsP c gates (chAt bs gs as fri z) (openings c t zs pps qs z) h).getD j 0 * ofBase (as.getD i 0) ^ j =
      (z ^ n c - 1) * ∑ k ∈ Finset.range c.quotientDegreeFactor, value z (chunk (n c) Q k) * (z ^ n c) ^ k := by
    intro i
    obtain ⟨P, hP1, hP2⟩ := (poly_termsP (qs := []) (D := n c - 1) (by omega) le_rfl hq (low_atMost_trace ht) (low_atMost hz) (low_atMost hp) gates h bs gs as ⟨0, [], 0, []⟩ hdeg).reduce (as.getD i 0)
    have hrow : ∀ m < n c, P.eval (omega c.degreeBits ^ m) = 0 := by
      intro m hm
      rw [← ofBase_eq_zero, ← Verif.Fri.eval₂_base, ← hP2]
      exact list_sum_zero ((termsP_row hd).2 hr m hm) _
    obtain ⟨Q, hQ⟩ := quotient_exists hd hq P hrow hP1
    refine ⟨Q, fun z fri qs => ?_⟩
    rw [← hQ z, value, ← hP2 z]
    rfl
  choose Q hQ using key
  refine ⟨flatten c.quotientDegreeFactor c.config.numChallenges fun i k => chunk (n c) (Q i) k,
    flatten_low fun i k => chunk_degree _ _ _, flatten_length _ _ _, fun z fri hz1 i hi => ?_⟩
  rw [vanishing, terms_eq _ _ _ _ hz1, hQ i z fri, Spec.Plonk.quotient]
  refine congrArg _ (Finset.sum_congr rfl fun k hk => ?_)
  simp only [openings, map_getD]
  rw [flatten_getD _ hi (Finset.mem_range.1 hk)]

/-! ## Accumulators -/

/-- Product of the first `s` quotients of row `m`. -/
noncomputable def ratio (c : CommonCircuitData) (t : Trace) (b g : Fp) (m s : ℕ) : Fp :=
  ∏ j ∈ Finset.range s, t.num c b g m j / t.den c b g m j

/-- Product of the quotients of the first `m` rows. -/
noncomputable def run (c : CommonCircuitData) (t : Trace) (b g : Fp) (m : ℕ) : Fp :=
  ∏ r ∈ Finset.range m, ratio c t b g r ((c.numPartialProducts + 1) * c.quotientDegreeFactor)

/-- The column with given values. -/
noncomputable def column (c : CommonCircuitData) (f : ℕ → Fp) : Fp[X] :=
  Lagrange.interpolate (Finset.range (n c)) (fun m => omega c.degreeBits ^ m) f

theorem column_eval (hd : c.degreeBits ≤ 32) (f : ℕ → Fp) {m : ℕ} (hm : m < n c) :
    (column c f).eval (omega c.degreeBits ^ m) = f m :=
  Lagrange.eval_interpolate_at_node _ (omega_injOn hd) (Finset.mem_range.2 hm)

theorem column_degree (hd : c.degreeBits ≤ 32) (f : ℕ → Fp) : (column c f).degree < n c := by
  have := Lagrange.degree_interpolate_lt f (omega_injOn (c := c) hd)
  rwa [Finset.card_range] at this

theorem run_closes (hJ : (c.numPartialProducts + 1) * c.quotientDegreeFactor = c.config.numRoutedWires)
    {s : Equiv.Perm (Fin (n c) × Fin c.config.numRoutedWires)} (hs : t.Routes c s) (hc : t.Copies c s) (b g : Fp)
    (hnz : ∀ m < n c, ∀ j < c.config.numRoutedWires, t.den c b g m j ≠ 0) : run c t b g (n c) = 1 := by
  have h1 : ∀ x : Fin (n c) × Fin c.config.numRoutedWires, t.den c b g x.1 x.2 = t.num c b g (s x).1 (s x).2 := by
    rintro ⟨m, j⟩
    rw [Trace.den, Trace.num, hs m j, hc m j]
  have h2 : run c t b g (n c) = (∏ x : Fin (n c) × Fin c.config.numRoutedWires, t.num c b g x.1 x.2) /
      ∏ x : Fin (n c) × Fin c.config.numRoutedWires, t.den c b g x.1 x.2 := by
    rw [← Finset.prod_div_distrib, Fintype.prod_prod_type, run, hJ, Finset.prod_range]
    exact Finset.prod_congr rfl fun m _ => by rw [ratio, Finset.prod_range]
  rw [h2, Finset.prod_congr rfl fun x _ => h1 x, Equiv.prod_comp s fun x => t.num c b g x.1 x.2, div_self]
  rw [← Equiv.prod_comp s, Finset.prod_ne_zero_iff]
  intro x _
  rw [← h1]
  exact hnz _ x.1.2 _ x.2.2

theorem accumulators_exist (hd : c.degreeBits ≤ 32)
    (hJ : (c.numPartialProducts + 1) * c.quotientDegreeFactor = c.config.numRoutedWires)
    {gates : List Verif.Gates.Gate} {h : Fin 4 → Fp} (hg : GatesHold c gates t h)
    {s : Equiv.Perm (Fin (n c) × Fin c.config.numRoutedWires)} (hs : t.Routes c s) (hc : t.Copies c s)
    (bs gs : List Fp) (hnz : ∀ i < c.config.numChallenges, ∀ m < n c, ∀ j < c.config.numRoutedWires,
      t.den c (bs.getD i 0) (gs.getD i 0) m j ≠ 0) :
    ∃ zs pps : List Fp[X], Low c zs ∧ Low c pps ∧ zs.length = c.config.numChallenges ∧
      pps.length = c.config.numChallenges * c.numPartialProducts ∧ RowsOk c gates t h zs pps bs gs := by
  let Z : ℕ → Fp[X] := fun i => column c (run c t (bs.getD i 0) (gs.getD i 0))
  let PP : ℕ → ℕ → Fp[X] := fun i k => column c fun m => run c t (bs.getD i 0) (gs.getD i 0) m *
    ratio c t (bs.getD i 0) (gs.getD i 0) m ((k + 1) * c.quotientDegreeFactor)
  let zs := (List.range c.config.numChallenges).map Z
  let pps := flatten c.numPartialProducts c.config.numChallenges PP
  have hZ : ∀ i < c.config.numChallenges, zs.getD i 0 = Z i := by
    intro i hi
    rw [List.getD_eq_getElem _ _ (by simpa [zs] using hi)]
    simp [zs]
  have hrun : ∀ i < c.config.numChallenges, ∀ m ≤ n c,
      (Z i).eval (omega c.degreeBits ^ m) = run c t (bs.getD i 0) (gs.getD i 0) m := by
    intro i hi m hm
    rcases Nat.lt_or_eq_of_le hm with h1 | rfl
    · exact column_eval hd _ h1
    · have e : omega c.degreeBits ^ n c = omega c.degreeBits ^ 0 := by rw [pow_zero]; exact omega_pow_card hd
      rw [e, run_closes hJ hs hc _ _ (hnz i hi)]
      exact (column_eval hd _ n_pos).trans (by simp [run])
  have hacc : ∀ i < c.config.numChallenges, ∀ m < n c, ∀ k ≤ c.numPartialProducts + 1, accRow c zs pps i m k =
      run c t (bs.getD i 0) (gs.getD i 0) m *
        ratio c t (bs.getD i 0) (gs.getD i 0) m (k * c.quotientDegreeFactor) := by
    intro i hi m hm k hk
    rw [accRow, hZ i hi]
    split_ifs with h1 h2
    · rw [hrun i hi m hm.le, h1, zero_mul, ratio, Finset.range_zero, Finset.prod_empty, mul_one]
    · obtain ⟨k, rfl⟩ : ∃ r, k = r + 1 := ⟨k - 1, by omega⟩
      rw [Nat.add_sub_cancel, flatten_getD _ hi (by omega)]
      exact column_eval hd _ hm
    · rw [hrun i hi (m + 1) hm, run, Finset.prod_range_succ, show k = c.numPartialProducts + 1 by omega]; rfl
  refine ⟨zs, pps, ?_, flatten_low fun i k => column_degree hd _, by simp [zs], flatten_length _ _ _, ⟨?_, ?_, hg⟩⟩
  · intro f hf
    obtain ⟨i, -, rfl⟩ := List.mem_map.1 hf
    exact_mod_cast column_degree hd _
  · intro i hi
    have := hrun i hi 0 (Nat.zero_le _)
    rw [pow_zero] at this
    rw [hZ i hi, this, run, Finset.range_zero, Finset.prod_empty]
  · intro i hi m hm k hk
    rw [ppRow, hacc i hi m hm k (by omega), hacc i hi m hm (k + 1) (by omega), sub_eq_zero]
    have hsplit : ratio c t (bs.getD i 0) (gs.getD i 0) m ((k + 1) * c.quotientDegreeFactor) =
        ratio c t (bs.getD i 0) (gs.getD i 0) m (k * c.quotientDegreeFactor) *
          ∏ j ∈ Finset.range c.quotientDegreeFactor, (t.num c (bs.getD i 0) (gs.getD i 0) m (k * c.quotientDegreeFactor + j) /
            t.den c (bs.getD i 0) (gs.getD i 0) m (k * c.quotientDegreeFactor + j)) := by
      rw [ratio, Nat.succ_mul, Finset.prod_range_add]; rfl
    have hne : ∏ j ∈ Finset.range c.quotientDegreeFactor,
        t.den c (bs.getD i 0) (gs.getD i 0) m (k * c.quotientDegreeFactor + j) ≠ 0 := by
      rw [Finset.prod_ne_zero_iff]
      intro j hj
      refine hnz i hi m hm _ ?_
      rw [← hJ]
      have := Finset.mem_range.1 hj
      calc k * c.quotientDegreeFactor + j < k * c.quotientDegreeFactor + c.quotientDegreeFactor := by omega
        _ = (k + 1) * c.quotientDegreeFactor := by ring
        _ ≤ _ := Nat.mul_le_mul_right _ (by omega)
    rw [hsplit, Finset.prod_div_distrib]
    field_simp

end Plonk

end Verif
