import Verif.Proofs.GateDegree

/-!
# The terms of the vanishing polynomial as polynomials
-/

set_option autoImplicit false

namespace Verif.Plonk

open Spec.Plonk Polynomial Degree
open Spec.Fri (omega)
open Spec.Fri.Prover (base)
open Verif.Fri (omega_pow_card orderOf_omega omega_ne_zero ofBase_mul ofBase_pow)

variable {c : CommonCircuitData}

/-! ## Evaluation -/

theorem value_zero (z : QE) : value z 0 = 0 := eval₂_zero _ _

theorem map_getD (l : List Fp[X]) (z : QE) (i : ℕ) : (l.map (value z)).getD i 0 = value z (l.getD i 0) := by
  rw [← value_zero z, List.getD_map]

theorem value_ofBase (x : Fp) (f : Fp[X]) : value (ofBase x) f = ofBase (f.eval x) := Verif.Fri.eval₂_base f x

theorem poly_value {D : ℕ} {f : Fp[X]} (h : f.natDegree ≤ D) : Poly D 1 fun z => value z f :=
  ⟨f, by simpa using h, fun _ => rfl⟩

theorem poly_next {D : ℕ} {f : Fp[X]} (h : f.natDegree ≤ D) (a : Fp) : Poly D 1 fun z => value (ofBase a * z) f := by
  refine ⟨f.comp (C a * X), ?_, fun z => ?_⟩
  · rw [one_mul]
    refine natDegree_comp_le.trans (le_trans ?_ h)
    calc f.natDegree * (C a * X : Fp[X]).natDegree ≤ f.natDegree * 1 := Nat.mul_le_mul_left _ ((natDegree_C_mul_le a X).trans natDegree_X_le)
      _ = f.natDegree := mul_one _
  · rw [eval₂_comp, eval₂_mul, eval₂_C, eval₂_X]; rfl

theorem low_atMost {l : List Fp[X]} (h : Low c l) : AtMost (n c - 1) l := by
  intro f hf
  by_cases h0 : f = 0
  · simp [h0]
  · have h1 := h f hf
    rw [degree_eq_natDegree h0] at h1
    have h2 : f.natDegree < 2 ^ c.degreeBits := by exact_mod_cast h1
    exact Nat.le_sub_one_of_lt h2

theorem low_atMost_trace {t : Trace} (h : t.Low c) : t.AtMost (n c - 1) :=
  ⟨low_atMost h.constants, low_atMost h.sigmas, low_atMost h.wires⟩

theorem low_atMost_n {t : Trace} (h : t.Low c) : t.AtMost (n c) :=
  ⟨fun f hf => (low_atMost h.constants f hf).trans (Nat.sub_le _ _), fun f hf => (low_atMost h.sigmas f hf).trans (Nat.sub_le _ _),
    fun f hf => (low_atMost h.wires f hf).trans (Nat.sub_le _ _)⟩

theorem atMost_getD {D : ℕ} {l : List Fp[X]} (h : AtMost D l) (i : ℕ) : (l.getD i 0).natDegree ≤ D := by
  by_cases hi : i < l.length
  · rw [List.getD_eq_getElem _ _ hi]
    exact h _ (List.getElem_mem hi)
  · rw [List.getD_eq_default _ _ (by omega)]; simp

theorem n_pos : 0 < n c := Nat.two_pow_pos _

/-! ## The first Lagrange polynomial -/

/-- `L0` as a polynomial function. -/
def L0p (c : CommonCircuitData) (x : QE) : QE := ofBase ((n c : Fp)⁻¹) * ∑ k ∈ Finset.range (n c), x ^ k

theorem natCast_n_ne_zero (c : CommonCircuitData) : (n c : Fp) ≠ 0 := by
  rw [n, Nat.cast_pow]
  exact pow_ne_zero _ (by decide +kernel)

theorem ofBase_nat (m : ℕ) : ofBase (m : Fp) = (m : QE) := map_natCast base m

theorem ofBase_inj {a b : Fp} : ofBase a = ofBase b ↔ a = b := QuadraticAlgebra.C_inj

theorem ofBase_eq_zero {a : Fp} : ofBase a = 0 ↔ a = 0 := by
  rw [← ofBase_inj (a := a) (b := 0)]; exact Iff.of_eq (congrArg _ (map_zero base).symm)

theorem L0_eq {x : QE} (hx : x ≠ 1) : L0 c x = L0p c x := by
  have h1 : x - 1 ≠ 0 := sub_ne_zero.2 hx
  have h2 : (n c : QE) ≠ 0 := by rw [← ofBase_nat, Ne, ofBase_eq_zero]; exact natCast_n_ne_zero c
  have h3 : ofBase ((n c : Fp)⁻¹) * (n c : QE) = 1 := by
    rw [← ofBase_nat, ← ofBase_mul, inv_mul_cancel₀ (natCast_n_ne_zero c)]; rfl
  rw [L0, L0p, div_eq_iff (mul_ne_zero h2 h1), ← mul_geom_sum x (n c)]
  linear_combination (-((x - 1) * ∑ i ∈ Finset.range (n c), x ^ i)) * h3

theorem poly_L0p {D : ℕ} (hD : n c - 1 ≤ D) : Poly D 1 (L0p c) := by
  refine (Poly.base (k := 0) _).mul (l := 1) (Poly.sum _ fun k hk => ?_) le_rfl
  refine ⟨X ^ k, ?_, fun x => by rw [eval₂_X_pow]⟩
  rw [natDegree_X_pow, one_mul]
  exact (Nat.le_sub_one_of_lt (Finset.mem_range.1 hk)).trans hD

theorem L0p_row (hd : c.degreeBits ≤ 32) {m : ℕ} (hm : m < n c) :
    L0p c (ofBase (omega c.degreeBits ^ m)) = if m = 0 then 1 else 0 := by
  split_ifs with h
  · subst h
    have h1 : ofBase (1 : Fp) = 1 := map_one base
    rw [L0p, pow_zero, h1]
    simp only [one_pow, Finset.sum_const, Finset.card_range, nsmul_eq_mul, mul_one]
    rw [← ofBase_nat, ← ofBase_mul, inv_mul_cancel₀ (natCast_n_ne_zero c)]; exact map_one base
  · have hx : ofBase (omega c.degreeBits ^ m) ≠ 1 := by
      have h1 : ofBase (1 : Fp) = 1 := map_one base
      rw [← h1, Ne, ofBase_inj]
      intro h2
      have h3 := orderOf_dvd_of_pow_eq_one h2
      rw [orderOf_omega hd] at h3
      exact absurd (Nat.le_of_dvd (by omega) h3) (by rw [n] at hm; omega)
    rw [← L0_eq hx, L0, ← ofBase_pow, ← pow_mul, mul_comm m, pow_mul]
    have : omega c.degreeBits ^ n c = 1 := omega_pow_card hd
    rw [this, one_pow]
    have h1 : ofBase (1 : Fp) = 1 := map_one base
    rw [h1, sub_self, zero_div]

/-! ## Terms -/

variable (c) in
/-- The terms with `L0` replaced by a polynomial. -/
def termsP (gates : List Verif.Gates.Gate) (ch : ProofChallenges Fp QE) (o : OpeningSet QE) (h : Fin 4 → Fp) : List QE :=
  (List.range c.config.numChallenges).map (fun i => L0p c ch.plonkZeta * (o.plonkZs.getD i 0 - 1)) ++
  (List.range c.config.numChallenges).flatMap (fun i => (List.range (c.numPartialProducts + 1)).map fun k =>
    partialProduct c o (numerator c ch o i) (denominator ch o i) i k) ++
  (List.range c.numGateConstraints).map (Spec.Gates.combined gates c.selectorsInfo (row o h))

theorem terms_eq (gates : List Verif.Gates.Gate) (ch : ProofChallenges Fp QE) (o : OpeningSet QE) (h : Fin 4 → Fp)
    (hz : ch.plonkZeta ≠ 1) : terms c gates ch o h = termsP c gates ch o h := by
  rw [terms, termsP, L0_eq hz]

/-- The challenges with another `zeta`. -/
abbrev chAt (bs gs as : List Fp) (fri : FriChallenges Fp QE) (z : QE) : ProofChallenges Fp QE := ⟨bs, gs, as, z, fri⟩

variable {t : Trace} {zs pps qs : List Fp[X]} {D : ℕ}

theorem polyRow (ht : t.AtMost D) (h : Fin 4 → Fp) : PolyRow D fun z => row (openings c t zs pps qs z) h := by
  refine ⟨fun i => ?_, fun i => ?_, fun _ => rfl⟩
  · simp only [row, openings, map_getD]
    exact poly_value (atMost_getD ht.constants i)
  · simp only [row, openings, map_getD]
    exact poly_value (atMost_getD ht.wires i)

theorem poly_acc (hz : AtMost D zs) (hp : AtMost D pps) (i k : ℕ) :
    Poly D 1 fun z => acc c (openings c t zs pps qs z) i k := by
  refine Poly.ite _ (fun _ => ?_) fun _ => Poly.ite _ (fun _ => ?_) fun _ => ?_
  · simp only [openings, map_getD]
    exact poly_value (atMost_getD hz i)
  · simp only [openings, map_getD]
    exact poly_value (atMost_getD hp _)
  · simp only [openings, map_getD]
    exact poly_next (atMost_getD hz i) _

theorem poly_X (hD : 1 ≤ D) : Poly D 1 fun z => z :=
  ⟨X, by rw [one_mul]; exact natDegree_X_le.trans hD, fun z => by rw [eval₂_X]⟩

theorem poly_numerator (hD : 1 ≤ D) (ht : t.AtMost D) (bs gs as : List Fp) (fri : FriChallenges Fp QE) (i j : ℕ) :
    Poly D 1 fun z => numerator c (chAt bs gs as fri z) (openings c t zs pps qs z) i j := by
  simp only [numerator, openings, map_getD]
  exact ((Poly.base (k := 0) _).mul ((poly_X hD).mul (m := 1) (Poly.nat (k := 0) _) le_rfl) (m := 1) le_rfl).add
    ((poly_value (atMost_getD ht.wires j)).add (Poly.base _))

theorem poly_denominator (ht : t.AtMost D) (bs gs as : List Fp) (fri : FriChallenges Fp QE) (i j : ℕ) :
    Poly D 1 fun z => denominator (chAt bs gs as fri z) (openings c t zs pps qs z) i j := by
  simp only [denominator, openings, map_getD]
  exact ((Poly.base (k := 0) _).mul (poly_value (atMost_getD ht.sigmas j)) (m := 1) le_rfl).add
    ((poly_value (atMost_getD ht.wires j)).add (Poly.base _))

theorem poly_termsP (hD : 1 ≤ D) (hn : n c - 1 ≤ D) (hq : c.quotientDegreeFactor ≠ 0) (ht : t.AtMost D) (hz : AtMost D zs) (hp : AtMost D pps)
    (gates : List Verif.Gates.Gate) (h : Fin 4 → Fp) (bs gs as : List Fp) (fri : FriChallenges Fp QE)
    (hdeg : ∀ gi ∈ gates.zipIdx, Spec.Gates.degree gi.1 + Spec.Gates.filterDegree c.selectorsInfo gi.2 ≤
      c.quotientDegreeFactor + 1) :
    PolyL D (c.quotientDegreeFactor + 1) fun z =>
      termsP c gates (chAt bs gs as fri z) (openings c t zs pps qs z) h := by
  refine PolyL.append (PolyL.append (PolyL.map _ fun i _ => ?_) (PolyL.flatMap _ fun i _ => PolyL.map _ fun k _ => ?_))
    (PolyL.map _ fun j _ => poly_combined (polyRow ht h) gates c.selectorsInfo _ hdeg j)
  · refine (poly_L0p hn).mul (l := 1) (Poly.sub ?_ Poly.one) (by omega)
    simp only [openings, map_getD]
    exact poly_value (atMost_getD hz i)
  · refine Poly.sub ?_ ?_
    · exact (poly_acc hz hp i k).mul (Poly.prod (k := 1) _ (fun j _ => poly_numerator hD ht bs gs as fri i _) le_rfl)
        (by simp; omega)
    · exact (poly_acc hz hp i (k + 1)).mul (Poly.prod (k := 1) _ (fun j _ => poly_denominator ht bs gs as fri i _) le_rfl)
        (by simp; omega)

end Verif.Plonk
