import Verif.Proofs.GatesSem
import Mathlib.LinearAlgebra.Lagrange

/-!
# Barycentric interpolation and the CosetInterpolationGate
-/

set_option autoImplicit false

namespace Verif.Spec.Gates

open Polynomial

section

variable {F A : Type} [Field F] [CommRing A] (φ : F →+* A)

theorem lagrange_pow {N : ℕ} {t : ℕ → F} (ht : Set.InjOn t (Finset.range N)) {k : ℕ} (hk : k < N) (y : A) :
    ∑ i ∈ Finset.range N, φ (baryWeight N t i * t i ^ k) * ∏ j ∈ (Finset.range N).erase i, (y - φ (t j)) = y ^ k := by
  have h : (X : F[X]) ^ k = Lagrange.interpolate (Finset.range N) t (fun i => t i ^ k) :=
    Lagrange.eq_interpolate_of_eval_eq _ ht (by
      rw [degree_X_pow, Finset.card_range]; exact_mod_cast hk) (fun i _ => by simp)
  have h2 := congrArg (eval₂ φ y) h
  rw [eval₂_X_pow, Lagrange.interpolate_apply, eval₂_finsetSum] at h2
  rw [h2]
  refine Finset.sum_congr rfl fun i _ => ?_
  rw [eval₂_mul, eval₂_C, Lagrange.basis, eval₂_finsetProd]
  have : ∀ j ∈ (Finset.range N).erase i, eval₂ φ y (Lagrange.basisDivisor (t i) (t j)) =
      φ (t i - t j)⁻¹ * (y - φ (t j)) := fun j _ => by
    rw [Lagrange.basisDivisor, eval₂_mul, eval₂_C, eval₂_sub, eval₂_X, eval₂_C]
  rw [Finset.prod_congr rfl this, Finset.prod_mul_distrib, baryWeight, ← map_prod, Finset.prod_inv_distrib, map_mul]
  ring

/-- The barycentric formula reproduces polynomials of degree `< N` with coefficients in any algebra. -/
theorem lagrange_eval {N : ℕ} {t : ℕ → F} (ht : Set.InjOn t (Finset.range N)) {P : A[X]} (hP : P.degree < N)
    (s y : A) :
    ∑ i ∈ Finset.range N, (φ (baryWeight N t i) * P.eval (s * φ (t i))) *
      ∏ j ∈ (Finset.range N).erase i, (y - φ (t j)) = P.eval (s * y) := by
  have hN : P.natDegree < N ∨ P = 0 := by
    by_cases h0 : P = 0
    · exact Or.inr h0
    · exact Or.inl ((natDegree_lt_iff_degree_lt h0).2 hP)
  rcases hN with hN | rfl
  · simp only [eval_eq_sum_range' hN, Finset.mul_sum, Finset.sum_mul]
    rw [Finset.sum_comm]
    refine Finset.sum_congr rfl fun k hk => ?_
    rw [mul_pow, ← lagrange_pow φ ht (Finset.mem_range.1 hk) y, Finset.mul_sum, Finset.mul_sum]
    refine Finset.sum_congr rfl fun i _ => ?_
    rw [map_mul, map_pow]
    ring
  · simp

/-- Existence of the interpolating polynomial with coefficients in the algebra. -/
theorem lagrange_exists {N : ℕ} {t : ℕ → F} (ht : Set.InjOn t (Finset.range N)) (val : ℕ → A) :
    ∃ P : A[X], P.degree < N ∧ ∀ i < N, P.eval (φ (t i)) = val i := by
  refine ⟨∑ i ∈ Finset.range N, C (val i) * (Lagrange.basis (Finset.range N) t i).map φ, ?_, fun i hi => ?_⟩
  · rw [← mem_degreeLT]
    refine Submodule.sum_mem _ fun i hi => ?_
    rw [← smul_eq_C_mul]
    refine Submodule.smul_mem _ _ ?_
    rw [mem_degreeLT]
    refine lt_of_le_of_lt degree_map_le ?_
    rw [Lagrange.degree_basis ht hi, Finset.card_range]
    rw [Finset.mem_range] at hi
    exact_mod_cast Nat.sub_lt (by omega) (by norm_num)
  · rw [eval_finsetSum, Finset.sum_eq_single i]
    · rw [eval_mul, eval_C, eval_map, eval₂_hom, Lagrange.eval_basis_self ht (Finset.mem_range.2 hi), map_one, mul_one]
    · intro j _ hj
      rw [eval_mul, eval_map, eval₂_hom, Lagrange.eval_basis_of_ne hj (Finset.mem_range.2 hi), map_zero, mul_zero]
    · intro h
      exact (h (Finset.mem_range.2 hi)).elim

end

namespace Coset

variable {b d : ℕ} {g : Fp} {wt : ℕ → Fp} {x : Row}

theorem partialEval_eq (e : ℕ) : baryEval (term b d g x) (weighted wt x) 0 1 0 e = partialEval b d g wt x e := by
  rw [baryEval, zero_mul, zero_add, one_mul, partialEval, Nat.Ico_zero_eq_range]

theorem chunkStart_mono {j k : ℕ} (h : j ≤ k) : chunkStart d j ≤ chunkStart d k := by
  rw [chunkStart, chunkStart]
  exact Nat.add_le_add_left (Nat.mul_le_mul_left _ (by omega)) _

/-- Once the preceding intermediate wires are right, chunk `k` computes the partial sum. -/
theorem chunk_eq (hd : 2 ≤ d) (h2 : 2 ≤ 2 ^ b) (hdN : d ≤ 2 ^ b) {k : ℕ} (hk : k ≤ numInter b d)
    (h : ∀ j, j + 1 = k → interEval b x j = partialEval b d g wt x (chunkStart d j) ∧
      interProd b d x j = partialProd b d g x (chunkStart d j)) :
    chunkEval b d g wt x k = partialEval b d g wt x (min (chunkStart d k) (2 ^ b)) ∧
    chunkProd b d g x k = partialProd b d g x (min (chunkStart d k) (2 ^ b)) := by
  cases k with
  | zero =>
    have e0 : min (chunkStart d 0) (2 ^ b) = d := by rw [chunkStart]; omega
    rw [chunkEval, if_pos rfl, chunkProd, if_pos rfl, e0, partialEval_eq, Nat.Ico_zero_eq_range]
    exact ⟨rfl, rfl⟩
  | succ k =>
    obtain ⟨h1, h2'⟩ := h k rfl
    have hlt := Verif.Gates.chunkStart_lt h2 (show k < numInter b d by omega)
    have hle : chunkStart d k ≤ min (chunkStart d (k + 1)) (2 ^ b) :=
      le_min (chunkStart_mono (by omega)) (by omega)
    rw [chunkEval, if_neg (Nat.succ_ne_zero k), chunkProd, if_neg (Nat.succ_ne_zero k), Nat.add_sub_cancel, h1, h2',
      partialProd, ← partialEval_eq, ← partialEval_eq, ← Nat.Ico_zero_eq_range]
    constructor
    · have := baryEval_trans (term b d g x) (weighted wt x) 0 1 (Nat.zero_le _) hle
      rwa [one_mul] at this
    · rw [partialProd, ← Nat.Ico_zero_eq_range, Finset.prod_Ico_consecutive _ (Nat.zero_le _) hle]

theorem vanish_iff_partial (hd : 2 ≤ d) (hdN : d ≤ 2 ^ b) : Vanish (cosetInterpolation b d g wt x) ↔
    point b x = ofExt (shift x) * unshifted b d x ∧
    (∀ k < numInter b d, interEval b x k = partialEval b d g wt x (chunkStart d k) ∧
      interProd b d x k = partialProd b d g x (chunkStart d k)) ∧
    result b x = partialEval b d g wt x (2 ^ b) := by
  have h2 : 2 ≤ 2 ^ b := hd.trans hdN
  have hmin : ∀ k < numInter b d, min (chunkStart d k) (2 ^ b) = chunkStart d k := fun k hk =>
    min_eq_left (Verif.Gates.chunkStart_lt h2 hk).le
  have hmax : min (chunkStart d (numInter b d)) (2 ^ b) = 2 ^ b :=
    min_eq_right (Verif.Gates.chunkStart_numInter hd h2)
  simp only [cosetInterpolation, vanish_append, vanish_coords, vanish_rangeFlatMap, sub_eq_zero, and_assoc]
  refine and_congr_right fun _ => ?_
  constructor
  · rintro ⟨h1, h3⟩
    have key : ∀ k < numInter b d, interEval b x k = partialEval b d g wt x (chunkStart d k) ∧
        interProd b d x k = partialProd b d g x (chunkStart d k) := by
      intro k
      induction k with
      | zero =>
        intro hk
        have := chunk_eq (g := g) (wt := wt) (x := x) hd h2 hdN hk.le (fun j hj => by omega)
        rw [hmin 0 hk] at this
        rw [← this.1, ← this.2]
        exact h1 0 hk
      | succ k ih =>
        intro hk
        have := chunk_eq (g := g) (wt := wt) (x := x) hd h2 hdN hk.le (fun j hj => by
          obtain rfl : j = k := by omega
          exact ih (by omega))
        rw [hmin (k + 1) hk] at this
        rw [← this.1, ← this.2]
        exact h1 (k + 1) hk
    refine ⟨key, ?_⟩
    rw [h3, (chunk_eq (g := g) (wt := wt) (x := x) hd h2 hdN le_rfl fun j hj => key j (by omega)).1, hmax]
  · rintro ⟨key, h3⟩
    refine ⟨fun k hk => ?_, ?_⟩
    · have := chunk_eq (g := g) (wt := wt) (x := x) hd h2 hdN hk.le fun j hj => key j (by omega)
      rw [hmin k hk] at this
      rw [this.1, this.2]
      exact key k hk
    · rw [h3, (chunk_eq (g := g) (wt := wt) (x := x) hd h2 hdN le_rfl fun j hj => key j (by omega)).1, hmax]

theorem injOn_pow (hg : orderOf g = 2 ^ b) : Set.InjOn (fun i : ℕ => g ^ i) (Finset.range (2 ^ b)) := by
  intro i hi j hj h
  rw [Finset.coe_range, Set.mem_Iio, ← hg] at hi hj
  exact pow_injOn_Iio_orderOf hi hj h

/-- With barycentric weights, the sum over all points is the value of the interpolating polynomial. -/
theorem partialEval_poly (hg : orderOf g = 2 ^ b)
    (hwt : ∀ i < 2 ^ b, wt i = baryWeight (2 ^ b) (fun i => g ^ i) i) {P : QA[X]} (hP : P.degree < (2 ^ b : ℕ))
    (hv : ∀ i < 2 ^ b, P.eval (ofExt (shift x) * ofExt (ofBase (g ^ i))) = value x i) :
    partialEval b d g wt x (2 ^ b) = P.eval (ofExt (shift x) * unshifted b d x) := by
  have := lagrange_eval ((algebraMap QE QA).comp (algebraMap Fp QE)) (injOn_pow hg) hP (ofExt (shift x))
    (unshifted b d x)
  rw [← this, partialEval]
  refine Finset.sum_congr rfl fun i hi => ?_
  rw [Finset.mem_range] at hi
  rw [weighted, hwt i hi, ← hv i hi]
  rfl

end Coset

end Verif.Spec.Gates
