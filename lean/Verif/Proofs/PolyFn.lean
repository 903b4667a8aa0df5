import Verif.Proofs.FriComplete
import Verif.Spec.Gates

/-!
# Functions on the extension field given by polynomials over the base field

`Poly D k f`: the function `f` is a polynomial with base field coefficients and degree at most `k * D`.
-/

set_option autoImplicit false

namespace Verif

open Polynomial Spec.Fri.Prover

def Poly (D k : ℕ) (f : QE → QE) : Prop := ∃ P : Fp[X], P.natDegree ≤ k * D ∧ ∀ x, f x = P.eval₂ base x

namespace Poly

variable {D k l m : ℕ} {f g : QE → QE}

theorem mono (h : Poly D k f) (hk : k ≤ l) : Poly D l f := by
  obtain ⟨P, h1, h2⟩ := h
  exact ⟨P, h1.trans (Nat.mul_le_mul_right _ hk), h2⟩

theorem base (a : Fp) : Poly D k fun _ => ofBase a := ⟨C a, by simp, fun x => by rw [eval₂_C]; rfl⟩

theorem zero : Poly D k fun _ => 0 := by simpa using base (D := D) (k := k) 0

theorem one : Poly D k fun _ => 1 := by
  have := base (D := D) (k := k) 1
  simpa using this

theorem nat (n : ℕ) : Poly D k fun _ => (n : QE) := by
  have h : ofBase (n : Fp) = (n : QE) := map_natCast Spec.Fri.Prover.base n
  simpa only [h] using base (D := D) (k := k) (n : Fp)

theorem two : Poly D k fun _ => (2 : QE) := by simpa using nat (D := D) (k := k) 2

theorem add (hf : Poly D k f) (hg : Poly D k g) : Poly D k fun x => f x + g x := by
  obtain ⟨P, h1, h2⟩ := hf
  obtain ⟨Q, h3, h4⟩ := hg
  exact ⟨P + Q, (natDegree_add_le _ _).trans (max_le h1 h3), fun x => by beta_reduce; rw [eval₂_add, h2, h4]⟩

theorem sub (hf : Poly D k f) (hg : Poly D k g) : Poly D k fun x => f x - g x := by
  obtain ⟨P, h1, h2⟩ := hf
  obtain ⟨Q, h3, h4⟩ := hg
  exact ⟨P - Q, (natDegree_sub_le _ _).trans (max_le h1 h3), fun x => by beta_reduce; rw [eval₂_sub, h2, h4]⟩

theorem mul (hf : Poly D k f) (hg : Poly D l g) (h : k + l ≤ m) : Poly D m fun x => f x * g x := by
  obtain ⟨P, h1, h2⟩ := hf
  obtain ⟨Q, h3, h4⟩ := hg
  refine ⟨P * Q, natDegree_mul_le.trans ((Nat.add_le_add h1 h3).trans ?_), fun x => by beta_reduce; rw [eval₂_mul, h2, h4]⟩
  rw [← Nat.add_mul]
  exact Nat.mul_le_mul_right _ h

theorem pow (hf : Poly D k f) (n : ℕ) (h : n * k ≤ m) : Poly D m fun x => f x ^ n := by
  obtain ⟨P, h1, h2⟩ := hf
  refine ⟨P ^ n, natDegree_pow_le.trans ((Nat.mul_le_mul_left _ h1).trans ?_), fun x => by beta_reduce; rw [eval₂_pow, h2]⟩
  rw [← Nat.mul_assoc]
  exact Nat.mul_le_mul_right _ h

theorem sum {ι : Type} (s : Finset ι) {F : ι → QE → QE} (h : ∀ i ∈ s, Poly D k (F i)) :
    Poly D k fun x => ∑ i ∈ s, F i x := by
  classical
  induction s using Finset.induction_on with
  | empty => simpa using zero
  | insert a s ha ih =>
    simp only [Finset.sum_insert ha]
    exact (h a (by simp)).add (ih fun i hi => h i (by simp [hi]))

theorem prod {ι : Type} (s : Finset ι) {F : ι → QE → QE} (h : ∀ i ∈ s, Poly D k (F i)) (hm : s.card * k ≤ m) :
    Poly D m fun x => ∏ i ∈ s, F i x := by
  classical
  refine mono ?_ hm
  clear hm
  induction s using Finset.induction_on with
  | empty => simpa using one
  | insert a s ha ih =>
    simp only [Finset.prod_insert ha]
    exact (h a (by simp)).mul (ih fun i hi => h i (by simp [hi])) (by rw [Finset.card_insert_of_notMem ha]; ring_nf; rfl)

theorem ite (c : Prop) [Decidable c] (hf : c → Poly D k f) (hg : ¬ c → Poly D k g) :
    Poly D k fun x => if c then f x else g x := by
  by_cases h : c
  · simpa [h] using hf h
  · simpa [h] using hg h

end Poly

/-- Both coordinates are polynomial. -/
def PolyA (D k : ℕ) (f : QE → QA) : Prop := Poly D k (fun x => (f x).re) ∧ Poly D k fun x => (f x).im

namespace PolyA

variable {D k l m : ℕ} {f g : QE → QA}

theorem mono (h : PolyA D k f) (hk : k ≤ l) : PolyA D l f := ⟨h.1.mono hk, h.2.mono hk⟩

theorem ofExt {f : QE → QE} (h : Poly D k f) : PolyA D k fun x => ofExt (f x) := ⟨h, Poly.zero⟩

theorem zero : PolyA D k fun _ => 0 := ⟨Poly.zero, Poly.zero⟩

theorem one : PolyA D k fun _ => 1 := ⟨Poly.one, Poly.zero⟩

theorem add (hf : PolyA D k f) (hg : PolyA D k g) : PolyA D k fun x => f x + g x := ⟨hf.1.add hg.1, hf.2.add hg.2⟩

theorem sub (hf : PolyA D k f) (hg : PolyA D k g) : PolyA D k fun x => f x - g x := ⟨hf.1.sub hg.1, hf.2.sub hg.2⟩

theorem mul (hf : PolyA D k f) (hg : PolyA D l g) (h : k + l ≤ m) : PolyA D m fun x => f x * g x := by
  have h7 : Poly D 0 fun _ => (7 : QE) := by simpa using Poly.nat (D := D) (k := 0) 7
  constructor
  · simp only [QuadraticAlgebra.re_mul]
    exact (hf.1.mul hg.1 h).add ((h7.mul (hf.2) (by omega)).mul hg.2 h)
  · simp only [QuadraticAlgebra.im_mul]
    simpa using ((hf.1.mul hg.2 h).add (hf.2.mul hg.1 h))

theorem sum {ι : Type} (s : Finset ι) {F : ι → QE → QA} (h : ∀ i ∈ s, PolyA D k (F i)) :
    PolyA D k fun x => ∑ i ∈ s, F i x := by
  classical
  induction s using Finset.induction_on with
  | empty => simpa using zero
  | insert a s ha ih =>
    simp only [Finset.sum_insert ha]
    exact (h a (by simp)).add (ih fun i hi => h i (by simp [hi]))

theorem prod {ι : Type} (s : Finset ι) {F : ι → QE → QA} (h : ∀ i ∈ s, PolyA D k (F i)) (hm : s.card * k ≤ m) :
    PolyA D m fun x => ∏ i ∈ s, F i x := by
  classical
  refine mono ?_ hm
  clear hm
  induction s using Finset.induction_on with
  | empty => simpa using one
  | insert a s ha ih =>
    simp only [Finset.prod_insert ha]
    exact (h a (by simp)).mul (ih fun i hi => h i (by simp [hi])) (by rw [Finset.card_insert_of_notMem ha]; ring_nf; rfl)

theorem ite (c : Prop) [Decidable c] (hf : c → PolyA D k f) (hg : ¬ c → PolyA D k g) :
    PolyA D k fun x => if c then f x else g x := by
  by_cases h : c
  · simpa [h] using hf h
  · simpa [h] using hg h

end PolyA

/-- A list of polynomial functions. -/
def PolyL (D k : ℕ) (F : QE → List QE) : Prop :=
  ∃ L : List (QE → QE), (∀ x, F x = L.map fun f => f x) ∧ ∀ f ∈ L, Poly D k f

namespace PolyL

variable {D k l : ℕ} {F G : QE → List QE}

theorem mono (h : PolyL D k F) (hk : k ≤ l) : PolyL D l F := by
  obtain ⟨L, h1, h2⟩ := h
  exact ⟨L, h1, fun f hf => (h2 f hf).mono hk⟩

theorem nil : PolyL D k fun _ => [] := ⟨[], fun _ => rfl, by simp⟩

theorem cons {f : QE → QE} (hf : Poly D k f) (h : PolyL D k F) : PolyL D k fun x => f x :: F x := by
  obtain ⟨L, h1, h2⟩ := h
  refine ⟨f :: L, fun x => by beta_reduce; rw [h1, List.map_cons], ?_⟩
  intro g hg
  rcases List.mem_cons.1 hg with rfl | hg
  · exact hf
  · exact h2 g hg

theorem append (hF : PolyL D k F) (hG : PolyL D k G) : PolyL D k fun x => F x ++ G x := by
  obtain ⟨L, h1, h2⟩ := hF
  obtain ⟨M, h3, h4⟩ := hG
  refine ⟨L ++ M, fun x => by beta_reduce; rw [h1, h3, List.map_append], fun f hf => ?_⟩
  rcases List.mem_append.1 hf with h | h
  · exact h2 f h
  · exact h4 f h

theorem map {ι : Type} (s : List ι) {f : ι → QE → QE} (h : ∀ i ∈ s, Poly D k (f i)) :
    PolyL D k fun x => s.map fun i => f i x := by
  refine ⟨s.map f, fun x => by rw [List.map_map]; rfl, fun g hg => ?_⟩
  obtain ⟨i, hi, rfl⟩ := List.mem_map.1 hg
  exact h i hi

theorem flatMap {ι : Type} (s : List ι) {f : ι → QE → List QE} (h : ∀ i ∈ s, PolyL D k (f i)) :
    PolyL D k fun x => s.flatMap fun i => f i x := by
  induction s with
  | nil => exact nil
  | cons a s ih =>
    simp only [List.flatMap_cons]
    exact (h a (by simp)).append (ih fun i hi => h i (by simp [hi]))

theorem coords {f : QE → QA} (h : PolyA D k f) : PolyL D k fun x => Spec.Gates.coords (f x) :=
  cons h.1 (cons h.2 nil)

theorem ofFn {n : ℕ} {f : Fin n → QE → QE} (h : ∀ i, Poly D k (f i)) :
    PolyL D k fun x => List.ofFn fun i => f i x := by
  simp only [List.ofFn_eq_map]
  exact map _ fun i _ => h i

theorem getD (h : PolyL D k F) (j : ℕ) : Poly D k fun x => (F x).getD j 0 := by
  obtain ⟨L, h1, h2⟩ := h
  by_cases hj : j < L.length
  · have : (fun x => (F x).getD j 0) = L[j] := by
      funext x
      rw [h1, List.getD_eq_getElem _ _ (by simpa using hj), List.getElem_map]
    rw [this]
    exact h2 _ (List.getElem_mem hj)
  · have : (fun x => (F x).getD j 0) = fun _ => 0 := by
      funext x
      rw [h1, List.getD_eq_default _ _ (by simpa using hj)]
    rw [this]
    exact Poly.zero

end PolyL

end Verif
