import Verif.Proofs.PolyFn
import Verif.Spec.PlonkTrace

/-!
# Degrees of the gate constraints
-/

set_option autoImplicit false

namespace Verif.Degree

open Spec.Gates Spec.Fri.Prover
open Verif.Gates (Gate)

variable {D : ℕ} {R : QE → Row}

/-- Constants and wires are polynomials of degree at most `D`, the public-input hash is fixed. -/
structure PolyRow (D : ℕ) (R : QE → Row) : Prop where
  c : ∀ i, Poly D 1 fun x => (R x).c i
  w : ∀ i, Poly D 1 fun x => (R x).w i
  h : ∀ x, (R x).h = (R 0).h

theorem PolyRow.a (hR : PolyRow D R) (i : ℕ) : PolyA D 1 fun x => (R x).a i := ⟨hR.w i, hR.w (i + 1)⟩

theorem PolyRow.drop (hR : PolyRow D R) (n : ℕ) : PolyRow D fun x => (R x).drop n := ⟨fun i => hR.c (n + i), hR.w, hR.h⟩

theorem poly_arithmetic (hR : PolyRow D R) (n : ℕ) : PolyL D 3 fun x => arithmetic n (R x) := by
  refine PolyL.map _ fun i _ => ?_
  exact ((hR.w _).mono (by norm_num)).sub (((hR.c 0).mul ((hR.w _).mul (hR.w _) le_rfl) (by norm_num)).add
    ((hR.c 1).mul (hR.w _) (by norm_num)))

theorem poly_arithmeticExtension (hR : PolyRow D R) (n : ℕ) : PolyL D 3 fun x => arithmeticExtension n (R x) := by
  refine PolyL.flatMap _ fun i _ => PolyL.coords ?_
  exact ((hR.a _).mono (by norm_num)).sub (((PolyA.ofExt (hR.c 0)).mul ((hR.a _).mul (hR.a _) le_rfl) (by norm_num)).add
    ((PolyA.ofExt (hR.c 1)).mul (hR.a _) (by norm_num)))

theorem poly_mulExtension (hR : PolyRow D R) (n : ℕ) : PolyL D 3 fun x => mulExtension n (R x) := by
  refine PolyL.flatMap _ fun i _ => PolyL.coords ?_
  exact ((hR.a _).mono (by norm_num)).sub ((PolyA.ofExt (hR.c 0)).mul ((hR.a _).mul (hR.a _) le_rfl) (by norm_num))

theorem poly_baseSum (hR : PolyRow D R) (n B : ℕ) : PolyL D (max 1 B) fun x => baseSum n B (R x) := by
  refine PolyL.cons (Poly.mono (k := 1) ?_ (le_max_left _ _)) (PolyL.map _ fun i _ => ?_)
  · refine (Poly.sum _ fun i _ => ?_).sub (hR.w 0)
    exact (hR.w _).mul ((Poly.nat (k := 0) B).pow i (m := 0) (by simp)) le_rfl
  · refine Poly.prod _ (k := 1) (fun k _ => (hR.w _).sub (Poly.nat k)) ?_
    rw [Finset.card_range, mul_one]; exact le_max_right _ _

theorem poly_constant (hR : PolyRow D R) (n : ℕ) : PolyL D 1 fun x => constant n (R x) :=
  PolyL.map _ fun i _ => (hR.c i).sub (hR.w i)

theorem poly_publicInput (hR : PolyRow D R) : PolyL D 1 fun x => publicInput (R x) := by
  simp only [publicInput, hR.h]
  exact PolyL.ofFn fun i => (hR.w i).sub (Poly.base _)

theorem poly_exponentiation (hR : PolyRow D R) (n : ℕ) : PolyL D 4 fun x => exponentiation n (R x) := by
  refine PolyL.append (PolyL.map _ fun i _ => ?_) (PolyL.cons ?_ PolyL.nil)
  · refine Poly.sub (Poly.mul (k := 2) (l := 2) (Poly.ite _ (fun _ => Poly.one) fun _ => (hR.w _).pow 2 le_rfl) ?_
      (by norm_num)) ((hR.w _).mono (by norm_num))
    exact ((hR.w _).mul (hR.w _) le_rfl).add (Poly.one.sub ((hR.w _).mono (by norm_num)))
  · exact ((hR.w _).sub (hR.w _)).mono (by norm_num)

theorem poly_randomAccess (hR : PolyRow D R) (b copies extra : ℕ) :
    PolyL D (max 2 (b + 1)) fun x => randomAccess b copies extra (R x) := by
  have h2 : 2 ≤ max 2 (b + 1) := le_max_left _ _
  refine PolyL.append (PolyL.flatMap _ fun k _ => PolyL.append (PolyL.map _ fun i _ => ?_)
    (PolyL.cons ?_ (PolyL.cons ?_ PolyL.nil))) (PolyL.map _ fun i _ => ?_)
  · exact ((hR.w _).pow 2 h2).sub ((hR.w _).mono (by omega))
  · refine Poly.mono (k := 1) ?_ (by omega)
    exact (Poly.sum _ fun i _ => (hR.w _).mul ((Poly.two (k := 0)).pow i (m := 0) (by simp)) (m := 1) le_rfl).sub (hR.w _)
  · refine Poly.sub ?_ ((hR.w _).mono (by omega))
    refine Poly.sum _ fun j _ => (hR.w _).mul (Poly.prod (k := 1) (m := b) _ (fun i _ => ?_) (by simp))
      (by rw [Nat.add_comm]; exact le_max_right _ _)
    exact Poly.ite _ (fun _ => hR.w _) fun _ => Poly.one.sub (hR.w _)
  · exact ((hR.c _).sub (hR.w _)).mono (by omega)

theorem poly_acc (hR : PolyRow D R) (n m i : ℕ) : PolyA D 1 fun x => acc n m (R x) i :=
  PolyA.ite _ (fun _ => hR.a _) fun _ => hR.a _

theorem poly_prevAcc (hR : PolyRow D R) (n m i : ℕ) : PolyA D 1 fun x => prevAcc n m (R x) i :=
  PolyA.ite _ (fun _ => hR.a _) fun _ => poly_acc hR _ _ _

theorem poly_reducing (hR : PolyRow D R) (n : ℕ) : PolyL D 2 fun x => reducing n (R x) :=
  PolyL.flatMap _ fun i _ => PolyL.coords ((((poly_prevAcc hR _ _ _).mul (hR.a _) le_rfl).add
    ((PolyA.ofExt (hR.w _)).mono (by norm_num))).sub ((poly_acc hR _ _ _).mono (by norm_num)))

theorem poly_reducingExtension (hR : PolyRow D R) (n : ℕ) : PolyL D 2 fun x => reducingExtension n (R x) :=
  PolyL.flatMap _ fun i _ => PolyL.coords ((((poly_prevAcc hR _ _ _).mul (hR.a _) le_rfl).add
    ((hR.a _).mono (by norm_num))).sub ((poly_acc hR _ _ _).mono (by norm_num)))

/-! ## Coset interpolation -/

theorem poly_baryEval {t f : QE → ℕ → QA} {e0 p0 : QE → QA} {s e d a : ℕ} (ht : ∀ i, PolyA D 1 fun x => t x i)
    (hf : ∀ i, PolyA D 1 fun x => f x i) (he : PolyA D a e0) (hp : PolyA D a p0) (h : (Finset.Ico s e).card + a ≤ d) :
    PolyA D d fun x => baryEval (t x) (f x) (e0 x) (p0 x) s e := by
  refine PolyA.add (he.mul (PolyA.prod (k := 1) _ (fun i _ => ht i) le_rfl) (by omega)) ?_
  rcases Nat.eq_zero_or_pos (Finset.Ico s e).card with h0 | h0
  · have h1 : Finset.Ico s e = ∅ := Finset.card_eq_zero.1 h0
    simp only [h1, Finset.sum_empty, mul_zero]
    exact PolyA.zero
  · refine hp.mul (l := (Finset.Ico s e).card) (PolyA.sum _ fun i hi => ?_) (by omega)
    refine (hf i).mul (PolyA.prod (k := 1) _ (fun j _ => ht j) le_rfl) ?_
    rw [Finset.card_erase_of_mem hi]; omega

open Spec.Gates.Coset in
theorem poly_cosetInterpolation (hR : PolyRow D R) (b d : ℕ) (g : Fp) (wt : ℕ → Fp) :
    PolyL D (max 2 d) fun x => cosetInterpolation b d g wt (R x) := by
  have h2 : 2 ≤ max 2 d := le_max_left _ _
  have hd : d ≤ max 2 d := le_max_right _ _
  have ht : ∀ i, PolyA D 1 fun x => term b d g (R x) i := fun i => (hR.a _).sub (PolyA.ofExt (Poly.base _))
  have hw : ∀ i, PolyA D 1 fun x => weighted wt (R x) i := fun i => (PolyA.ofExt (Poly.base (k := 0) _)).mul (hR.a _) le_rfl
  have hsz : ∀ k, (Finset.Ico (chunkStart d k) (min (chunkStart d (k + 1)) (2 ^ b))).card + 1 ≤ max 2 d := by
    intro k
    rw [Nat.card_Ico]
    have h1 : chunkStart d (k + 1) = chunkStart d k + (d - 1) := by rw [chunkStart, chunkStart]; ring
    have h3 : min (chunkStart d (k + 1)) (2 ^ b) ≤ chunkStart d k + (d - 1) := h1 ▸ min_le_left _ _
    omega
  have hce : ∀ k, PolyA D (max 2 d) fun x => chunkEval b d g wt (R x) k := by
    intro k
    refine PolyA.ite _ (fun _ => ?_) fun hk => ?_
    · exact poly_baryEval ht hw (a := 0) PolyA.zero PolyA.one (by simp)
    · obtain ⟨k, rfl⟩ : ∃ m, k = m + 1 := ⟨k - 1, by omega⟩
      exact poly_baryEval ht hw (a := 1) (hR.a _) (hR.a _) (hsz k)
  have hcp : ∀ k, PolyA D (max 2 d) fun x => chunkProd b d g (R x) k := by
    intro k
    refine PolyA.ite _ (fun _ => ?_) fun hk => ?_
    · exact PolyA.prod (k := 1) _ (fun i _ => ht i) (by simp)
    · obtain ⟨k, rfl⟩ : ∃ m, k = m + 1 := ⟨k - 1, by omega⟩
      refine (hR.a _).mul (PolyA.prod (k := 1) _ (fun i _ => ht i) le_rfl) ?_
      have := hsz k
      simp only [Nat.add_sub_cancel]; omega
  refine PolyL.append (PolyL.append (PolyL.coords ?_) (PolyL.flatMap _ fun k _ =>
    PolyL.append (PolyL.coords ?_) (PolyL.coords ?_))) (PolyL.coords ?_)
  · exact ((hR.a _).mono (by omega)).sub ((PolyA.ofExt (hR.w 0)).mul (hR.a _) h2)
  · exact ((hR.a _).mono (by omega)).sub (hce k)
  · exact ((hR.a _).mono (by omega)).sub (hcp k)
  · exact ((hR.a _).mono (by omega)).sub (hce _)

/-! ## Poseidon -/

theorem poly_mixA {s : QE → Fin 12 → QA} {k : ℕ} (h : ∀ i, PolyA D k fun x => s x i) (i : Fin 12) :
    PolyA D k fun x => Spec.mix (s x) i := by
  refine PolyA.sum _ fun j _ => ?_
  refine PolyA.mul (k := 0) ?_ (h j) (by omega)
  have := PolyA.ofExt (D := D) (Poly.nat (D := D) (k := 0) (Spec.mds i j))
  have e : ofExt ((Spec.mds i j : ℕ) : QE) = ((Spec.mds i j : ℕ) : QA) := map_natCast (algebraMap QE QA) _
  simpa only [e] using this

theorem poly_mix {s : QE → Fin 12 → QE} {k : ℕ} (h : ∀ i, Poly D k fun x => s x i) (i : Fin 12) :
    Poly D k fun x => Spec.mix (s x) i :=
  Poly.sum _ fun j _ => (Poly.nat (k := 0) _).mul (h j) (by omega)

theorem poly_poseidonMds (hR : PolyRow D R) : PolyL D 1 fun x => poseidonMds (R x) := by
  simp only [poseidonMds, List.ofFn_eq_map, List.flatMap_map]
  exact PolyL.flatMap _ fun i _ => PolyL.coords ((hR.a _).sub (poly_mixA (fun j => hR.a _) i))

open Spec.Gates.Poseidon in
theorem poly_poseidon (hR : PolyRow D R) : PolyL D 7 fun x => poseidon (R x) := by
  have hin : ∀ i, Poly D 1 fun x => input (R x) i := fun i =>
    Poly.ite _ (fun _ => (hR.w _).add (hR.w _)) fun _ => Poly.ite _ (fun _ => (hR.w _).sub (hR.w _)) fun _ => hR.w _
  have hwired : ∀ r i, Poly D (if r = 0 then 1 else 7) fun x => wired (R x) r i := by
    intro r
    induction r with
    | zero => exact hin
    | succ r ih =>
      intro i
      rw [if_neg (by omega)]
      refine poly_mix (fun j => ?_) i
      refine Poly.ite _ (fun h0 => ?_) fun h0 => Poly.ite _ (fun _ => ?_) fun _ => ?_
      · subst h0
        exact ((ih j).add (Poly.nat _)).pow 7 (by simp)
      · have := ih j
        rw [if_neg h0] at this
        exact this.add (Poly.nat _)
      · exact (hR.w _).pow 7 (by norm_num)
  have hw7 : ∀ r i, Poly D 7 fun x => wired (R x) r i := fun r i => (hwired r i).mono (by split_ifs <;> omega)
  have hdiff : ∀ r i, Poly D 7 fun x => diff (R x) r i := fun r i =>
    ((hw7 r i).add (Poly.nat _)).sub ((hR.w _).mono (by norm_num))
  refine PolyL.append (PolyL.append (PolyL.append (PolyL.append (PolyL.cons ?_ (PolyL.ofFn fun i => ?_))
    (PolyL.flatMap _ fun r _ => PolyL.ofFn fun i => hdiff r i)) (PolyL.map _ fun r _ => hdiff _ _))
    (PolyL.flatMap _ fun r _ => PolyL.ofFn fun i => hdiff r i)) (PolyL.ofFn fun i => ?_)
  · exact ((hR.w _).mul (l := 1) ((hR.w _).sub Poly.one) le_rfl).mono (by norm_num)
  · exact (((hR.w _).mul ((hR.w _).sub (hR.w _)) le_rfl).mono (by norm_num)).sub ((hR.w _).mono (by norm_num))
  · exact (hw7 _ _).sub ((hR.w _).mono (by norm_num))

/-- The constraints of a gate have the gate's degree. -/
theorem poly_constraints (hR : PolyRow D R) (g : Gate) : PolyL D (degree g) fun x => constraints g (R x) := by
  cases g with
  | arithmetic n => exact poly_arithmetic hR n
  | arithmeticExtension n => exact poly_arithmeticExtension hR n
  | baseSum n b => exact poly_baseSum hR n b
  | constant n => exact poly_constant hR n
  | cosetInterpolation b d wt => exact poly_cosetInterpolation hR b d _ _
  | exponentiation n => exact poly_exponentiation hR n
  | mulExtension n => exact poly_mulExtension hR n
  | noop => exact PolyL.nil
  | poseidon => exact poly_poseidon hR
  | poseidonMds => exact poly_poseidonMds hR
  | publicInput => exact poly_publicInput hR
  | randomAccess b c e => exact poly_randomAccess hR b c e
  | reducing n => exact poly_reducing hR n
  | reducingExtension n => exact poly_reducingExtension hR n

theorem poly_gateFilter (hR : PolyRow D R) (si : SelectorsInfo) (i : ℕ) :
    Poly D (filterDegree si i) fun x => gateFilter si (R x) i := by
  refine Poly.mul (k := ((Finset.Ico (si.groups.getD (si.selectorIndices.getD i 0) (0, 0)).1
    (si.groups.getD (si.selectorIndices.getD i 0) (0, 0)).2).erase i).card)
    (l := if 1 < si.groups.length then 1 else 0)
    (Poly.prod (k := 1) _ (fun j _ => (Poly.nat j).sub (hR.c _)) (by simp)) ?_ le_rfl
  refine Poly.ite _ (fun h => ?_) fun h => Poly.one
  rw [if_pos (of_decide_eq_true h)]
  have h1 : Poly D 1 fun _ => ((2 : QE) ^ 32 - 1) := (Poly.two.pow 32 (k := 0) (by simp)).sub Poly.one
  exact h1.sub (hR.c _)

theorem poly_combined (hR : PolyRow D R) (gates : List Gate) (si : SelectorsInfo) (k : ℕ)
    (hk : ∀ gi ∈ gates.zipIdx, degree gi.1 + filterDegree si gi.2 ≤ k) (j : ℕ) :
    Poly D k fun x => combined gates si (R x) j := by
  have : ∀ l : List (Gate × ℕ), (∀ gi ∈ l, degree gi.1 + filterDegree si gi.2 ≤ k) → Poly D k fun x =>
      (l.map fun gi => gateFilter si (R x) gi.2 * (constraints gi.1 ((R x).drop si.groups.length)).getD j 0).sum := by
    intro l
    induction l with
    | nil => intro _; exact Poly.zero
    | cons a l ih =>
      intro hl
      simp only [List.map_cons, List.sum_cons]
      refine Poly.add ?_ (ih fun gi h => hl gi (by simp [h]))
      refine (poly_gateFilter hR si a.2).mul ((poly_constraints (hR.drop _) a.1).getD j) ?_
      have := hl a (by simp)
      omega
  exact this _ hk

end Verif.Degree
