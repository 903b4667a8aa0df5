import Verif.Model.Lookup
import Verif.Proofs.RangeCheckUtils
import Verif.Proofs.ScalarField
import Verif.Spec.Interactive
import Mathlib.Algebra.Polynomial.Roots
import Mathlib.Algebra.BigOperators.Field

/-!
# Logarithmic-derivative lookups
-/

set_option autoImplicit false

namespace Verif.Lookup

open Circ Polynomial

/-- A nontrivial combination of simple poles has fewer zeros than poles. -/
theorem card_zeros {F : Type} [Field F] [DecidableEq F] (A : Finset F) (f : F → F) (s : F) (hs : s ∈ A) (hf : f s ≠ 0)
    (Z : Finset F) (hZ : ∀ c ∈ Z, c ∉ A ∧ ∑ a ∈ A, f a / (c - a) = 0) : Z.card + 1 ≤ A.card := by
  set P : F[X] := ∑ a ∈ A, C (f a) * ∏ b ∈ A.erase a, (X - C b) with hP
  have hdeg : P.natDegree ≤ A.card - 1 := by
    refine natDegree_sum_le_of_forall_le _ _ fun a ha => (natDegree_C_mul_le _ _).trans ?_
    refine (natDegree_prod_le _ _).trans ?_
    simp [Finset.card_erase_of_mem ha]
  have hne : P ≠ 0 := by
    intro h
    have h1 : P.eval s = f s * ∏ b ∈ A.erase s, (s - b) := by
      rw [hP, eval_finset_sum, Finset.sum_eq_single_of_mem s hs]
      · simp [eval_prod]
      · intro a ha hne
        rw [eval_mul, eval_prod, Finset.prod_eq_zero (Finset.mem_erase.2 ⟨hne.symm, hs⟩) (by simp), mul_zero]
    rw [h, eval_zero] at h1
    refine mul_ne_zero hf (Finset.prod_ne_zero_iff.2 fun b hb => ?_) h1.symm
    exact sub_ne_zero.2 (Finset.ne_of_mem_erase hb).symm
  have hroot : ∀ c ∈ Z, c ∈ P.roots.toFinset := by
    intro c hc
    obtain ⟨h1, h2⟩ := hZ c hc
    rw [Multiset.mem_toFinset, mem_roots hne, IsRoot, hP, eval_finset_sum]
    have : ∀ a ∈ A, (C (f a) * ∏ b ∈ A.erase a, (X - C b)).eval c = (∏ b ∈ A, (c - b)) * (f a / (c - a)) := by
      intro a ha
      have : c - a ≠ 0 := sub_ne_zero.2 fun h => h1 (h ▸ ha)
      rw [← Finset.mul_prod_erase A _ ha]
      simp only [eval_mul, eval_C, eval_prod, eval_sub, eval_X]
      field_simp
    rw [Finset.sum_congr rfl this, ← Finset.mul_sum, h2, mul_zero]
  have h1 : Z.card ≤ P.roots.toFinset.card := Finset.card_le_card hroot
  have h2 : P.roots.toFinset.card ≤ A.card - 1 := (Multiset.toFinset_card_le _).trans ((card_roots' _).trans hdeg)
  have h3 : 0 < A.card := Finset.card_pos.2 ⟨s, hs⟩
  omega

theorem sat_inverse (x y : Fr) : Sat (apiInverse x) y ↔ x ≠ 0 ∧ y = x⁻¹ := by
  simp only [apiInverse, newHint, assertEq, bind_eq, Circ.bind, Sat, decide_eq_true_eq, pure_eq]
  constructor
  · rintro ⟨v, h1, rfl⟩
    have : x ≠ 0 := by rintro rfl; simp at h1
    exact ⟨this, eq_inv_of_mul_eq_one_right h1⟩
  · rintro ⟨h1, rfl⟩
    exact ⟨fun _ => x⁻¹, mul_inv_cancel₀ h1, rfl⟩

theorem sat_div (a b y : Fr) : Sat (apiDivUnchecked a b) y ↔ y * b = a := by
  simp only [apiDivUnchecked, newHint, assertEq, bind_eq, Circ.bind, Sat, decide_eq_true_eq, pure_eq]
  exact ⟨fun ⟨v, h1, h2⟩ => h2 ▸ h1, fun h => ⟨fun _ => y, h, rfl⟩⟩

/-- Sums accumulated in a loop. -/
theorem sat_sum {ι : Type} (f : ι → Circ Fr) (l : List ι) (s y : Fr) :
    Sat (l.foldlM (fun s x => do let t ← f x; pure (s + t)) s) y ↔
      ∃ ts, List.Forall₂ (fun x t => Sat (f x) t) l ts ∧ y = s + ts.sum := by
  induction l generalizing s with
  | nil => simp [Sat, pure_eq]
  | cons a l ih =>
    rw [List.foldlM_cons]
    simp only [sat_bind, sat_pure, ih]
    constructor
    · rintro ⟨_, ⟨t, h1, rfl⟩, ts, h2, rfl⟩
      exact ⟨t :: ts, .cons h1 h2, by rw [List.sum_cons, add_assoc]⟩
    · rintro ⟨_, h1, rfl⟩
      cases h1 with
      | cons h1 h2 => exact ⟨_, ⟨_, h1, rfl⟩, _, h2, by rw [List.sum_cons, add_assoc]⟩

theorem sat_challenge (w : ℕ) (c : Fr) (qs : List Fr) (m : Fin (2 ^ w) → Fr) :
    Sat (challengePhase w c qs m) () ↔ (∀ q ∈ qs, c ≠ q) ∧ ∃ t : Fin (2 ^ w) → Fr,
      (∀ i, t i * (c - ((i : ℕ) : Fr)) = m i) ∧ ∑ i, t i = (qs.map fun q => (c - q)⁻¹).sum := by
  have hq : ∀ ts, List.Forall₂ (fun x t => Sat (apiInverse (c - x)) t) qs ts ↔
      (∀ q ∈ qs, c ≠ q) ∧ ts = qs.map fun q => (c - q)⁻¹ := by
    intro ts
    induction qs generalizing ts with
    | nil => simp
    | cons a l ih =>
      rw [List.forall₂_cons_left_iff]
      simp only [ih]
      simp only [sat_inverse, List.forall_mem_cons, List.map_cons, sub_ne_zero]
      constructor
      · rintro ⟨_, _, ⟨h1, rfl⟩, ⟨h2, rfl⟩, rfl⟩; exact ⟨⟨h1, h2⟩, rfl⟩
      · rintro ⟨⟨h1, h2⟩, rfl⟩; exact ⟨_, _, ⟨h1, rfl⟩, ⟨h2, rfl⟩, rfl⟩
  simp only [challengePhase, sat_bind, sat_sum, hq, zero_add, assertEq, Sat, decide_eq_true_eq, sat_div, and_true]
  constructor
  · rintro ⟨_, ⟨ts, h1, rfl⟩, _, ⟨_, ⟨h2, rfl⟩, rfl⟩, h3⟩
    refine ⟨h2, fun i => ts.getD i 0, fun i => ?_, ?_⟩
    · have hl := h1.length_eq
      have := h1.get (i := i) (by simp) (by rw [← hl]; simp)
      simpa [List.getD_eq_getElem?_getD, List.getElem?_eq_getElem (show (i : ℕ) < ts.length by rw [← hl]; simp)] using this
    · rw [← h3, ← List.sum_ofFn]
      congr 1
      have hl := h1.length_eq
      refine List.ext_getElem (by simpa using hl) fun i hi hj => ?_
      simp [List.getD_eq_getElem?_getD, List.getElem?_eq_getElem hj]
  · rintro ⟨h2, t, h1, h3⟩
    refine ⟨_, ⟨(List.finRange (2 ^ w)).map t, ?_, rfl⟩, _, ⟨_, ⟨h2, rfl⟩, rfl⟩, ?_⟩
    · rw [List.forall₂_map_right_iff, List.forall₂_same]
      exact fun i _ => h1 i
    · rw [← h3, ← List.ofFn_eq_map, List.sum_ofFn]

/-- A wrong entry passes for few challenges, whatever the counts. -/
theorem card_bad (w : ℕ) (hw : 2 ^ w ≤ r) (qs : List Fr) (hl : qs.length < r) (m : Fin (2 ^ w) → Fr) (s : Fr) (hs : s ∈ qs)
    (hn : 2 ^ w ≤ s.val) (Z : Finset Fr) (hZ : ∀ c ∈ Z, Sat (challengePhase w c qs m) ()) :
    Z.card ≤ 2 * 2 ^ w + qs.length := by
  classical
  set T : Finset Fr := Finset.univ.image fun i : Fin (2 ^ w) => ((i : ℕ) : Fr) with hT
  have hTc : T.card ≤ 2 ^ w := Finset.card_image_le.trans (by simp)
  set A : Finset Fr := T ∪ qs.toFinset with hA
  have hAc : A.card ≤ 2 ^ w + qs.length :=
    (Finset.card_union_le _ _).trans (add_le_add hTc (List.toFinset_card_le _))
  have hsT : s ∉ T := by
    intro h
    obtain ⟨i, -, rfl⟩ := Finset.mem_image.1 h
    rw [ZMod.val_natCast_of_lt (i.2.trans_le hw)] at hn
    exact absurd i.2 (by omega)
  have hTA : T ⊆ A := Finset.subset_union_left
  have hQA : qs.toFinset ⊆ A := Finset.subset_union_right
  set f : Fr → Fr := fun a => (∑ i with ((i : Fin (2 ^ w)) : ℕ) = (a : Fr), m i) - (qs.count a : Fr) with hf
  have hfs : f s ≠ 0 := by
    have h1 : (Finset.univ.filter fun i : Fin (2 ^ w) => ((i : ℕ) : Fr) = s) = ∅ :=
      Finset.filter_eq_empty_iff.2 fun i _ h => hsT (Finset.mem_image.2 ⟨i, Finset.mem_univ _, h⟩)
    rw [hf]
    simp only
    rw [h1, Finset.sum_empty, zero_sub, neg_ne_zero]
    intro h
    have h2 := congrArg ZMod.val h
    rw [ZMod.val_natCast_of_lt (lt_of_le_of_lt List.count_le_length hl), ZMod.val_zero] at h2
    exact (List.count_pos_iff.2 hs).ne' h2
  have key : (Z \ T).card + 1 ≤ A.card := by
    refine card_zeros A f s (hQA (List.mem_toFinset.2 hs)) hfs _ fun c hc => ?_
    obtain ⟨hcZ, hcT⟩ := Finset.mem_sdiff.1 hc
    obtain ⟨h1, t, h2, h3⟩ := (sat_challenge _ _ _ _).1 (hZ c hcZ)
    refine ⟨fun h => ?_, ?_⟩
    · rcases Finset.mem_union.1 h with h | h
      · exact hcT h
      · exact h1 c (List.mem_toFinset.1 h) rfl
    · have ht : ∀ i, t i = m i / (c - ((i : ℕ) : Fr)) := fun i => by
        rw [eq_div_iff (sub_ne_zero.2 fun h => hcT (Finset.mem_image.2 ⟨i, Finset.mem_univ _, h.symm⟩))]
        exact h2 i
      have e1 : ∑ a ∈ A, (∑ i with ((i : Fin (2 ^ w)) : ℕ) = (a : Fr), m i) / (c - a) = ∑ i, t i := by
        rw [← Finset.sum_fiberwise_of_maps_to (s := Finset.univ) (t := A) (g := fun i : Fin (2 ^ w) => ((i : ℕ) : Fr))
          (fun i _ => hTA (Finset.mem_image_of_mem _ (Finset.mem_univ i)))]
        refine Finset.sum_congr rfl fun a _ => ?_
        rw [Finset.sum_div]
        refine Finset.sum_congr rfl fun i hi => ?_
        rw [ht, (Finset.mem_filter.1 hi).2]
      have e2 : ∑ a ∈ A, (qs.count a : Fr) / (c - a) = (qs.map fun q => (c - q)⁻¹).sum := by
        rw [← Finset.sum_subset hQA, Finset.sum_list_map_count]
        · refine Finset.sum_congr rfl fun a _ => ?_
          rw [nsmul_eq_mul, div_eq_mul_inv]
        · intro a _ ha
          rw [List.count_eq_zero_of_not_mem (fun h => ha (List.mem_toFinset.2 h)), Nat.cast_zero, zero_div]
      simp only [hf, sub_div, Finset.sum_sub_distrib]
      rw [e1, e2, h3, sub_self]
  have : Z.card ≤ (Z \ T).card + T.card := by
    have := Finset.card_le_card_sdiff_add_card (s := Z) (t := T)
    omega
  omega

theorem compose_val (w : ℕ) (ls : List Fr) (h : ∀ x ∈ ls, x.val < 2 ^ w) (hw : w * ls.length ≤ 253) :
    (compose w ls).val < 2 ^ (w * ls.length) := by
  have key : ∀ ls : List Fr, (∀ x ∈ ls, x.val < 2 ^ w) → ∃ n : ℕ, n < 2 ^ (w * ls.length) ∧ compose w ls = n := by
    intro ls
    induction ls with
    | nil => intro _; exact ⟨0, by simp, by simp [compose]⟩
    | cons a ls ih =>
      intro h
      obtain ⟨n, h1, h2⟩ := ih fun x hx => h x (List.mem_cons_of_mem _ hx)
      refine ⟨a.val + 2 ^ w * n, ?_, ?_⟩
      · have h3 := h a List.mem_cons_self
        rw [List.length_cons, Nat.mul_succ, pow_add]
        calc a.val + 2 ^ w * n < 2 ^ w * (n + 1) := by rw [Nat.mul_add]; omega
          _ ≤ 2 ^ w * 2 ^ (w * ls.length) := Nat.mul_le_mul_left _ h1
          _ = _ := Nat.mul_comm _ _
      · rw [compose, h2]; push_cast; rw [ZMod.natCast_zmod_val]
  obtain ⟨n, h1, h2⟩ := key ls h
  rw [h2, ZMod.val_natCast_of_lt]
  · exact h1
  · exact h1.trans_le ((Nat.pow_le_pow_right (by norm_num) hw).trans (by norm_num [r]))

theorem sat_decompose (w : ℕ) (e : Fr × ℕ) (ls : List Fr) :
    Sat (decompose w e) ls ↔ ls.length = decompSize e.2 w ∧ compose w ls = e.1 := by
  simp only [decompose, newHint, assertEq, bind_eq, Circ.bind, Sat, decide_eq_true_eq, pure_eq]
  constructor
  · rintro ⟨v, h1, rfl⟩; exact ⟨by simp, h1⟩
  · rintro ⟨h1, h2⟩
    have e : List.ofFn (fun i : Fin (decompSize e.2 w) => ls.get (i.cast h1.symm)) = ls := by
      refine List.ext_getElem (by simp [h1]) fun i _ _ => by simp
    exact ⟨_, by rw [e]; exact h2, e.symm⟩

theorem sat_mapM {α β : Type} (f : α → Circ β) (l : List α) (ys : List β) :
    Sat (l.mapM f) ys ↔ List.Forall₂ (fun x y => Sat (f x) y) l ys := by
  induction l generalizing ys with
  | nil => simp [sat_pure]
  | cons a l ih =>
    rw [List.mapM_cons, List.forall₂_cons_left_iff]
    simp only [sat_bind, sat_pure, ih]
    constructor
    · rintro ⟨y, h1, zs, h2, rfl⟩; exact ⟨y, zs, h1, h2, rfl⟩
    · rintro ⟨y, zs, h1, h2, rfl⟩; exact ⟨y, h1, zs, h2, rfl⟩

theorem sat_commit (w : ℕ) (log : List (Fr × ℕ)) (qs : List Fr) (m : Fin (2 ^ w) → Fr) :
    Sat (commitPhase w log) (qs, m) ↔ ∃ limbs : List (List Fr), qs = limbs.flatten ∧
      List.Forall₂ (fun e ls => ls.length = decompSize e.2 w ∧ compose w ls = e.1) log limbs := by
  simp only [commitPhase, sat_bind, sat_mapM, sat_decompose, sat_pure]
  constructor
  · rintro ⟨limbs, h1, _, -, h2⟩
    exact ⟨limbs, (Prod.mk.inj h2).1, h1⟩
  · rintro ⟨limbs, rfl, h1⟩
    exact ⟨limbs, h1, m, (by simp only [newHint, Sat]; exact ⟨m, rfl⟩), rfl⟩

theorem length_queries {w : ℕ} {log : List (Fr × ℕ)} {limbs : List (List Fr)}
    (h : List.Forall₂ (fun e ls => ls.length = decompSize e.2 w ∧ compose w ls = e.1) log limbs) :
    limbs.flatten.length = limbCount w (log.map Prod.snd) := by
  induction h with
  | nil => rfl
  | cons h _ ih => simp only [List.flatten_cons, List.length_append, ih, limbCount, List.map_cons, List.sum_cons, h.1]

/-- Values with limbs in the table are in range. -/
theorem bounded_of_limbs {w : ℕ} {log : List (Fr × ℕ)} {limbs : List (List Fr)}
    (hw : ∀ e ∈ log, w * decompSize e.2 w ≤ 253)
    (h : List.Forall₂ (fun e ls => ls.length = decompSize e.2 w ∧ compose w ls = e.1) log limbs)
    (hq : ∀ q ∈ limbs.flatten, q.val < 2 ^ w) : ∀ e ∈ log, e.1.val < 2 ^ (w * decompSize e.2 w) := by
  induction h with
  | nil => simp
  | @cons e ls log limbs h _ ih =>
    rw [List.forall_mem_cons] at hw ⊢
    rw [List.flatten_cons] at hq
    refine ⟨?_, ih hw.2 fun q hq' => hq q (List.mem_append_right _ hq')⟩
    rw [← h.2, ← h.1]
    exact compose_val w ls (fun x hx => hq x (List.mem_append_left _ hx)) (by rw [h.1]; exact hw.1)

/-! ## Honest runs -/

theorem honest_sum {ι : Type} (f : ι → Circ Fr) (g : ι → Fr) (l : List ι) (s : Fr) (h : ∀ x ∈ l, honest (f x) = some (g x)) :
    honest (l.foldlM (fun s x => do let t ← f x; pure (s + t)) s) = some (s + (l.map g).sum) := by
  induction l generalizing s with
  | nil => simp [honest_pure]
  | cons a l ih =>
    rw [List.foldlM_cons, honest_bind, honest_bind, h a List.mem_cons_self]
    simp only [Option.bind_some, honest_pure]
    rw [ih _ fun x hx => h x (List.mem_cons_of_mem _ hx), List.map_cons, List.sum_cons, add_assoc]

/-- The limbs of a number. -/
def limbsOf (w k v : ℕ) : List Fr := List.ofFn fun j : Fin k => ((v / 2 ^ (w * j) % 2 ^ w : ℕ) : Fr)

theorem compose_limbsOf (w k v : ℕ) (h : v < 2 ^ (w * k)) : compose w (limbsOf w k v) = (v : Fr) := by
  induction k generalizing v with
  | zero => simp at h; simp [limbsOf, compose, h]
  | succ k ih =>
    have e : limbsOf w (k + 1) v = ((v % 2 ^ w : ℕ) : Fr) :: limbsOf w k (v / 2 ^ w) := by
      rw [limbsOf, List.ofFn_succ]
      congr 1
      · simp
      · rw [limbsOf]
        congr 1
        funext j
        rw [Nat.div_div_eq_div_mul, ← pow_add, Fin.val_succ, Nat.mul_succ, Nat.add_comm]
    rw [e, compose, ih, ← Nat.cast_mul, ← Nat.cast_add, Nat.mod_add_div]
    rw [Nat.mul_succ, Nat.add_comm, pow_add] at h
    exact Nat.div_lt_of_lt_mul h

theorem limbsOf_lt {w k v : ℕ} (hw : 2 ^ w ≤ r) : ∀ q ∈ limbsOf w k v, q.val < 2 ^ w := by
  intro q hq
  obtain ⟨j, rfl⟩ := (List.mem_ofFn' _ _).1 hq
  have : v / 2 ^ (w * j) % 2 ^ w < 2 ^ w := Nat.mod_lt _ (by positivity)
  rwa [ZMod.val_natCast_of_lt (this.trans_le hw)]

theorem honest_decompose (w : ℕ) (e : Fr × ℕ) (h : e.1.val < 2 ^ (w * decompSize e.2 w)) :
    honest (decompose w e) = some (limbsOf w (decompSize e.2 w) e.1.val) := by
  have := compose_limbsOf w _ _ h
  rw [ZMod.natCast_zmod_val] at this
  rw [limbsOf] at this
  simp only [decompose, newHint, assertEq, bind_eq, Circ.bind, honest, pure_eq, this, decide_true, if_true, limbsOf]

theorem honest_mapM {α β : Type} (f : α → Circ β) (g : α → β) (l : List α) (h : ∀ x ∈ l, honest (f x) = some (g x)) :
    honest (l.mapM f) = some (l.map g) := by
  induction l with
  | nil => simp [honest_pure]
  | cons a l ih =>
    rw [List.mapM_cons, honest_bind, h a List.mem_cons_self, Option.bind_some, honest_bind,
      ih fun x hx => h x (List.mem_cons_of_mem _ hx)]
    simp [honest_pure]

/-- Honest limbs. -/
def limbsOfLog (w : ℕ) (log : List (Fr × ℕ)) : List Fr := log.flatMap fun e => limbsOf w (decompSize e.2 w) e.1.val

theorem honest_commit (w : ℕ) (hw : 2 ^ w ≤ r) (log : List (Fr × ℕ)) (h : ∀ e ∈ log, e.1.val < 2 ^ (w * decompSize e.2 w)) :
    honest (commitPhase w log) =
      some (limbsOfLog w log, fun j : Fin (2 ^ w) => ((limbsOfLog w log).count ((j : ℕ) : Fr) : Fr)) := by
  rw [commitPhase, honest_bind, honest_mapM _ _ _ fun e he => honest_decompose w e (h e he), Option.bind_some]
  have e : (log.map fun e => limbsOf w (decompSize e.2 w) e.1.val).flatten = limbsOfLog w log := rfl
  have hq : ∀ q ∈ limbsOfLog w log, q.val < 2 ^ w := by
    intro q hq
    obtain ⟨e, -, he⟩ := List.mem_flatMap.1 hq
    exact limbsOf_lt hw q he
  rw [e, countHint, if_pos hq]
  simp only [newHint, bind_eq, Circ.bind, honest, pure_eq]

theorem honest_challenge (w : ℕ) (hw : 2 ^ w ≤ r) (c : Fr) (hc : 2 ^ w ≤ c.val) (qs : List Fr) (hq : ∀ q ∈ qs, q.val < 2 ^ w) :
    honest (challengePhase w c qs fun j => (qs.count ((j : ℕ) : Fr) : Fr)) = some () := by
  have hT : ∀ i : Fin (2 ^ w), c - ((i : ℕ) : Fr) ≠ 0 := by
    intro i h
    rw [sub_eq_zero.1 h, ZMod.val_natCast_of_lt (i.2.trans_le hw)] at hc
    exact absurd i.2 (by omega)
  have hQ : ∀ q ∈ qs, c - q ≠ 0 := by
    intro q hq' h
    rw [sub_eq_zero.1 h] at hc
    exact absurd (hq q hq') (by omega)
  have h1 : ∀ i ∈ List.finRange (2 ^ w), honest (apiDivUnchecked (qs.count ((i : ℕ) : Fr) : Fr) (c - ((i : ℕ) : Fr))) =
      some ((qs.count ((i : ℕ) : Fr) : Fr) * (c - ((i : ℕ) : Fr))⁻¹) := by
    intro i _
    have := hT i
    simp [apiDivUnchecked, newHint, assertEq, bind_eq, Circ.bind, honest, pure_eq, this]
  have h2 : ∀ q ∈ qs, honest (apiInverse (c - q)) = some (c - q)⁻¹ := by
    intro q hq'
    have := hQ q hq'
    simp [apiInverse, newHint, assertEq, bind_eq, Circ.bind, honest, pure_eq, this]
  rw [challengePhase, honest_bind, honest_sum _ _ _ _ h1, Option.bind_some, honest_bind, honest_sum _ _ _ _ h2,
    Option.bind_some, zero_add, zero_add]
  have key : ((List.finRange (2 ^ w)).map fun i : Fin (2 ^ w) =>
      (qs.count ((i : ℕ) : Fr) : Fr) * (c - ((i : ℕ) : Fr))⁻¹).sum = (qs.map fun q => (c - q)⁻¹).sum := by
    rw [← List.ofFn_eq_map, List.sum_ofFn, Finset.sum_list_map_count]
    symm
    refine Finset.sum_of_injOn (fun q => if h : q.val < 2 ^ w then ⟨q.val, h⟩ else ⟨0, by positivity⟩) ?_ ?_ ?_ ?_
    · intro a ha b hb hab
      have ha' := hq a (List.mem_toFinset.1 ha)
      have hb' := hq b (List.mem_toFinset.1 hb)
      simp only [dif_pos ha', dif_pos hb', Fin.mk.injEq] at hab
      exact ZMod.val_injective _ hab
    · intro a _; exact Finset.mem_coe.2 (Finset.mem_univ _)
    · intro i _ hi
      have : qs.count ((i : ℕ) : Fr) = 0 := by
        refine List.count_eq_zero_of_not_mem fun h => hi ⟨((i : ℕ) : Fr), List.mem_toFinset.2 h, ?_⟩
        have e : (((i : ℕ) : Fr)).val = i := ZMod.val_natCast_of_lt (i.2.trans_le hw)
        simp only [e, dif_pos i.2]
      rw [this, Nat.cast_zero, zero_mul]
    · intro q hq'
      have := hq q (List.mem_toFinset.1 hq')
      simp only [dif_pos this, ZMod.natCast_zmod_val, nsmul_eq_mul]
  rw [key]
  simp [assertEq, honest]

end Verif.Lookup
