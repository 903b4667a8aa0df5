import Verif.Proofs.GatesRandom
import Verif.Proofs.GatesCoset
import Verif.Proofs.GatesPoseidon
import Verif.Spec.Plonk

/-!
# Filters and accumulation of gate constraints
-/

set_option autoImplicit false

namespace Verif

open Circ

namespace Gates

open Spec.Gates (Row Fits constraints filter gateFilter combined GateOk subgroupGen)

variable {v : EvaluationVars Fp QE}

/-! ## Dispatch -/

theorem subgroupGen_eq {b : ℕ} (hb : b ≤ 32) : primitiveRootOfUnity b = some (subgroupGen b) := by
  rw [primitiveRootOfUnity, if_neg (by simp [TWO_ADICITY]; omega), squareTimes_eq, subgroupGen, POWER_OF_TWO_GENERATOR, TWO_ADICITY, Nat.cast_ofNat]

theorem den_evalUnfiltered {g : Gate} (h : Fits v.localConstants.length v.localWires.length g) :
    den (g.evalUnfiltered v.enc) = pure ((constraints g v.row).map embQ) := by
  cases g with
  | arithmetic n => exact den_arithmetic h.1 h.2
  | arithmeticExtension n => exact den_arithmeticExtension h.1 h.2
  | baseSum n b => exact den_baseSum h.1 h.2
  | constant n => exact den_constant h.1 h.2
  | cosetInterpolation b d wt =>
    obtain ⟨h1, h2, h3, h4, h5⟩ := h
    exact den_cosetInterpolation h1 h2 h3 (subgroupGen_eq h1) h4 h5
  | exponentiation n => exact den_exponentiation h.1 h.2
  | mulExtension n => exact den_mulExtension h.1 h.2
  | noop => exact den_noop (v := v)
  | poseidon => exact den_poseidon h
  | poseidonMds => exact den_poseidonMds h
  | publicInput => exact den_publicInput h
  | randomAccess b c e => exact den_randomAccess h.1 h.2.1 h.2.2
  | reducing n => exact den_reducing h
  | reducingExtension n => exact den_reducingExtension h

/-! ## Filter -/

theorem filter_foldl (row : ℕ) (s a : QE) (st n : ℕ) :
    (List.range' st n).foldl (fun a (i : ℕ) => if i = row then a else a * ((i : QE) - s)) a =
      a * ∏ i ∈ (Finset.Ico st (st + n)).erase row, ((i : QE) - s) := by
  induction n with
  | zero => simp
  | succ n ih =>
    have hI : Finset.Ico st (st + (n + 1)) = insert (st + n) (Finset.Ico st (st + n)) := by
      ext i; simp only [Finset.mem_Ico, Finset.mem_insert]; omega
    rw [List.range'_concat, List.foldl_append, ih, Nat.one_mul, hI]
    by_cases h : st + n = row
    · rw [h, Finset.erase_insert_eq_erase]; simp
    · rw [Finset.erase_insert_of_ne h, Finset.prod_insert (by simp), List.foldl_cons, List.foldl_nil, if_neg h]
      ring

theorem den_computeFilter {row : ℕ} {group : ℕ × ℕ} (hg : group.2 ≤ p) (s : QE) (many : Bool) :
    den (computeFilter row group (embQ s) many) = pure (embQ (filter row group many s)) := by
  rw [computeFilter, den_bind, den_foldlM, oneExt_eq,
    Den.foldlM_enc embQ (g := fun a (i : ℕ) => if i = row then a else a * ((i : QE) - s))]
  · rw [pure_bind, filter_foldl, one_mul]
    have hI : Finset.Ico group.1 (group.1 + (group.2 - group.1)) = Finset.Ico group.1 group.2 := by
      ext i; simp only [Finset.mem_Ico]; omega
    have hu : (((UNUSED_SELECTOR : ℕ) : Fr), (0 : Fr)) = embQ (2 ^ 32 - 1) := by
      rw [natExt (by norm_num [UNUSED_SELECTOR, p])]
      refine congrArg embQ ?_
      norm_num [UNUSED_SELECTOR]
    rw [hI, filter]
    cases many with
    | true =>
      rw [if_pos rfl, if_pos rfl, hu, den_bind, den_subExt, pure_bind, den_mulExt]
    | false => rw [if_neg (by simp), if_neg (by simp), den_pure, mul_one]
  · intro a i hi
    rw [List.mem_range'_1] at hi
    by_cases h : i = row
    · rw [if_pos h, if_pos h, den_pure]
    · rw [if_neg h, if_neg h, natExt (by omega), den_bind, den_subExt, pure_bind, den_mulExt]

theorem natCast_QE_inj {i j : ℕ} (hi : i < p) (hj : j < p) : (i : QE) = (j : QE) ↔ i = j := by
  refine ⟨fun h => ?_, fun h => by rw [h]⟩
  have h : ((i : ℕ) : Fp) = ((j : ℕ) : Fp) := by
    have e : ∀ k : ℕ, (k : QE) = ofBase (k : Fp) := fun k => (map_natCast (algebraMap Fp QE) k).symm
    rw [e, e] at h
    simpa [ofBase] using congrArg QuadraticAlgebra.re h
  rw [ZMod.natCast_eq_natCast_iff', Nat.mod_eq_of_lt hi, Nat.mod_eq_of_lt hj] at h
  exact h

theorem filter_ne_zero {row : ℕ} {group : ℕ × ℕ} {many : Bool} {s : QE} : filter row group many s ≠ 0 ↔
    (∀ i, group.1 ≤ i → i < group.2 → i ≠ row → s ≠ (i : QE)) ∧ (many = true → s ≠ 2 ^ 32 - 1) := by
  rw [filter, mul_ne_zero_iff, Finset.prod_ne_zero_iff]
  refine and_congr ⟨fun h i h1 h2 h3 he => ?_, fun h i hi => ?_⟩ ?_
  · exact h i (Finset.mem_erase.2 ⟨h3, Finset.mem_Ico.2 ⟨h1, h2⟩⟩) (by rw [he, sub_self])
  · obtain ⟨h1, h2⟩ := Finset.mem_erase.1 hi
    rw [Finset.mem_Ico] at h2
    exact sub_ne_zero.2 (Ne.symm (h i h2.1 h2.2 h1))
  · cases many with
    | true => simp only [if_true, true_implies, sub_ne_zero]; exact ne_comm
    | false => simp

/-- On a row selecting gate `k`, only the filter of gate `k` is nonzero. -/
theorem gateFilter_selects {si : SelectorsInfo} {x : Row} {ng k : ℕ} (hk : k < ng)
    (hsel : ∀ i < ng, si.selectorIndices.getD i 0 < si.groups.length)
    (hin : ∀ i < ng, (si.groups.getD (si.selectorIndices.getD i 0) (0, 0)).1 ≤ i ∧
      i < (si.groups.getD (si.selectorIndices.getD i 0) (0, 0)).2)
    (hle : ∀ i < ng, (si.groups.getD (si.selectorIndices.getD i 0) (0, 0)).2 ≤ 2 ^ 32 - 1)
    (hx : x.c (si.selectorIndices.getD k 0) = (k : QE))
    (hun : ∀ s < si.groups.length, s ≠ si.selectorIndices.getD k 0 → x.c s = 2 ^ 32 - 1) {i : ℕ} (hi : i < ng) :
    gateFilter si x i ≠ 0 ↔ i = k := by
  have hp : 2 ^ 32 - 1 < p := by norm_num [p]
  have hu : (2 ^ 32 - 1 : QE) = ((2 ^ 32 - 1 : ℕ) : QE) := by norm_num
  simp only [gateFilter]
  rw [filter_ne_zero]
  constructor
  · rintro ⟨h1, h2⟩
    by_contra hne
    by_cases hs : si.selectorIndices.getD i 0 = si.selectorIndices.getD k 0
    · have hk' := hin k hk
      rw [← hs] at hk'
      exact h1 k hk'.1 hk'.2 (Ne.symm hne) (by rw [hs, hx])
    · have hm : 1 < si.groups.length := by
        have := hsel i hi; have := hsel k hk; omega
      exact h2 (by simpa using hm) (hun _ (hsel i hi) hs)
  · rintro rfl
    rw [hx]
    have := hin i hi
    have := hle i hi
    refine ⟨fun j _ h2 h3 he => h3 ?_, fun _ he => ?_⟩
    · exact ((natCast_QE_inj (by omega) (by omega)).1 he).symm
    · rw [hu] at he
      have := (natCast_QE_inj (by omega) hp).1 he
      omega

theorem sum_zipIdx_single {α : Type} {l : List α} {f : α × ℕ → QE} {m k : ℕ} (hk : k < l.length)
    (h : ∀ a i, i ≠ m + k → m ≤ i → i < m + l.length → f (a, i) = 0) :
    ((l.zipIdx m).map f).sum = f (l[k], m + k) := by
  induction l generalizing m k with
  | nil => simp at hk
  | cons a l ih =>
    rw [List.zipIdx_cons, List.map_cons, List.sum_cons]
    simp only [List.length_cons] at hk h
    cases k with
    | zero =>
      have : ((l.zipIdx (m + 1)).map f).sum = 0 := by
        refine List.sum_eq_zero fun y hy => ?_
        obtain ⟨⟨b, i⟩, hb, rfl⟩ := List.mem_map.1 hy
        have h1 := List.mk_mem_zipIdx_iff_le_and_getElem?_sub.1 hb
        have h2 := (List.getElem?_eq_some_iff.1 h1.2).1
        exact h b i (by omega) (by omega) (by omega)
      rw [this, add_zero]
      rfl
    | succ k =>
      rw [h a m (by omega) le_rfl (by omega), zero_add,
        ih (m := m + 1) (k := k) (by omega) (fun b i h1 h2 h3 => h b i (by omega) (by omega) (by omega))]
      rw [List.getElem_cons_succ, Nat.add_assoc, Nat.add_comm 1 k]

theorem combined_selects {si : SelectorsInfo} {x : Row} {gates : List Gate} {k : ℕ} (hk : k < gates.length)
    (h : ∀ i < gates.length, gateFilter si x i ≠ 0 ↔ i = k) (j : ℕ) :
    combined gates si x j = gateFilter si x k * (constraints gates[k] (x.drop si.groups.length)).getD j 0 := by
  rw [combined, sum_zipIdx_single (k := k) hk]
  · simp only [Nat.zero_add]
  · intro g i h1 _ h3
    have : gateFilter si x i = 0 := by
      by_contra h4
      exact h1 (by rw [(h i (by omega)).1 h4, Nat.zero_add])
    simp only
    rw [this, zero_mul]

/-! ## One gate -/

/-- Evaluation variables without the first constants. -/
def EvaluationVars.dropC (v : EvaluationVars Fp QE) (n : ℕ) : EvaluationVars Fp QE :=
  { v with localConstants := v.localConstants.drop n }

theorem row_dropC (n : ℕ) : (v.dropC n).row = v.row.drop n := by
  simp only [EvaluationVars.dropC, EvaluationVars.row, Row.drop]
  congr 1
  funext i
  rw [List.getD_eq_getElem?_getD, List.getElem?_drop, ← List.getD_eq_getElem?_getD]

theorem den_removePrefix {n : ℕ} (h : n ≤ v.localConstants.length) :
    den (v.enc.removePrefix n) = pure (v.dropC n).enc := by
  have e : v.enc.localConstants = v.localConstants.map embQ := rfl
  rw [EvaluationVars.removePrefix, Fri.sliceFrom, e, List.length_map, if_pos h, pure_bind, den_pure,
    ← List.map_drop]
  rfl

theorem den_evalFiltered {g : Gate} {row sel : ℕ} {group : ℕ × ℕ} {ns : ℕ} (hs : sel < v.localConstants.length)
    (hg : group.2 ≤ p) (hns : ns ≤ v.localConstants.length)
    (hf : Fits (v.localConstants.length - ns) v.localWires.length g) :
    den (evalFiltered g v.enc row sel group ns) = pure (((constraints g (v.row.drop ns)).map fun u =>
      u * filter row group (decide (1 < ns)) (v.row.c sel)).map embQ) := by
  have hf' : Fits (v.dropC ns).localConstants.length (v.dropC ns).localWires.length g := by
    show Fits (v.localConstants.drop ns).length v.localWires.length g
    rw [List.length_drop]; exact hf
  simp only [evalFiltered, den_bind]
  rw [den_const hs, pure_bind, den_computeFilter hg, pure_bind, den_removePrefix hns, pure_bind,
    den_evalUnfiltered hf', pure_bind, row_dropC, den_mapM, List.mapM_map]
  rw [List.map_map]
  exact Den.mapM_pure_of (g := fun u => embQ (u * filter row group (decide (1 < ns)) (v.row.c sel)))
    (fun u _ => den_mulExt _ _)

/-! ## Accumulation -/

theorem den_addConstraints (m : ℕ) (f : ℕ → QE) (cs : List QE) :
    den (addConstraints (((List.range m).map f).map embQ) (cs.map embQ)) =
      if cs.length ≤ m then pure (((List.range m).map fun j => f j + cs.getD j 0).map embQ) else Den.fail := by
  induction cs generalizing m f with
  | nil =>
    rw [List.map_nil, addConstraints, den_pure, if_pos (by simp)]
    simp
  | cons c cs ih =>
    cases m with
    | zero =>
      rw [if_neg (by simp)]
      show den (goPanic _) = _
      exact (den_eq_fail_iff _).2 fun y hy => Panics.not_sat (c := goPanic _) trivial y hy
    | succ m =>
      rw [List.range_succ_eq_map, List.map_cons, List.map_cons, List.map_cons, addConstraints, den_bind, den_addExt,
        pure_bind, den_bind, List.map_map (l := List.range m), ih]
      by_cases h : cs.length ≤ m
      · rw [if_pos h, pure_bind, den_pure, if_pos (by simpa using h)]
        refine congrArg pure ?_
        rw [List.map_cons, List.map_cons, List.map_map, List.map_map, List.map_map]
        rfl
      · rw [if_neg h, Den.fail_bind, if_neg (by simpa using h)]

theorem den_gateStep {si : SelectorsInfo} {g : Gate} {i : ℕ}
    (h : GateOk si v.localConstants.length v.localWires.length g i) (m : ℕ) (f : ℕ → QE) :
    den (gateStep si v.enc (((List.range m).map f).map embQ) (g, i)) =
      if (constraints g (v.row.drop si.groups.length)).length ≤ m then
        pure (((List.range m).map fun j => f j + gateFilter si v.row i *
          (constraints g (v.row.drop si.groups.length)).getD j 0).map embQ)
      else Den.fail := by
  have h1 : den (idx si.selectorIndices i) = pure (si.selectorIndices.getD i 0) := den_idx h.selector 0
  have h2 : den (idx si.groups (si.selectorIndices.getD i 0)) =
      pure (si.groups.getD (si.selectorIndices.getD i 0) (0, 0)) := den_idx h.group (0, 0)
  rw [gateStep]
  simp only [den_bind]
  rw [h1, pure_bind, h2, pure_bind, den_evalFiltered (h.group.trans_le h.prefix_le) h.range h.prefix_le h.fits,
    pure_bind, den_addConstraints, List.length_map]
  congr 1
  refine congrArg pure (congrArg _ (List.map_congr_left fun j _ => ?_))
  refine congrArg (f j + ·) ?_
  rw [gateFilter, mul_comm]
  generalize constraints g (v.row.drop si.groups.length) = l
  rw [List.getD_eq_getElem?_getD, List.getElem?_map, List.getD_eq_getElem?_getD (l := l)]
  cases l[j]? <;> simp

theorem den_gateSteps {si : SelectorsInfo} {m : ℕ} (l : List (Gate × ℕ))
    (h : ∀ gi ∈ l, GateOk si v.localConstants.length v.localWires.length gi.1 gi.2)
    (hc : ∀ gi ∈ l, (constraints gi.1 (v.row.drop si.groups.length)).length ≤ m) (f : ℕ → QE) :
    den (l.foldlM (gateStep si v.enc) (((List.range m).map f).map embQ)) =
      pure (((List.range m).map fun j => f j + (l.map fun gi =>
        gateFilter si v.row gi.2 * (constraints gi.1 (v.row.drop si.groups.length)).getD j 0).sum).map embQ) := by
  induction l generalizing f with
  | nil => simp
  | cons gi l ih =>
    rw [List.foldlM_cons, den_bind, den_gateStep (h gi (List.mem_cons_self ..)), if_pos (hc gi (List.mem_cons_self ..)),
      pure_bind, ih (fun g hg => h g (List.mem_cons_of_mem _ hg)) (fun g hg => hc g (List.mem_cons_of_mem _ hg))]
    simp only [List.map_cons, List.sum_cons, add_assoc]

theorem replicate_zero (m : ℕ) : List.replicate m zeroExt = ((List.range m).map fun _ => (0 : QE)).map embQ := by
  rw [List.map_map, zeroExt_eq]
  apply List.ext_getElem <;> simp

theorem den_evaluateGateConstraints {si : SelectorsInfo} {m : ℕ} {gates : List Gate}
    (h : ∀ gi ∈ gates.zipIdx, GateOk si v.localConstants.length v.localWires.length gi.1 gi.2)
    (hc : ∀ gi ∈ gates.zipIdx, (constraints gi.1 (v.row.drop si.groups.length)).length ≤ m) :
    den (evaluateGateConstraints gates m si v.enc) = pure (((List.range m).map (combined gates si v.row)).map embQ) := by
  rw [evaluateGateConstraints, replicate_zero, den_gateSteps _ h hc]
  simp only [zero_add]
  rfl

/-! ## Aborts -/

/-- Every step of a satisfiable fold is satisfiable from a state meeting the invariant. -/
theorem sat_foldlM_mem {σ β : Type} {f : β → σ → Circ β} (I : β → Prop)
    (hI : ∀ s x s', I s → Sat (f s x) s' → I s') {l : List σ} {s y : β} (hs : I s) (h : Sat (l.foldlM f s) y)
    {x : σ} (hx : x ∈ l) : ∃ s', I s' ∧ ∃ y', Sat (f s' x) y' := by
  induction l generalizing s with
  | nil => simp at hx
  | cons a l ih =>
    rw [List.foldlM_cons, sat_bind] at h
    obtain ⟨s', h1, h2⟩ := h
    rcases List.mem_cons.1 hx with rfl | hx
    · exact ⟨s, hs, s', h1⟩
    · exact ih (hI s a s' hs h1) h2 hx

theorem addConstraints_length {a g y : List QEV} (h : Sat (addConstraints a g) y) :
    g.length ≤ a.length ∧ y.length = a.length := by
  induction g generalizing a y with
  | nil =>
    rw [addConstraints, sat_pure] at h
    exact ⟨by simp, by rw [h]⟩
  | cons c g ih =>
    cases a with
    | nil => exact (Panics.not_sat (c := goPanic _) trivial _ h).elim
    | cons b a =>
      rw [addConstraints, sat_bind] at h
      obtain ⟨x, _, h⟩ := h
      rw [sat_bind] at h
      obtain ⟨r, h1, h2⟩ := h
      rw [sat_pure] at h2
      obtain ⟨h3, h4⟩ := ih h1
      rw [h2]
      simp [h3, h4]

theorem sat_idx {α : Type} {l : List α} {i : ℕ} {y : α} (h : Sat (idx l i) y) : l[i]? = some y := by
  rw [idx] at h
  split at h
  · next a ha => rw [sat_pure] at h; rw [ha, h]
  · exact (Panics.not_sat (c := goPanic _) trivial _ h).elim

/-- What a satisfiable step implies. -/
theorem gateStep_sat {si : SelectorsInfo} {vars : Vars} {a y : List QEV} {gi : Gate × ℕ}
    (h : Sat (gateStep si vars a gi) y) : y.length = a.length ∧
    ∃ sel group, si.selectorIndices[gi.2]? = some sel ∧ si.groups[sel]? = some group ∧ sel < vars.localConstants.length ∧
      si.groups.length ≤ vars.localConstants.length ∧
      ∃ cs, Sat (evalFiltered gi.1 vars gi.2 sel group si.groups.length) cs ∧ cs.length ≤ a.length := by
  rw [gateStep, sat_bind] at h
  obtain ⟨sel, h1, h⟩ := h
  rw [sat_bind] at h
  obtain ⟨group, h2, h⟩ := h
  rw [sat_bind] at h
  obtain ⟨cs, h3, h⟩ := h
  obtain ⟨h4, h5⟩ := addConstraints_length h
  refine ⟨h5, sel, group, sat_idx h1, sat_idx h2, ?_, ?_, cs, h3, h4⟩
  · rw [evalFiltered, sat_bind] at h3
    obtain ⟨s, h6, _⟩ := h3
    exact (List.getElem?_eq_some_iff.1 (sat_idx h6)).1
  · rw [evalFiltered, sat_bind] at h3
    obtain ⟨_, _, h3⟩ := h3
    rw [sat_bind] at h3
    obtain ⟨_, _, h3⟩ := h3
    rw [sat_bind] at h3
    obtain ⟨_, h6, _⟩ := h3
    rw [EvaluationVars.removePrefix, sat_bind] at h6
    obtain ⟨_, h6, _⟩ := h6
    rw [Fri.sliceFrom] at h6
    by_contra hc
    rw [if_neg hc] at h6
    exact Panics.not_sat (c := goPanic _) trivial _ h6

theorem evaluateGateConstraints_sat {si : SelectorsInfo} {m : ℕ} {gates : List Gate} {vars : Vars} {y : List QEV}
    (h : Sat (evaluateGateConstraints gates m si vars) y) : ∀ gi ∈ gates.zipIdx,
    ∃ sel group, si.selectorIndices[gi.2]? = some sel ∧ si.groups[sel]? = some group ∧ sel < vars.localConstants.length ∧
      si.groups.length ≤ vars.localConstants.length ∧
      ∃ cs, Sat (evalFiltered gi.1 vars gi.2 sel group si.groups.length) cs ∧ cs.length ≤ m := by
  intro gi hgi
  obtain ⟨s', hs', y', h'⟩ := sat_foldlM_mem (fun s : List QEV => s.length = m)
    (fun s x s' hs h => by rw [(gateStep_sat h).1, hs]) (List.length_replicate ..) h hgi
  obtain ⟨_, h2⟩ := gateStep_sat h'
  rw [hs'] at h2
  exact h2

end Gates

end Verif
