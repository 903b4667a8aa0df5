import Verif.Spec.GateSizes
import Verif.Proofs.Gates64Params

/-!
# Exact panic conditions of the gates
-/

set_option autoImplicit false

namespace Verif

open Circ Gates

variable {α β σ : Type}

namespace GateSizes

open Spec.Gates (Runs GateRuns)

variable {v : Vars}

theorem post_range {n : ℕ} {f : ℕ → Circ β} {P : ℕ → Prop} (h : ∀ i < n, Post (fun _ => P i) (f i)) :
    Post (fun r => r.length = n ∧ ∀ i < n, P i) ((List.range n).mapM f) :=
  (Post.mapM (P := P) _ fun i hi => h i (List.mem_range.1 hi)).mono fun r hr =>
    ⟨by rw [hr.1, List.length_range], fun i hi => hr.2 i (List.mem_range.2 hi)⟩

theorem post_collect {n : ℕ} {f : ℕ → Circ (List QEV)} {P : ℕ → Prop} (h : ∀ i < n, Post (fun _ => P i) (f i)) :
    Post (fun _ => ∀ i < n, P i) (collect n f) :=
  (post_range h).bind fun _ hr => Post.const hr.2 _

theorem post_alg {a b : ℕ} : Post (fun _ => b - a = 2 ∧ a + 2 ≤ v.localWires.length) (v.getLocalExtAlgebra ⟨a, b⟩) := by
  rw [EvaluationVars.getLocalExtAlgebra]
  split
  · trivial
  · next h => exact .skip fun _ => Post.stop ((Post.idx _ _).mono fun _ h' => by simp only at h h'; omega)

theorem post_tabM {n : ℕ} {f : Fin n → Circ α} {P : Fin n → Prop} (h : ∀ i, Post (fun _ => P i) (f i)) :
    Post (fun _ => ∀ i, P i) (tabM n f) := by
  induction n with
  | zero => exact Post.const (fun i => i.elim0) _
  | succ n ih =>
    rw [tabM]
    refine (ih fun i => h i.castSucc).bind fun _ h1 => (h (Fin.last n)).bind fun _ h2 => Post.pure fun i => ?_
    exact Fin.lastCases h2 h1 i

attribute [local irreducible] mulExt addExt subExt mulAlg addAlg subAlg scalarMulAlg scalarMulExt reduceWithPowers
  EvaluationVars.getLocalExtAlgebra Gates.slice partialInterpolate idx orPanic foldPairs

theorem arithmetic {n : ℕ} : Post (fun _ => 2 ≤ v.localConstants.length ∧ 4 * n ≤ v.localWires.length)
    (Gates.arithmetic n v) := by
  refine .skip fun _ => (Post.idx _ 1).bind fun _ h1 => (post_collect (P := fun i => 4 * i + 3 < v.localWires.length)
    fun i _ => .skip fun _ => .skip fun _ => .skip fun _ => Post.stop (Post.idx _ _)).mono fun _ h => ⟨h1, ?_⟩
  rcases n with _ | n
  · simp
  · have := h n (by omega); omega

theorem arithmeticExtension {n : ℕ} : Post (fun _ => 2 ≤ v.localConstants.length ∧ 8 * n ≤ v.localWires.length)
    (Gates.arithmeticExtension n v) := by
  refine .skip fun _ => (Post.idx _ 1).bind fun _ h1 => (post_collect
    (P := fun i => 4 * 2 * i + 3 * 2 + 2 ≤ v.localWires.length)
    fun i _ => .skip fun _ => .skip fun _ => .skip fun _ => Post.stop (post_alg.mono fun _ h => h.2)).mono
    fun _ h => ⟨h1, ?_⟩
  rcases n with _ | n
  · simp
  · have := h n (by omega); omega

theorem mulExtension {n : ℕ} : Post (fun _ => 1 ≤ v.localConstants.length ∧ 6 * n ≤ v.localWires.length)
    (Gates.mulExtension n v) := by
  refine (Post.idx _ 0).bind fun _ h1 => (post_collect
    (P := fun i => 3 * 2 * i + 2 * 2 + 2 ≤ v.localWires.length)
    fun i _ => .skip fun _ => .skip fun _ => Post.stop (post_alg.mono fun _ h => h.2)).mono
    fun _ h => ⟨h1, ?_⟩
  rcases n with _ | n
  · simp
  · have := h n (by omega); omega

theorem baseSum {n b : ℕ} : Post (fun _ => n + 1 ≤ v.localWires.length) (Gates.baseSum n b v) := by
  refine (Post.idx _ 0).bind fun _ h0 => Post.stop ((post_range (P := fun i => 1 + i < v.localWires.length)
    fun i _ => Post.idx _ _).mono fun _ h => ?_)
  rcases n with _ | n
  · omega
  · have := h.2 n (by omega); omega

theorem constant {n : ℕ} : Post (fun _ => n ≤ v.localConstants.length ∧ n ≤ v.localWires.length)
    (Gates.constant n v) := by
  refine (post_range (P := fun i => i < v.localConstants.length ∧ i < v.localWires.length) fun i _ =>
    (Post.idx _ i).bind fun _ h1 => (Post.idx _ i).bind fun _ h2 => Post.const ⟨h1, h2⟩ _).mono fun _ h => ?_
  rcases n with _ | n
  · simp
  · have := h.2 n (by omega); omega

theorem publicInput : Post (fun _ => 4 ≤ v.localWires.length) (Gates.publicInput v) :=
  (Post.mapM (P := fun i : Fin 4 => (i : ℕ) < v.localWires.length) _ fun _ _ => Post.stop (Post.idx _ _)).mono
    fun _ h => h.2 3 (List.mem_finRange _)

theorem exponentiation {n : ℕ} : Post (fun _ => n ≠ 0 ∧ 2 * n + 2 ≤ v.localWires.length)
    (Gates.exponentiation n v) := by
  by_cases hn : n = 0
  · subst hn; exact (panics_exponentiation_zero v).post
  · refine .skip fun _ => .skip fun _ => Post.stop ((post_range (P := fun i => 2 + n + i < v.localWires.length)
      fun i _ => Post.idx _ _).mono fun _ h => ⟨hn, ?_⟩)
    have := h.2 (n - 1) (by omega); omega

theorem poseidonMds : Post (fun _ => 48 ≤ v.localWires.length) (Gates.poseidonMds v) := by
  refine .skip fun _ => .skip fun _ => Post.stop ((post_tabM (P := fun i : Fin 12 => (12 + (i : ℕ)) * 2 + 2 ≤
    v.localWires.length) fun i => Post.stop (post_alg.mono fun _ h => h.2)).mono fun _ h => ?_)
  have := h 11
  simpa using this

theorem reducing {n : ℕ} : Post (fun _ => 6 + n + 2 * (n - 1) ≤ v.localWires.length) (Gates.reducing n v) := by
  refine .skip fun _ => post_alg.bind fun _ h6 => (post_range (P := fun i => 6 + i < v.localWires.length)
    fun i _ => Post.stop (Post.idx _ _)).bind fun _ h1 => Post.stop ((post_range
      (P := fun i => i ≠ n - 1 → 6 + n + 2 * i + 2 ≤ v.localWires.length) fun i _ => ?_).mono fun _ h2 => ?_)
  · by_cases h : i = n - 1
    · exact Post.const (fun e => absurd h e) _
    · rw [wiresAccs, if_neg h]
      exact post_alg.mono fun _ h _ => h.2
  · rcases n with _ | _ | n
    · omega
    · have := h1.2 0 (by omega); omega
    · have := h2.2 n (by omega) (by omega); omega

theorem reducingExtension {n : ℕ} : Post (fun _ => 6 + 2 * n + 2 * (n - 1) ≤ v.localWires.length)
    (Gates.reducingExtension n v) := by
  refine .skip fun _ => post_alg.bind fun _ h6 => (post_range (P := fun i => 6 + 2 * i + 2 ≤ v.localWires.length)
    fun i _ => post_alg.mono fun _ h => h.2).bind fun _ h1 => Post.stop ((post_range
      (P := fun i => i ≠ n - 1 → 6 + n * 2 + 2 * i + 2 ≤ v.localWires.length) fun i _ => ?_).mono fun _ h2 => ?_)
  · by_cases h : i = n - 1
    · exact Post.const (fun e => absurd h e) _
    · rw [wiresAccs, if_neg h]
      exact post_alg.mono fun _ h _ => h.2
  · rcases n with _ | _ | n
    · omega
    · have := h1.2 0 (by omega); omega
    · have := h2.2 n (by omega) (by omega); omega

theorem randomAccess {b c e : ℕ} : Post (fun _ => (c ≠ 0 → b < 64) ∧ e ≤ v.localConstants.length ∧
    (2 + 2 ^ b) * c + e + c * b ≤ v.localWires.length) (Gates.randomAccess b c e v) := by
  by_cases hb : c ≠ 0 ∧ 64 ≤ b
  · exact (panics_randomAccess_wide hb.2 hb.1 v).post
  have hb' : c ≠ 0 → b < 64 := fun h => by
    by_contra hn
    exact hb ⟨h, by omega⟩
  have hshl : c ≠ 0 → shl1 b = 2 ^ b := fun h => if_pos (hb' h)
  have hst : raStartExtra b c = (2 + 2 ^ b) * c := by
    rw [raStartExtra]
    by_cases h : c = 0
    · subst h; simp
    · rw [hshl h]
  rw [Gates.randomAccess, hst]
  refine (post_collect (P := fun k => (2 + 2 ^ b) * k + 2 + (2 ^ b - 1) < v.localWires.length ∧
    ∀ i < b, (2 + 2 ^ b) * c + e + k * b + i < v.localWires.length) fun k hk => ?_).bind fun _ h1 =>
    (post_range (P := fun i => i < v.localConstants.length ∧ (2 + 2 ^ b) * c + i < v.localWires.length) fun i _ =>
      (Post.idx _ i).bind fun _ h2 => (Post.idx _ _).bind fun _ h3 => Post.const ⟨h2, h3⟩ _).bind fun _ h2 =>
    Post.pure ⟨hb', ?_, ?_⟩
  · rw [randomAccessCopy, hst, hshl (by omega)]
    refine .skip fun _ => (post_range (P := fun i => (2 + 2 ^ b) * k + 2 + i < v.localWires.length)
      fun i _ => Post.idx _ _).bind fun _ h1 => .skip fun _ => Post.stop ((post_range
      (P := fun i => (2 + 2 ^ b) * c + e + k * b + i < v.localWires.length) fun i _ => Post.idx _ _).mono
      fun _ h2 => ⟨h1.2 _ ?_, h2.2⟩)
    have : 0 < 2 ^ b := by positivity
    omega
  · rcases e with _ | e
    · simp
    · exact (h2.2 e (by omega)).1
  · rcases c with _ | c
    · rcases e with _ | e
      · simp
      · have := (h2.2 e (by omega)).2; omega
    · have h3 := h1 c (by omega)
      rcases b with _ | b
      · rcases e with _ | e
        · have := h3.1
          simp at this ⊢
          omega
        · have := (h2.2 e (by omega)).2
          simp at this ⊢
          omega
      · have := h3.2 b (by omega)
        have h4 : (c + 1) * (b + 1) = c * (b + 1) + b + 1 := by ring
        rw [h4]
        omega

open PoseidonGL in
theorem poseidon : Post (fun _ => 135 ≤ v.localWires.length) (Gates.poseidon v) := by
  rw [Gates.poseidon]
  refine .skip fun _ => .skip fun _ => .skip fun _ => .skip fun _ => .skip fun _ => .skip fun _ => .skip fun _ =>
    .skip fun _ => .skip fun _ => Post.stop ((Post.foldlM (P := fun r => 87 + r * 12 + 11 < v.localWires.length)
      (fun _ => True) [0, 1, 2, 3] (fun st r _ _ => ?_) _ trivial).mono fun _ h => h.2 3 (by simp))
  rw [poseidonFull1]
  refine .skip fun _ => ?_
  refine Post.bind (Q := fun _ => 87 + r * 12 + 11 < v.localWires.length) ?_ fun _ h => Post.const ⟨trivial, h⟩ _
  rw [sBoxInputs]
  exact Post.stop ((post_tabM (P := fun i : Fin 12 => 87 + r * 12 + (i : ℕ) < v.localWires.length) fun _ =>
    Post.stop (Post.idx _ _)).mono fun _ h => h 11)

theorem cosetInterpolation {b d : ℕ} {wt : List Fp} : Post (fun _ => b ≤ 32 ∧ 2 ≤ d ∧ d ≤ 2 ^ b ∧ 2 ^ b ≤ wt.length ∧
    1 + 2 * 2 ^ b + 4 + 4 * Spec.Gates.numInter b d + 2 ≤ v.localWires.length)
    (Gates.cosetInterpolation b d wt v) := by
  by_cases h1 : d = 1
  · rw [Gates.cosetInterpolation, if_pos h1]; trivial
  rw [Gates.cosetInterpolation, if_neg h1]
  by_cases hb : b ≤ 32
  swap
  · have hn : twoAdicSubgroup b = none := by
      simp [twoAdicSubgroup, TWO_ADICITY, show 32 < b by omega]
    exact .skip fun _ => .skip fun _ => .skip fun _ => .skip fun _ => .skip fun _ => .skip fun _ =>
      (Panics.orPanic hn).post.bind (Q := fun _ => False) fun _ h => h.elim
  obtain ⟨gen, _, _, hdom⟩ := twoAdicSubgroup_eq hb
  obtain ⟨dom, hdl, hdom⟩ : ∃ dom : List Fp, dom.length = 2 ^ b ∧ twoAdicSubgroup b = some dom := ⟨_, by simp, hdom⟩
  have hor : orPanic "n_log > TWO_ADICITY" (twoAdicSubgroup b) = pure dom := by
    rw [hdom, orPanic]
  by_cases hd : d = 0 ∨ 2 ^ b < d
  · rw [hor]
    refine .skip fun _ => .skip fun _ => .skip fun _ => .skip fun _ => .skip fun _ => .skip fun _ => ?_
    rw [pure_bind]
    exact .skip fun _ => (Gates64.Coset.panics_tail (by omega)).post
  have hshl : shl1 b = 2 ^ b := shl1_pow hb
  have hni : numIntermediates b d = Spec.Gates.numInter b d := numIntermediates_eq hb (by omega)
  have hsi : startIntermediates b = 1 + 2 * 2 ^ b + 4 := by rw [startIntermediates, hshl]; omega
  have hM0 : Spec.Gates.numInter b d = (2 ^ b - 2) / (d - 1) := rfl
  have hmul : 2 ^ b - 2 < (d - 1) * (Spec.Gates.numInter b d + 1) := by
    rw [hM0, Nat.mul_comm]; exact Nat.lt_mul_of_div_lt (Nat.lt_succ_self _) (by omega)
  rw [hor]
  simp only [hshl, hni, hsi]
  generalize Spec.Gates.numInter b d = M at *
  generalize 2 ^ b = N at *
  refine .skip fun _ => .skip fun _ => post_alg.bind fun _ hw => .skip fun _ => .skip fun _ => .skip fun _ => ?_
  rw [pure_bind]
  refine .skip fun _ => .skip fun _ => .skip fun _ => Post.slice.bind fun _ hwt => .skip fun _ => Post.stop ?_
  refine (Post.foldlM (P := fun i => (if 1 + (d - 1) * (i + 1) + d - 1 > N then N else 1 + (d - 1) * (i + 1) + d - 1) ≤
    wt.length) (fun _ => True) _ (fun st i _ _ => ?_) _ trivial).mono fun _ h => ?_
  · rw [cosetStep]
    simp only [hshl]
    exact .skip fun _ => .skip fun _ => .skip fun _ => .skip fun _ => .skip fun _ => .skip fun _ =>
      Post.slice.bind fun _ hs => Post.const ⟨trivial, hs⟩ _
  · refine ⟨hb, by omega, by omega, ?_, by omega⟩
    rcases M with _ | M
    · simp at hmul; omega
    · have := h.2 M (by simp)
      have hx : (d - 1) * (M + 1 + 1) = (d - 1) * (M + 1) + (d - 1) := by ring
      rw [hx] at hmul
      split at this <;> omega

theorem randomAccess_safe {b c e : ℕ} (hb : c ≠ 0 → b < 64) (he : e ≤ v.localConstants.length)
    (hw : (2 + 2 ^ b) * c + e + c * b ≤ v.localWires.length) :
    Safe (Gates.randomAccess b c e v) fun r => r.length = c * (b + 2) + e := by
  by_cases hc : c = 0
  · subst hc
    rw [Gates.randomAccess, raStartExtra]
    refine Safe.bind (Q := fun r => r.length = 0) ?_ fun cs hcs => (NoPanic.mapRange (n := e) fun i hi => ?_).bind
      fun es hes => Safe.pure ?_
    · rw [Gates.collect]
      exact Safe.pure rfl
    · exact NoPanic.bind (NoPanic.idx' (by omega)) fun _ => NoPanic.bind (NoPanic.idx' (by omega)) fun _ =>
        NoPanic.subExt _ _
    · rw [List.length_append, hcs, hes]; omega
  · exact NoPanic.randomAccess (hb hc) he hw

/-- A gate whose sizes allow it has as many constraints as it should. -/
theorem safe (g : Gate) (v : Vars) (h : Runs v.localConstants.length v.localWires.length g) :
    Safe (g.evalUnfiltered v) fun r => r.length = constraintCount g := by
  cases g with
  | arithmetic n => exact NoPanic.arithmetic h.1 h.2
  | arithmeticExtension n => exact NoPanic.arithmeticExtension h.1 h.2
  | baseSum n b => exact NoPanic.baseSum h
  | constant n => exact NoPanic.constant h.1 h.2
  | cosetInterpolation b d w => exact NoPanic.cosetInterpolation h.1 h.2.1 h.2.2.1 h.2.2.2.1 h.2.2.2.2
  | exponentiation n => exact NoPanic.exponentiation h.1 h.2
  | mulExtension n => exact NoPanic.mulExtension h.1 h.2
  | noop => exact Safe.pure rfl
  | poseidon => exact NoPanic.poseidonGate h
  | poseidonMds => exact NoPanic.poseidonMds h
  | publicInput => exact NoPanic.publicInput h
  | randomAccess b c e => exact randomAccess_safe h.1 h.2.1 h.2.2
  | reducing n => exact NoPanic.reducing h
  | reducingExtension n => exact NoPanic.reducingExtension h

theorem post (g : Gate) (v : Vars) :
    Post (fun _ => Runs v.localConstants.length v.localWires.length g) (g.evalUnfiltered v) := by
  cases g with
  | arithmetic n => exact arithmetic
  | arithmeticExtension n => exact arithmeticExtension
  | baseSum n b => exact baseSum
  | constant n => exact constant
  | cosetInterpolation b d w => exact cosetInterpolation
  | exponentiation n => exact exponentiation
  | mulExtension n => exact mulExtension
  | noop => exact Post.const trivial _
  | poseidon => exact poseidon
  | poseidonMds => exact poseidonMds
  | publicInput => exact publicInput
  | randomAccess b c e => exact randomAccess
  | reducing n => exact reducing
  | reducingExtension n => exact reducingExtension

/-- A gate can be evaluated exactly when the sizes allow. -/
theorem generates (g : Gate) (v : Vars) :
    Generates (g.evalUnfiltered v) (Runs v.localConstants.length v.localWires.length g) :=
  ⟨fun h => .of_safe (safe g v h), (post g v).panics⟩

/-! ## All gates -/

attribute [local irreducible] Gate.evalUnfiltered computeFilter addConstraints

/-- Slicing of the constants. -/
theorem removePrefix_eq {n : ℕ} (h : n ≤ v.localConstants.length) :
    v.removePrefix n = pure { v with localConstants := v.localConstants.drop n } := by
  have hs : Fri.sliceFrom v.localConstants n = pure (v.localConstants.drop n) := if_pos h
  rw [EvaluationVars.removePrefix, hs, pure_bind]

theorem post_removePrefix {n : ℕ} : Post (fun r => n ≤ v.localConstants.length ∧
    r = { v with localConstants := v.localConstants.drop n }) (v.removePrefix n) := by
  by_cases h : n ≤ v.localConstants.length
  · rw [removePrefix_eq h]; exact ⟨h, rfl⟩
  · rw [EvaluationVars.removePrefix, Fri.sliceFrom, if_neg h]; trivial

theorem evalFiltered_safe {g : Gate} {row sel : ℕ} {gr : ℕ × ℕ} {ns : ℕ} (hs : sel < v.localConstants.length)
    (hn : ns ≤ v.localConstants.length) (hf : Runs (v.localConstants.length - ns) v.localWires.length g) :
    Safe (Gates.evalFiltered g v row sel gr ns) fun r => r.length = constraintCount g := by
  rw [Gates.evalFiltered, removePrefix_eq hn]
  refine (NoPanic.idx' hs).bindS fun _ => (NoPanic.computeFilter _ _ _ _).bindS fun _ => ?_
  rw [pure_bind]
  exact (safe g _ (by simpa using hf)).bind fun cs hcs =>
    (Safe.mapM_length _ fun _ _ => NoPanic.mulExt _ _).mono fun r hr => hr.trans hcs

theorem evalFiltered_post {g : Gate} {row sel : ℕ} {gr : ℕ × ℕ} {ns : ℕ} :
    Post (fun _ => ns ≤ v.localConstants.length ∧ Runs (v.localConstants.length - ns) v.localWires.length g)
      (Gates.evalFiltered g v row sel gr ns) := by
  rw [Gates.evalFiltered]
  refine .skip fun _ => .skip fun _ => post_removePrefix.bind fun v' hv => ?_
  obtain ⟨hn, rfl⟩ := hv
  exact Post.stop ((post g _).mono fun _ h => ⟨hn, by simpa using h⟩)

attribute [local irreducible] Gates.evalFiltered

/-- All gates can be evaluated exactly when the selector data is there and the sizes allow. -/
theorem generates_all (gates : List Gate) (m : ℕ) (si : SelectorsInfo) (v : Vars) :
    Generates (Gates.evaluateGateConstraints gates m si v)
      (∀ gi ∈ gates.zipIdx, GateRuns si v.localConstants.length v.localWires.length m gi.1 gi.2) := by
  constructor
  · intro h
    refine .of_safe (Q := fun r => r.length = m) (Safe.foldlM_const _ (fun cs gi hgi hcs => ?_) _ (by simp))
    have hok := h gi hgi
    have hlen : constraintCount gi.1 ≤ m :=
      length_constraints gi.1 ⟨fun _ => 0, fun _ => 0, fun _ => 0⟩ ▸ hok.count _
    rw [gateStep]
    refine (NoPanic.idx hok.selector).bind fun sel hsel => ?_
    have hsel' : sel = si.selectorIndices.getD gi.2 0 := by rw [hsel]; simp [List.getD, hok.selector]
    have hlt : sel < si.groups.length := hsel' ▸ hok.group
    refine (NoPanic.idx' hlt).bindS fun gr => ?_
    exact (evalFiltered_safe (hlt.trans_le hok.prefix_le) hok.prefix_le hok.runs).bind fun gs hgs =>
      (NoPanic.addConstraints cs gs (by rw [hgs, hcs]; exact hlen)).mono fun r hr => hr.trans hcs
  · refine Post.panics ?_
    refine (Post.foldlM (P := fun gi : Gate × ℕ => GateRuns si v.localConstants.length v.localWires.length m gi.1 gi.2)
      (fun cs : List QEV => cs.length = m) _ (fun cs gi hgi hcs => ?_) _ (by simp)).mono fun _ h => h.2
    rw [gateStep]
    by_cases h1 : gi.2 < si.selectorIndices.length
    swap
    · exact (Panics.bind (Panics.idx (not_lt.1 h1)) _).post
    refine (NoPanic.idx h1).post.bind fun sel hsel => ?_
    have hsel' : sel = si.selectorIndices.getD gi.2 0 := by rw [hsel]; simp [List.getD, h1]
    refine (Post.idx _ _).bind fun gr hgr => ?_
    by_cases h2 : si.groups.length ≤ v.localConstants.length ∧
        Runs (v.localConstants.length - si.groups.length) v.localWires.length gi.1
    swap
    · exact (Panics.bind (evalFiltered_post.panics h2) _).post
    refine (evalFiltered_safe (hgr.trans_le h2.1) h2.1 h2.2).post.bind fun gs hgs =>
      (post_addConstraints cs gs).mono fun r hr => ⟨hr.1.trans hcs, h1, hsel' ▸ hgr, h2.1, h2.2, fun x => ?_⟩
    rw [length_constraints, ← hgs, ← hcs]
    exact hr.2

end GateSizes

end Verif
