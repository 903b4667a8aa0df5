import Verif.Proofs.NoPanicFri
import Verif.Spec.Plonk
import Verif.Proofs.GatesCoset

/-!
# Absence of panics in the gate constraints, and their number
-/

set_option autoImplicit false

namespace Verif

open Circ Gates

variable {α β σ : Type}

/-- Number of constraints of a gate. -/
def constraintCount : Gate → ℕ
  | .arithmetic n => n
  | .arithmeticExtension n => 2 * n
  | .baseSum n _ => n + 1
  | .constant n => n
  | .cosetInterpolation b d _ => 4 + 4 * Spec.Gates.numInter b d
  | .exponentiation n => n + 1
  | .mulExtension n => 2 * n
  | .noop => 0
  | .poseidon => 123
  | .poseidonMds => 24
  | .publicInput => 4
  | .randomAccess b c e => c * (b + 2) + e
  | .reducing n => 2 * n
  | .reducingExtension n => 2 * n

theorem length_flatMap_const {γ : Type} {l : List σ} {f : σ → List γ} {k : ℕ} (h : ∀ x ∈ l, (f x).length = k) :
    (l.flatMap f).length = l.length * k := by
  induction l with
  | nil => simp
  | cons a l ih =>
    rw [List.flatMap_cons, List.length_append, h a (by simp), ih fun x hx => h x (by simp [hx]), List.length_cons]
    ring

theorem length_flatten_const {γ : Type} {l : List (List γ)} {k : ℕ} (h : ∀ x ∈ l, x.length = k) :
    l.flatten.length = l.length * k := by
  have := length_flatMap_const (f := id) h
  simpa [List.flatMap_id] using this

theorem length_constraints (g : Gate) (x : Spec.Gates.Row) : (Spec.Gates.constraints g x).length = constraintCount g := by
  cases g
  case poseidon =>
    simp only [Spec.Gates.constraints, Spec.Gates.poseidon, List.length_append, List.length_cons, List.length_ofFn,
      List.length_map, List.length_range, constraintCount]
    rw [length_flatMap_const (k := 12) (by simp), length_flatMap_const (k := 12) (by simp)]
    rfl
  case cosetInterpolation b d w =>
    simp only [Spec.Gates.constraints, Spec.Gates.cosetInterpolation, List.length_append, constraintCount]
    rw [length_flatMap_const (k := 4) (by simp [Spec.Gates.coords])]
    simp [Spec.Gates.coords]; omega
  case randomAccess b c e =>
    simp only [Spec.Gates.constraints, Spec.Gates.randomAccess, List.length_append, constraintCount]
    rw [length_flatMap_const (k := b + 2) (by simp)]
    simp
  case poseidonMds =>
    simp only [Spec.Gates.constraints, Spec.Gates.poseidonMds, constraintCount]
    rw [length_flatMap_const (k := 2) (by simp [Spec.Gates.coords])]
    simp
  all_goals
    first
    | simp [Spec.Gates.constraints, Spec.Gates.arithmetic, Spec.Gates.baseSum, Spec.Gates.constant,
        Spec.Gates.exponentiation, Spec.Gates.publicInput, constraintCount]; done
    | (simp only [Spec.Gates.constraints, Spec.Gates.arithmeticExtension, Spec.Gates.mulExtension,
        Spec.Gates.reducing, Spec.Gates.reducingExtension, constraintCount]
       rw [length_flatMap_const (k := 2) (by simp [Spec.Gates.coords])]
       simp [mul_comm])

namespace NoPanic

/-! ## Extension algebra -/

theorem addAlg (a b : QAV) : NoPanic (Verif.addAlg a b) := bind (addExt _ _) fun _ => bind (addExt _ _) fun _ => pure _
theorem subAlg (a b : QAV) : NoPanic (Verif.subAlg a b) := bind (subExt _ _) fun _ => bind (subExt _ _) fun _ => pure _
theorem mulAlg (a b : QAV) : NoPanic (Verif.mulAlg a b) :=
  bind (innerProductExt _ _ _) fun _ => bind (innerProductExt _ _ _) fun _ => bind (innerProductExt _ _ _) fun _ =>
    bind (innerProductExt _ _ _) fun _ => pure _
theorem scalarMulAlg (a : QEV) (b : QAV) : NoPanic (Verif.scalarMulAlg a b) :=
  bind (mulExt _ _) fun _ => bind (mulExt _ _) fun _ => pure _

theorem partialInterpolate {d : List Fp} {v : List QAV} {w : List Fp} {pt e0 p0 : QAV} (h0 : v.length ≠ 0)
    (h1 : v.length = d.length) (h2 : v.length = w.length) : NoPanic (Verif.partialInterpolate d v w pt e0 p0) := by
  rw [Verif.partialInterpolate, if_neg h0, if_neg (by simpa using h1), if_neg (by simpa using h2)]
  exact foldlM _ (fun _ _ _ => bind (subAlg _ _) fun _ => bind (scalarMulAlg _ _) fun _ => bind (mulAlg _ _) fun _ =>
    bind (mulAlg _ _) fun _ => bind (addAlg _ _) fun _ => bind (mulAlg _ _) fun _ => pure _) _

theorem alg {v : Vars} {i j : ℕ} (hj : j = i + 2) (h : j ≤ v.localWires.length) :
    NoPanic (v.getLocalExtAlgebra ⟨i, j⟩) := by
  rw [EvaluationVars.getLocalExtAlgebra, if_neg (by simp [hj])]
  exact bind (idx' (by simp only; omega)) fun _ => bind (idx' (by simp only; omega)) fun _ => pure _

theorem slice {l : List α} {a b : ℕ} (h1 : a ≤ b) (h2 : b ≤ l.length) :
    Safe (Gates.slice l a b) fun r => r.length = b - a := by
  rw [Gates.slice, if_pos ⟨h1, h2⟩]
  exact Safe.pure (by rw [List.length_drop, List.length_take]; omega)

theorem collect {n k : ℕ} {f : ℕ → Circ (List QEV)} (h : ∀ i < n, Safe (f i) fun r => r.length = k) :
    Safe (Gates.collect n f) fun r => r.length = n * k :=
  (Safe.mapM _ fun i hi => h i (List.mem_range.1 hi)).bind fun l hl => Safe.pure (by
    rw [length_flatten_const hl.2, hl.1, List.length_range])

attribute [local irreducible] Verif.mulExt Verif.addExt Verif.subExt Verif.mulAlg Verif.addAlg Verif.subAlg
  Verif.scalarMulAlg Verif.scalarMulExt Verif.reduceWithPowers EvaluationVars.getLocalExtAlgebra Gates.slice
  Verif.partialInterpolate Verif.idx Verif.orPanic

variable {v : Vars}

/-! ## Gates -/

theorem arithmetic {n : ℕ} (hc : 2 ≤ v.localConstants.length) (hw : 4 * n ≤ v.localWires.length) :
    Safe (Gates.arithmetic n v) fun r => r.length = n := by
  refine (idx' (by omega)).bindS fun _ => (idx' (by omega)).bindS fun _ => (collect (k := 1) fun i hi => ?_).mono
    fun r h => by omega
  exact (idx' (by omega)).bindS fun _ => (idx' (by omega)).bindS fun _ => (idx' (by omega)).bindS fun _ =>
    (idx' (by omega)).bindS fun _ => (mulExt _ _).bindS fun _ => (mulExt _ _).bindS fun _ => (mulExt _ _).bindS fun _ =>
    (addExt _ _).bindS fun _ => (subExt _ _).bindS fun _ => Safe.pure rfl

theorem arithmeticExtension {n : ℕ} (hc : 2 ≤ v.localConstants.length) (hw : 8 * n ≤ v.localWires.length) :
    Safe (Gates.arithmeticExtension n v) fun r => r.length = 2 * n := by
  refine (idx' (by omega)).bindS fun _ => (idx' (by omega)).bindS fun _ => (collect (k := 2) fun i hi => ?_).mono
    fun r h => by omega
  exact (alg (by omega) (by omega)).bindS fun _ => (alg (by omega) (by omega)).bindS fun _ =>
    (alg (by omega) (by omega)).bindS fun _ => (alg (by omega) (by omega)).bindS fun _ => (mulAlg _ _).bindS fun _ =>
    (scalarMulAlg _ _).bindS fun _ => (scalarMulAlg _ _).bindS fun _ => (addAlg _ _).bindS fun _ =>
    (subAlg _ _).bindS fun _ => Safe.pure rfl

theorem mulExtension {n : ℕ} (hc : 1 ≤ v.localConstants.length) (hw : 6 * n ≤ v.localWires.length) :
    Safe (Gates.mulExtension n v) fun r => r.length = 2 * n := by
  refine (idx' (by omega)).bindS fun _ => (collect (k := 2) fun i hi => ?_).mono fun r h => by omega
  exact (alg (by omega) (by omega)).bindS fun _ => (alg (by omega) (by omega)).bindS fun _ =>
    (alg (by omega) (by omega)).bindS fun _ => (mulAlg _ _).bindS fun _ =>
    (scalarMulAlg _ _).bindS fun _ => (subAlg _ _).bindS fun _ => Safe.pure rfl

theorem mapRange {n : ℕ} {f : ℕ → Circ β} (h : ∀ i < n, NoPanic (f i)) :
    Safe ((List.range n).mapM f) fun r => r.length = n :=
  (Safe.mapM_length _ fun i hi => h i (List.mem_range.1 hi)).mono fun r h => by rw [h, List.length_range]

theorem baseSum {n b : ℕ} (hw : n + 1 ≤ v.localWires.length) :
    Safe (Gates.baseSum n b v) fun r => r.length = n + 1 := by
  refine (idx' (by omega)).bindS fun _ => (mapRange fun i hi => idx' (by omega)).bind fun l hl =>
    (reduceWithPowers _ _).bindS fun _ => (subExt _ _).bindS fun _ => (Safe.mapM_length _ fun x _ => ?_).bind fun r hr =>
    Safe.pure (by rw [List.length_cons, hr, hl])
  exact foldlM _ (fun _ _ _ => bind (subExt _ _) fun _ => mulExt _ _) _

theorem constant {n : ℕ} (hc : n ≤ v.localConstants.length) (hw : n ≤ v.localWires.length) :
    Safe (Gates.constant n v) fun r => r.length = n :=
  mapRange fun i hi => bind (idx' (by omega)) fun _ => bind (idx' (by omega)) fun _ => subExt _ _

theorem publicInput (hw : 4 ≤ v.localWires.length) : Safe (Gates.publicInput v) fun r => r.length = 4 :=
  (Safe.mapM_length _ fun i _ => bind (idx' (by omega)) fun _ => subExt _ _).mono fun r h => by
    rw [h, List.length_finRange]

theorem exponentiation {n : ℕ} (hn : n ≠ 0) (hw : 2 * n + 2 ≤ v.localWires.length) :
    Safe (Gates.exponentiation n v) fun r => r.length = n + 1 := by
  refine (idx' (by omega)).bindS fun _ => (mapRange fun i hi => idx' (by omega)).bind fun bs hbs =>
    (mapRange fun i hi => idx' (by omega)).bind fun iv hiv => (idx' (by omega)).bindS fun _ =>
    (mapRange fun i hi => ?_).bind fun cs hcs => ?_
  · refine bind (ite (fun _ => pure _) fun _ => bind (idx' (by omega)) fun _ => mulExt _ _) fun _ => ?_
    exact bind (idx' (by omega)) fun _ => bind (mulExt _ _) fun _ => bind (subExt _ _) fun _ => bind (mulExt _ _) fun _ =>
      bind (subExt _ _) fun _ => bind (mulExt _ _) fun _ => bind (idx' (by omega)) fun _ => subExt _ _
  · rw [if_neg hn]
    exact (idx' (by omega)).bindS fun _ => (subExt _ _).bindS fun _ => Safe.pure (by simp [hcs])

theorem foldPairs (b : QEV) (m : ℕ) : ∀ l : List QEV, l.length = 2 * m →
    Safe (Gates.foldPairs b l) fun r => r.length = m := by
  induction m with
  | zero =>
    intro l hl
    rw [List.length_eq_zero_iff.1 (by omega : l.length = 0), Gates.foldPairs]
    exact Safe.pure rfl
  | succ m ih =>
    intro l hl
    match l, hl with
    | x :: y :: l, hl =>
      rw [Gates.foldPairs]
      exact (subExt _ _).bindS fun _ => (mulExt _ _).bindS fun _ => (addExt _ _).bindS fun _ =>
        (ih l (by simp at hl; omega)).bind fun r hr => Safe.pure (by simp [hr])
    | [_], hl => simp at hl; omega
    | [], hl => simp at hl

theorem foldAll (bs : List QEV) : ∀ l : List QEV, l.length = 2 ^ bs.length →
    Safe (bs.foldlM (fun l b => Gates.foldPairs b l) l) fun r => r.length = 1 := by
  induction bs with
  | nil => intro l hl; exact Safe.pure (by simpa using hl)
  | cons b bs ih =>
    intro l hl
    rw [List.foldlM_cons]
    exact (foldPairs b (2 ^ bs.length) l (by rw [hl, List.length_cons, pow_succ]; ring)).bind fun r hr => ih r hr

theorem randomAccess {b c e : ℕ} (hb : b < 64) (hc : e ≤ v.localConstants.length)
    (hw : (2 + 2 ^ b) * c + e + c * b ≤ v.localWires.length) :
    Safe (Gates.randomAccess b c e v) fun r => r.length = c * (b + 2) + e := by
  have hshl : shl1 b = 2 ^ b := by rw [shl1, if_pos hb]
  refine (collect (k := b + 2) fun k hk => ?_).bind fun cs hcs => (mapRange fun i hi => ?_).bind fun es hes =>
    Safe.pure (by rw [List.length_append, hcs, hes])
  · have h1 : (2 + 2 ^ b) * k + (2 + 2 ^ b) ≤ (2 + 2 ^ b) * c := by
      rw [← Nat.mul_succ]; exact Nat.mul_le_mul_left _ hk
    have h2 : k * b + b ≤ c * b := by rw [← Nat.succ_mul]; exact Nat.mul_le_mul_right _ hk
    rw [Gates.randomAccessCopy, raStartExtra, hshl]
    refine (idx' (by omega)).bindS fun _ => (mapRange fun i hi => idx' (by omega)).bind fun items hit =>
      (idx' (by omega)).bindS fun _ => (mapRange fun i hi => idx' (by omega)).bind fun bs hbs =>
      (Safe.mapM_length _ fun _ _ => bind (mulExt _ _) fun _ => subExt _ _).bind fun bl hbl =>
      (reduceWithPowers _ _).bindS fun _ => (subExt _ _).bindS fun _ =>
      (foldAll bs items (by rw [hit, hbs])).bind fun r hr => ?_
    match r, hr with
    | [item], _ => exact (subExt _ _).bindS fun _ => Safe.pure (by simp [hbl, hbs])
  · rw [raStartExtra, hshl]
    exact bind (idx' (by omega)) fun _ => bind (idx' (by omega)) fun _ => subExt _ _

theorem wiresAccs {n m i : ℕ} (hi : i < n) (hw : 6 + m + 2 * (n - 1) ≤ v.localWires.length) :
    NoPanic (v.getLocalExtAlgebra (Gates.wiresAccs n (6 + m) i)) := by
  rw [Gates.wiresAccs]
  split
  · exact alg (by omega) (by omega)
  · exact alg (by omega) (by omega)

theorem reducingLoop {al o : QAV} {cs as : List QAV} {n : ℕ} (hc : cs.length = n) (ha : as.length = n) :
    Safe (Gates.reducingLoop al o cs as n) fun r => r.length = 2 * n := by
  refine (Safe.foldlM (fun i (st : QAV × List QEV) => st.2.length = 2 * i) _ (fun i st x hx hi => ?_) _ rfl).bind
    fun st hst => Safe.pure (by simpa using hst)
  have hx' : x < n := List.mem_range.1 (List.mem_of_getElem? hx)
  refine (idx' (by omega)).bindS fun _ => (mulAlg _ _).bindS fun _ => (addAlg _ _).bindS fun _ =>
    (idx' (by omega)).bindS fun _ => (subAlg _ _).bindS fun _ => Safe.pure ?_
  simp [coeffsV, hi]; omega

theorem reducing {n : ℕ} (hw : 6 + n + 2 * (n - 1) ≤ v.localWires.length) :
    Safe (Gates.reducing n v) fun r => r.length = 2 * n :=
  (alg (by omega) (by omega)).bindS fun _ => (alg (by omega) (by omega)).bindS fun _ =>
    (mapRange fun i hi => bind (idx' (by omega)) fun _ => pure _).bind fun cs hcs =>
    (mapRange fun i hi => wiresAccs hi hw).bind fun as has => reducingLoop hcs has

theorem reducingExtension {n : ℕ} (hw : 6 + 2 * n + 2 * (n - 1) ≤ v.localWires.length) :
    Safe (Gates.reducingExtension n v) fun r => r.length = 2 * n :=
  (alg (by omega) (by omega)).bindS fun _ => (alg (by omega) (by omega)).bindS fun _ =>
    (mapRange fun i hi => alg (by omega) (by omega)).bind fun cs hcs =>
    (mapRange fun i hi => wiresAccs hi (by omega)).bind fun as has => reducingLoop hcs has

theorem cosetInterpolation {b d : ℕ} {wt : List Fp} (hb : b ≤ 32) (hd : 2 ≤ d) (hdb : d ≤ 2 ^ b)
    (hwt : 2 ^ b ≤ wt.length) (hw : 1 + 2 * 2 ^ b + 4 + 4 * Spec.Gates.numInter b d + 2 ≤ v.localWires.length) :
    Safe (Gates.cosetInterpolation b d wt v) fun r => r.length = 4 + 4 * Spec.Gates.numInter b d := by
  have hshl : shl1 b = 2 ^ b := shl1_pow hb
  have hni : numIntermediates b d = Spec.Gates.numInter b d := numIntermediates_eq hb (hd.trans hdb)
  obtain ⟨g, _, _, hdom⟩ := twoAdicSubgroup_eq hb
  have hsi : startIntermediates b = 1 + 2 * 2 ^ b + 4 := by rw [startIntermediates, hshl]; omega
  have hmul : (d - 1) * Spec.Gates.numInter b d ≤ 2 ^ b - 2 := Nat.mul_div_le _ _
  rw [Gates.cosetInterpolation, if_neg (by omega)]
  simp only [hshl, hni, hsi]
  generalize hN : 2 ^ b = N at *
  generalize hM : Spec.Gates.numInter b d = M at *
  refine (idx' (by omega)).bindS fun _ => (alg rfl (by omega)).bindS fun _ => (alg rfl (by omega)).bindS fun pt =>
    (scalarMulExt _ _).bindS fun _ => (scalarMulAlg _ _).bindS fun _ => (addAlg _ _).bindS fun _ =>
    (orPanic hdom).bind fun dom hdom' => (mapRange fun i hi => alg rfl (by omega)).bind fun vals hvals => ?_
  have hdl : dom.length = N := by rw [hdom']; simp
  refine (slice (by omega) (by omega)).bind fun ds hds => (slice (by omega) (by omega)).bind fun vs hvs =>
    (slice (by omega) (by omega)).bind fun ws hws =>
    (partialInterpolate (by omega) (by omega) (by omega)).bindS fun st0 => ?_
  refine (Safe.foldlM (fun i (st : (QAV × QAV) × List QEV) => st.2.length = 2 + 4 * i) _
    (fun i st x hx hi => ?_) _ rfl).bind fun st hst => ?_
  · have hx' : x < M := List.mem_range.1 (List.mem_of_getElem? hx)
    have hx2 : (d - 1) * (x + 1) ≤ N - 2 := (Nat.mul_le_mul_left _ hx').trans hmul
    rw [cosetStep]
    simp only [hshl, hni, hsi]
    refine (alg rfl (by omega)).bindS fun _ => (alg rfl (by omega)).bindS fun _ => (subAlg _ _).bindS fun _ =>
      (subAlg _ _).bindS fun _ => ?_
    generalize hX : (d - 1) * (x + 1) = X at *
    generalize hE : (if 1 + X + d - 1 > N then N else 1 + X + d - 1) = E
    have hE1 : 1 + X < E := by rw [← hE]; split <;> omega
    have hE2 : E ≤ N := by rw [← hE]; split <;> omega
    refine (slice (by omega) (by omega)).bind fun ds hds => (slice (by omega) (by omega)).bind fun vs hvs =>
      (slice (by omega) (by omega)).bind fun ws hws =>
      (partialInterpolate (by omega) (by omega) (by omega)).bindS fun _ => Safe.pure ?_
    simp [coeffsV, hi]; omega
  · refine (alg rfl (by omega)).bindS fun _ => (subAlg _ _).bindS fun _ => Safe.pure ?_
    simp [coeffsV, hst]; omega

/-! ## Poseidon gates -/

theorem poseidonMds (hw : 48 ≤ v.localWires.length) : Safe (Gates.poseidonMds v) fun r => r.length = 24 := by
  refine NoPanic.bindS (tabM fun i => alg (by omega) (by omega)) fun _ => NoPanic.bindS (tabM fun i => ?_) fun _ =>
    NoPanic.bindS (tabM fun i => bind (alg (by omega) (by omega)) fun _ => subAlg _ _) fun cs => Safe.pure ?_
  · exact bind (foldlM _ (fun _ _ _ => bind (scalarMulAlg _ _) fun _ => addAlg _ _) _) fun _ =>
      bind (scalarMulAlg _ _) fun _ => addAlg _ _
  · rw [length_flatMap_const (k := 2) (by simp [coeffsV])]
    simp

theorem constantLayerExt (s : PoseidonGL.StateExt) (r : ℕ) : NoPanic (PoseidonGL.constantLayerExt s r) :=
  tabM fun _ => addExt _ _
theorem sBoxMonomialExt (x : QEV) : NoPanic (PoseidonGL.sBoxMonomialExt x) :=
  bind (mulExt _ _) fun _ => bind (mulExt _ _) fun _ => bind (mulExt _ _) fun _ => mulExt _ _
theorem sBoxLayerExt (s : PoseidonGL.StateExt) : NoPanic (PoseidonGL.sBoxLayerExt s) := tabM fun _ => sBoxMonomialExt _
theorem mdsLayerExt (s : PoseidonGL.StateExt) : NoPanic (PoseidonGL.mdsLayerExt s) := tabM fun _ =>
  bind (foldlM _ (fun _ _ _ => bind (mulExt _ _) fun _ => addExt _ _) _) fun _ => bind (mulExt _ _) fun _ => addExt _ _
theorem mdsPartialLayerInitExt (s : PoseidonGL.StateExt) : NoPanic (PoseidonGL.mdsPartialLayerInitExt s) :=
  bind (tabM fun _ => foldlM _ (fun _ _ _ => bind (mulExt _ _) fun _ => addExt _ _) _) fun _ => pure _
theorem mdsPartialLayerFastExt (s : PoseidonGL.StateExt) (r : ℕ) : NoPanic (PoseidonGL.mdsPartialLayerFastExt s r) :=
  bind (mulExt _ _) fun _ => bind (foldlM _ (fun _ _ _ => bind (mulExt _ _) fun _ => addExt _ _) _) fun _ =>
    bind (tabM fun _ => bind (mulExt _ _) fun _ => addExt _ _) fun _ => pure _

attribute [local irreducible] PoseidonGL.const1 PoseidonGL.const2 PoseidonGL.mdsPartialLayerFastExt
  PoseidonGL.mdsLayerExt PoseidonGL.sBoxLayerExt PoseidonGL.constantLayerExt PoseidonGL.mdsPartialLayerInitExt
  PoseidonGL.sBoxMonomialExt

theorem sBoxInputs {wire : Fin 12 → ℕ} (h : ∀ i, wire i < v.localWires.length) (s : PoseidonGL.StateExt) :
    Safe (Gates.sBoxInputs v wire s) fun r => r.1.length = 12 :=
  NoPanic.bindS (tabM fun i => bind (idx' (h i)) fun _ => bind (subExt _ _) fun _ => pure _) fun _ =>
    Safe.pure (by simp)

theorem poseidonFull0 {r : ℕ} (hr : r < 4) (hw : 135 ≤ v.localWires.length) (st : List QEV × PoseidonGL.StateExt) :
    Safe (Gates.poseidonFull0 v st r) fun st' => st'.1.length = st.1.length + if r = 0 then 0 else 12 := by
  rw [Gates.poseidonFull0]
  refine (constantLayerExt _ _).bindS fun state => ?_
  by_cases h0 : r = 0
  · subst h0
    rw [if_neg (by simp), if_pos rfl, pure_bind]
    exact (sBoxLayerExt _).bindS fun _ => (mdsLayerExt _).bindS fun _ => Safe.pure (by simp)
  · rw [if_pos h0, if_neg h0]
    refine (sBoxInputs (fun i => by have := i.2; omega) _).bind fun x hx => ?_
    obtain ⟨x1, x2⟩ := x
    exact (sBoxLayerExt _).bindS fun _ => (mdsLayerExt _).bindS fun _ => Safe.pure (by simpa using hx)

theorem poseidonPartial {r : ℕ} (hr : r < 22) (hw : 135 ≤ v.localWires.length) (st : List QEV × PoseidonGL.StateExt) :
    Safe (Gates.poseidonPartial v st r) fun st' => st'.1.length = st.1.length + 1 := by
  rw [Gates.poseidonPartial]
  refine (idx' (by omega)).bindS fun _ => (subExt _ _).bindS fun _ => (sBoxMonomialExt _).bindS fun _ => ?_
  by_cases h : r < 21
  · rw [if_pos h]
    exact (addExt _ _).bindS fun _ => (mdsPartialLayerFastExt _ _).bindS fun _ => Safe.pure (by simp)
  · rw [if_neg h, pure_bind]
    exact (mdsPartialLayerFastExt _ _).bindS fun _ => Safe.pure (by simp)

theorem poseidonFull1 {r : ℕ} (hr : r < 4) (hw : 135 ≤ v.localWires.length) (st : List QEV × PoseidonGL.StateExt) :
    Safe (Gates.poseidonFull1 v st r) fun st' => st'.1.length = st.1.length + 12 := by
  rw [Gates.poseidonFull1]
  exact (constantLayerExt _ _).bindS fun _ => (sBoxInputs (fun i => by have := i.2; omega) _).bind fun x hx =>
    (sBoxLayerExt _).bindS fun _ => (mdsLayerExt _).bindS fun _ => Safe.pure (by simp [hx])

theorem poseidonInput (hw : 135 ≤ v.localWires.length) : NoPanic (Gates.poseidonInput v) :=
  bind (tabM fun i => bind (idx' (by omega)) fun _ => bind (idx' (by omega)) fun _ => bind (idx' (by omega)) fun _ =>
    bind (addExt _ _) fun _ => bind (subExt _ _) fun _ => pure _) fun _ => bind (tabM fun i => idx' (by omega)) fun _ =>
    pure _

theorem poseidonGate (hw : 135 ≤ v.localWires.length) : Safe (Gates.poseidon v) fun r => r.length = 123 := by
  rw [Gates.poseidon]
  refine (idx' (by omega)).bindS fun _ => (subExt _ _).bindS fun _ => (mulExt _ _).bindS fun _ =>
    NoPanic.bindS (tabM fun i => ?_) fun ds => (poseidonInput hw).bindS fun _ => ?_
  · exact bind (idx' (by omega)) fun _ => bind (idx' (by omega)) fun _ => bind (idx' (by omega)) fun _ =>
      bind (subExt _ _) fun _ => bind (mulExt _ _) fun _ => subExt _ _
  refine Safe.bind (Q := fun st : List QEV × PoseidonGL.StateExt => st.1.length = 41) ?_ fun st hst => ?_
  · refine (Safe.foldlM (fun i (st : List QEV × PoseidonGL.StateExt) => st.1.length = 5 + 12 * (i - 1)) _
      (fun i st x hx hi => ?_) _ (by simp)).mono fun _ h => by simpa using h
    have hx' : x = i := by
      match i, hx with
      | 0, hx => simpa using hx.symm
      | 1, hx => simpa using hx.symm
      | 2, hx => simpa using hx.symm
      | 3, hx => simpa using hx.symm
    have hlt : i < 4 := (List.getElem?_eq_some_iff.1 hx).1
    subst hx'
    refine (poseidonFull0 hlt hw st).mono fun st' h => ?_
    rw [h, hi]
    split <;> omega
  refine NoPanic.bindS (tabM fun _ => addExt _ _) fun _ => (mdsPartialLayerInitExt _).bindS fun _ => ?_
  refine Safe.bind (Q := fun st : List QEV × PoseidonGL.StateExt => st.1.length = 63) ?_ fun st hst => ?_
  · refine (Safe.foldlM (fun i (st : List QEV × PoseidonGL.StateExt) => st.1.length = 41 + i) _
      (fun i st x hx hi => ?_) _ (by simpa using hst)).mono fun _ h => by simpa using h
    exact (poseidonPartial (List.mem_range.1 (List.mem_of_getElem? hx)) hw st).mono fun st' h => by omega
  refine Safe.bind (Q := fun st : List QEV × PoseidonGL.StateExt => st.1.length = 111) ?_ fun st hst => ?_
  · refine (Safe.foldlM (fun i (st : List QEV × PoseidonGL.StateExt) => st.1.length = 63 + 12 * i) _
      (fun i st x hx hi => ?_) _ (by simpa using hst)).mono fun _ h => by simpa using h
    have hx' : x < 4 := by
      have := List.mem_of_getElem? hx
      simp at this; omega
    exact (poseidonFull1 hx' hw st).mono fun st' h => by omega
  exact NoPanic.bindS (tabM fun i => bind (idx' (by omega)) fun _ => subExt _ _) fun _ =>
    Safe.pure (by simp [hst])

/-- Every gate whose sizes fit is evaluated without panic and yields its number of constraints. -/
theorem evalUnfiltered {g : Gate} (h : Spec.Gates.Fits v.localConstants.length v.localWires.length g) :
    Safe (g.evalUnfiltered v) fun r => r.length = constraintCount g := by
  cases g
  case arithmetic n => exact arithmetic h.1 h.2
  case arithmeticExtension n => exact arithmeticExtension h.1 h.2
  case baseSum n b => exact baseSum h.2
  case constant n => exact constant h.1 h.2
  case cosetInterpolation b d w => exact cosetInterpolation h.1 h.2.1 h.2.2.1 h.2.2.2.1.ge h.2.2.2.2
  case exponentiation n => exact exponentiation h.1 h.2
  case mulExtension n => exact mulExtension h.1 h.2
  case noop => exact Safe.pure rfl
  case poseidon => exact poseidonGate h
  case poseidonMds => exact poseidonMds h
  case publicInput => exact publicInput h
  case randomAccess b c e => exact randomAccess h.1 h.2.1 h.2.2
  case reducing n => exact reducing h
  case reducingExtension n => exact reducingExtension h

end NoPanic

end Verif
