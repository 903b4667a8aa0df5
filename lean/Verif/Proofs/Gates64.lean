import Verif.Model.Gates64
import Verif.Proofs.Guards

/-!
# The gates on 64-bit words and on natural numbers
-/

set_option autoImplicit false

namespace Verif

open Circ Gates

variable {α β σ : Type}

/-- The same program, or two programs that panic whatever the values. -/
def Agree (c d : Circ α) : Prop := c = d ∨ (Panics c ∧ Panics d)

theorem mapM_congr' {f g : σ → Circ β} {l : List σ} (h : ∀ x ∈ l, f x = g x) : l.mapM f = l.mapM g := by
  induction l with
  | nil => rfl
  | cons a l ih => rw [List.mapM_cons, List.mapM_cons, h a (by simp), ih fun x hx => h x (by simp [hx])]

theorem foldlM_congr' {f g : β → σ → Circ β} {l : List σ} (h : ∀ b, ∀ x ∈ l, f b x = g b x) (b : β) :
    l.foldlM f b = l.foldlM g b := by
  induction l generalizing b with
  | nil => rfl
  | cons a l ih =>
    rw [List.foldlM_cons, List.foldlM_cons, h b a (by simp)]
    exact bind_congr fun _ => ih (fun b x hx => h b x (by simp [hx])) _

theorem tabM_congr' {n : ℕ} {f g : Fin n → Circ α} (h : ∀ i, f i = g i) : tabM n f = tabM n g := by
  rw [funext h]

namespace Gates64

/-- Bound on the length of a slice. -/
def L : ℕ := 2 ^ 58

theorem toNat_ofNat_of {i : ℕ} (h : i < 2 ^ 64) : (UInt64.ofNat i).toNat = i := by
  rw [UInt64.toNat_ofNat', Nat.mod_eq_of_lt h]

theorem at_eq {l : List α} {i : UInt64} {k : ℕ} (h : i.toNat = k) : at_ l i = idx l k := by rw [at_, h]

theorem alg_eq {v : Vars} {r : Range} {a b : ℕ} (h1 : r.start.toNat = a) (h2 : r.stop.toNat = b) (hb : b = a + 2) :
    getLocalExtAlgebra v r = v.getLocalExtAlgebra ⟨a, b⟩ := by
  have hs : r.stop - r.start = 2 := by
    have := r.stop.toNat_lt
    apply UInt64.toNat.inj
    rw [UInt64.toNat_sub_of_le _ _ (UInt64.le_iff_toNat_le.2 (by omega))]
    rw [h1, h2, hb]
    simp
  have hl : r.start < r.stop := UInt64.lt_iff_toNat_lt.2 (by omega)
  have h3 : (r.start + 1).toNat = a + 1 := by
    have := r.stop.toNat_lt
    rw [UInt64.toNat_add]
    simp only [UInt64.reduceToNat]
    omega
  rw [getLocalExtAlgebra, EvaluationVars.getLocalExtAlgebra, if_neg (by simp [hs]), if_pos hl, if_neg (by simp [hb]),
    at_eq h1, at_eq h3]

theorem panics_alg {v : Vars} {a b : ℕ} (hb : b = a + 2) (h : v.localWires.length ≤ a + 1) :
    Panics (v.getLocalExtAlgebra ⟨a, b⟩) := by
  rw [EvaluationVars.getLocalExtAlgebra, if_neg (by simp [hb])]
  exact .bind_all fun _ => Panics.bind (Panics.idx h) _

theorem loop_eq {n : UInt64} {f : UInt64 → Circ β} {g : ℕ → Circ β} (h : ∀ i < n.toNat, f (UInt64.ofNat i) = g i) :
    loop n f = (List.range n.toNat).mapM g := mapM_congr' fun i hi => h i (List.mem_range.1 hi)

theorem loopFlat_eq {n : UInt64} {f : UInt64 → Circ (List QEV)} {g : ℕ → Circ (List QEV)}
    (h : ∀ i < n.toNat, f (UInt64.ofNat i) = g i) : loopFlat n f = collect n.toNat g := by
  rw [loopFlat, collect, loop_eq h]

theorem panics_range {n k : ℕ} {g : ℕ → Circ β} (hk : k < n) (h : Panics (g k)) : Panics ((List.range n).mapM g) :=
  Panics.mapM (List.mem_range.2 hk) h

theorem panics_loop {n : UInt64} {k : ℕ} {f : UInt64 → Circ β} (hk : k < n.toNat) (h : Panics (f (UInt64.ofNat k))) :
    Panics (loop n f) := panics_range hk h

theorem panics_loopFlat {n : UInt64} {k : ℕ} {f : UInt64 → Circ (List QEV)} (hk : k < n.toNat)
    (h : Panics (f (UInt64.ofNat k))) : Panics (loopFlat n f) := Panics.bind (panics_loop hk h) _

theorem panics_collect {n k : ℕ} {f : ℕ → Circ (List QEV)} (hk : k < n) (h : Panics (f k)) : Panics (collect n f) :=
  Panics.bind (panics_range hk h) _

/-- Numerals and arithmetic of 64-bit words, then linear arithmetic. -/
macro "u64" : tactic => `(tactic| (
  simp only [UInt64.toNat_add, UInt64.toNat_mul, UInt64.toNat_sub, UInt64.toNat_ofNat', UInt64.reduceToNat,
    UInt64.reduceMul, UInt64.reduceAdd, UInt64.reduceSub] <;> omega))

attribute [local irreducible] mulExt addExt subExt mulAlg addAlg subAlg scalarMulAlg scalarMulExt reduceWithPowers
  EvaluationVars.getLocalExtAlgebra Gates64.getLocalExtAlgebra Gates.slice partialInterpolate idx orPanic at_

variable {v : Vars}

/-! ## Arithmetic gates -/

theorem arithmetic_agree (n : UInt64) (hw : v.localWires.length ≤ L) :
    Agree (Gates64.arithmetic n v) (Gates.arithmetic n.toNat v) := by
  have key : ∀ i ≤ L, (arithMultiplicand0 (UInt64.ofNat i)).toNat = 4 * i ∧
      (arithMultiplicand1 (UInt64.ofNat i)).toNat = 4 * i + 1 ∧ (arithAddend (UInt64.ofNat i)).toNat = 4 * i + 2 ∧
      (arithOutput (UInt64.ofNat i)).toNat = 4 * i + 3 := by
    intro i hi
    rw [L] at hi
    refine ⟨?_, ?_, ?_, ?_⟩
    · rw [arithMultiplicand0]; u64
    · rw [arithMultiplicand1]; u64
    · rw [arithAddend]; u64
    · rw [arithOutput]; u64
  by_cases hn : n.toNat ≤ L
  · left
    rw [Gates64.arithmetic, Gates.arithmetic, at_eq (k := 0) rfl, at_eq (k := 1) rfl]
    refine bind_congr fun _ => bind_congr fun _ => loopFlat_eq fun i hi => ?_
    obtain ⟨h1, h2, h3, h4⟩ := key i (by omega)
    rw [at_eq h1, at_eq h2, at_eq h3, at_eq h4]
  · right
    constructor
    · refine .bind_all fun _ => .bind_all fun _ => panics_loopFlat (k := L) (by omega) ?_
      rw [at_eq (key L le_rfl).1]
      exact Panics.bind (Panics.idx (by omega)) _
    · exact .bind_all fun _ => .bind_all fun _ => panics_collect (k := L) (by omega)
        (Panics.bind (Panics.idx (by omega)) _)

theorem arithmeticExtension_agree (n : UInt64) (hw : v.localWires.length ≤ L) :
    Agree (Gates64.arithmeticExtension n v) (Gates.arithmeticExtension n.toNat v) := by
  have key : ∀ i ≤ L,
      getLocalExtAlgebra v (arithExtMultiplicand0 (UInt64.ofNat i)) =
        v.getLocalExtAlgebra ⟨4 * 2 * i, 4 * 2 * i + 2⟩ ∧
      getLocalExtAlgebra v (arithExtMultiplicand1 (UInt64.ofNat i)) =
        v.getLocalExtAlgebra ⟨4 * 2 * i + 2, 4 * 2 * i + 2 * 2⟩ ∧
      getLocalExtAlgebra v (arithExtAddend (UInt64.ofNat i)) =
        v.getLocalExtAlgebra ⟨4 * 2 * i + 2 * 2, 4 * 2 * i + 3 * 2⟩ ∧
      getLocalExtAlgebra v (arithExtOutput (UInt64.ofNat i)) =
        v.getLocalExtAlgebra ⟨4 * 2 * i + 3 * 2, 4 * 2 * i + 4 * 2⟩ := by
    intro i hi
    rw [L] at hi
    refine ⟨alg_eq ?_ ?_ (by omega), alg_eq ?_ ?_ (by omega), alg_eq ?_ ?_ (by omega), alg_eq ?_ ?_ (by omega)⟩
    · simp only [arithExtMultiplicand0]; u64
    · simp only [arithExtMultiplicand0]; u64
    · simp only [arithExtMultiplicand1]; u64
    · simp only [arithExtMultiplicand1]; u64
    · simp only [arithExtAddend]; u64
    · simp only [arithExtAddend]; u64
    · simp only [arithExtOutput]; u64
    · simp only [arithExtOutput]; u64
  by_cases hn : n.toNat ≤ L
  · left
    rw [Gates64.arithmeticExtension, Gates.arithmeticExtension, at_eq (k := 0) rfl, at_eq (k := 1) rfl]
    refine bind_congr fun _ => bind_congr fun _ => loopFlat_eq fun i hi => ?_
    obtain ⟨h1, h2, h3, h4⟩ := key i (by omega)
    rw [h1, h2, h3, h4]
  · right
    constructor
    · refine .bind_all fun _ => .bind_all fun _ => panics_loopFlat (k := L) (by omega) ?_
      rw [(key L le_rfl).1]
      exact Panics.bind (panics_alg (by omega) (by omega)) _
    · exact .bind_all fun _ => .bind_all fun _ => panics_collect (k := L) (by omega)
        (Panics.bind (panics_alg (by omega) (by omega)) _)

theorem mulExtension_agree (n : UInt64) (hw : v.localWires.length ≤ L) :
    Agree (Gates64.mulExtension n v) (Gates.mulExtension n.toNat v) := by
  have key : ∀ i ≤ L,
      getLocalExtAlgebra v (mulExtMultiplicand0 (UInt64.ofNat i)) =
        v.getLocalExtAlgebra ⟨3 * 2 * i, 3 * 2 * i + 2⟩ ∧
      getLocalExtAlgebra v (mulExtMultiplicand1 (UInt64.ofNat i)) =
        v.getLocalExtAlgebra ⟨3 * 2 * i + 2, 3 * 2 * i + 2 * 2⟩ ∧
      getLocalExtAlgebra v (mulExtOutput (UInt64.ofNat i)) =
        v.getLocalExtAlgebra ⟨3 * 2 * i + 2 * 2, 3 * 2 * i + 3 * 2⟩ := by
    intro i hi
    rw [L] at hi
    refine ⟨alg_eq ?_ ?_ (by omega), alg_eq ?_ ?_ (by omega), alg_eq ?_ ?_ (by omega)⟩
    · simp only [mulExtMultiplicand0]; u64
    · simp only [mulExtMultiplicand0]; u64
    · simp only [mulExtMultiplicand1]; u64
    · simp only [mulExtMultiplicand1]; u64
    · simp only [mulExtOutput]; u64
    · simp only [mulExtOutput]; u64
  by_cases hn : n.toNat ≤ L
  · left
    rw [Gates64.mulExtension, Gates.mulExtension, at_eq (k := 0) rfl]
    refine bind_congr fun _ => loopFlat_eq fun i hi => ?_
    obtain ⟨h1, h2, h3⟩ := key i (by omega)
    rw [h1, h2, h3]
  · right
    constructor
    · refine .bind_all fun _ => panics_loopFlat (k := L) (by omega) ?_
      rw [(key L le_rfl).1]
      exact Panics.bind (panics_alg (by omega) (by omega)) _
    · exact .bind_all fun _ => panics_collect (k := L) (by omega)
        (Panics.bind (panics_alg (by omega) (by omega)) _)

/-! ## Sums, constants, public inputs -/

theorem baseSum_agree {maxLen : ℕ} (n b : UInt64) (hw : v.localWires.length ≤ maxLen) (hL : maxLen ≤ L) :
    Agree (Gates64.baseSum maxLen n b v) (Gates.baseSum n.toNat b.toNat v) := by
  have key : ∀ i ≤ L, (1 + UInt64.ofNat i).toNat = 1 + i := by
    intro i hi
    rw [L] at hi
    u64
  by_cases hn : n.toNat ≤ maxLen
  · left
    rw [Gates64.baseSum, Gates.baseSum, at_eq (k := 0) rfl, make, if_pos hn]
    simp only [pure_bind]
    refine bind_congr fun _ => ?_
    rw [loop_eq (n := n) (f := fun i => at_ v.localWires (1 + i)) (g := fun i => idx v.localWires (1 + i))
      fun i hi => at_eq (key i (by omega))]
    refine bind_congr fun _ => bind_congr fun _ => bind_congr fun _ => ?_
    congr 1
    refine mapM_congr' fun limb _ => foldlM_congr' (fun acc i hi => ?_) _
    rw [toNat_ofNat_of ((List.mem_range.1 hi).trans b.toNat_lt)]
  · right
    constructor
    · refine .bind_all fun _ => Panics.bind ?_ _
      rw [make, if_neg hn]
      trivial
    · exact .bind_all fun _ => Panics.bind (panics_range (n := n.toNat) (k := maxLen)
        (g := fun i => idx v.localWires (1 + i)) (by omega) (Panics.idx (by omega))) _

theorem constant_eq (n : UInt64) : Gates64.constant n v = Gates.constant n.toNat v := by
  refine loop_eq fun i hi => ?_
  have hi' := toNat_ofNat_of (hi.trans n.toNat_lt)
  have hg : ¬ UInt64.ofNat i ≥ n := by
    intro h
    have := UInt64.le_iff_toNat_le.1 h
    omega
  rw [constInput, constOutput, if_neg hg, if_neg hg, pure_bind, at_eq hi']
  refine bind_congr fun _ => ?_
  rw [pure_bind, at_eq hi']

theorem publicInput_eq : Gates64.publicInput v = Gates.publicInput v := by
  refine mapM_congr' fun i _ => ?_
  rw [at_eq (k := i)]
  revert i
  decide

theorem not_ge {i : ℕ} {n : UInt64} (h : i < n.toNat) : ¬ UInt64.ofNat i ≥ n := by
  intro hn
  have := UInt64.le_iff_toNat_le.1 hn
  rw [toNat_ofNat_of (h.trans n.toNat_lt)] at this
  omega

/-! ## Exponentiation -/

theorem exponentiation_agree (n : UInt64) (hw : v.localWires.length ≤ L) :
    Agree (Gates64.exponentiation n v) (Gates.exponentiation n.toNat v) := by
  by_cases h0 : n.toNat = 0
  · right
    have h0' : n = 0 := UInt64.toNat.inj h0
    subst h0'
    refine ⟨?_, panics_exponentiation_zero v⟩
    rw [Gates64.exponentiation]
    have hl : ∀ f : UInt64 → Circ QEV, loop 0 f = pure [] := fun _ => rfl
    simp only [hl, pure_bind]
    exact .bind_all fun _ => .bind_all fun _ => Panics.bind (by rw [at_eq rfl]; exact Panics.idx (by simp)) _
  by_cases hn : n.toNat ≤ L
  · left
    rw [L] at hn
    rw [Gates64.exponentiation, Gates.exponentiation, at_eq (k := 0) rfl]
    refine bind_congr fun _ => ?_
    rw [loop_eq (n := n) (g := fun i => idx v.localWires (1 + i)) (fun i hi => by
      rw [wirePowerBit, if_neg (not_ge hi), pure_bind, at_eq]; u64)]
    refine bind_congr fun pb => ?_
    rw [loop_eq (n := n) (g := fun i => idx v.localWires (2 + n.toNat + i)) (fun i hi => by
      rw [wireIntermediateValue, if_neg (not_ge hi), pure_bind, at_eq]; u64)]
    refine bind_congr fun iv => ?_
    rw [at_eq (k := 1 + n.toNat) (by rw [expOutput]; u64)]
    refine bind_congr fun _ => ?_
    rw [at_eq (k := n.toNat - 1) (by u64)]
    simp only [if_neg h0]
    congr 1
    refine loop_eq fun i hi => ?_
    have h1 : expPrev iv (UInt64.ofNat i) = Gates.expPrev iv i := by
      rw [expPrev, Gates.expPrev]
      by_cases hi0 : i = 0
      · subst hi0; rfl
      · have : UInt64.ofNat i ≠ 0 := by
          intro h
          have := congrArg UInt64.toNat h
          rw [toNat_ofNat_of (by omega)] at this
          exact hi0 this
        rw [if_neg this, if_neg hi0, at_eq]
        u64
    rw [h1, at_eq (k := n.toNat - i - 1) (by u64), at_eq (k := i) (toNat_ofNat_of (by omega))]
  · right
    constructor
    · refine .bind_all fun _ => Panics.bind (panics_loop (k := L) (by omega) ?_) _
      rw [wirePowerBit, if_neg (not_ge (by omega)), pure_bind, at_eq (k := 1 + L) (by rw [L]; u64)]
      exact Panics.idx (by omega)
    · exact .bind_all fun _ => Panics.bind (panics_range (n := n.toNat) (k := L)
        (g := fun i => idx v.localWires (1 + i)) (by omega) (Panics.idx (by omega))) _

/-! ## Reducing -/

theorem wiresAccs_eq {n : UInt64} {s i : ℕ} {w : UInt64} (hn : n.toNat ≤ L) (hi : i < n.toNat) (hw : w.toNat = s)
    (hs : s ≤ 4 * L) :
    (wiresAccs n w (UInt64.ofNat i) >>= getLocalExtAlgebra v) = v.getLocalExtAlgebra (Gates.wiresAccs n.toNat s i) := by
  rw [L] at hn hs
  have h1 : (n - 1).toNat = n.toNat - 1 := by u64
  have h2 : (UInt64.ofNat i).toNat = i := toNat_ofNat_of (by omega)
  rw [wiresAccs, if_neg (not_ge hi), Gates.wiresAccs]
  by_cases h : i = n.toNat - 1
  · rw [if_pos (UInt64.toNat.inj (by rw [h1, h2, h])), if_pos h, pure_bind]
    exact alg_eq rfl rfl rfl
  · rw [if_neg (fun e => h (by rw [← h2, e, h1])), if_neg h, pure_bind]
    refine alg_eq ?_ ?_ (by omega)
    · u64
    · u64

theorem reducing_agree (n : UInt64) (hw : v.localWires.length ≤ L) :
    Agree (Gates64.reducing n v) (Gates.reducing n.toNat v) := by
  by_cases hn : n.toNat ≤ L
  · left
    rw [Gates64.reducing, Gates.reducing, alg_eq (r := reducingAlpha) rfl rfl rfl,
      alg_eq (r := reducingOldAcc) rfl rfl rfl]
    have hl := hn
    rw [L] at hl
    have hr : (reducingCoeffs n).stop.toNat - (reducingCoeffs n).start.toNat = n.toNat := by
      simp only [reducingCoeffs]; u64
    refine bind_congr fun _ => bind_congr fun _ => ?_
    simp only [hr]
    have h6 : (reducingCoeffs n).start.toNat = 6 := rfl
    rw [h6, List.range'_eq_map_range, List.mapM_map]
    rw [mapM_congr' (l := List.range n.toNat) (g := fun i => idx v.localWires (6 + i) >>= fun c => pure (toQA c))]
    · refine bind_congr fun _ => ?_
      congr 1
      exact loop_eq fun i hi => wiresAccs_eq hn hi (by rw [reducingStartAccs]; u64) (by rw [L]; omega)
    · intro i hi
      have := List.mem_range.1 hi
      simp only [Function.comp_apply]
      rw [at_eq (toNat_ofNat_of (by omega))]
  · right
    constructor
    · refine .bind_all fun _ => .bind_all fun _ => ?_
      have hn' : 2 ^ 58 < n.toNat := by rw [L] at hn; omega
      have hlt := n.toNat_lt
      have h6 : (reducingCoeffs n).start.toNat = 6 := rfl
      by_cases hwrap : n.toNat + 6 < 2 ^ 64
      · have hr : (reducingCoeffs n).stop.toNat = 6 + n.toNat := by simp only [reducingCoeffs]; u64
        refine Panics.bind (Panics.mapM (x := 6 + L) ?_ ?_) _
        · rw [hr, h6, List.mem_range'_1]; omega
        · rw [at_eq (toNat_ofNat_of (by rw [L]; omega))]
          exact Panics.bind (Panics.idx (by omega)) _
      · refine .bind_all fun _ => Panics.bind (panics_loop (k := L) (by omega) ?_) _
        have h1 : (UInt64.ofNat L).toNat = L := toNat_ofNat_of (by rw [L]; omega)
        have h2 : (n - 1).toNat = n.toNat - 1 := by u64
        rw [wiresAccs, if_neg (not_ge (by omega)), if_neg (fun e => by
          have := congrArg UInt64.toNat e
          rw [h1, h2, L] at this
          omega), pure_bind]
        have hs : (reducingStartAccs n).toNat = n.toNat + 6 - 2 ^ 64 := by rw [reducingStartAccs]; u64
        rw [alg_eq (a := n.toNat + 6 - 2 ^ 64 + 2 * L) (b := n.toNat + 6 - 2 ^ 64 + 2 * L + 2) ?_ ?_ rfl]
        · exact panics_alg rfl (by omega)
        · rw [UInt64.toNat_add, hs, L]; u64
        · rw [UInt64.toNat_add, hs, L]; u64
    · exact .bind_all fun _ => .bind_all fun _ => Panics.bind (panics_range (n := n.toNat) (k := L) (by omega)
        (Panics.bind (Panics.idx (by omega)) _)) _

theorem reducingExtension_agree (n : UInt64) (hw : v.localWires.length ≤ L) :
    Agree (Gates64.reducingExtension n v) (Gates.reducingExtension n.toNat v) := by
  have key : ∀ i ≤ L, getLocalExtAlgebra v (reducingExtCoeff (UInt64.ofNat i)) =
      v.getLocalExtAlgebra ⟨6 + 2 * i, 6 + 2 * (i + 1)⟩ := by
    intro i hi
    rw [L] at hi
    refine alg_eq ?_ ?_ (by omega)
    · simp only [reducingExtCoeff]; u64
    · simp only [reducingExtCoeff]; u64
  by_cases hn : n.toNat ≤ L
  · left
    rw [Gates64.reducingExtension, Gates.reducingExtension, alg_eq (r := reducingAlpha) rfl rfl rfl,
      alg_eq (r := reducingOldAcc) rfl rfl rfl]
    have hl := hn
    rw [L] at hl
    refine bind_congr fun _ => bind_congr fun _ => ?_
    rw [loop_eq (n := n) (g := fun i => v.getLocalExtAlgebra ⟨6 + 2 * i, 6 + 2 * (i + 1)⟩)
      fun i hi => key i (by omega)]
    refine bind_congr fun _ => ?_
    congr 1
    exact loop_eq fun i hi => wiresAccs_eq hn hi (by rw [reducingExtStartAccs]; u64) (by rw [L]; omega)
  · right
    constructor
    · refine .bind_all fun _ => .bind_all fun _ => Panics.bind (panics_loop (k := L) (by omega) ?_) _
      rw [key L le_rfl]
      exact panics_alg (by omega) (by omega)
    · exact .bind_all fun _ => .bind_all fun _ => Panics.bind (panics_range (n := n.toNat) (k := L) (by omega)
        (panics_alg (by omega) (by omega))) _

/-! ## Poseidon -/

theorem poseidonMds_eq : Gates64.poseidonMds v = Gates.poseidonMds v := by
  rw [Gates64.poseidonMds, Gates.poseidonMds]
  rw [tabM_congr' (n := 12) (f := fun i => mdsInput (UInt64.ofNat i) >>= getLocalExtAlgebra v)
    (g := fun i => v.getLocalExtAlgebra ⟨i * 2, (i + 1) * 2⟩)]
  · refine bind_congr fun _ => bind_congr fun co => ?_
    rw [tabM_congr' (n := 12)]
    intro i
    have := i.2
    rw [mdsOutput, if_neg (not_ge (n := 12) (by simp)), pure_bind, alg_eq ?_ ?_ ?_]
    · u64
    · u64
    · omega
  · intro i
    have := i.2
    rw [mdsInput, if_neg (not_ge (n := 12) (by simp)), pure_bind, alg_eq ?_ ?_ ?_]
    · u64
    · u64
    · omega

end Gates64

end Verif
