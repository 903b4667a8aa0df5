import Verif.Spec.Cost
import Verif.Proofs.Panics
import Mathlib.Tactic.Abel

/-!
# Counting the calls of a generator: framework and arithmetic

`Costs c k Q`: every run of `c` without panic makes the calls `k` and returns a value satisfying `Q`.
-/

set_option autoImplicit false

namespace Verif

open Circ Spec.Layout Spec.Cost

variable {α β σ : Type}

/-- Calls of all runs without panic. -/
def Costs : Circ α → Tally → (α → Prop) → Prop
  | .ret a, k, Q => k = 0 ∧ Q a
  | .hint n _ f, k, Q => ∃ k', k = item (.hint n) + k' ∧ ∀ v, Costs (f v) k' Q
  | .require _ c, k, Q => ∃ k', k = item .constraint + k' ∧ Costs c k' Q
  | .check _ n c, k, Q => ∃ k', k = item (.check n) + k' ∧ Costs c k' Q
  | .panic _, _, _ => True

/-- No condition on the result. -/
abbrev Any : α → Prop := fun _ => True

namespace Costs

/-- The calls of a run. -/
theorem tally {c : Circ α} {k : Tally} {Q : α → Prop} (h : Costs c k Q) {l : List Item} (hl : Emits c l)
    (hn : Item.panic ∉ l) : Spec.Cost.tally l = k := by
  induction c generalizing k l with
  | ret a => cases hl; exact h.1.symm
  | hint n x f ih =>
    obtain ⟨v, l, rfl, hl⟩ := hl
    obtain ⟨k, rfl, h⟩ := h
    rw [← ih v (h v) hl (by simpa using hn)]; rfl
  | require b c ih =>
    obtain ⟨l, rfl, hl⟩ := hl
    obtain ⟨k, rfl, h⟩ := h
    rw [← ih h hl (by simpa using hn)]; rfl
  | check v n c ih =>
    obtain ⟨l, rfl, hl⟩ := hl
    obtain ⟨k, rfl, h⟩ := h
    rw [← ih h hl (by simpa using hn)]; rfl
  | panic m => cases hl; simp at hn

theorem congr {c : Circ α} {k k' : Tally} {Q : α → Prop} (h : Costs c k Q) (e : k = k') : Costs c k' Q := e ▸ h

theorem mono {c : Circ α} {k : Tally} {Q Q' : α → Prop} (h : Costs c k Q) (hq : ∀ a, Q a → Q' a) : Costs c k Q' := by
  induction c generalizing k with
  | ret a => exact ⟨h.1, hq a h.2⟩
  | hint n x f ih => obtain ⟨k, e, h⟩ := h; exact ⟨k, e, fun v => ih v (h v)⟩
  | require b c ih => obtain ⟨k, e, h⟩ := h; exact ⟨k, e, ih h⟩
  | check v n c ih => obtain ⟨k, e, h⟩ := h; exact ⟨k, e, ih h⟩
  | panic m => trivial

theorem any {c : Circ α} {k : Tally} {Q : α → Prop} (h : Costs c k Q) : Costs c k Any := h.mono fun _ _ => trivial

/-- What is known of the results can be used. -/
theorem post {c : Circ α} {k : Tally} {Q R : α → Prop} (h : Costs c k Q) (hp : Post R c) :
    Costs c k fun a => Q a ∧ R a := by
  induction c generalizing k with
  | ret a => exact ⟨h.1, h.2, hp⟩
  | hint n x f ih => obtain ⟨k, e, h⟩ := h; exact ⟨k, e, fun v => ih v (h v) (hp v)⟩
  | require b c ih => obtain ⟨k, e, h⟩ := h; exact ⟨k, e, ih h hp⟩
  | check v n c ih => obtain ⟨k, e, h⟩ := h; exact ⟨k, e, ih h hp⟩
  | panic m => trivial

theorem pure {a : α} {Q : α → Prop} (h : Q a) : Costs (Pure.pure a : Circ α) 0 Q := ⟨rfl, h⟩

theorem value {a : α} : Costs (Pure.pure a : Circ α) 0 Any := ⟨rfl, trivial⟩

theorem bind {c : Circ α} {f : α → Circ β} {k k' : Tally} {P : α → Prop} {Q : β → Prop} (h : Costs c k P)
    (hf : ∀ a, P a → Costs (f a) k' Q) : Costs (c >>= f) (k + k') Q := by
  rw [bind_eq]
  induction c generalizing k with
  | ret a => obtain ⟨rfl, h⟩ := h; rw [zero_add]; exact hf a h
  | hint n x g ih => obtain ⟨k, rfl, h⟩ := h; exact ⟨k + k', add_assoc _ _ _, fun v => ih v (h v)⟩
  | require b c ih => obtain ⟨k, rfl, h⟩ := h; exact ⟨k + k', add_assoc _ _ _, ih h⟩
  | check v n c ih => obtain ⟨k, rfl, h⟩ := h; exact ⟨k + k', add_assoc _ _ _, ih h⟩
  | panic m => trivial

theorem goPanic {m : String} {k : Tally} {Q : α → Prop} : Costs (Verif.goPanic m : Circ α) k Q := trivial

/-- A test that panics. -/
theorem ite_panic {P : Prop} [Decidable P] {m : String} {c : Circ α} {k : Tally} {Q : α → Prop} (h : ¬ P → Costs c k Q) :
    Costs (if P then Verif.goPanic m else c) k Q := by
  split
  · trivial
  · exact h ‹_›

theorem ite {P : Prop} [Decidable P] {c d : Circ α} {k k' : Tally} {Q : α → Prop} (h : P → Costs c k Q)
    (h' : ¬ P → Costs d k' Q) : Costs (if P then c else d) (if P then k else k') Q := by
  split
  · exact h ‹_›
  · exact h' ‹_›

/-! ## Loops -/

/-- A loop with an invariant depending on the position. -/
theorem foldlM_pos {f : β → σ → Circ β} {l : List σ} {kf : ℕ → Tally} (I : ℕ → β → Prop)
    (h : ∀ i s x, l[i]? = some x → I i s → Costs (f s x) (kf i) (I (i + 1))) {b : β} (hb : I 0 b) :
    Costs (l.foldlM f b) (((List.range l.length).map kf).sum) (I l.length) := by
  induction l generalizing b kf I with
  | nil => exact ⟨rfl, hb⟩
  | cons x l ih =>
    rw [List.foldlM_cons, List.length_cons, List.range_succ_eq_map, List.map_cons, List.sum_cons, List.map_map]
    exact (h 0 b x rfl hb).bind fun a ha => ih (fun i => I (i + 1)) (fun i s x hx hi => h (i + 1) s x (by simpa using hx) hi) ha

/-- A loop whose steps have different costs. -/
theorem foldlM_sum {f : β → σ → Circ β} {l : List σ} {kf : σ → Tally} (I : β → Prop)
    (h : ∀ s, ∀ x ∈ l, I s → Costs (f s x) (kf x) I) {b : β} (hb : I b) :
    Costs (l.foldlM f b) ((l.map kf).sum) I := by
  induction l generalizing b with
  | nil => exact ⟨rfl, hb⟩
  | cons x l ih =>
    rw [List.foldlM_cons, List.map_cons, List.sum_cons]
    exact (h b x (by simp) hb).bind fun a ha => ih (fun s x hx => h s x (by simp [hx])) ha

theorem foldlM_inv {f : β → σ → Circ β} {l : List σ} {k : Tally} (I : β → Prop)
    (h : ∀ s, ∀ x ∈ l, I s → Costs (f s x) k I) {b : β} (hb : I b) : Costs (l.foldlM f b) (l.length • k) I :=
  (foldlM_sum I h hb).congr (by simp)

theorem foldlM {f : β → σ → Circ β} {l : List σ} {k : Tally} {b : β} (h : ∀ s, ∀ x ∈ l, Costs (f s x) k Any) :
    Costs (l.foldlM f b) (l.length • k) Any := foldlM_inv _ (fun s x hx _ => h s x hx) trivial

theorem forM_sum {f : σ → Circ Unit} {l : List σ} {kf : σ → Tally} (h : ∀ x ∈ l, Costs (f x) (kf x) Any) :
    Costs (l.forM f) ((l.map kf).sum) Any := by
  induction l with
  | nil => exact ⟨rfl, trivial⟩
  | cons x l ih =>
    rw [List.forM, List.map_cons, List.sum_cons]
    exact (h x (by simp)).bind fun _ _ => ih fun x hx => h x (by simp [hx])

theorem forM {f : σ → Circ Unit} {l : List σ} {k : Tally} (h : ∀ x ∈ l, Costs (f x) k Any) :
    Costs (l.forM f) (l.length • k) Any := (forM_sum h).congr (by simp)

theorem mapM_sum {f : σ → Circ β} {l : List σ} {kf : σ → Tally} {P : β → Prop} (h : ∀ x ∈ l, Costs (f x) (kf x) P) :
    Costs (l.mapM f) ((l.map kf).sum) fun r => r.length = l.length ∧ ∀ y ∈ r, P y := by
  induction l with
  | nil => rw [List.mapM_nil]; exact pure ⟨rfl, by simp⟩
  | cons x l ih =>
    rw [List.mapM_cons, List.map_cons, List.sum_cons]
    refine (h x (by simp)).bind fun y hy => ((ih fun x hx => h x (by simp [hx])).bind fun r hr => pure ?_).congr (add_zero _)
    exact ⟨by simp [hr.1], by simpa using ⟨hy, hr.2⟩⟩

theorem mapM {f : σ → Circ β} {l : List σ} {k : Tally} {P : β → Prop} (h : ∀ x ∈ l, Costs (f x) k P) :
    Costs (l.mapM f) (l.length • k) fun r => r.length = l.length ∧ ∀ y ∈ r, P y := (mapM_sum h).congr (by simp)

theorem tabM {n : ℕ} {f : Fin n → Circ α} {k : Tally} {P : α → Prop} (h : ∀ i, Costs (f i) k P) :
    Costs (Circ.tabM n f) (n • k) fun r => ∀ i, P (r i) := by
  induction n with
  | zero => simp only [Circ.tabM]; exact (pure fun i => i.elim0).congr (zero_nsmul _).symm
  | succ n ih =>
    simp only [Circ.tabM]
    refine ((ih fun i => h _).bind fun a h1 => (h _).bind fun b h2 => pure fun i => ?_).congr (by rw [add_zero, succ_nsmul])
    refine Fin.lastCases ?_ (fun i => ?_) i
    · rw [Fin.snoc_last]; exact h2
    · rw [Fin.snoc_castSucc]; exact h1 i

/-! The same with an equation for the length, for lists returned by earlier steps. -/

theorem foldlM' {f : β → σ → Circ β} {l : List σ} {n : ℕ} {k : Tally} {b : β} (hl : l.length = n)
    (h : ∀ s, ∀ x ∈ l, Costs (f s x) k Any) : Costs (l.foldlM f b) (n • k) Any := hl ▸ foldlM h

theorem forM' {f : σ → Circ Unit} {l : List σ} {n : ℕ} {k : Tally} (hl : l.length = n)
    (h : ∀ x ∈ l, Costs (f x) k Any) : Costs (l.forM f) (n • k) Any := hl ▸ forM h

theorem mapM' {f : σ → Circ β} {l : List σ} {n : ℕ} {k : Tally} (hl : l.length = n)
    (h : ∀ x ∈ l, Costs (f x) k Any) : Costs (l.mapM f) (n • k) fun r => r.length = n :=
  hl ▸ (mapM h).mono fun _ h => h.1

theorem tabM' {n : ℕ} {f : Fin n → Circ α} {k : Tally} (h : ∀ i, Costs (f i) k Any) :
    Costs (Circ.tabM n f) (n • k) Any := (tabM h).any

/-! ## Slices -/

theorem idx {l : List α} {i : ℕ} : Costs (Verif.idx l i) 0 fun x => l[i]? = some x := by
  rw [Verif.idx]
  split
  · exact pure ‹_›
  · trivial

theorem idx' {l : List α} {i : ℕ} : Costs (Verif.idx l i) 0 Any := idx.any

theorem orPanic {m : String} {a : Option α} : Costs (Verif.orPanic m a) 0 fun x => a = some x := by
  cases a with
  | some a => exact pure rfl
  | none => trivial

theorem sliceFrom {l : List α} {n : ℕ} : Costs (Fri.sliceFrom l n) 0 fun r => r.length = l.length - n := by
  rw [Fri.sliceFrom]
  split
  · exact pure (by simp)
  · trivial

theorem sliceTo {l : List α} {n : ℕ} : Costs (Fri.sliceTo l n) 0 fun r => r.length = n := by
  rw [Fri.sliceTo]
  split
  · exact pure (by simpa using ‹_›)
  · trivial

theorem slice {l : List α} {a b : ℕ} : Costs (Gates.slice l a b) 0 fun r => r.length = b - a := by
  rw [Gates.slice]
  split
  · exact pure (by rw [List.length_drop, List.length_take, min_eq_left (by tauto)])
  · trivial

/-! ## API -/

theorem newHint {n : ℕ} {h : Option (Fin n → Fr)} : Costs (Verif.newHint n h) H Any :=
  ⟨0, rfl, fun _ => ⟨rfl, trivial⟩⟩
theorem assertEq {x y : Fr} : Costs (Verif.assertEq x y) R Any := ⟨0, rfl, rfl, trivial⟩
theorem glAssertIsEqual {x y : Fr} : Costs (Verif.glAssertIsEqual x y) R Any := ⟨0, rfl, rfl, trivial⟩
theorem select {b x y : Fr} : Costs (Verif.select b x y) R Any := ⟨0, rfl, rfl, trivial⟩
theorem assertBool {b : Fr} : Costs (Verif.assertBool b) R Any := ⟨0, rfl, rfl, trivial⟩
theorem apiLookup2 {b0 b1 i0 i1 i2 i3 : Fr} : Costs (Verif.apiLookup2 b0 b1 i0 i1 i2 i3) (2 • R) Any :=
  ⟨R, rfl, 0, rfl, rfl, trivial⟩
theorem check {x : Fr} {n : ℕ} : Costs (rangeCheckerCheck x n) (item (.check n)) Any := ⟨0, (add_zero _).symm, rfl, trivial⟩

end Costs

/-- Costs of single operations. -/
syntax "cost_step" : tactic

macro_rules | `(tactic| cost_step) => `(tactic| with_reducible first
  | apply Costs.newHint | apply Costs.assertEq | apply Costs.glAssertIsEqual | apply Costs.select | apply Costs.assertBool
  | apply Costs.apiLookup2 | apply Costs.check | apply Costs.idx | apply Costs.idx' | apply Costs.orPanic | apply Costs.value)

/-- Cost of a program. -/
macro "cost" : tactic => `(tactic| repeat' first
  | intro _
  | cost_step
  | with_reducible apply Costs.ite_panic
  | with_reducible apply Costs.bind
  | with_reducible apply Costs.tabM'
  | with_reducible apply Costs.mapM'
  | with_reducible apply Costs.forM'
  | with_reducible apply Costs.foldlM'
  | with_reducible assumption
  | with_reducible exact rfl)

namespace Costs

theorem rangeCheck {x : Fr} : Costs (Verif.rangeCheck x) Spec.Cost.rangeCheck Any := by
  apply congr
  · rw [Verif.rangeCheck]; cost
  · rfl

macro_rules | `(tactic| cost_step) => `(tactic| with_reducible apply Costs.rangeCheck)

theorem mulAdd {a b c : Fr} : Costs (Verif.mulAdd a b c) Spec.Cost.mulAdd Any := by
  apply congr
  · rw [Verif.mulAdd]; cost
  · rfl

theorem add {a b : Fr} : Costs (Verif.add a b) Spec.Cost.mulAdd Any := mulAdd
theorem sub {a b : Fr} : Costs (Verif.sub a b) Spec.Cost.mulAdd Any := mulAdd
theorem mul {a b : Fr} : Costs (Verif.mul a b) Spec.Cost.mulAdd Any := mulAdd

theorem reduceWithMaxBits {x : Fr} {n : ℕ} : Costs (Verif.reduceWithMaxBits x n) (reduceTo n) Any := by
  apply congr
  · rw [Verif.reduceWithMaxBits]; cost
  · rw [reduceTo]; abel

theorem reduce {x : Fr} : Costs (Verif.reduce x) Spec.Cost.reduce Any := reduceWithMaxBits

macro_rules | `(tactic| cost_step) => `(tactic| with_reducible first
  | apply Costs.add | apply Costs.sub | apply Costs.mul | apply Costs.mulAdd | apply Costs.reduce
  | apply Costs.reduceWithMaxBits)

theorem inverse {x : Fr} : Costs (Verif.inverse x) Spec.Cost.inverse Any := by
  apply congr
  · rw [Verif.inverse]; cost
  · rfl

theorem addExt {a b : QEV} : Costs (Verif.addExt a b) Spec.Cost.addExt Any := by
  apply congr
  · rw [Verif.addExt]; cost
  · rfl
theorem subExt {a b : QEV} : Costs (Verif.subExt a b) Spec.Cost.addExt Any := by
  apply congr
  · rw [Verif.subExt]; cost
  · rfl
theorem scalarMulExt {a : QEV} {b : Fr} : Costs (Verif.scalarMulExt a b) Spec.Cost.addExt Any := by
  apply congr
  · rw [Verif.scalarMulExt]; cost
  · rfl
theorem reduceExt {a : QEV} : Costs (Verif.reduceExt a) Spec.Cost.mulExt Any := by
  apply congr
  · rw [Verif.reduceExt]; cost
  · rfl
theorem mulExt {a b : QEV} : Costs (Verif.mulExt a b) Spec.Cost.mulExt Any := reduceExt
theorem mulAddExt {a b c : QEV} : Costs (Verif.mulAddExt a b c) Spec.Cost.mulExt Any := reduceExt
theorem subMulExt {a b c : QEV} : Costs (Verif.subMulExt a b c) Spec.Cost.mulExt Any := reduceExt

macro_rules | `(tactic| cost_step) => `(tactic| with_reducible first
  | apply Costs.inverse | apply Costs.addExt | apply Costs.subExt | apply Costs.scalarMulExt | apply Costs.reduceExt
  | apply Costs.mulExt | apply Costs.mulAddExt | apply Costs.subMulExt)

theorem inverseExt {a : QEV} : Costs (Verif.inverseExt a) Spec.Cost.inverseExt Any := by
  apply congr
  · rw [Verif.inverseExt]; cost
  · rfl

macro_rules | `(tactic| cost_step) => `(tactic| with_reducible apply Costs.inverseExt)

theorem divExt {a b : QEV} : Costs (Verif.divExt a b) Spec.Cost.divExt Any := by
  apply congr
  · rw [Verif.divExt]; cost
  · rfl

theorem innerProductExt {c : Fr} {a : QEV} {l : List (QEV × QEV)} {n : ℕ} (hl : l.length = n) :
    Costs (Verif.innerProductExt c a l) (n • Spec.Cost.addExt + Spec.Cost.mulExt) Any := by
  apply congr
  · rw [Verif.innerProductExt]; cost
  · rw [add_zero]

theorem expExt {a : QEV} {e : ℕ} : Costs (Verif.expExt a e) (Spec.Cost.expExt e) Any := by
  unfold Verif.expExt
  split
  · exact value
  · exact value
  · exact mulExt
  · rename_i h0 h1 h2
    have : Spec.Cost.expExt e = ((List.range (Nat.size e)).map fun i =>
      (if i ≠ 0 then Spec.Cost.mulExt else 0) + if e >>> i &&& 1 ≠ 0 then Spec.Cost.mulExt else 0).sum := by
      unfold Spec.Cost.expExt
      split <;> first | rfl | contradiction
    rw [this]
    refine ((foldlM_sum Any (fun s i _ _ => ?_) trivial).bind fun _ _ => value).congr (add_zero _)
    refine ((ite (fun _ => mulExt) fun _ => value).bind fun _ _ => ((ite (fun _ => mulExt) fun _ => value).bind
      fun _ _ => value).congr (add_zero _))

theorem reduceWithPowers {l : List QEV} {a : QEV} {n : ℕ} (hl : l.length = n) :
    Costs (Verif.reduceWithPowers l a) (n • Spec.Cost.mulExt) Any := by
  have hl := l.length_reverse.trans hl
  rw [Verif.reduceWithPowers]; cost

theorem lookup {b : Fr} {x y : QEV} : Costs (Verif.lookup b x y) Spec.Cost.lookup Any := by
  apply congr
  · rw [Verif.lookup]; cost
  · rfl

macro_rules | `(tactic| cost_step) => `(tactic| with_reducible first
  | apply Costs.divExt | apply Costs.innerProductExt | apply Costs.expExt | apply Costs.reduceWithPowers | apply Costs.lookup)

theorem lookup2 {b0 b1 : Fr} {a b c d : QEV} : Costs (Verif.lookup2 b0 b1 a b c d) Spec.Cost.lookup2 Any := by
  apply congr
  · rw [Verif.lookup2]; cost
  · rfl

theorem assertIsEqualExt {a b : QEV} : Costs (Verif.assertIsEqualExt a b) (2 • R) Any := by
  apply congr
  · rw [Verif.assertIsEqualExt]; cost
  · rfl

theorem rangeCheckQE {a : QEV} : Costs (Verif.rangeCheckQE a) (2 • Spec.Cost.rangeCheck) Any := by
  apply congr
  · rw [Verif.rangeCheckQE]; cost
  · rfl

theorem toBinary {n : ℕ} {x : Fr} :
    Costs (Verif.toBinary n x) (H + (n • R + (R + if 254 ≤ n then R else 0))) fun r => r.length = n := by
  rw [Verif.toBinary]
  refine newHint.bind fun b _ => (bind (P := Any) (Q := fun r : List Fr => r.length = n) ?_
    fun _ _ => pure (List.length_ofFn)).congr (add_zero _)
  rw [assertBits]
  refine ((forM fun _ _ => assertBool).congr (by simp)).bind fun _ _ => assertEq.bind fun _ _ => ?_
  exact ite (fun _ => ⟨0, rfl, rfl, trivial⟩) fun _ => value

theorem toVec {x : Fr} : Costs (PoseidonBN.toVec x) Spec.Cost.toVec fun r => r.length = 5 := by
  rw [PoseidonBN.toVec]
  exact (toBinary.bind fun b _ => pure (by simp)).congr rfl

macro_rules | `(tactic| cost_step) => `(tactic| with_reducible first
  | apply Costs.lookup2 | apply Costs.assertIsEqualExt | apply Costs.rangeCheckQE | apply Costs.toBinary)

/-! ## Extension algebra -/

theorem addAlg {a b : QAV} : Costs (Verif.addAlg a b) Spec.Cost.addAlg Any := by
  apply congr
  · rw [Verif.addAlg]; cost
  · rfl
theorem subAlg {a b : QAV} : Costs (Verif.subAlg a b) Spec.Cost.addAlg Any := by
  apply congr
  · rw [Verif.subAlg]; cost
  · rfl
theorem scalarMulAlg {a : QEV} {b : QAV} : Costs (Verif.scalarMulAlg a b) Spec.Cost.scalarMulAlg Any := by
  apply congr
  · rw [Verif.scalarMulAlg]; cost
  · rfl
theorem mulAlg {a b : QAV} : Costs (Verif.mulAlg a b) Spec.Cost.mulAlg Any := by
  apply congr
  · rw [Verif.mulAlg]; cost
  · rfl

macro_rules | `(tactic| cost_step) => `(tactic| with_reducible first
  | apply Costs.addAlg | apply Costs.subAlg | apply Costs.scalarMulAlg | apply Costs.mulAlg)

theorem partialInterpolate {d : List Fp} {v : List QAV} {w : List Fp} {x a b : QAV} {n : ℕ} (hl : d.length = n) :
    Costs (Verif.partialInterpolate d v w x a b) (n • interpolatePoint) Any := by
  rw [Verif.partialInterpolate]
  refine ite_panic fun _ => ite_panic fun h1 => ite_panic fun h2 => ?_
  apply congr
  · apply foldlM
    intro s y _
    apply congr
    · rw [partialInterpolateStep]; cost
    · exact (rfl : _ = interpolatePoint)
  · rw [List.length_zip, List.length_zip]
    congr 1
    omega

/-! ## Poseidon -/

theorem sBoxMonomial {x : Fr} : Costs (PoseidonGL.sBoxMonomial x) sBox Any := by
  apply congr
  · rw [PoseidonGL.sBoxMonomial]; cost
  · rfl

macro_rules | `(tactic| cost_step) => `(tactic| with_reducible apply Costs.sBoxMonomial)

theorem fullRounds {s : PoseidonGL.State} {rc : ℕ} :
    Costs (PoseidonGL.fullRounds PoseidonGL.sBoxMonomial s rc) (4 • fullRound) Any := by
  apply congr
  · simp only [PoseidonGL.fullRounds, PoseidonGL.constantLayer, PoseidonGL.sBoxLayer, PoseidonGL.mdsLayer,
      PoseidonGL.mdsRowShf]
    exact foldlM fun s i _ => (tabM fun _ => add).bind fun _ _ => (tabM fun _ => sBoxMonomial).bind
      fun _ _ => (tabM fun _ => reduce).any
  · rfl

theorem mdsPartialLayerFast {s : PoseidonGL.State} {r : ℕ} :
    Costs (PoseidonGL.mdsPartialLayerFast s r) (13 • Spec.Cost.reduce) Any := by
  apply congr
  · rw [PoseidonGL.mdsPartialLayerFast]
    exact reduce.bind fun _ _ => (tabM fun _ => reduce).any
  · rfl

theorem partialRounds {s : PoseidonGL.State} : Costs (PoseidonGL.partialRounds PoseidonGL.sBoxMonomial s)
    (12 • Spec.Cost.mulAdd + (12 • Spec.Cost.reduce + 22 • (sBox + (Spec.Cost.mulAdd + 13 • Spec.Cost.reduce)))) Any := by
  rw [PoseidonGL.partialRounds, PoseidonGL.partialFirstConstantLayer]
  refine (tabM fun _ => add).bind fun s _ => bind (P := Any) ?_ fun _ _ => ?_
  · rw [PoseidonGL.mdsPartialLayerInit]
    exact (tabM fun _ => reduce).any
  · exact (foldlM fun s i _ => sBoxMonomial.bind fun _ _ => add.bind fun _ _ => mdsPartialLayerFast).congr rfl

theorem poseidonGL {s : PoseidonGL.State} : Costs (PoseidonGL.poseidon s) Spec.Cost.poseidon Any := by
  rw [PoseidonGL.poseidon, PoseidonGL.poseidonWith]
  exact (fullRounds.bind fun _ _ => partialRounds.bind fun _ _ => fullRounds).congr (by decide)

end Costs

end Verif
