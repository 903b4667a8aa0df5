import Verif.Spec.Layout

/-!
# The calls made by a generator do not depend on values

`Alike x y`: `x` and `y` have the same sizes.  `Same w c d`: `c` and `d` make the same calls and return values of the same
sizes, whatever the hint values; range checks are for 32, 144, 192 or `w` bits.
-/

set_option autoImplicit false

namespace Verif

open Circ

/-- Equality up to circuit values. -/
class Shaped (α : Type) where
  Alike : α → α → Prop
  refl : ∀ a, Alike a a

export Shaped (Alike)

variable {α β γ σ : Type} [Shaped α] [Shaped β] [Shaped γ] [Shaped σ] {w : ℕ}

instance : Shaped Fr := ⟨fun _ _ => True, fun _ => trivial⟩
instance : Shaped Unit := ⟨fun _ _ => True, fun _ => trivial⟩
instance : Shaped ℕ := ⟨Eq, fun _ => rfl⟩
instance : Shaped ℤ := ⟨Eq, fun _ => rfl⟩
instance : Shaped Fp := ⟨Eq, fun _ => rfl⟩
instance {n : ℕ} : Shaped (Fin n) := ⟨Eq, fun _ => rfl⟩
instance : Shaped Bool := ⟨Eq, fun _ => rfl⟩
instance : Shaped PolynomialInfo := ⟨Eq, fun _ => rfl⟩
instance : Shaped OracleInfo := ⟨Eq, fun _ => rfl⟩
instance : Shaped Gates.Gate := ⟨Eq, fun _ => rfl⟩
instance : Shaped (α × β) := ⟨fun x y => Alike x.1 y.1 ∧ Alike x.2 y.2, fun _ => ⟨Shaped.refl _, Shaped.refl _⟩⟩
instance {n : ℕ} : Shaped (Fin n → α) := ⟨fun x y => ∀ i, Alike (x i) (y i), fun _ _ => Shaped.refl _⟩
instance : Shaped (List α) := ⟨List.Forall₂ Alike, fun _ => List.forall₂_same.2 fun _ _ => Shaped.refl _⟩

/-- Types all of whose values are alike. -/
class Value (α : Type) [Shaped α] : Prop where
  all : ∀ a b : α, Alike a b

instance : Value Fr := ⟨fun _ _ => trivial⟩
instance : Value Unit := ⟨fun _ _ => trivial⟩
instance [Value α] [Value β] : Value (α × β) := ⟨fun _ _ => ⟨Value.all _ _, Value.all _ _⟩⟩
instance {n : ℕ} [Value α] : Value (Fin n → α) := ⟨fun _ _ _ => Value.all _ _⟩

namespace Alike

theorem length {l l' : List α} (h : Alike l l') : l.length = l'.length := List.Forall₂.length_eq h

theorem of_length [Value α] {l l' : List α} (h : l.length = l'.length) : Alike l l' := by
  induction l generalizing l' with
  | nil => rw [List.eq_nil_of_length_eq_zero h.symm]; exact .nil
  | cons a l ih =>
    cases l' with
    | nil => simp at h
    | cons a' l' => exact .cons (Value.all _ _) (ih (by simpa using h))

theorem append {l l' m m' : List α} (h : Alike l l') (h' : Alike m m') : Alike (l ++ m) (l' ++ m') :=
  List.rel_append h h'

theorem cons {a a' : α} {l l' : List α} (h : Alike a a') (h' : Alike l l') : Alike (a :: l) (a' :: l') := .cons h h'

theorem nil : Alike ([] : List α) [] := .nil

theorem prod {a a' : α} {b b' : β} (h : Alike a a') (h' : Alike b b') : Alike (a, b) (a', b') := ⟨h, h'⟩

theorem reverse {l l' : List α} (h : Alike l l') : Alike l.reverse l'.reverse := List.rel_reverse h

theorem take {l l' : List α} (n : ℕ) (h : Alike l l') : Alike (l.take n) (l'.take n) := List.forall₂_take n h

theorem drop {l l' : List α} (n : ℕ) (h : Alike l l') : Alike (l.drop n) (l'.drop n) := List.forall₂_drop n h

theorem map {l l' : List α} {f g : α → β} (h : Alike l l') (hf : ∀ a b, Alike a b → Alike (f a) (g b)) :
    Alike (l.map f) (l'.map g) := List.rel_map (fun {_ _} h => hf _ _ h) h

theorem flatten {l l' : List (List α)} (h : Alike l l') : Alike l.flatten l'.flatten := by
  induction h with
  | nil => exact .nil
  | cons h _ ih => exact append h ih

theorem flatMap {l l' : List α} {f g : α → List β} (h : Alike l l') (hf : ∀ a b, Alike a b → Alike (f a) (g b)) :
    Alike (l.flatMap f) (l'.flatMap g) := by
  rw [List.flatMap_def, List.flatMap_def]
  exact flatten (map h hf)

theorem zip {l l' : List α} {m m' : List β} (h : Alike l l') (h' : Alike m m') : Alike (l.zip m) (l'.zip m') := by
  induction h generalizing m m' with
  | nil => exact .nil
  | cons h _ ih =>
    cases h' with
    | nil => exact .nil
    | cons h' t => exact .cons ⟨h, h'⟩ (ih t)

theorem zipIdx {l l' : List α} (h : Alike l l') (n : ℕ) : Alike (l.zipIdx n) (l'.zipIdx n) := by
  induction h generalizing n with
  | nil => exact .nil
  | cons h _ ih => exact .cons ⟨h, rfl⟩ (ih _)

theorem get? {l l' : List α} (h : Alike l l') (i : ℕ) :
    (l[i]? = none ∧ l'[i]? = none) ∨ ∃ a a', l[i]? = some a ∧ l'[i]? = some a' ∧ Alike a a' := by
  induction h generalizing i with
  | nil => simp
  | cons h _ ih =>
    cases i with
    | zero => exact .inr ⟨_, _, rfl, rfl, h⟩
    | succ i => simpa using ih i

theorem ofFn {n : ℕ} {f g : Fin n → α} (h : Alike f g) : Alike (List.ofFn f) (List.ofFn g) := by
  induction n with
  | zero => simpa using nil
  | succ n ih => rw [List.ofFn_succ, List.ofFn_succ]; exact cons (h 0) (ih fun i => h i.succ)

end Alike

/-- Same calls, results alike. -/
def Same (w : ℕ) : Circ α → Circ α → Prop
  | .ret a, .ret b => Alike a b
  | .hint n _ k, .hint m _ k' => n = m ∧ ∀ v v', Same w (k v) (k' v')
  | .require _ k, .require _ k' => Same w k k'
  | .check _ n k, .check _ m k' => n = m ∧ (n = 32 ∨ n = 144 ∨ n = 192 ∨ n = w) ∧ Same w k k'
  | .panic _, .panic _ => True
  | _, _ => False

namespace Same

theorem pure {a b : α} (h : Alike a b) : Same w (Pure.pure a : Circ α) (Pure.pure b) := h

theorem value [Value α] {a b : α} : Same w (Pure.pure a : Circ α) (Pure.pure b) := Value.all a b

theorem bind {c d : Circ α} {f g : α → Circ β} (h : Same w c d) (hf : ∀ a b, Alike a b → Same w (f a) (g b)) :
    Same w (c >>= f) (d >>= g) := by
  rw [bind_eq, bind_eq]
  induction c generalizing d with
  | ret a => cases d <;> first | exact hf _ _ h | exact h.elim
  | hint n x k ih => cases d <;> first | exact ⟨h.1, fun v v' => ih v (h.2 v v')⟩ | exact h.elim
  | require b k ih => cases d <;> first | exact ih h | exact h.elim
  | check v n k ih => cases d <;> first | exact ⟨h.1, h.2.1, ih h.2.2⟩ | exact h.elim
  | panic m => cases d <;> first | exact h.elim | trivial

theorem goPanic {m m' : String} : Same w (Verif.goPanic m : Circ α) (Verif.goPanic m') := trivial

theorem ite {c c' d d' : Circ α} {P Q : Prop} [Decidable P] [Decidable Q] (hP : P ↔ Q) (h : P → Same w c c')
    (h' : ¬ P → Same w d d') : Same w (if P then c else d) (if Q then c' else d') := by
  by_cases p : P
  · rw [if_pos p, if_pos (hP.1 p)]; exact h p
  · rw [if_neg p, if_neg fun q => p (hP.2 q)]; exact h' p

theorem mapM {f g : σ → Circ β} {l l' : List σ} (h : Alike l l') (hf : ∀ a b, Alike a b → Same w (f a) (g b)) :
    Same w (l.mapM f) (l'.mapM g) := by
  induction h with
  | nil => rw [List.mapM_nil, List.mapM_nil]; exact pure .nil
  | cons h _ ih =>
    rw [List.mapM_cons, List.mapM_cons]
    exact bind (hf _ _ h) fun _ _ h => bind ih fun _ _ h' => pure (.cons h h')

theorem forM {f g : σ → Circ Unit} {l l' : List σ} (h : Alike l l') (hf : ∀ a b, Alike a b → Same w (f a) (g b)) :
    Same w (l.forM f) (l'.forM g) := by
  induction h with
  | nil => exact value
  | cons h _ ih =>
    rw [List.forM, List.forM]
    exact bind (hf _ _ h) fun _ _ _ => ih

theorem foldlM {f g : β → σ → Circ β} {l l' : List σ} {b b' : β} (h : Alike l l')
    (hf : ∀ a a' x x', Alike a a' → Alike x x' → Same w (f a x) (g a' x')) (hb : Alike b b') :
    Same w (l.foldlM f b) (l'.foldlM g b') := by
  induction h generalizing b b' with
  | nil => exact pure hb
  | cons h _ ih =>
    rw [List.foldlM_cons, List.foldlM_cons]
    exact bind (hf _ _ _ _ hb h) fun _ _ h => ih h

theorem tabM {n : ℕ} {f g : Fin n → Circ α} (h : ∀ i, Same w (f i) (g i)) : Same w (Circ.tabM n f) (Circ.tabM n g) := by
  induction n with
  | zero => simp only [Circ.tabM]; exact pure fun i => i.elim0
  | succ n ih =>
    simp only [Circ.tabM]
    refine bind (ih fun i => h _) fun a b h1 => bind (h _) fun _ _ h2 => pure fun i => ?_
    refine Fin.lastCases ?_ (fun i => ?_) i
    · rw [Fin.snoc_last, Fin.snoc_last]; exact h2
    · rw [Fin.snoc_castSucc, Fin.snoc_castSucc]; exact h1 i

theorem orPanic {m m' : String} {a b : Option α} (h : Option.Rel Alike a b) :
    Same w (Verif.orPanic m a) (Verif.orPanic m' b) := by
  cases h with
  | some h => exact pure h
  | none => exact goPanic

theorem orPanic' {m m' : String} {a : Option α} : Same w (Verif.orPanic m a) (Verif.orPanic m' a) := by
  cases a with
  | some a => exact pure (Shaped.refl a)
  | none => exact goPanic

theorem idx {l l' : List α} (h : Alike l l') (i : ℕ) : Same w (Verif.idx l i) (Verif.idx l' i) := by
  rw [Verif.idx, Verif.idx]
  rcases Alike.get? h i with ⟨e, e'⟩ | ⟨a, a', e, e', h⟩
  · rw [e, e']; exact goPanic
  · rw [e, e']; exact pure h

theorem sliceFrom {l l' : List α} (h : Alike l l') (n : ℕ) : Same w (Fri.sliceFrom l n) (Fri.sliceFrom l' n) := by
  rw [Fri.sliceFrom, Fri.sliceFrom]
  exact ite (by rw [Alike.length h]) (fun _ => pure (Alike.drop n h)) fun _ => goPanic

theorem sliceTo {l l' : List α} (h : Alike l l') (n : ℕ) : Same w (Fri.sliceTo l n) (Fri.sliceTo l' n) := by
  rw [Fri.sliceTo, Fri.sliceTo]
  exact ite (by rw [Alike.length h]) (fun _ => pure (Alike.take n h)) fun _ => goPanic

theorem slice {l l' : List α} (h : Alike l l') (a b : ℕ) : Same w (Gates.slice l a b) (Gates.slice l' a b) := by
  rw [Gates.slice, Gates.slice]
  exact ite (by rw [Alike.length h]) (fun _ => pure (Alike.drop _ (Alike.take _ h))) fun _ => goPanic

/-! ## Arithmetic -/

theorem newHint {n : ℕ} {h h' : Option (Fin n → Fr)} : Same w (Verif.newHint n h) (Verif.newHint n h') :=
  ⟨rfl, fun _ _ => Value.all _ _⟩
theorem assertEq {x y x' y' : Fr} : Same w (Verif.assertEq x y) (Verif.assertEq x' y') := trivial
theorem glAssertIsEqual {x y x' y' : Fr} : Same w (Verif.glAssertIsEqual x y) (Verif.glAssertIsEqual x' y') := trivial
theorem select {b x y b' x' y' : Fr} : Same w (Verif.select b x y) (Verif.select b' x' y') := trivial
theorem assertBool {b b' : Fr} : Same w (Verif.assertBool b) (Verif.assertBool b') := trivial
theorem apiLookup2 {b0 b1 i0 i1 i2 i3 b0' b1' i0' i1' i2' i3' : Fr} :
    Same w (Verif.apiLookup2 b0 b1 i0 i1 i2 i3) (Verif.apiLookup2 b0' b1' i0' i1' i2' i3') := trivial
theorem check {x x' : Fr} {n : ℕ} (h : n = 32 ∨ n = 144 ∨ n = 192 ∨ n = w) :
    Same w (rangeCheckerCheck x n) (rangeCheckerCheck x' n) := ⟨rfl, h, trivial⟩

end Same

/-- One step of the proof that two programs make the same calls. -/
syntax "same_step" : tactic

macro_rules | `(tactic| same_step) => `(tactic| with_reducible first
  | apply Same.newHint | apply Same.assertEq | apply Same.glAssertIsEqual | apply Same.select | apply Same.assertBool
  | apply Same.apiLookup2 | apply Same.goPanic | apply Same.orPanic' | apply Same.value)

/-- Solves goals in which only circuit values differ. -/
macro "same" : tactic => `(tactic| repeat' first
  | intro _
  | assumption
  | same_step
  | with_reducible apply Same.bind
  | with_reducible apply Same.tabM
  | with_reducible apply Same.mapM
  | with_reducible apply Same.forM
  | with_reducible apply Same.foldlM
  | with_reducible exact Shaped.refl _
  | with_reducible exact Value.all _ _)

namespace Same

theorem rangeCheck {x x' : Fr} : Same w (Verif.rangeCheck x) (Verif.rangeCheck x') := by
  rw [Verif.rangeCheck, Verif.rangeCheck]
  have h {x x' : Fr} : Same w (rangeCheckerCheck x 32) (rangeCheckerCheck x' 32) := check (.inl rfl)
  same <;> exact h

macro_rules | `(tactic| same_step) => `(tactic| with_reducible apply Same.rangeCheck)

theorem mulAdd {a b c a' b' c' : Fr} : Same w (Verif.mulAdd a b c) (Verif.mulAdd a' b' c') := by
  rw [Verif.mulAdd, Verif.mulAdd]
  same

theorem add {a b a' b' : Fr} : Same w (Verif.add a b) (Verif.add a' b') := mulAdd
theorem sub {a b a' b' : Fr} : Same w (Verif.sub a b) (Verif.sub a' b') := mulAdd
theorem mul {a b a' b' : Fr} : Same w (Verif.mul a b) (Verif.mul a' b') := mulAdd

theorem reduceWithMaxBits {x x' : Fr} {n : ℕ} (h : n = 32 ∨ n = 144 ∨ n = 192 ∨ n = w) :
    Same w (Verif.reduceWithMaxBits x n) (Verif.reduceWithMaxBits x' n) := by
  rw [Verif.reduceWithMaxBits, Verif.reduceWithMaxBits]
  have h {x x' : Fr} : Same w (rangeCheckerCheck x n) (rangeCheckerCheck x' n) := check h
  same
  exact h

theorem reduce {x x' : Fr} : Same w (Verif.reduce x) (Verif.reduce x') := reduceWithMaxBits (.inr (.inl rfl))

theorem sBoxMonomial {x x' : Fr} : Same w (PoseidonGL.sBoxMonomial x) (PoseidonGL.sBoxMonomial x') := by
  have h {x x' : Fr} : Same w (Verif.reduceWithMaxBits x 192) (Verif.reduceWithMaxBits x' 192) :=
    reduceWithMaxBits (.inr (.inr (.inl rfl)))
  rw [PoseidonGL.sBoxMonomial, PoseidonGL.sBoxMonomial]
  exact bind h fun _ _ _ => h

macro_rules | `(tactic| same_step) => `(tactic| with_reducible first
  | apply Same.add | apply Same.sub | apply Same.mul | apply Same.mulAdd | apply Same.reduce | apply Same.sBoxMonomial)

theorem inverse {x x' : Fr} : Same w (Verif.inverse x) (Verif.inverse x') := by
  rw [Verif.inverse, Verif.inverse]
  same

theorem addExt {a b a' b' : QEV} : Same w (Verif.addExt a b) (Verif.addExt a' b') := by
  rw [Verif.addExt, Verif.addExt]; same
theorem subExt {a b a' b' : QEV} : Same w (Verif.subExt a b) (Verif.subExt a' b') := by
  rw [Verif.subExt, Verif.subExt]; same
theorem reduceExt {a a' : QEV} : Same w (Verif.reduceExt a) (Verif.reduceExt a') := by
  rw [Verif.reduceExt, Verif.reduceExt]; same
theorem mulExt {a b a' b' : QEV} : Same w (Verif.mulExt a b) (Verif.mulExt a' b') := reduceExt
theorem mulAddExt {a b c a' b' c' : QEV} : Same w (Verif.mulAddExt a b c) (Verif.mulAddExt a' b' c') := reduceExt
theorem subMulExt {a b c a' b' c' : QEV} : Same w (Verif.subMulExt a b c) (Verif.subMulExt a' b' c') := reduceExt
theorem scalarMulExt {a a' : QEV} {b b' : Fr} : Same w (Verif.scalarMulExt a b) (Verif.scalarMulExt a' b') := by
  rw [Verif.scalarMulExt, Verif.scalarMulExt]; same

macro_rules | `(tactic| same_step) => `(tactic| with_reducible first
  | apply Same.inverse | apply Same.addExt | apply Same.subExt | apply Same.reduceExt | apply Same.mulExt
  | apply Same.mulAddExt | apply Same.subMulExt | apply Same.scalarMulExt)

theorem innerProductExt {c c' : Fr} {a a' : QEV} {l l' : List (QEV × QEV)} (h : l.length = l'.length) :
    Same w (Verif.innerProductExt c a l) (Verif.innerProductExt c' a' l') := by
  have h : Alike l l' := Alike.of_length h
  rw [Verif.innerProductExt, Verif.innerProductExt]; same
theorem inverseExt {a a' : QEV} : Same w (Verif.inverseExt a) (Verif.inverseExt a') := by
  rw [Verif.inverseExt, Verif.inverseExt]; same

macro_rules | `(tactic| same_step) => `(tactic| with_reducible apply Same.inverseExt)

theorem divExt {a b a' b' : QEV} : Same w (Verif.divExt a b) (Verif.divExt a' b') := by
  rw [Verif.divExt, Verif.divExt]; same

theorem expExt {a a' : QEV} {e : ℕ} : Same w (Verif.expExt a e) (Verif.expExt a' e) := by
  unfold Verif.expExt
  split
  · same
  · same
  · same
  · refine bind (foldlM (Shaped.refl _) (fun _ _ _ i _ h => ?_) (Value.all _ _)) fun _ _ _ => value
    cases h
    refine bind (ite Iff.rfl (fun _ => mulExt) fun _ => value) fun _ _ _ => bind (ite Iff.rfl (fun _ => mulExt) fun _ =>
      value) fun _ _ _ => value

theorem reduceWithPowers {l l' : List QEV} {a a' : QEV} (h : Alike l l') :
    Same w (Verif.reduceWithPowers l a) (Verif.reduceWithPowers l' a') := by
  have h := Alike.reverse h
  rw [Verif.reduceWithPowers, Verif.reduceWithPowers]; same

theorem lookup {b b' : Fr} {x y x' y' : QEV} : Same w (Verif.lookup b x y) (Verif.lookup b' x' y') := by
  rw [Verif.lookup, Verif.lookup]; same

macro_rules | `(tactic| same_step) => `(tactic| with_reducible first
  | apply Same.divExt | apply Same.expExt | apply Same.lookup | apply Same.reduceWithPowers)

theorem lookup2 {b0 b1 b0' b1' : Fr} {x y z u x' y' z' u' : QEV} :
    Same w (Verif.lookup2 b0 b1 x y z u) (Verif.lookup2 b0' b1' x' y' z' u') := by
  rw [Verif.lookup2, Verif.lookup2]; same

theorem assertIsEqualExt {a b a' b' : QEV} : Same w (Verif.assertIsEqualExt a b) (Verif.assertIsEqualExt a' b') := by
  rw [Verif.assertIsEqualExt, Verif.assertIsEqualExt]; same

theorem rangeCheckQE {a a' : QEV} : Same w (Verif.rangeCheckQE a) (Verif.rangeCheckQE a') := by
  rw [Verif.rangeCheckQE, Verif.rangeCheckQE]; same

theorem toBinary {n : ℕ} {x x' : Fr} : Same w (Verif.toBinary n x) (Verif.toBinary n x') := by
  rw [Verif.toBinary, Verif.toBinary]
  refine bind newHint fun v v' h => bind (bind (forM (Alike.ofFn h) fun _ _ _ => assertBool) fun _ _ _ =>
    bind assertEq fun _ _ _ => ite Iff.rfl (fun _ => trivial) fun _ => value) fun _ _ _ => pure (Alike.ofFn h)

macro_rules | `(tactic| same_step) => `(tactic| with_reducible first
  | apply Same.lookup2 | apply Same.assertIsEqualExt | apply Same.rangeCheckQE | apply Same.toBinary)

theorem toVec {x x' : Fr} : Same w (PoseidonBN.toVec x) (PoseidonBN.toVec x') := by
  rw [PoseidonBN.toVec, PoseidonBN.toVec]
  exact bind toBinary fun _ _ _ => pure (Alike.of_length (by simp))

/-! ## Poseidon -/

section
open PoseidonGL

theorem poseidonGL {s s' : State} : Same w (PoseidonGL.poseidon s) (PoseidonGL.poseidon s') := by
  have full : ∀ s s' rc, Same w (fullRounds PoseidonGL.sBoxMonomial s rc) (fullRounds PoseidonGL.sBoxMonomial s' rc) := by
    intro s s' rc
    rw [fullRounds, fullRounds]
    refine foldlM (Shaped.refl _) (fun _ _ _ _ _ h => ?_) (Value.all _ _)
    cases h
    rw [constantLayer, constantLayer]
    simp only [sBoxLayer, mdsLayer, mdsRowShf]
    same
  rw [PoseidonGL.poseidon, PoseidonGL.poseidon, poseidonWith, poseidonWith]
  refine bind (full _ _ _) fun s s' _ => bind ?_ fun s s' _ => full _ _ _
  rw [PoseidonGL.partialRounds, PoseidonGL.partialRounds]
  simp only [partialFirstConstantLayer, mdsPartialLayerInit, mdsPartialLayerFast]
  same

variable {perm : State → Circ State} (hp : ∀ s s', Same w (perm s) (perm s'))

include hp in
theorem absorbLoop {s s' : State} {l l' : List Fr} (h : l.length = l'.length) :
    Same w (PoseidonGL.absorbLoop perm s l) (PoseidonGL.absorbLoop perm s' l') := by
  generalize hn : l.length = n
  induction n using Nat.strong_induction_on generalizing s s' l l' with
  | _ n ih =>
    cases l with
    | nil =>
      rw [List.eq_nil_of_length_eq_zero h.symm, PoseidonGL.absorbLoop, PoseidonGL.absorbLoop]
      exact value
    | cons a l =>
      cases l' with
      | nil => simp at h
      | cons a' l' =>
        rw [PoseidonGL.absorbLoop, PoseidonGL.absorbLoop]
        refine bind (hp _ _) fun _ _ _ => ih (n - 8) ?_ ?_ ?_
        · simp at hn; omega
        · simp only [List.length_cons, List.length_drop] at h ⊢; omega
        · simp [SPONGE_RATE] at hn ⊢; omega

include hp in
theorem squeezeLoop {s s' : State} {n : ℕ} :
    Same w (PoseidonGL.squeezeLoop perm s n) (PoseidonGL.squeezeLoop perm s' n) := by
  induction n using Nat.strong_induction_on generalizing s s' with
  | _ n ih =>
    rw [PoseidonGL.squeezeLoop, PoseidonGL.squeezeLoop]
    split
    · exact pure (Alike.of_length (by simp))
    · next h =>
      simp only [SPONGE_RATE] at h
      exact bind (hp _ _) fun _ _ _ => bind (ih _ (by simp [SPONGE_RATE]; omega)) fun _ _ h =>
        pure (Alike.append (Alike.of_length (by simp)) h)

include hp in
theorem hashNoPad {l l' : List Fr} (h : Alike l l') :
    Same w (PoseidonGL.hashNoPadWith perm l) (PoseidonGL.hashNoPadWith perm l') := by
  rw [PoseidonGL.hashNoPadWith, PoseidonGL.hashNoPadWith]
  refine bind (mapM h fun _ _ _ => reduce) fun _ _ h => bind ?_ fun _ _ _ => value
  rw [PoseidonGL.hashNToMNoPadWith, PoseidonGL.hashNToMNoPadWith, if_neg (by norm_num), if_neg (by norm_num)]
  exact bind (absorbLoop hp h.length_eq) fun _ _ _ => squeezeLoop hp

end

end Same

end Verif
