import Verif.Model.Challenger
import Verif.Model.Fri

/-!
# Absence of panics during circuit generation

`NoPanic c`: whatever the values of the variables (constraints not assumed), generation does not panic.
-/

set_option autoImplicit false

namespace Verif

open Circ PoseidonGL

variable {α β σ : Type}

/-- Generation never panics. -/
def NoPanic (c : Circ α) : Prop := Safe c fun _ => True

namespace NoPanic

theorem of_safe {c : Circ α} {Q : α → Prop} (h : Safe c Q) : NoPanic c := h.mono fun _ _ => trivial

theorem pure (a : α) : NoPanic (Pure.pure a : Circ α) := trivial

theorem bind {c : Circ α} {f : α → Circ β} (h : NoPanic c) (hf : ∀ a, NoPanic (f a)) : NoPanic (c >>= f) := by
  rw [NoPanic, safe_bind]
  exact Safe.mono h fun a _ => hf a

theorem safe_bind' {c : Circ α} {f : α → Circ β} {Q : β → Prop} (h : NoPanic c) (hf : ∀ a, Safe (f a) Q) :
    Safe (c >>= f) Q := by
  rw [safe_bind]
  exact Safe.mono h fun a _ => hf a

theorem ite {c d : Circ α} {P : Prop} [Decidable P] (h : P → NoPanic c) (h' : ¬ P → NoPanic d) :
    NoPanic (if P then c else d) := by
  split
  · exact h ‹_›
  · exact h' ‹_›

theorem tabM {n : ℕ} {f : Fin n → Circ α} (h : ∀ i, NoPanic (f i)) : NoPanic (Circ.tabM n f) :=
  of_safe (safe_tabM h)

theorem foldlM {f : β → σ → Circ β} (l : List σ) (h : ∀ b, ∀ x ∈ l, NoPanic (f b x)) (b : β) :
    NoPanic (l.foldlM f b) := by
  induction l generalizing b with
  | nil => exact pure b
  | cons a l ih =>
    rw [List.foldlM_cons]
    exact bind (h b a (by simp)) fun b' => ih (fun b x hx => h b x (by simp [hx])) b'

theorem mapM {f : σ → Circ β} (l : List σ) (h : ∀ x ∈ l, NoPanic (f x)) : NoPanic (l.mapM f) := by
  induction l with
  | nil => rw [List.mapM_nil]; exact pure _
  | cons a l ih =>
    rw [List.mapM_cons]
    exact bind (h a (by simp)) fun _ => bind (ih fun x hx => h x (by simp [hx])) fun _ => pure _

theorem forM {f : σ → Circ Unit} (l : List σ) (h : ∀ x ∈ l, NoPanic (f x)) : NoPanic (l.forM f) := by
  induction l with
  | nil => exact pure _
  | cons a l ih =>
    rw [List.forM]
    exact bind (h a (by simp)) fun _ => ih fun x hx => h x (by simp [hx])

/-! ## Arithmetic -/

theorem newHint (n : ℕ) (h : Option (Fin n → Fr)) : NoPanic (Verif.newHint n h) := fun _ => trivial
theorem assertEq (x y : Fr) : NoPanic (Verif.assertEq x y) := trivial
theorem check (x : Fr) (n : ℕ) : NoPanic (rangeCheckerCheck x n) := trivial
theorem select (b x y : Fr) : NoPanic (Verif.select b x y) := trivial

theorem rangeCheck (x : Fr) : NoPanic (Verif.rangeCheck x) :=
  bind (newHint _ _) fun _ => bind (assertEq _ _) fun _ => bind (check _ _) fun _ => bind (check _ _) fun _ =>
    bind (select _ _ _) fun _ => assertEq _ _

theorem mulAdd (a b c : Fr) : NoPanic (Verif.mulAdd a b c) :=
  bind (newHint _ _) fun _ => bind (assertEq _ _) fun _ => bind (rangeCheck _) fun _ => bind (rangeCheck _) fun _ =>
    pure _

theorem add (a b : Fr) : NoPanic (Verif.add a b) := mulAdd _ _ _
theorem sub (a b : Fr) : NoPanic (Verif.sub a b) := mulAdd _ _ _
theorem mul (a b : Fr) : NoPanic (Verif.mul a b) := mulAdd _ _ _

theorem reduceWithMaxBits (x : Fr) (n : ℕ) : NoPanic (Verif.reduceWithMaxBits x n) :=
  bind (newHint _ _) fun _ => bind (check _ _) fun _ => bind (rangeCheck _) fun _ => bind (assertEq _ _) fun _ =>
    pure _

theorem reduce (x : Fr) : NoPanic (Verif.reduce x) := reduceWithMaxBits _ _

theorem inverse (x : Fr) : NoPanic (Verif.inverse x) :=
  bind (newHint _ _) fun _ => bind (rangeCheck _) fun _ => bind (mul _ _) fun _ => bind (select _ _ _) fun _ =>
    bind (assertEq _ _) fun _ => pure _

theorem addExt (a b : QEV) : NoPanic (Verif.addExt a b) := bind (add _ _) fun _ => bind (add _ _) fun _ => pure _
theorem subExt (a b : QEV) : NoPanic (Verif.subExt a b) := bind (sub _ _) fun _ => bind (sub _ _) fun _ => pure _
theorem reduceExt (a : QEV) : NoPanic (Verif.reduceExt a) := bind (reduce _) fun _ => bind (reduce _) fun _ => pure _
theorem mulExt (a b : QEV) : NoPanic (Verif.mulExt a b) := reduceExt _
theorem mulAddExt (a b c : QEV) : NoPanic (Verif.mulAddExt a b c) := reduceExt _
theorem subMulExt (a b c : QEV) : NoPanic (Verif.subMulExt a b c) := reduceExt _
theorem scalarMulExt (a : QEV) (b : Fr) : NoPanic (Verif.scalarMulExt a b) :=
  bind (mul _ _) fun _ => bind (mul _ _) fun _ => pure _
theorem innerProductExt (c : Fr) (a : QEV) (l : List (QEV × QEV)) : NoPanic (Verif.innerProductExt c a l) :=
  bind (foldlM _ (fun _ _ _ => bind (scalarMulExt _ _) fun _ => pure _) _) fun _ => reduceExt _
theorem inverseExt (a : QEV) : NoPanic (Verif.inverseExt a) :=
  bind (assertEq _ _) fun _ => bind (mul _ _) fun _ => bind (mulExt _ _) fun _ => bind (inverse _) fun _ =>
    bind (scalarMulExt _ _) fun _ => pure _
theorem divExt (a b : QEV) : NoPanic (Verif.divExt a b) :=
  bind (inverseExt _) fun _ => bind (mulExt _ _) fun _ => pure _
theorem expExt (a : QEV) (e : ℕ) : NoPanic (Verif.expExt a e) := by
  unfold Verif.expExt
  split
  · exact pure _
  · exact pure _
  · exact mulExt _ _
  · refine bind (foldlM _ (fun _ _ _ => ?_) _) fun _ => pure _
    exact bind (ite (fun _ => mulExt _ _) fun _ => pure _) fun _ =>
      bind (ite (fun _ => mulExt _ _) fun _ => pure _) fun _ => pure _
theorem reduceWithPowers (l : List QEV) (a : QEV) : NoPanic (Verif.reduceWithPowers l a) :=
  foldlM _ (fun _ _ _ => reduceExt _) _
theorem lookup (b : Fr) (x y : QEV) : NoPanic (Verif.lookup b x y) :=
  bind (select _ _ _) fun _ => bind (select _ _ _) fun _ => pure _
theorem lookup2 (b0 b1 : Fr) (x y z w : QEV) : NoPanic (Verif.lookup2 b0 b1 x y z w) :=
  bind (lookup _ _ _) fun _ => bind (lookup _ _ _) fun _ => lookup _ _ _

theorem assertBits (n : ℕ) (x : Fr) (l : List Fr) : NoPanic (Verif.assertBits n x l) :=
  bind (forM _ fun _ _ => trivial) fun _ => bind (assertEq _ _) fun _ => ite (fun _ => trivial) fun _ => trivial

theorem toBinary (n : ℕ) (x : Fr) : Safe (Verif.toBinary n x) fun l => l.length = n := by
  refine safe_bind' (newHint _ _) fun b => safe_bind' (assertBits _ _ _) fun _ => ?_
  rw [safe_pure, List.length_ofFn]

theorem apiLookup2 (b0 b1 i0 i1 i2 i3 : Fr) : NoPanic (Verif.apiLookup2 b0 b1 i0 i1 i2 i3) := trivial

theorem idx {l : List α} {i : ℕ} (h : i < l.length) : Safe (Verif.idx l i) fun x => x = l[i] := by
  rw [Verif.idx, List.getElem?_eq_getElem h]
  rfl

/-! ## Poseidon -/

theorem sBoxMonomial (x : Fr) : NoPanic (PoseidonGL.sBoxMonomial x) :=
  bind (reduceWithMaxBits _ _) fun _ => reduceWithMaxBits _ _

theorem poseidon (s : State) : NoPanic (PoseidonGL.poseidon s) := by
  have full : ∀ s rc, NoPanic (fullRounds PoseidonGL.sBoxMonomial s rc) := fun s rc =>
    foldlM _ (fun _ _ _ => bind (tabM fun _ => add _ _) fun _ => bind (tabM fun _ => sBoxMonomial _) fun _ =>
      tabM fun _ => reduce _) _
  refine bind (full _ _) fun s => bind ?_ fun s => full _ _
  refine bind (tabM fun _ => add _ _) fun s => bind (tabM fun _ => reduce _) fun s => ?_
  exact foldlM _ (fun _ _ _ => bind (sBoxMonomial _) fun _ => bind (add _ _) fun _ =>
    bind (reduce _) fun _ => tabM fun _ => reduce _) _

theorem toVec (h : Fr) : NoPanic (PoseidonBN.toVec h) := bind (of_safe (toBinary _ _)) fun _ => pure _

end NoPanic

attribute [irreducible] NoPanic

end Verif
