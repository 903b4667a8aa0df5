import Verif.Circ

/-!
# Assertions without decidability instances
-/

set_option autoImplicit false

namespace Verif

open Circ

namespace Den

variable {α β σ : Type}

open Classical in
/-- Assertion of `P` (classically decided). -/
noncomputable def assert (P : Prop) : Den Unit := guard P

theorem assert_true {P : Prop} (h : P) : assert P = pure () := @guard_true P (Classical.propDecidable P) h
theorem assert_false {P : Prop} (h : ¬ P) : assert P = fail := @guard_false P (Classical.propDecidable P) h

theorem guard_eq_assert (P : Prop) [Decidable P] : guard P = assert P := by
  by_cases h : P
  · rw [guard_true h, assert_true h]
  · rw [guard_false h, assert_false h]

theorem assert_congr {P Q : Prop} (h : P ↔ Q) : assert P = assert Q := by rw [propext h]

theorem assert_bind_assert (P Q : Prop) : (assert P >>= fun _ => assert Q) = assert (P ∧ Q) := by
  classical
  rw [assert, assert, guard_bind_guard, guard_eq_assert]

theorem assert_bind_assert_bind (P Q : Prop) (f : Unit → Den α) :
    (assert P >>= fun _ => assert Q >>= f) = assert (P ∧ Q) >>= f := by
  rw [← assert_bind_assert, bind_assoc]

theorem assert_bind_congr {P Q : Prop} {f g : Unit → Den α} (h : P ↔ Q) (hf : P → f () = g ()) :
    (assert P >>= f) = (assert Q >>= g) := by
  by_cases hp : P
  · rw [assert_true hp, assert_true (h.1 hp), pure_bind, pure_bind, hf hp]
  · rw [assert_false hp, assert_false fun hq => hp (h.2 hq), fail_bind, fail_bind]

theorem bind_fail (d : Den α) : (d >>= fun _ => (fail : Den β)) = fail := by
  ext y <;> simp [bind_def, fail]

theorem forM_assert {f : σ → Den Unit} {P : σ → Prop} {l : List σ} (h : ∀ x ∈ l, f x = assert (P x)) :
    l.forM f = assert (∀ x ∈ l, P x) := by
  induction l with
  | nil => rw [assert_true (by simp), List.forM]
  | cons a l ih =>
    rw [List.forM, h a (by simp), ih (fun x hx => h x (by simp [hx])), assert_bind_assert]
    exact assert_congr (by simp)

end Den

theorem Circ.den_eq_assert_iff (c : Circ Unit) (P : Prop) : den c = Den.assert P ↔ Enforces c P := by
  classical
  rw [Den.assert, den_eq_guard_iff]

@[simp] theorem Circ.den_forM {σ : Type} (f : σ → Circ Unit) (l : List σ) :
    den (l.forM f) = l.forM fun x => den (f x) := by
  induction l with
  | nil => exact den_pure ()
  | cons a l ih => rw [List.forM, List.forM, den_bind, ih]

end Verif
