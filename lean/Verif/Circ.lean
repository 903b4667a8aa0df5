import Verif.Field

/-!
# Circuits as trees, and their interpretations

A Go function calling the gnark API is modelled as a value of `Circ α`.
-/

set_option autoImplicit false

namespace Verif

/-- A circuit generator returning `α`.

* `hint`: `api.Compiler().NewHint(f, n, ...)`: `n` fresh values.  `h` is what the Go hint
  function returns (`none` when it panics or returns an error); a malicious prover may use any values.
* `require`: a constraint emitted by the API, `true` iff satisfied by current values.
* `check`: a range-check request as passed to `rangeCheckerCheck` (`goldilocks/base.go:411`).
* `panic`: Go `panic` / runtime error (index out of range, ...) while generating the circuit. -/
inductive Circ (α : Type) : Type
  | ret (a : α)
  | hint (n : ℕ) (h : Option (Fin n → Fr)) (k : (Fin n → Fr) → Circ α)
  | require (b : Bool) (k : Circ α)
  | check (v : Fr) (bits : ℕ) (k : Circ α)
  | panic (msg : String)

namespace Circ

variable {α β γ : Type}

def bind : Circ α → (α → Circ β) → Circ β
  | ret a, f => f a
  | hint n h k, f => hint n h (fun v => bind (k v) f)
  | require b k, f => require b (bind k f)
  | check v n k, f => check v n (bind k f)
  | panic m, _ => panic m

instance : Monad Circ where
  pure := ret
  bind := bind

theorem pure_eq (a : α) : (pure a : Circ α) = ret a := rfl
theorem bind_eq (c : Circ α) (f : α → Circ β) : (c >>= f) = bind c f := rfl

theorem bind_ret (c : Circ α) : bind c ret = c := by
  induction c with
  | ret a => rfl
  | hint n h k ih => simp [bind, ih]
  | require b k ih => simp [bind, ih]
  | check v n k ih => simp [bind, ih]
  | panic m => rfl

theorem bind_assoc' (c : Circ α) (f : α → Circ β) (g : β → Circ γ) :
    bind (bind c f) g = bind c (fun a => bind (f a) g) := by
  induction c with
  | ret a => rfl
  | hint n h k ih => simp [bind, ih]
  | require b k ih => simp [bind, ih]
  | check v n k ih => simp [bind, ih]
  | panic m => rfl

instance : LawfulMonad Circ := LawfulMonad.mk'
  (id_map := fun c => bind_ret c)
  (pure_bind := fun _ _ => rfl)
  (bind_assoc := fun c f g => bind_assoc' c f g)

/-- Malicious prover's view: for some values of all hints every constraint and every range check
holds and `y` is returned. -/
def Sat : Circ α → α → Prop
  | ret a, y => y = a
  | hint n _ k, y => ∃ v : Fin n → Fr, Sat (k v) y
  | require b k, y => b = true ∧ Sat k y
  | check v n k, y => v.val < 2 ^ n ∧ Sat k y
  | panic _, _ => False

/-- Honest prover's view: hints are the ones computed by the Go hint functions; `none` when
anything fails. -/
def honest : Circ α → Option α
  | ret a => some a
  | hint _ h k => match h with
    | some v => honest (k v)
    | none => none
  | require b k => if b then honest k else none
  | check v n k => if v.val < 2 ^ n then honest k else none
  | panic _ => none

/-- Satisfying assignments when range checks are only *recorded* (in order). -/
def Out : Circ α → α → List (Fr × ℕ) → Prop
  | ret a, y, l => y = a ∧ l = []
  | hint n _ k, y, l => ∃ v : Fin n → Fr, Out (k v) y l
  | require b k, y, l => b = true ∧ Out k y l
  | check v n k, y, l => ∃ l', l = (v, n) :: l' ∧ Out k y l'
  | panic _, _, _ => False

/-- Compiler's view: whatever the values of the variables, generation never panics and the result
satisfies `Q` (constraints are not assumed to hold). -/
def Safe : Circ α → (α → Prop) → Prop
  | ret a, Q => Q a
  | hint n _ k, Q => ∀ v : Fin n → Fr, Safe (k v) Q
  | require _ k, Q => Safe k Q
  | check _ _ k, Q => Safe k Q
  | panic _, _ => False

/-- Compiler's view: whatever the values, generation panics. -/
def Panics : Circ α → Prop
  | ret _ => False
  | hint n _ k => ∀ v : Fin n → Fr, Panics (k v)
  | require _ k => Panics k
  | check _ _ k => Panics k
  | panic _ => True

theorem sat_pure (a y : α) : Sat (pure a : Circ α) y ↔ y = a := Iff.rfl

theorem sat_bind (c : Circ α) (f : α → Circ β) (y : β) :
    Sat (c >>= f) y ↔ ∃ a, Sat c a ∧ Sat (f a) y := by
  rw [bind_eq]
  induction c with
  | ret a => simp [bind, Sat]
  | hint n h k ih =>
    simp only [bind, Sat, ih]
    constructor
    · rintro ⟨v, a, h1, h2⟩; exact ⟨a, ⟨v, h1⟩, h2⟩
    · rintro ⟨a, ⟨v, h1⟩, h2⟩; exact ⟨v, a, h1, h2⟩
  | require b k ih => simp only [bind, Sat, ih]; constructor <;> (rintro ⟨a, b⟩; grind)
  | check v n k ih => simp only [bind, Sat, ih]; constructor <;> (rintro ⟨a, b⟩; grind)
  | panic m => simp [bind, Sat]

theorem honest_pure (a : α) : honest (pure a : Circ α) = some a := rfl

theorem honest_bind (c : Circ α) (f : α → Circ β) :
    honest (c >>= f) = (honest c).bind (fun a => honest (f a)) := by
  rw [bind_eq]
  induction c with
  | ret a => simp [bind, honest]
  | hint n h k ih =>
    cases h with
    | none => simp [bind, honest]
    | some v => simp only [bind, honest, ih]
  | require b k ih => simp only [bind, honest, ih]; split <;> simp
  | check v n k ih => simp only [bind, honest, ih]; split <;> simp
  | panic m => simp [bind, honest]

/-- The honest prover's assignment satisfies all constraints. -/
theorem sat_of_honest {c : Circ α} {y : α} (h : honest c = some y) : Sat c y := by
  induction c with
  | ret a => simp [honest] at h; simp [Sat, h]
  | hint n hh k ih =>
    cases hh with
    | none => simp [honest] at h
    | some v => exact ⟨v, ih v h⟩
  | require b k ih =>
    simp only [honest] at h; split at h
    · next hb => exact ⟨hb, ih h⟩
    · simp at h
  | check v n k ih =>
    simp only [honest] at h; split at h
    · next hb => exact ⟨hb, ih h⟩
    · simp at h
  | panic m => simp [honest] at h

theorem out_bind (c : Circ α) (f : α → Circ β) (y : β) (l : List (Fr × ℕ)) :
    Out (c >>= f) y l ↔ ∃ a l1 l2, l = l1 ++ l2 ∧ Out c a l1 ∧ Out (f a) y l2 := by
  rw [bind_eq]
  induction c generalizing l with
  | ret a =>
    simp only [bind, Out]
    constructor
    · intro h; exact ⟨a, [], l, rfl, ⟨rfl, rfl⟩, h⟩
    · rintro ⟨a', l1, l2, rfl, ⟨rfl, rfl⟩, h⟩; simpa using h
  | hint n h k ih =>
    simp only [bind, Out, ih]
    constructor
    · rintro ⟨v, a, l1, l2, h0, h1, h2⟩; exact ⟨a, l1, l2, h0, ⟨v, h1⟩, h2⟩
    · rintro ⟨a, l1, l2, h0, ⟨v, h1⟩, h2⟩; exact ⟨v, a, l1, l2, h0, h1, h2⟩
  | require b k ih =>
    simp only [bind, Out, ih]
    constructor
    · rintro ⟨hb, a, l1, l2, h0, h1, h2⟩; exact ⟨a, l1, l2, h0, ⟨hb, h1⟩, h2⟩
    · rintro ⟨a, l1, l2, h0, ⟨hb, h1⟩, h2⟩; exact ⟨hb, a, l1, l2, h0, h1, h2⟩
  | check v n k ih =>
    simp only [bind, Out, ih]
    constructor
    · rintro ⟨l', rfl, a, l1, l2, rfl, h1, h2⟩
      exact ⟨a, (v, n) :: l1, l2, rfl, ⟨l1, rfl, h1⟩, h2⟩
    · rintro ⟨a, l1, l2, rfl, ⟨l', rfl, h1⟩, h2⟩
      exact ⟨l' ++ l2, rfl, a, l', l2, rfl, h1, h2⟩
  | panic m => simp [bind, Out]

/-- `Sat` is the recorded semantics with every recorded check enforced. -/
theorem sat_iff_out (c : Circ α) (y : α) :
    Sat c y ↔ ∃ l, Out c y l ∧ ∀ e ∈ l, e.1.val < 2 ^ e.2 := by
  induction c with
  | ret a => simp [Sat, Out]
  | hint n h k ih =>
    simp only [Sat, Out, ih]
    constructor
    · rintro ⟨v, l, h1, h2⟩; exact ⟨l, ⟨v, h1⟩, h2⟩
    · rintro ⟨l, ⟨v, h1⟩, h2⟩; exact ⟨v, l, h1, h2⟩
  | require b k ih =>
    simp only [Sat, Out, ih]
    constructor
    · rintro ⟨hb, l, h1, h2⟩; exact ⟨l, ⟨hb, h1⟩, h2⟩
    · rintro ⟨l, ⟨hb, h1⟩, h2⟩; exact ⟨hb, l, h1, h2⟩
  | check v n k ih =>
    simp only [Sat, Out, ih]
    constructor
    · rintro ⟨hb, l, h1, h2⟩
      exact ⟨(v, n) :: l, ⟨l, rfl, h1⟩, by simpa using ⟨hb, fun a b h => h2 (a, b) h⟩⟩
    · rintro ⟨l, ⟨l', rfl, h1⟩, h2⟩
      exact ⟨h2 (v, n) (by simp), l', h1, fun e he => h2 e (by simp [he])⟩
  | panic m => simp [Sat, Out]

theorem safe_pure (a : α) (Q : α → Prop) : Safe (pure a : Circ α) Q ↔ Q a := Iff.rfl

theorem safe_bind (c : Circ α) (f : α → Circ β) (Q : β → Prop) :
    Safe (c >>= f) Q ↔ Safe c (fun a => Safe (f a) Q) := by
  rw [bind_eq]
  induction c with
  | ret a => rfl
  | hint n h k ih => simp only [bind, Safe, ih]
  | require b k ih => simp only [bind, Safe, ih]
  | check v n k ih => simp only [bind, Safe, ih]
  | panic m => simp [bind, Safe]

theorem Safe.mono {c : Circ α} {Q R : α → Prop} (h : Safe c Q) (hi : ∀ a, Q a → R a) :
    Safe c R := by
  induction c with
  | ret a => exact hi a h
  | hint n hh k ih => exact fun v => ih v (h v)
  | require b k ih => exact ih h
  | check v n k ih => exact ih h
  | panic m => exact h

theorem Panics.bind {c : Circ α} (h : Panics c) (f : α → Circ β) : Panics (c >>= f) := by
  rw [bind_eq]
  induction c with
  | ret a => exact h.elim
  | hint n hh k ih => exact fun v => ih v (h v)
  | require b k ih => exact ih h
  | check v n k ih => exact ih h
  | panic m => trivial

theorem Safe.bind_panics {c : Circ α} {Q : α → Prop} (h : Safe c Q) (f : α → Circ β)
    (hf : ∀ a, Q a → Panics (f a)) : Panics (c >>= f) := by
  rw [bind_eq]
  induction c with
  | ret a => exact hf a h
  | hint n hh k ih => exact fun v => ih v (h v)
  | require b k ih => exact ih h
  | check v n k ih => exact ih h
  | panic m => trivial

theorem Panics.not_sat {c : Circ α} (h : Panics c) (y : α) : ¬ Sat c y := by
  induction c with
  | ret a => exact h.elim
  | hint n hh k ih => rintro ⟨v, hv⟩; exact ih v (h v) hv
  | require b k ih => rintro ⟨_, hv⟩; exact ih h hv
  | check v n k ih => rintro ⟨_, hv⟩; exact ih h hv
  | panic m => simp [Sat]

end Circ

open Circ

/-! ## Specification predicates -/

/-- `c` computes `y`: no other value is accepted whatever the prover does, and the honest prover
gets `y`. -/
def Computes {α : Type} (c : Circ α) (y : α) : Prop :=
  (∀ z, Sat c z ↔ z = y) ∧ honest c = some y

/-- `c` is a pure assertion of `P`: satisfiable exactly when `P` holds, and then the honest prover
succeeds. -/
def Enforces (c : Circ Unit) (P : Prop) : Prop :=
  (Sat c () ↔ P) ∧ (honest c = some () ↔ P)

/-- No witness whatsoever satisfies the circuit. -/
def Unsat {α : Type} (c : Circ α) : Prop := ∀ z, ¬ Sat c z

/-! ## Denotations: `Sat` and `honest` together, as a lawful monad -/

/-- Relational + honest denotation. -/
@[ext] structure Den (α : Type) where
  sat : α → Prop
  hon : Option α

namespace Den

variable {α β : Type}

instance : Monad Den where
  pure a := ⟨fun y => y = a, some a⟩
  bind d f := ⟨fun y => ∃ a, d.sat a ∧ (f a).sat y, d.hon.bind (fun a => (f a).hon)⟩

theorem pure_def (a : α) : (pure a : Den α) = ⟨fun y => y = a, some a⟩ := rfl
theorem bind_def (d : Den α) (f : α → Den β) :
    (d >>= f) = ⟨fun y => ∃ a, d.sat a ∧ (f a).sat y, d.hon.bind (fun a => (f a).hon)⟩ := rfl

instance : LawfulMonad Den := LawfulMonad.mk'
  (id_map := by intro α x; ext y <;> simp [Functor.map])
  (pure_bind := by intro α β a f; ext y <;> simp [pure_def, bind_def])
  (bind_assoc := by
    intro α β γ x f g
    ext y
    · simp only [bind_def]
      constructor
      · rintro ⟨b, ⟨a, h1, h2⟩, h3⟩; exact ⟨a, h1, b, h2, h3⟩
      · rintro ⟨a, h1, b, h2, h3⟩; exact ⟨b, ⟨a, h1, h2⟩, h3⟩
    · simp only [bind_def, Option.bind_assoc])

/-- The unsatisfiable denotation. -/
def fail : Den α := ⟨fun _ => False, none⟩

/-- Assertion of `P`. -/
def guard (P : Prop) [Decidable P] : Den Unit := if P then pure () else fail

@[simp] theorem fail_bind (f : α → Den β) : (fail >>= f) = fail := by
  ext y <;> simp [fail, bind_def]

@[simp] theorem map_fail (f : α → β) : (f <$> (fail : Den α)) = fail := by
  rw [map_eq_pure_bind, fail_bind]

theorem guard_true {P : Prop} [Decidable P] (h : P) : guard P = pure () := by simp [guard, h]
theorem guard_false {P : Prop} [Decidable P] (h : ¬ P) : guard P = fail := by simp [guard, h]

theorem guard_congr {P Q : Prop} [Decidable P] [Decidable Q] (h : P ↔ Q) : guard P = guard Q := by
  simp only [guard, h]

theorem guard_bind_guard (P Q : Prop) [Decidable P] [Decidable Q] :
    (guard P >>= fun _ => guard Q) = guard (P ∧ Q) := by
  by_cases hp : P <;> by_cases hq : Q <;> simp [guard, hp, hq]

theorem bind_guard_comm (P : Prop) [Decidable P] (d : Den Unit) :
    (d >>= fun _ => guard P) = (guard P >>= fun _ => d) := by
  by_cases hp : P
  · simp [guard, hp]
  · ext y <;> simp [guard, hp, fail, bind_def]

theorem pure_inj {a b : α} (h : (pure a : Den α) = pure b) : a = b := by
  have := congrArg Den.hon h
  simpa [pure_def] using this

theorem fail_ne_pure {a : α} : (fail : Den α) ≠ pure a := by
  intro h
  have := congrArg Den.hon h
  simp [pure_def, fail] at this

end Den

namespace Circ

variable {α β : Type}

/-- Denotation of a circuit. -/
def den (c : Circ α) : Den α := ⟨Sat c, honest c⟩

@[simp] theorem den_pure (a : α) : den (pure a : Circ α) = pure a := by
  ext y <;> simp [den, sat_pure, honest_pure, Den.pure_def]

@[simp] theorem den_ret (a : α) : den (ret a : Circ α) = pure a := den_pure a

@[simp] theorem den_bind (c : Circ α) (f : α → Circ β) :
    den (c >>= f) = den c >>= fun a => den (f a) := by
  ext y <;> simp [den, sat_bind, honest_bind, Den.bind_def]

@[simp] theorem den_map (g : α → β) (c : Circ α) : den (g <$> c) = g <$> den c := by
  rw [map_eq_pure_bind, map_eq_pure_bind, den_bind]; simp

@[simp] theorem den_panic (m : String) : den (panic m : Circ α) = Den.fail := by
  ext y <;> simp [den, Den.fail, Sat, honest]

theorem den_require (b : Bool) (k : Circ α) :
    den (require b k) = Den.guard (b = true) >>= fun _ => den k := by
  cases b
  · ext y <;> simp [den, Den.guard, Den.fail, Sat, honest, Den.bind_def]
  · ext y <;> simp [den, Den.guard, Sat, honest]

theorem den_check (v : Fr) (n : ℕ) (k : Circ α) :
    den (check v n k) = Den.guard (v.val < 2 ^ n) >>= fun _ => den k := by
  by_cases h : v.val < 2 ^ n
  · ext y <;> simp [den, Den.guard, Sat, honest, h]
  · ext y <;> simp [den, Den.guard, Den.fail, Sat, honest, h, Den.bind_def]

theorem den_eq_pure_iff (c : Circ α) (y : α) : den c = pure y ↔ Computes c y := by
  constructor
  · intro h
    refine ⟨fun z => ?_, ?_⟩
    · have := congrArg Den.sat h
      have := congrFun this z
      simpa [den, Den.pure_def] using this
    · simpa [den, Den.pure_def] using congrArg Den.hon h
  · rintro ⟨h1, h2⟩
    ext z
    · exact h1 z
    · simp [den, Den.pure_def, h2]

theorem den_eq_fail {c : Circ α} (h : den c = Den.fail) : Unsat c := by
  intro z hz
  have := congrFun (congrArg Den.sat h) z
  simp only [den, Den.fail, eq_iff_iff, iff_false] at this
  exact this hz

theorem den_eq_fail_iff (c : Circ α) : den c = Den.fail ↔ Unsat c := by
  refine ⟨den_eq_fail, fun h => ?_⟩
  ext z
  · simpa [den, Den.fail] using h z
  · simp only [den, Den.fail]
    constructor
    · intro hz; exact absurd (sat_of_honest hz) (h z)
    · intro hz; simp at hz

theorem den_eq_guard_iff (c : Circ Unit) (P : Prop) [Decidable P] :
    den c = Den.guard P ↔ Enforces c P := by
  by_cases hp : P
  · rw [Den.guard_true hp, den_eq_pure_iff]
    simp only [Computes, Enforces, hp, iff_true]
    constructor
    · rintro ⟨h1, h2⟩; exact ⟨by simpa using h1 (), h2⟩
    · rintro ⟨h1, h2⟩; exact ⟨fun z => by simpa using h1, h2⟩
  · rw [Den.guard_false hp, den_eq_fail_iff]
    simp only [Enforces, Unsat, hp, iff_false]
    constructor
    · intro h; exact ⟨h (), fun h2 => h () (sat_of_honest h2)⟩
    · rintro ⟨h1, _⟩ z; exact h1

theorem den_guard_of {c : Circ Unit} {P : Prop} [Decidable P] (h1 : Sat c () → P)
    (h2 : P → honest c = some ()) : den c = Den.guard P := by
  rw [den_eq_guard_iff]
  exact ⟨⟨h1, fun h => sat_of_honest (h2 h)⟩, ⟨fun h => h1 (sat_of_honest h), h2⟩⟩

theorem den_pure_of {c : Circ α} {y : α} (h1 : ∀ z, Sat c z → z = y)
    (h2 : honest c = some y) : den c = pure y := by
  rw [den_eq_pure_iff]
  exact ⟨fun z => ⟨h1 z, fun h => h ▸ sat_of_honest h2⟩, h2⟩

theorem sat_of_den_pure {c : Circ α} {y : α} (h : den c = pure y) (z : α) : Sat c z ↔ z = y :=
  ((den_eq_pure_iff c y).1 h).1 z

theorem honest_of_den_pure {c : Circ α} {y : α} (h : den c = pure y) : honest c = some y :=
  ((den_eq_pure_iff c y).1 h).2

theorem sat_of_den_guard {c : Circ Unit} {P : Prop} [Decidable P] (h : den c = Den.guard P)
    (u : Unit) : Sat c u ↔ P := ((den_eq_guard_iff c P).1 h).1

/-! ## Loops -/

@[simp] theorem den_mapM {σ : Type} (f : σ → Circ β) (l : List σ) :
    den (l.mapM f) = l.mapM (fun x => den (f x)) := by
  induction l with
  | nil => simp
  | cons a l ih => simp [List.mapM_cons, ih]

@[simp] theorem den_foldlM {σ : Type} (f : β → σ → Circ β) (l : List σ) (b : β) :
    den (l.foldlM f b) = l.foldlM (fun b x => den (f b x)) b := by
  induction l generalizing b with
  | nil => simp
  | cons a l ih => simp [ih]

/-- Sequential loop `for i := 0; i < n; i++ { out[i] = f(i) }` filling a fixed-size array. -/
def tabM : (n : ℕ) → (Fin n → Circ α) → Circ (Fin n → α)
  | 0, _ => pure Fin.elim0
  | n + 1, f => do
    let init ← tabM n (fun i => f i.castSucc)
    let last ← f (Fin.last n)
    pure (Fin.snoc (α := fun _ => α) init last)

theorem den_tabM {n : ℕ} {f : Fin n → Circ α} {g : Fin n → α}
    (h : ∀ i, den (f i) = pure (g i)) : den (tabM n f) = pure g := by
  induction n with
  | zero => simp only [tabM, den_pure]; congr 1; funext i; exact i.elim0
  | succ n ih =>
    have h1 := ih (f := fun i => f i.castSucc) (g := fun i => g i.castSucc) (fun i => h i.castSucc)
    simp only [tabM, den_bind, h1, h (Fin.last n), den_pure, pure_bind]
    congr 1
    funext i
    refine Fin.lastCases ?_ (fun j => ?_) i <;> simp

theorem sat_tabM {n : ℕ} {f : Fin n → Circ α} (y : Fin n → α) :
    Sat (tabM n f) y ↔ ∀ i, Sat (f i) (y i) := by
  induction n with
  | zero =>
    simp only [tabM, sat_pure]
    exact ⟨fun _ i => i.elim0, fun _ => funext fun i => i.elim0⟩
  | succ n ih =>
    simp only [tabM, sat_bind, sat_pure, ih]
    constructor
    · rintro ⟨a, ha, b, hb, rfl⟩ i
      refine Fin.lastCases ?_ (fun j => ?_) i
      · simpa using hb
      · simpa using ha j
    · intro h
      refine ⟨fun i => y i.castSucc, fun i => h _, y (Fin.last n), h _, ?_⟩
      funext i
      refine Fin.lastCases ?_ (fun j => ?_) i <;> simp

theorem honest_tabM {n : ℕ} {f : Fin n → Circ α} {g : Fin n → α}
    (h : ∀ i, honest (f i) = some (g i)) : honest (tabM n f) = some g := by
  induction n with
  | zero => simp only [tabM, honest_pure]; congr 1; funext i; exact i.elim0
  | succ n ih =>
    have h1 := ih (f := fun i => f i.castSucc) (g := fun i => g i.castSucc) (fun i => h i.castSucc)
    simp only [tabM, honest_bind, h1, h (Fin.last n), honest_pure, Option.bind_some]
    congr 1
    funext i
    refine Fin.lastCases ?_ (fun j => ?_) i <;> simp

theorem safe_tabM {n : ℕ} {f : Fin n → Circ α} {Q : Fin n → α → Prop}
    (h : ∀ i, Safe (f i) (Q i)) : Safe (tabM n f) (fun y => ∀ i, Q i (y i)) := by
  induction n with
  | zero => exact fun i => i.elim0
  | succ n ih =>
    simp only [tabM, safe_bind]
    refine Safe.mono (ih (fun i => h i.castSucc)) fun a ha => ?_
    refine Safe.mono (h (Fin.last n)) fun b hb => ?_
    rw [safe_pure]
    intro i
    refine Fin.lastCases ?_ (fun j => ?_) i
    · simpa using hb
    · simpa using ha j

/-! ## Refinement: fewer accepted results, same honest run -/

/-- `c` accepts no more than `c'` and runs honestly in the same way. -/
def Ref (c c' : Circ α) : Prop := (∀ y, Sat c y → Sat c' y) ∧ honest c = honest c'

theorem Ref.refl (c : Circ α) : Ref c c := ⟨fun _ h => h, rfl⟩

theorem Ref.bind {c c' : Circ α} {f f' : α → Circ β} (h : Ref c c') (hf : ∀ a, Ref (f a) (f' a)) :
    Ref (c >>= f) (c' >>= f') := by
  constructor
  · intro y hy
    rw [sat_bind] at hy ⊢
    obtain ⟨a, h1, h2⟩ := hy
    exact ⟨a, h.1 a h1, (hf a).1 y h2⟩
  · rw [honest_bind, honest_bind, h.2]
    congr 1
    funext a
    exact (hf a).2

theorem Ref.tabM {n : ℕ} {f f' : Fin n → Circ α} (h : ∀ i, Ref (f i) (f' i)) :
    Ref (tabM n f) (tabM n f') := by
  induction n with
  | zero => exact Ref.refl _
  | succ n ih =>
    exact Ref.bind (ih fun i => h i.castSucc) fun _ => Ref.bind (h _) fun _ => Ref.refl _

theorem Ref.foldlM {σ : Type} {f f' : β → σ → Circ β} (h : ∀ b x, Ref (f b x) (f' b x)) (l : List σ)
    (b : β) : Ref (l.foldlM f b) (l.foldlM f' b) := by
  induction l generalizing b with
  | nil => exact Ref.refl _
  | cons a l ih =>
    rw [List.foldlM_cons, List.foldlM_cons]
    exact Ref.bind (h _ _) fun _ => ih _

theorem Ref.mapM {σ : Type} {f f' : σ → Circ β} (h : ∀ x, Ref (f x) (f' x)) (l : List σ) :
    Ref (l.mapM f) (l.mapM f') := by
  induction l with
  | nil => exact Ref.refl _
  | cons a l ih =>
    rw [List.mapM_cons, List.mapM_cons]
    exact Ref.bind (h _) fun _ => Ref.bind ih fun _ => Ref.refl _

theorem Ref.sat_of_den_pure {c c' : Circ α} {y : α} (h : Ref c c') (hd : den c = pure y) :
    Sat c' y := h.1 y ((Circ.sat_of_den_pure hd y).2 rfl)

theorem Ref.honest_of_den_pure {c c' : Circ α} {y : α} (h : Ref c c') (hd : den c = pure y) :
    honest c' = some y := h.2 ▸ Circ.honest_of_den_pure hd

end Circ

namespace Den

variable {α β σ : Type}

theorem mapM_pure_of {f : σ → Den β} {g : σ → β} {l : List σ}
    (h : ∀ x ∈ l, f x = pure (g x)) : l.mapM f = pure (l.map g) := by
  induction l with
  | nil => simp
  | cons a l ih =>
    rw [List.mapM_cons, h a (by simp), ih (fun x hx => h x (by simp [hx]))]; simp

theorem foldlM_pure_of {f : β → σ → Den β} {g : β → σ → β} {l : List σ} {b : β}
    (h : ∀ b, ∀ x ∈ l, f b x = pure (g b x)) : l.foldlM f b = pure (l.foldl g b) := by
  induction l generalizing b with
  | nil => simp
  | cons a l ih =>
    rw [List.foldlM_cons, h b a (by simp), pure_bind, ih (fun b x hx => h b x (by simp [hx]))]; simp

/-- Loop over encoded values: if each step on encoded states is `pure` of an encoded state. -/
theorem foldlM_enc {S : Type} (e : S → β) {f : β → σ → Den β} {g : S → σ → S} {l : List σ} {s : S}
    (h : ∀ s, ∀ x ∈ l, f (e s) x = pure (e (g s x))) :
    l.foldlM f (e s) = pure (e (l.foldl g s)) := by
  induction l generalizing s with
  | nil => simp
  | cons a l ih =>
    rw [List.foldlM_cons, h s a (by simp), pure_bind, ih (fun b x hx => h b x (by simp [hx]))]; simp

end Den

/-! Unfolding these while checking definitional equality is always a mistake. -/
attribute [irreducible] Circ.Sat Circ.honest Circ.tabM

end Verif
