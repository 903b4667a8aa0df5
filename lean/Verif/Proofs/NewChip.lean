import Verif.Model.NewChip

/-! # Invariant of concurrent `New` -/

set_option autoImplicit false

namespace Verif.NewChip

variable {A T : Type} [DecidableEq A] [DecidableEq T]

/-- Does a program counter lie inside the critical section? -/
def PC.inside : PC → Prop
  | .start => False
  | .done _ => False
  | _ => True

structure Inv (api : T → A) (mode : A → Backend) (s : State A T) : Prop where
  excl : ∀ t, (s.pc t).inside → s.holder = some t
  fresh : ∀ a c, s.chips a = some c → c < s.next
  inj : ∀ a a' c, s.chips a = some c → s.chips a' = some c → a = a'
  miss : ∀ t, s.pc t = .missed → s.chips (api t) = none ∧ s.defers (api t) = 0
  alloc : ∀ t c, s.pc t = .allocated c →
    s.chips (api t) = none ∧ s.defers (api t) = 0 ∧ c < s.next ∧ ∀ a, s.chips a ≠ some c
  ready : ∀ t c, s.pc t = .ready c → s.chips (api t) = none ∧ c < s.next ∧ (∀ a, s.chips a ≠ some c) ∧
    s.defers (api t) = if isCommit (mode (api t)) then 1 else 0
  ret : ∀ t c, s.pc t = .returning c → s.chips (api t) = some c
  fin : ∀ t c, s.pc t = .done c → s.chips (api t) = some c
  defers : ∀ a c, s.chips a = some c → s.defers a = if isCommit (mode a) then 1 else 0
  quiet : ∀ a, s.chips a = none → (s.defers a = 0 ∨ ∃ t c, api t = a ∧ s.pc t = .ready c)

theorem inv_init (api : T → A) (mode : A → Backend) : Inv api mode (init : State A T) := by
  constructor <;> simp [init, PC.inside]

theorem inv_step {api : T → A} {mode : A → Backend} {s s' : State A T} (h : Inv api mode s)
    (st : Step api mode s s') : Inv api mode s' := by
  obtain ⟨excl, fresh, inj, miss, alloc, ready, ret, fin, defers, quiet⟩ := h
  -- only the lock holder can be inside
  have uniq : ∀ t t', (s.pc t).inside → (s.pc t').inside → t = t' := fun t t' h1 h2 => by
    have := (excl t h1).symm.trans (excl t' h2); simpa using this
  cases st with
  | lock t ht hl =>
    have hno : ∀ t', ¬ (s.pc t').inside := fun t' h' => by rw [excl t' h'] at hl; simp at hl
    constructor
    all_goals simp only [Function.update_apply]
    · intro t' h'
      split at h'
      · subst_vars; rfl
      · exact absurd h' (hno t')
    · exact fresh
    · exact inj
    · intro t' h'; split at h' <;> first | exact miss t' h' | simp at h'
    · intro t' c h'; split at h' <;> first | exact alloc t' c h' | simp at h'
    · intro t' c h'; split at h' <;> first | exact ready t' c h' | simp at h'
    · intro t' c h'; split at h' <;> first | exact ret t' c h' | simp at h'
    · intro t' c h'; split at h' <;> first | exact fin t' c h' | simp at h'
    · exact defers
    · intro a ha
      rcases quiet a ha with h0 | ⟨t', c, _, h2⟩
      · exact .inl h0
      · exact absurd (by rw [h2]; trivial) (hno t')
  | hit t c ht hc =>
    have hin : (s.pc t).inside := by rw [ht]; trivial
    constructor
    all_goals simp only [Function.update_apply]
    · intro t' h'
      split at h'
      · subst_vars; exact excl _ hin
      · exact excl t' h'
    · exact fresh
    · exact inj
    · intro t' h'; split at h' <;> first | exact miss t' h' | simp at h'
    · intro t' c h'; split at h' <;> first | exact alloc t' c h' | simp at h'
    · intro t' c h'; split at h' <;> first | exact ready t' c h' | simp at h'
    · intro t' c' h'
      split at h'
      · subst_vars; simp only [PC.returning.injEq] at h'; subst h'; exact hc
      · exact ret t' c' h'
    · intro t' c h'; split at h' <;> first | exact fin t' c h' | simp at h'
    · exact defers
    · intro a ha
      rcases quiet a ha with h0 | ⟨t', c', h1, h2⟩
      · exact .inl h0
      · have := uniq t t' hin (by rw [h2]; trivial)
        subst this; rw [ht] at h2; simp at h2
  | miss t ht hc =>
    have hin : (s.pc t).inside := by rw [ht]; trivial
    have h0 : s.defers (api t) = 0 := by
      rcases quiet _ hc with h0 | ⟨t', c', h1, h2⟩
      · exact h0
      · have := uniq t t' hin (by rw [h2]; trivial)
        subst this; rw [ht] at h2; simp at h2
    constructor
    all_goals simp only [Function.update_apply]
    · intro t' h'
      split at h'
      · subst_vars; exact excl _ hin
      · exact excl t' h'
    · exact fresh
    · exact inj
    · intro t' h'
      split at h'
      · subst_vars; exact ⟨hc, h0⟩
      · exact miss t' h'
    · intro t' c h'; split at h' <;> first | exact alloc t' c h' | simp at h'
    · intro t' c h'; split at h' <;> first | exact ready t' c h' | simp at h'
    · intro t' c h'; split at h' <;> first | exact ret t' c h' | simp at h'
    · intro t' c h'; split at h' <;> first | exact fin t' c h' | simp at h'
    · exact defers
    · intro a ha
      rcases quiet a ha with h0 | ⟨t', c', h1, h2⟩
      · exact .inl h0
      · have := uniq t t' hin (by rw [h2]; trivial)
        subst this; rw [ht] at h2; simp at h2
  | alloc t ht =>
    have hin : (s.pc t).inside := by rw [ht]; trivial
    constructor
    all_goals simp only [Function.update_apply]
    · intro t' h'
      split at h'
      · subst_vars; exact excl _ hin
      · exact excl t' h'
    · intro a c hc; have := fresh a c hc; omega
    · exact inj
    · intro t' h'; split at h' <;> first | exact miss t' h' | simp at h'
    · intro t' c h'
      split at h'
      · subst_vars
        simp only [PC.allocated.injEq] at h'; subst h'
        refine ⟨(miss _ ht).1, (miss _ ht).2, by omega, fun a ha => ?_⟩
        have := fresh a _ ha; omega
      · obtain ⟨a1, a2, a3, a4⟩ := alloc t' c h'
        exact ⟨a1, a2, by omega, a4⟩
    · intro t' c h'
      split at h'
      · simp at h'
      · obtain ⟨a1, a2, a3⟩ := ready t' c h'
        exact ⟨a1, by omega, a3⟩
    · intro t' c h'; split at h' <;> first | exact ret t' c h' | simp at h'
    · intro t' c h'; split at h' <;> first | exact fin t' c h' | simp at h'
    · exact defers
    · intro a ha
      rcases quiet a ha with h0 | ⟨t', c', h1, h2⟩
      · exact .inl h0
      · have := uniq t t' hin (by rw [h2]; trivial)
        subst this; rw [ht] at h2; simp at h2
  | setup t c ht =>
    have hin : (s.pc t).inside := by rw [ht]; trivial
    obtain ⟨a1, a2, a3, a4⟩ := alloc t c ht
    have hd : ∀ a, (if isCommit (mode (api t)) = true then
          Function.update s.defers (api t) (s.defers (api t) + 1) else s.defers) a =
        if a = api t ∧ isCommit (mode (api t)) = true then s.defers a + 1 else s.defers a := by
      intro a
      cases isCommit (mode (api t)) <;> simp [Function.update_apply]
      split <;> simp_all
    constructor
    all_goals simp only [Function.update_apply]
    · intro t' h'
      split at h'
      · subst_vars; exact excl _ hin
      · exact excl t' h'
    · exact fresh
    · exact inj
    · intro t' h'
      split at h'
      · simp at h'
      · exact absurd (uniq t t' hin (by rw [h']; trivial)).symm (by assumption)
    · intro t' c h'
      split at h'
      · simp at h'
      · exact absurd (uniq t t' hin (by rw [h']; trivial)).symm (by assumption)
    · intro t' c' h'
      split at h'
      · subst_vars
        simp only [PC.ready.injEq] at h'; subst h'
        refine ⟨a1, a3, a4, ?_⟩
        rw [hd, a2]; simp
      · exact absurd (uniq t t' hin (by rw [h']; trivial)).symm (by assumption)
    · intro t' c h'; split at h' <;> first | exact ret t' c h' | simp at h'
    · intro t' c h'; split at h' <;> first | exact fin t' c h' | simp at h'
    · intro a c' hc
      rw [hd, if_neg]
      · exact defers a c' hc
      · rintro ⟨rfl, _⟩; rw [a1] at hc; simp at hc
    · intro a ha
      by_cases hat : api t = a
      · exact .inr ⟨t, c, hat, by simp⟩
      · left
        rw [hd, if_neg (by rintro ⟨h, _⟩; exact hat h.symm)]
        rcases quiet a ha with h0 | ⟨t', c', h1, h2⟩
        · exact h0
        · have := uniq t t' hin (by rw [h2]; trivial)
          subst this; exact absurd h1 hat
  | store t c ht =>
    have hin : (s.pc t).inside := by rw [ht]; trivial
    obtain ⟨a1, a2, a3, a4⟩ := ready t c ht
    constructor
    all_goals simp only [Function.update_apply]
    · intro t' h'
      split at h'
      · subst_vars; exact excl _ hin
      · exact excl t' h'
    · intro a c' hc
      split at hc
      · simp only [Option.some.injEq] at hc; omega
      · exact fresh a c' hc
    · intro a a' c' h1 h2
      split at h1 <;> split at h2
      · subst_vars; rfl
      · simp only [Option.some.injEq] at h1; subst h1; exact absurd h2 (a3 _)
      · simp only [Option.some.injEq] at h2; subst h2; exact absurd h1 (a3 _)
      · exact inj a a' c' h1 h2
    · intro t' h'
      split at h'
      · simp at h'
      · exact absurd (uniq t t' hin (by rw [h']; trivial)).symm (by assumption)
    · intro t' c h'
      split at h'
      · simp at h'
      · exact absurd (uniq t t' hin (by rw [h']; trivial)).symm (by assumption)
    · intro t' c h'
      split at h'
      · simp at h'
      · exact absurd (uniq t t' hin (by rw [h']; trivial)).symm (by assumption)
    · intro t' c' h'
      split at h'
      · subst_vars; simp only [PC.returning.injEq] at h'; subst h'; simp
      · exact absurd (uniq t t' hin (by rw [h']; trivial)).symm (by assumption)
    · intro t' c' h'
      split at h'
      · simp at h'
      · have := fin t' c' h'
        split
        · rename_i heq; rw [heq, a1] at this; simp at this
        · exact this
    · intro a c' hc
      split at hc
      · subst_vars; exact a4
      · exact defers a c' hc
    · intro a ha
      split at ha
      · simp at ha
      · rename_i hne
        rcases quiet a ha with h0 | ⟨t', c', h1, h2⟩
        · exact .inl h0
        · have := uniq t t' hin (by rw [h2]; trivial)
          subst this; exact absurd h1.symm hne
  | unlock t c ht =>
    have hin : (s.pc t).inside := by rw [ht]; trivial
    constructor
    all_goals simp only [Function.update_apply]
    · intro t' h'
      split at h'
      · exact absurd h' (by simp [PC.inside])
      · exact absurd (uniq t t' hin h').symm (by assumption)
    · exact fresh
    · exact inj
    · intro t' h'; split at h' <;> first | exact miss t' h' | simp at h'
    · intro t' c h'; split at h' <;> first | exact alloc t' c h' | simp at h'
    · intro t' c h'; split at h' <;> first | exact ready t' c h' | simp at h'
    · intro t' c h'; split at h' <;> first | exact ret t' c h' | simp at h'
    · intro t' c' h'
      split at h'
      · subst_vars; simp only [PC.done.injEq] at h'; subst h'; exact ret _ _ ht
      · exact fin t' c' h'
    · exact defers
    · intro a ha
      rcases quiet a ha with h0 | ⟨t', c', h1, h2⟩
      · exact .inl h0
      · have := uniq t t' hin (by rw [h2]; trivial)
        subst this; rw [ht] at h2; simp at h2

theorem inv_reachable {api : T → A} {mode : A → Backend} {s : State A T}
    (h : Reachable api mode s) : Inv api mode s := by
  induction h with
  | init => exact inv_init api mode
  | step _ st ih => exact inv_step ih st

/-- Deadlock freedom: while somebody has not returned, some step is possible. -/
theorem progress {api : T → A} {mode : A → Backend} {s : State A T} (hinv : Reachable api mode s)
    (hold : ∀ t, s.holder = some t → (s.pc t).inside) (t : T) (ht : ∀ c, s.pc t ≠ .done c) :
    ∃ s', Step api mode s s' := by
  have inside_step : ∀ t, (s.pc t).inside → ∃ s', Step api mode s s' := by
    intro t hin
    cases h : s.pc t with
    | start => rw [h] at hin; exact hin.elim
    | done c => rw [h] at hin; exact hin.elim
    | locked =>
      cases hc : s.chips (api t) with
      | none => exact ⟨_, .miss s t h hc⟩
      | some c => exact ⟨_, .hit s t c h hc⟩
    | missed => exact ⟨_, .alloc s t h⟩
    | allocated c => exact ⟨_, .setup s t c h⟩
    | ready c => exact ⟨_, .store s t c h⟩
    | returning c => exact ⟨_, .unlock s t c h⟩
  cases hh : s.holder with
  | some u => exact inside_step u (hold u hh)
  | none =>
    cases h : s.pc t with
    | start => exact ⟨_, .lock s t h hh⟩
    | done c => exact absurd h (ht c)
    | _ => exact inside_step t (by rw [h]; trivial)

theorem holder_inside {api : T → A} {mode : A → Backend} {s : State A T}
    (h : Reachable api mode s) : ∀ t, s.holder = some t → (s.pc t).inside := by
  induction h with
  | init => intro t h; simp [init] at h
  | @step s s' hr st ih =>
    have hexcl := (inv_reachable hr).excl
    intro t' h'
    cases st
    all_goals simp only [Function.update_apply] at *
    case lock t ht hl =>
      simp only [Option.some.injEq] at h'; simp [h', PC.inside]
    case unlock => simp at h'
    all_goals
      split
      · trivial
      · exact ih t' h'

end Verif.NewChip
