import Verif.Model.RangeCheckUtils

/-!
# Model of concurrent calls of `goldilocks.New` (`goldilocks/base.go:105-159`)

Any number of goroutines, indexed by an arbitrary type `T`, each calling `New(api t)`.  Memory is
sequentially consistent (Go's memory model gives this for mutex-protected data).  Every shared access
is a separate step.
-/

set_option autoImplicit false

namespace Verif.NewChip

/-- Program counter of one goroutine executing `New`. -/
inductive PC
  /-- before `mutex.Lock()`, `base.go:113` -/
  | start
  /-- lock held, before the map lookup, `base.go:116` -/
  | locked
  /-- lookup failed; before the allocation `c := &Chip{api: api}`, `base.go:120` -/
  | missed
  /-- chip allocated; before the `Defer` / range-checker set-up, `base.go:135-154` -/
  | allocated (c : ℕ)
  /-- set up; before `poseidonChips[api] = c`, `base.go:156` -/
  | ready (c : ℕ)
  /-- result known, deferred `mutex.Unlock()` pending, `base.go:117` or `158` -/
  | returning (c : ℕ)
  /-- returned to the caller -/
  | done (c : ℕ)
  deriving DecidableEq

/-- Shared state. `A`: the type of `frontend.API` values, `T`: goroutines. -/
structure State (A T : Type) where
  /-- `mutex` -/
  holder : Option T
  /-- `poseidonChips` -/
  chips : A → Option ℕ
  /-- allocator: the next fresh chip address -/
  next : ℕ
  /-- how many times `checkCollected` has been deferred on each api -/
  defers : A → ℕ
  /-- program counters -/
  pc : T → PC

variable {A T : Type} [DecidableEq A] [DecidableEq T]

/-- `c.rangeCheckerType == COMMIT_RANGE_CHECKER`, `base.go:146`. -/
def isCommit : Backend → Bool
  | .commit _ => true
  | _ => false

/-- Initially the map is empty (`base.go:107`). -/
def init : State A T := ⟨none, fun _ => none, 0, fun _ => 0, fun _ => .start⟩

/-- One step of goroutine `t` calling `New (api t)`; `mode` tells the range-checker
type selected for an api (`base.go:127-135`). -/
inductive Step (api : T → A) (mode : A → Backend) : State A T → State A T → Prop
  | lock (s : State A T) (t : T) (h : s.pc t = .start) (hl : s.holder = none) :
      Step api mode s { s with holder := some t, pc := Function.update s.pc t .locked }
  | hit (s : State A T) (t : T) (c : ℕ) (h : s.pc t = .locked) (hc : s.chips (api t) = some c) :
      Step api mode s { s with pc := Function.update s.pc t (.returning c) }
  | miss (s : State A T) (t : T) (h : s.pc t = .locked) (hc : s.chips (api t) = none) :
      Step api mode s { s with pc := Function.update s.pc t .missed }
  | alloc (s : State A T) (t : T) (h : s.pc t = .missed) :
      Step api mode s { s with next := s.next + 1, pc := Function.update s.pc t (.allocated s.next) }
  | setup (s : State A T) (t : T) (c : ℕ) (h : s.pc t = .allocated c) :
      Step api mode s { s with
        defers := if isCommit (mode (api t)) then
          Function.update s.defers (api t) (s.defers (api t) + 1) else s.defers
        pc := Function.update s.pc t (.ready c) }
  | store (s : State A T) (t : T) (c : ℕ) (h : s.pc t = .ready c) :
      Step api mode s { s with
        chips := Function.update s.chips (api t) (some c)
        pc := Function.update s.pc t (.returning c) }
  | unlock (s : State A T) (t : T) (c : ℕ) (h : s.pc t = .returning c) :
      Step api mode s { s with holder := none, pc := Function.update s.pc t (.done c) }

/-- Reachable states: any finite schedule. -/
inductive Reachable (api : T → A) (mode : A → Backend) : State A T → Prop
  | init : Reachable api mode init
  | step {s s' : State A T} : Reachable api mode s → Step api mode s s' → Reachable api mode s'

end Verif.NewChip
