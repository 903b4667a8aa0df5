import Verif.Model.Base

/-!
# Model of `goldilocks/range_checker_utils.go` and of the range-checker backends of
`goldilocks/base.go:87-159, 411-442`

Go `int` arithmetic is modelled by `ℕ` (no overflow below `2^63`).
-/

set_option autoImplicit false

namespace Verif

open Circ

/-- `decompSize`, `range_checker_utils.go:53-55`. -/
def decompSize (varSize limbSize : ℕ) : ℕ := (varSize + limbSize - 1) / limbSize

/-- `nbR1CSConstraints`, `range_checker_utils.go:57-66`; argument: the collected bit widths. -/
def nbR1CSConstraints (baseLength : ℕ) (collected : List ℕ) : ℕ :=
  let nbDecomposed := collected.foldl (fun acc b => acc + decompSize b baseLength) 0
  let eqs := collected.length
  let nbRight := nbDecomposed
  let nbleft := 1 <<< baseLength
  nbleft + nbRight + eqs + 1

/-- `nbPLONKConstraints`, `range_checker_utils.go:68-77`. -/
def nbPLONKConstraints (baseLength : ℕ) (collected : List ℕ) : ℕ :=
  let nbDecomposed := collected.foldl (fun acc b => acc + decompSize b baseLength) 0
  let eqs := nbDecomposed
  let nbRight := 3 * nbDecomposed
  let nbleft := 3 * (1 <<< baseLength)
  nbleft + nbRight + eqs + 1

/-- `math.MaxInt64`. -/
def maxInt64 : ℕ := 2 ^ 63 - 1

/-- `optimalWidth`, `range_checker_utils.go:39-51`: `for j := 2; j < 18; j++`, strict comparison. -/
def optimalWidth (countFn : ℕ → List ℕ → ℕ) (collected : List ℕ) : ℕ :=
  ((List.range' 2 16).foldl (fun (st : ℕ × ℕ) j =>
    let current := countFn j collected
    if current < st.1 then (current, j) else st) (maxInt64, 0)).2

/-- `Type`, `range_checker_utils.go:11-16`. -/
inductive FrontendType | R1CS | SCS
  deriving DecidableEq

/-- `getOptimalBasewidth`, `range_checker_utils.go:27-37`.  The first argument is the result of
`api.(FrontendTyper)`: the interface is declared *in this package* with its own `Type`, so the
assertion fails (`none`) for gnark's builders, whose method returns gnark's internal type. -/
def getOptimalBasewidth (ft : Option FrontendType) (collected : List ℕ) : ℕ :=
  match ft with
  | some .R1CS => optimalWidth nbR1CSConstraints collected
  | some .SCS => optimalWidth nbPLONKConstraints collected
  | none => optimalWidth nbR1CSConstraints collected

/-- gnark v0.9.1's own commit checker (`std/rangecheck/rangecheck_commit.go`), whose type assertion
does succeed: base width chosen for builder type `ft`. (Trusted transcription.) -/
def gnarkBasewidth (ft : FrontendType) (collected : List ℕ) : ℕ :=
  match ft with
  | .R1CS => optimalWidth nbR1CSConstraints collected
  | .SCS => optimalWidth nbPLONKConstraints collected

/-- `RangeCheckerType`, `goldilocks/base.go:87-93`. -/
inductive Backend
  | native
  | commit (ft : FrontendType)
  | bitDecomp
  deriving DecidableEq

/-- `gnarkRangeCheckerSelector`, `range_checker_utils.go:79-89`, and the environment override in
`New`, `goldilocks/base.go:127-135`.  Arguments: does the builder implement
`frontend.Rangechecker`, `frontend.Committer`; is `USE_BIT_DECOMPOSITION_RANGE_CHECK=true`. -/
def selectBackend (isRangechecker isCommitter : Bool) (ft : FrontendType) (envBitDecomp : Bool) :
    Backend :=
  if envBitDecomp then .bitDecomp
  else if isRangechecker then .native
  else if isCommitter then .commit ft
  else .bitDecomp

/-- `EXPECTED_OPTIMAL_BASEWIDTH`, `goldilocks/base.go:51`. -/
def EXPECTED_OPTIMAL_BASEWIDTH : ℕ := 16

/-- `checkCollected`, `goldilocks/base.go:423-442`: `true` iff it does not panic. -/
def checkCollectedOk (collected : List ℕ) : Bool :=
  let nbBits := getOptimalBasewidth none collected
  decide (nbBits = EXPECTED_OPTIMAL_BASEWIDTH) && collected.all (fun b => b % nbBits == 0)

/-- What each backend makes of the recorded requests.
* native: the `case NATIVE_RANGE_CHECKER:` body in `rangeCheckerCheck` (`goldilocks/base.go:413`) is
  empty and Go does not fall through: nothing is requested from the builder.
* bit decomposition: `bits.ToBinary(v, nbBits)` (`goldilocks/utils.go:52-54`): `v < 2^nbBits`.
* commit: `checkCollected` must not panic, and gnark splits `v` in `decompSize nbBits w` limbs of `w` bits
  where `w` is the width *gnark* chooses (trusted model of gnark v0.9.1, which does not shorten
  the last limb, GHSA-rjjm-x32p-m3f7). -/
def Backend.accepts : Backend → List (Fr × ℕ) → Prop
  | .native, _ => True
  | .bitDecomp, log => ∀ e ∈ log, e.1.val < 2 ^ e.2
  | .commit ft, log =>
    checkCollectedOk (log.map Prod.snd) = true ∧
    ∀ e ∈ log, e.1.val < 2 ^ (gnarkBasewidth ft (log.map Prod.snd) *
      decompSize e.2 (gnarkBasewidth ft (log.map Prod.snd)))

/-- A whole circuit `c` is satisfiable with result `y` under a backend. -/
def SatWith (b : Backend) {α : Type} (c : Circ α) (y : α) : Prop :=
  ∃ log, Out c y log ∧ b.accepts log

end Verif
