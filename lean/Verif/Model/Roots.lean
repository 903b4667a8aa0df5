import Verif.Model.Base

/-!
# Model of the native (out-of-circuit) root-of-unity helpers, `goldilocks/base.go:444-471`

`goldilocks.Element` is modelled by `Fp`; `none` is a Go panic.
-/

set_option autoImplicit false

namespace Verif

open Circ

/-- `MULTIPLICATIVE_GROUP_GENERATOR`, `goldilocks/base.go:33`. -/
def MULTIPLICATIVE_GROUP_GENERATOR : Fp := 7

/-- `TWO_ADICITY`, `goldilocks/base.go:36`. -/
def TWO_ADICITY : ℕ := 32

/-- `POWER_OF_TWO_GENERATOR`, `goldilocks/base.go:39`. -/
def POWER_OF_TWO_GENERATOR : Fp := ((1753635133440165772 : ℕ) : Fp)

/-- `n` successive squarings (the `for` loop of `PrimitiveRootOfUnity`). -/
def squareTimes : ℕ → Fp → Fp
  | 0, x => x
  | n + 1, x => squareTimes n (x * x)

/-- `PrimitiveRootOfUnity`, `goldilocks/base.go:445-454`. -/
def primitiveRootOfUnity (nLog : ℕ) : Option Fp :=
  if nLog > TWO_ADICITY then none
  else some (squareTimes (TWO_ADICITY - nLog) POWER_OF_TWO_GENERATOR)

/-- The loop of `TwoAdicSubgroup`, appending `last * root` `k` times. -/
def twoAdicLoop (root : Fp) : ℕ → List Fp → List Fp
  | 0, res => res
  | k + 1, res => twoAdicLoop root k (res ++ [res.getLastD 0 * root])

/-- `TwoAdicSubgroup`, `goldilocks/base.go:456-471`. -/
def twoAdicSubgroup (nLog : ℕ) : Option (List Fp) :=
  if nLog > TWO_ADICITY then none
  else match primitiveRootOfUnity nLog with
    | none => none
    | some g => some (twoAdicLoop g (2 ^ nLog - 1) [1])

/-- Using the result of a native helper while generating a circuit. -/
def orPanic {α : Type} (m : String) : Option α → Circ α
  | some a => pure a
  | none => goPanic m

end Verif
