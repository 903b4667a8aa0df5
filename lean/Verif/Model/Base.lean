import Verif.Circ

/-!
# Model of `goldilocks/base.go`: the Goldilocks arithmetic chip

A Go `gl.Variable` is a struct with one field `Limb`; it is modelled by its value in `Fr`.
-/

set_option autoImplicit false

namespace Verif

open Circ

/-! ## gnark API primitives (trusted semantics, see DESIGN.md section 2) -/

/-- `api.AssertIsEqual`. -/
def assertEq (x y : Fr) : Circ Unit := .require (decide (x = y)) (.ret ())

/-- `api.IsZero`. -/
def isZero (x : Fr) : Fr := if x = 0 then 1 else 0

/-- `api.Select(b, x, y)`: constrains `b` to be boolean, `x` if `b = 1` else `y`. -/
def select (b x y : Fr) : Circ Fr :=
  .require (decide (b = 0 ∨ b = 1)) (.ret (if b = 1 then x else y))

/-- `api.Compiler().NewHint(f, n, ...)`. -/
def newHint (n : ℕ) (h : Option (Fin n → Fr)) : Circ (Fin n → Fr) := .hint n h .ret

/-- Explicit Go panic. -/
def goPanic {α : Type} (m : String) : Circ α := .panic m

/-! ## `goldilocks/base.go` -/

/-- `goldilocks/base.go:48`, `RANGE_CHECK_NB_BITS`. -/
def RANGE_CHECK_NB_BITS : ℕ := 144

/-- `NegOne`, `goldilocks/base.go:83-85`: `MODULUS - 1`. -/
def negOne : Fr := ((p - 1 : ℕ) : Fr)

/-- `rangeCheckerCheck`, `goldilocks/base.go:411-421`: hands the value to the selected backend.
What the backend does with the request is decided by the interpretation of `check`. -/
def rangeCheckerCheck (x : Fr) (nbBits : ℕ) : Circ Unit := .check x nbBits (.ret ())

/-- `SplitLimbsHint`, `goldilocks/base.go:339-359`. -/
def splitLimbsHint (x : Fr) : Option (Fin 2 → Fr) :=
  if p ≤ x.val then none
  else some ![((x.val / 2 ^ 32 : ℕ) : Fr), ((x.val % 2 ^ 32 : ℕ) : Fr)]

/-- `uint64(math.Pow(2, 32))`, `goldilocks/base.go:380`. -/
def two32 : Fr := ((2 ^ 32 : ℕ) : Fr)

/-- `uint64(math.Pow(2, 32))-1`, `goldilocks/base.go:391`. -/
def max32 : Fr := ((2 ^ 32 - 1 : ℕ) : Fr)

/-- `RangeCheck`, `goldilocks/base.go:362-400`. -/
def rangeCheck (x : Fr) : Circ Unit := do
  let result ← newHint 2 (splitLimbsHint x)
  let mostSigLimb := result 0
  let leastSigLimb := result 1
  assertEq (mostSigLimb * two32 + leastSigLimb) x
  rangeCheckerCheck mostSigLimb 32
  rangeCheckerCheck leastSigLimb 32
  let shouldCheck := isZero (mostSigLimb - max32)
  let sel ← select shouldCheck leastSigLimb 0
  assertEq sel 0

/-- `RangeCheckWithMaxBits`, `goldilocks/base.go:403-405`. -/
def rangeCheckWithMaxBits (x : Fr) (maxNbBits : ℕ) : Circ Unit := rangeCheckerCheck x maxNbBits

/-- `AddNoReduce`, `goldilocks/base.go:168-170`. -/
def addNoReduce (a b : Fr) : Fr := a + b

/-- `SubNoReduce`, `goldilocks/base.go:179-181`. -/
def subNoReduce (a b : Fr) : Fr := a + b * negOne

/-- `MulNoReduce`, `goldilocks/base.go:190-192`. -/
def mulNoReduce (a b : Fr) : Fr := a * b

/-- `MulAddNoReduce`, `goldilocks/base.go:217-220`. -/
def mulAddNoReduce (a b c : Fr) : Fr := c * 1 + a * b

/-- `MulAddHint`, `goldilocks/base.go:223-243`; panics when an operand is not below `MODULUS`. -/
def mulAddHint (a b c : Fr) : Option (Fin 2 → Fr) :=
  if p ≤ a.val ∨ p ≤ b.val ∨ p ≤ c.val then none
  else some ![(((a.val * b.val + c.val) / p : ℕ) : Fr), (((a.val * b.val + c.val) % p : ℕ) : Fr)]

/-- `MulAdd`, `goldilocks/base.go:196-213`. -/
def mulAdd (a b c : Fr) : Circ Fr := do
  let result ← newHint 2 (mulAddHint a b c)
  let quotient := result 0
  let remainder := result 1
  let cLimbCopy := c * 1
  let lhs := cLimbCopy + a * b
  let rhs := remainder + (p : Fr) * quotient
  assertEq lhs rhs
  rangeCheck quotient
  rangeCheck remainder
  pure remainder

/-- `Add`, `goldilocks/base.go:162-164`. -/
def add (a b : Fr) : Circ Fr := mulAdd a 1 b

/-- `Sub`, `goldilocks/base.go:173-175`. -/
def sub (a b : Fr) : Circ Fr := mulAdd b negOne a

/-- `Mul`, `goldilocks/base.go:184-186`. -/
def mul (a b : Fr) : Circ Fr := mulAdd a b 0

/-- `ReduceHint`, `goldilocks/base.go:284-294`. -/
def reduceHint (x : Fr) : Option (Fin 2 → Fr) :=
  some ![((x.val / p : ℕ) : Fr), ((x.val % p : ℕ) : Fr)]

/-- `ReduceWithMaxBits`, `goldilocks/base.go:259-281`. -/
def reduceWithMaxBits (x : Fr) (maxNbBits : ℕ) : Circ Fr := do
  let result ← newHint 2 (reduceHint x)
  let quotient := result 0
  rangeCheckerCheck quotient maxNbBits
  let remainder := result 1
  rangeCheck remainder
  assertEq x (quotient * (p : Fr) + remainder)
  pure remainder

/-- `Reduce`, `goldilocks/base.go:246-256`. -/
def reduce (x : Fr) : Circ Fr := reduceWithMaxBits x RANGE_CHECK_NB_BITS

/-- `InverseHint`, `goldilocks/base.go:316-336`; the inverse of zero is zero
(`goldilocks.Element.Inverse`). Panics when the operand is not below `MODULUS`. -/
def inverseHint (x : Fr) : Option (Fin 1 → Fr) :=
  if p ≤ x.val then none
  else some ![emb ((x.val : Fp)⁻¹)]

/-- `Inverse`, `goldilocks/base.go:297-313`; returns the inverse and `hasInv`. -/
def inverse (x : Fr) : Circ (Fr × Fr) := do
  let result ← newHint 1 (inverseHint x)
  let inv := result 0
  let hasInv := 1 - isZero x
  rangeCheck inv
  let product ← mul inv x
  let productToCheck ← select hasInv product 1
  assertEq productToCheck 1
  pure (inv, hasInv)

/-- `AssertIsEqual`, `goldilocks/base.go:407-409`. -/
def glAssertIsEqual (x y : Fr) : Circ Unit := assertEq x y

end Verif
