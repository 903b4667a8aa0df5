import Verif.Model.Base
import Mathlib.Data.Nat.Size

/-!
# Model of `goldilocks/quadratic_extension.go`
-/

set_option autoImplicit false

namespace Verif

open Circ

/-- `QuadraticExtensionVariable`, `goldilocks/quadratic_extension.go:12`: `[2]Variable`. -/
abbrev QEV := Fr × Fr

/-- `DTH_ROOT`, `goldilocks/quadratic_extension.go:10`. -/
def DTH_ROOT : ℕ := 18446744069414584320

/-- `ToQuadraticExtension`, `goldilocks/quadratic_extension.go:18-20`. -/
def toQE (x : Fr) : QEV := (x, 0)

/-- `ZeroExtension`, `goldilocks/quadratic_extension.go:22-24`. -/
def zeroExt : QEV := toQE 0

/-- `OneExtension`, `goldilocks/quadratic_extension.go:26-28`. -/
def oneExt : QEV := toQE 1

/-- `AddExtension`, `goldilocks/quadratic_extension.go:31-35`. -/
def addExt (a b : QEV) : Circ QEV := do
  let c0 ← add a.1 b.1
  let c1 ← add a.2 b.2
  pure (c0, c1)

/-- `AddExtensionNoReduce`, `goldilocks/quadratic_extension.go:38-42`. -/
def addExtNoReduce (a b : QEV) : QEV := (addNoReduce a.1 b.1, addNoReduce a.2 b.2)

/-- `SubExtension`, `goldilocks/quadratic_extension.go:45-49`. -/
def subExt (a b : QEV) : Circ QEV := do
  let c0 ← sub a.1 b.1
  let c1 ← sub a.2 b.2
  pure (c0, c1)

/-- `SubExtensionNoReduce`, `goldilocks/quadratic_extension.go:52-56`. -/
def subExtNoReduce (a b : QEV) : QEV := (subNoReduce a.1 b.1, subNoReduce a.2 b.2)

/-- `ReduceExtension`, `goldilocks/quadratic_extension.go:172-174`. -/
def reduceExt (x : QEV) : Circ QEV := do
  let c0 ← reduce x.1
  let c1 ← reduce x.2
  pure (c0, c1)

/-- `MulExtensionNoReduce`, `goldilocks/quadratic_extension.go:65-71` (`W = 7`). -/
def mulExtNoReduce (a b : QEV) : QEV :=
  let c0o0 := mulNoReduce a.1 b.1
  let c0o1 := mulNoReduce (mulNoReduce 7 a.2) b.2
  let c0 := addNoReduce c0o0 c0o1
  let c1 := addNoReduce (mulNoReduce a.1 b.2) (mulNoReduce a.2 b.1)
  (c0, c1)

/-- `MulExtension`, `goldilocks/quadratic_extension.go:59-62`. -/
def mulExt (a b : QEV) : Circ QEV := reduceExt (mulExtNoReduce a b)

/-- `MulAddExtension`, `goldilocks/quadratic_extension.go:75-79`. -/
def mulAddExt (a b c : QEV) : Circ QEV := reduceExt (addExtNoReduce (mulExtNoReduce a b) c)

/-- `MulAddExtensionNoReduce`, `goldilocks/quadratic_extension.go:81-85`. -/
def mulAddExtNoReduce (a b c : QEV) : QEV := addExtNoReduce (mulExtNoReduce a b) c

/-- `SubMulExtension`, `goldilocks/quadratic_extension.go:89-93`. -/
def subMulExt (a b c : QEV) : Circ QEV := reduceExt (mulExtNoReduce (subExtNoReduce a b) c)

/-- `ScalarMulExtension`, `goldilocks/quadratic_extension.go:96-104`. -/
def scalarMulExt (a : QEV) (b : Fr) : Circ QEV := do
  let c0 ← mul a.1 b
  let c1 ← mul a.2 b
  pure (c0, c1)

/-- `InnerProductExtension`, `goldilocks/quadratic_extension.go:107-120`. -/
def innerProductExt (constant : Fr) (startingAcc : QEV) (pairs : List (QEV × QEV)) : Circ QEV := do
  let acc ← pairs.foldlM (fun acc ab => do
    let m ← scalarMulExt ab.1 constant
    pure (mulAddExtNoReduce m ab.2 acc)) startingAcc
  reduceExt acc

/-- `IsZero`, `goldilocks/quadratic_extension.go:196-200`. -/
def isZeroExt (x : QEV) : Fr := isZero x.1 * isZero x.2

/-- `InverseExtension`, `goldilocks/quadratic_extension.go:123-134`. -/
def inverseExt (a : QEV) : Circ (QEV × Fr) := do
  let aIsZero := isZeroExt a
  assertEq aIsZero 0
  let a1 ← mul a.2 (DTH_ROOT : Fr)
  let aPowRMinus1 : QEV := (a.1, a1)
  let aPowR ← mulExt aPowRMinus1 a
  let inv ← inverse aPowR.1
  let res ← scalarMulExt aPowRMinus1 inv.1
  pure (res, inv.2)

/-- `DivExtension`, `goldilocks/quadratic_extension.go:137-140`. -/
def divExt (a b : QEV) : Circ (QEV × Fr) := do
  let inv ← inverseExt b
  let q ← mulExt a inv.1
  pure (q, inv.2)

/-- `ExpExtension`, `goldilocks/quadratic_extension.go:143-170`; `bits.Len64` is `Nat.size`. -/
def expExt (a : QEV) (exponent : ℕ) : Circ QEV :=
  match exponent with
  | 0 => pure oneExt
  | 1 => pure a
  | 2 => mulExt a a
  | e => do
    let st ← (List.range (Nat.size e)).foldlM (fun (st : QEV × QEV) i => do
      let current ← (if i ≠ 0 then mulExt st.1 st.1 else pure st.1)
      let product ← (if e >>> i &&& 1 ≠ 0 then mulExt st.2 current else pure st.2)
      pure (current, product)) (a, oneExt)
    pure st.2

/-- `ReduceWithPowers`, `goldilocks/quadratic_extension.go:177-193`. -/
def reduceWithPowers (terms : List QEV) (scalar : QEV) : Circ QEV :=
  terms.reverse.foldlM (fun sum t =>
    reduceExt (addExtNoReduce (mulExtNoReduce sum scalar) t)) zeroExt

/-- `Lookup`, `goldilocks/quadratic_extension.go:203-210`. -/
def lookup (b : Fr) (x y : QEV) : Circ QEV := do
  let c0 ← select b y.1 x.1
  let c1 ← select b y.2 x.2
  pure (c0, c1)

/-- `Lookup2`, `goldilocks/quadratic_extension.go:213-221`. -/
def lookup2 (b0 b1 : Fr) (qe0 qe1 qe2 qe3 : QEV) : Circ QEV := do
  let c0 ← lookup b0 qe0 qe1
  let c1 ← lookup b0 qe2 qe3
  lookup b1 c0 c1

/-- `AssertIsEqualExtension`, `goldilocks/quadratic_extension.go:224-230`. -/
def assertIsEqualExt (a b : QEV) : Circ Unit := do
  glAssertIsEqual a.1 b.1
  glAssertIsEqual a.2 b.2

/-- `RangeCheckQE`, `goldilocks/quadratic_extension.go:232-235`. -/
def rangeCheckQE (a : QEV) : Circ Unit := do
  rangeCheck a.1
  rangeCheck a.2

/-- Canonical representative of an extension element as a pair of circuit values. -/
def embQ (a : QE) : QEV := (emb a.re, emb a.im)

end Verif
