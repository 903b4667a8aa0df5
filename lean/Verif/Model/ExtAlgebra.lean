import Verif.Model.QuadExt

/-!
# Model of `goldilocks/quadratic_extension_algebra.go` (with `D = 2`)
-/

set_option autoImplicit false

namespace Verif

open Circ

/-- `QuadraticExtensionAlgebraVariable`, `goldilocks/quadratic_extension_algebra.go:7`. -/
abbrev QAV := QEV × QEV

/-- `ToQuadraticExtensionAlgebra`, `goldilocks/quadratic_extension_algebra.go:16-18`. -/
def toQA (x : QEV) : QAV := (x, zeroExt)

/-- `ZeroExtensionAlgebra`, `goldilocks/quadratic_extension_algebra.go:20-22`. -/
def zeroAlg : QAV := toQA zeroExt

/-- `OneExtensionAlgebra`, `goldilocks/quadratic_extension_algebra.go:24-26`. -/
def oneAlg : QAV := toQA oneExt

/-- `AddExtensionAlgebra`, `goldilocks/quadratic_extension_algebra.go:28-37`. -/
def addAlg (a b : QAV) : Circ QAV := do
  let s0 ← addExt a.1 b.1
  let s1 ← addExt a.2 b.2
  pure (s0, s1)

/-- `SubExtensionAlgebra`, `goldilocks/quadratic_extension_algebra.go:39-48`. -/
def subAlg (a b : QAV) : Circ QAV := do
  let s0 ← subExt a.1 b.1
  let s1 ← subExt a.2 b.2
  pure (s0, s1)

/-- `MulExtensionAlgebra`, `goldilocks/quadratic_extension_algebra.go:50-75`.  The loops filling
`inner`/`innerW` are unrolled for `D = 2`: `inner = [[(a0,b0)], [(a0,b1),(a1,b0)]]`,
`innerW = [[(a1,b1)], []]`. -/
def mulAlg (a b : QAV) : Circ QAV := do
  let acc0 ← innerProductExt 7 zeroExt [(a.2, b.2)]
  let p0 ← innerProductExt 1 acc0 [(a.1, b.1)]
  let acc1 ← innerProductExt 7 zeroExt []
  let p1 ← innerProductExt 1 acc1 [(a.1, b.2), (a.2, b.1)]
  pure (p0, p1)

/-- `ScalarMulExtensionAlgebra`, `goldilocks/quadratic_extension_algebra.go:77-86`. -/
def scalarMulAlg (a : QEV) (b : QAV) : Circ QAV := do
  let s0 ← mulExt a b.1
  let s1 ← mulExt a b.2
  pure (s0, s1)

/-- One iteration of the loop in `PartialInterpolateExtAlgebra`,
`goldilocks/quadratic_extension_algebra.go:109-122`. -/
def partialInterpolateStep (point : QAV) (st : QAV × QAV) (dvw : Fp × QAV × Fp) : Circ (QAV × QAV) := do
  let val := dvw.2.1
  let xQEAlgebra := toQA (toQE (emb dvw.1))
  let weight := toQE (emb dvw.2.2)
  let term ← subAlg point xQEAlgebra
  let weightedVal ← scalarMulAlg weight val
  let newEval ← mulAlg st.1 term
  let tmp ← mulAlg weightedVal st.2
  let newEval ← addAlg newEval tmp
  let newPartialProd ← mulAlg st.2 term
  pure (newEval, newPartialProd)

/-- `PartialInterpolateExtAlgebra`, `goldilocks/quadratic_extension_algebra.go:88-125`. -/
def partialInterpolate (domain : List Fp) (values : List QAV) (weights : List Fp) (point : QAV)
    (initialEval initialPartialProd : QAV) : Circ (QAV × QAV) :=
  if values.length = 0 then goPanic "Cannot interpolate with no values"
  else if values.length ≠ domain.length then goPanic "Domain and values must have the same length"
  else if values.length ≠ weights.length then
    goPanic "Domain and barycentric weights must have the same length"
  else
    (domain.zip (values.zip weights)).foldlM (partialInterpolateStep point)
      (initialEval, initialPartialProd)

/-- Inclusion of the extension field in the algebra. -/
abbrev ofExt (a : QE) : QA := QuadraticAlgebra.C a

/-- Canonical representative of an extension-algebra element. -/
def embA (a : QA) : QAV := (embQ a.re, embQ a.im)

end Verif
