import Verif.Model.Gates
import Verif.Model.Types

/-!
# Model of `plonk/gates/evaluate_gates.go`

`vars` is passed by value to `evalFiltered`, so `RemovePrefix` only affects the copy used for one gate.
-/

set_option autoImplicit false

namespace Verif.Gates

open Circ

/-- `UNUSED_SELECTOR`, `plonk/gates/types.go:3`. -/
def UNUSED_SELECTOR : ℕ := 2 ^ 32 - 1

/-- `computeFilter`, `plonk/gates/evaluate_gates.go:33-55`. -/
def computeFilter (row : ℕ) (groupRange : ℕ × ℕ) (s : QEV) (manySelector : Bool) : Circ QEV := do
  let product ← (List.range' groupRange.1 (groupRange.2 - groupRange.1)).foldlM (fun product (i : ℕ) =>
    if i = row then pure product else do
      let t ← subExt ((i : Fr), 0) s
      mulExt product t) oneExt
  if manySelector then do
    let t ← subExt ((UNUSED_SELECTOR : Fr), 0) s
    mulExt product t
  else pure product

/-- `evalFiltered`, `plonk/gates/evaluate_gates.go:57-75`. -/
def evalFiltered (gate : Gate) (vars : Vars) (row selectorIndex : ℕ) (groupRange : ℕ × ℕ) (numSelectors : ℕ) :
    Circ (List QEV) := do
  let s ← idx vars.localConstants selectorIndex
  let filter ← computeFilter row groupRange s (decide (numSelectors > 1))
  let vars ← vars.removePrefix numSelectors
  let unfiltered ← gate.evalUnfiltered vars
  unfiltered.mapM fun u => mulExt u filter

/-- Inner loop of `EvaluateGateConstraints`, `plonk/gates/evaluate_gates.go:95-100`; `constraints` has length
`numGateConstraints`. -/
def addConstraints : List QEV → List QEV → Circ (List QEV)
  | constraints, [] => pure constraints
  | [], _ :: _ => goPanic "num_constraints() gave too low of a number"
  | a :: constraints, g :: gateConstraints => do
    let x ← addExt a g
    let rest ← addConstraints constraints gateConstraints
    pure (x :: rest)

/-- Body of the loop over gates, `plonk/gates/evaluate_gates.go:84-101`. -/
def gateStep (si : SelectorsInfo) (vars : Vars) (constraints : List QEV) (gi : Gate × ℕ) : Circ (List QEV) := do
  let selectorIndex ← idx si.selectorIndices gi.2
  let group ← idx si.groups selectorIndex
  let gateConstraints ← evalFiltered gi.1 vars gi.2 selectorIndex group si.groups.length
  addConstraints constraints gateConstraints

/-- `EvaluateGateConstraints`, `plonk/gates/evaluate_gates.go:77-105`. -/
def evaluateGateConstraints (gates : List Gate) (numGateConstraints : ℕ) (si : SelectorsInfo) (vars : Vars) :
    Circ (List QEV) :=
  gates.zipIdx.foldlM (gateStep si vars) (List.replicate numGateConstraints zeroExt)

end Verif.Gates
