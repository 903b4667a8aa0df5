import Verif.Model.ExtAlgebra
import Verif.Model.PoseidonGL
import Verif.Model.Roots
import Verif.Model.Fri

/-!
# Model of the gate constraints, `plonk/gates/*_gate.go`, `plonk/gates/vars.go`

Every gate's `EvalUnfiltered` is transcribed as a function of the evaluation variables returning the list
of constraint values in the order the code appends them.  Reading a slice out of range panics (`idx`).

Simplifications:
* gate parameters are `ℕ` (they are `uint64`); the shifts `1 << bits` and the subtraction in
  `numIntermediates` wrap as in Go.  `Verif.Model.Gates64` has 64-bit words throughout; property C84 relates the two.
* slicing beyond the length of a slice panics even if its capacity would have sufficed.
* the index checks of the `wire...` accessors are omitted (they are in `Verif.Model.Gates64`).
-/

set_option autoImplicit false

namespace Verif.Gates

open Circ Fri

/-- `EvaluationVars`, `plonk/gates/vars.go:8-12`. -/
structure EvaluationVars (F E : Type) where
  localConstants : List E
  localWires : List E
  publicInputsHash : Fin 4 → F

/-- Canonical representative of typed evaluation variables. -/
def EvaluationVars.enc (v : EvaluationVars Fp QE) : EvaluationVars Fr QEV :=
  ⟨v.localConstants.map embQ, v.localWires.map embQ, fun i => emb (v.publicInputsHash i)⟩

/-- Evaluation variables inside the circuit. -/
abbrev Vars := EvaluationVars Fr QEV

/-- `Range`, `plonk/gates/types.go:5-8`. -/
structure Range where
  start : ℕ
  stop : ℕ
deriving DecidableEq

/-- `1 << n` on `uint64`. -/
def shl1 (n : ℕ) : ℕ := if n < 64 then 2 ^ n else 0

namespace EvaluationVars

/-- `RemovePrefix`, `plonk/gates/vars.go:26-28`. -/
def removePrefix (vars : Vars) (numSelectors : ℕ) : Circ Vars := do
  let c ← sliceFrom vars.localConstants numSelectors
  pure { vars with localConstants := c }

/-- `GetLocalExtAlgebra`, `plonk/gates/vars.go:30-42`. -/
def getLocalExtAlgebra (vars : Vars) (wireRange : Range) : Circ QAV :=
  if wireRange.stop - wireRange.start ≠ 2 then goPanic "Range must be of size D"
  else do
    let a ← idx vars.localWires wireRange.start
    let b ← idx vars.localWires (wireRange.start + 1)
    pure (a, b)

end EvaluationVars

/-- The two coefficients appended by the loops `for j := 0; j < gl.D; j++`. -/
def coeffsV (a : QAV) : List QEV := [a.1, a.2]

/-- A loop appending the constraints of each iteration. -/
def collect (n : ℕ) (f : ℕ → Circ (List QEV)) : Circ (List QEV) := do
  let cs ← (List.range n).mapM f
  pure cs.flatten

/-! ## `arithmetic_gate.go`, `arithmetic_extension_gate.go`, `multiplication_extension_gate.go` -/

/-- `ArithmeticGate.EvalUnfiltered`, `plonk/gates/arithmetic_gate.go:44-84`. -/
def arithmetic (numOps : ℕ) (vars : Vars) : Circ (List QEV) := do
  let const0 ← idx vars.localConstants 0
  let const1 ← idx vars.localConstants 1
  collect numOps fun i => do
    let multiplicand0 ← idx vars.localWires (4 * i)
    let multiplicand1 ← idx vars.localWires (4 * i + 1)
    let addend ← idx vars.localWires (4 * i + 2)
    let output ← idx vars.localWires (4 * i + 3)
    let xy ← mulExt multiplicand0 multiplicand1
    let a ← mulExt xy const0
    let b ← mulExt addend const1
    let computedOutput ← addExt a b
    let d ← subExt output computedOutput
    pure [d]

/-- `ArithmeticExtensionGate.EvalUnfiltered`, `plonk/gates/arithmetic_extension_gate.go:43-86`. -/
def arithmeticExtension (numOps : ℕ) (vars : Vars) : Circ (List QEV) := do
  let const0 ← idx vars.localConstants 0
  let const1 ← idx vars.localConstants 1
  collect numOps fun i => do
    let multiplicand0 ← vars.getLocalExtAlgebra ⟨4 * 2 * i, 4 * 2 * i + 2⟩
    let multiplicand1 ← vars.getLocalExtAlgebra ⟨4 * 2 * i + 2, 4 * 2 * i + 2 * 2⟩
    let addend ← vars.getLocalExtAlgebra ⟨4 * 2 * i + 2 * 2, 4 * 2 * i + 3 * 2⟩
    let output ← vars.getLocalExtAlgebra ⟨4 * 2 * i + 3 * 2, 4 * 2 * i + 4 * 2⟩
    let mul ← mulAlg multiplicand0 multiplicand1
    let scaledMul ← scalarMulAlg const0 mul
    let computedOutput ← scalarMulAlg const1 addend
    let computedOutput ← addAlg computedOutput scaledMul
    let diff ← subAlg output computedOutput
    pure (coeffsV diff)

/-- `MultiplicationExtensionGate.EvalUnfiltered`, `plonk/gates/multiplication_extension_gate.go:43-76`. -/
def mulExtension (numOps : ℕ) (vars : Vars) : Circ (List QEV) := do
  let const0 ← idx vars.localConstants 0
  collect numOps fun i => do
    let multiplicand0 ← vars.getLocalExtAlgebra ⟨3 * 2 * i, 3 * 2 * i + 2⟩
    let multiplicand1 ← vars.getLocalExtAlgebra ⟨3 * 2 * i + 2, 3 * 2 * i + 2 * 2⟩
    let output ← vars.getLocalExtAlgebra ⟨3 * 2 * i + 2 * 2, 3 * 2 * i + 3 * 2⟩
    let mul ← mulAlg multiplicand0 multiplicand1
    let computedOutput ← scalarMulAlg const0 mul
    let diff ← subAlg output computedOutput
    pure (coeffsV diff)

/-! ## `base_sum_gate.go`, `constant_gate.go`, `public_input_gate.go`, `noop_gate.go` -/

/-- `BaseSumGate.EvalUnfiltered`, `plonk/gates/base_sum_gate.go:36-96`. -/
def baseSum (numLimbs base : ℕ) (vars : Vars) : Circ (List QEV) := do
  let sum ← idx vars.localWires 0
  let limbs ← (List.range numLimbs).mapM fun i => idx vars.localWires (1 + i)
  let computedSum ← reduceWithPowers limbs ((base : Fr), 0)
  let c0 ← subExt computedSum sum
  let cs ← limbs.mapM fun limb =>
    (List.range base).foldlM (fun acc (i : ℕ) => do
      let difference ← subExt limb ((i : Fr), 0)
      mulExt acc difference) oneExt
  pure (c0 :: cs)

/-- `ConstantGate.EvalUnfiltered`, `plonk/gates/constant_gate.go:43-69`. -/
def constant (numConsts : ℕ) (vars : Vars) : Circ (List QEV) :=
  (List.range numConsts).mapM fun i => do
    let c ← idx vars.localConstants i
    let w ← idx vars.localWires i
    subExt c w

/-- `PublicInputGate.EvalUnfiltered`, `plonk/gates/public_input_gate.go:28-51`. -/
def publicInput (vars : Vars) : Circ (List QEV) :=
  (List.finRange 4).mapM fun (i : Fin 4) => do
    let w ← idx vars.localWires i
    subExt w (vars.publicInputsHash i, 0)

/-- `NoopGate.EvalUnfiltered`, `plonk/gates/noop_gate.go:28-34`. -/
def noop (_ : Vars) : Circ (List QEV) := pure []

/-! ## `exponentiation_gate.go` -/

/-- `prevIntermediateValue`, `plonk/gates/exponentiation_gate.go:102-107`. -/
def expPrev (intermediateValues : List QEV) (i : ℕ) : Circ QEV :=
  if i = 0 then pure oneExt else do
    let v ← idx intermediateValues (i - 1)
    mulExt v v

/-- `ExponentiationGate.EvalUnfiltered`, `plonk/gates/exponentiation_gate.go:57-128`. -/
def exponentiation (numPowerBits : ℕ) (vars : Vars) : Circ (List QEV) := do
  let base ← idx vars.localWires 0
  let powerBits ← (List.range numPowerBits).mapM fun i => idx vars.localWires (1 + i)
  let intermediateValues ← (List.range numPowerBits).mapM fun i => idx vars.localWires (2 + numPowerBits + i)
  let output ← idx vars.localWires (1 + numPowerBits)
  let cs ← (List.range numPowerBits).mapM fun i => do
    let prev ← expPrev intermediateValues i
    let curBit ← idx powerBits (numPowerBits - i - 1)
    let tmp ← mulExt curBit oneExt
    let tmp ← subExt tmp oneExt
    let mulBy ← mulExt curBit base
    let mulBy ← subExt mulBy tmp
    let diff ← mulExt prev mulBy
    let v ← idx intermediateValues i
    subExt diff v
  -- the index `numPowerBits - 1` wraps around when there are no power bits
  let last ← if numPowerBits = 0 then goPanic "index out of range" else idx intermediateValues (numPowerBits - 1)
  let outputDiff ← subExt output last
  pure (cs ++ [outputDiff])

/-! ## `random_access_gate.go` -/

/-- The inner loop over `listItems`, `plonk/gates/random_access_gate.go:162-174`. -/
def foldPairs (b : QEV) : List QEV → Circ (List QEV)
  | [] => pure []
  | [_] => goPanic "index out of range"
  | x :: y :: l => do
    let diff ← subExt y x
    let mul ← mulExt b diff
    let add ← addExt x mul
    let rest ← foldPairs b l
    pure (add :: rest)

/-- `RandomAccessGate.startExtraConstants`, `plonk/gates/random_access_gate.go:104-106`. -/
def raStartExtra (bits numCopies : ℕ) : ℕ := (2 + shl1 bits) * numCopies

/-- One copy, `plonk/gates/random_access_gate.go:140-182`. -/
def randomAccessCopy (bits numCopies numExtraConstants : ℕ) (vars : Vars) (copy : ℕ) : Circ (List QEV) := do
  let accessIndex ← idx vars.localWires ((2 + shl1 bits) * copy)
  let listItems ← (List.range (shl1 bits)).mapM fun i => idx vars.localWires ((2 + shl1 bits) * copy + 2 + i)
  let claimedElement ← idx vars.localWires ((2 + shl1 bits) * copy + 1)
  let bs ← (List.range bits).mapM fun i =>
    idx vars.localWires (raStartExtra bits numCopies + numExtraConstants + copy * bits + i)
  let boolean ← bs.mapM fun b => do
    let bSquared ← mulExt b b
    subExt bSquared b
  let reconstructedIndex ← reduceWithPowers bs ((2 : ℕ), 0)
  let indexDiff ← subExt reconstructedIndex accessIndex
  let listItems ← bs.foldlM (fun l b => foldPairs b l) listItems
  match listItems with
  | [item] => do
    let d ← subExt item claimedElement
    pure (boolean ++ [indexDiff, d])
  | _ => goPanic "listItems(len) != 1"

/-- `RandomAccessGate.EvalUnfiltered`, `plonk/gates/random_access_gate.go:74-190`. -/
def randomAccess (bits numCopies numExtraConstants : ℕ) (vars : Vars) : Circ (List QEV) := do
  let cs ← collect numCopies (randomAccessCopy bits numCopies numExtraConstants vars)
  let es ← (List.range numExtraConstants).mapM fun i => do
    let c ← idx vars.localConstants i
    let w ← idx vars.localWires (raStartExtra bits numCopies + i)
    subExt c w
  pure (cs ++ es)

/-! ## `reducing_gate.go`, `reducing_extension_gate.go` -/

/-- `wiresAccs`, `plonk/gates/reducing_gate.go:65-75`, `reducing_extension_gate.go:65-75`. -/
def wiresAccs (numCoeffs startAccs i : ℕ) : Range :=
  if i = numCoeffs - 1 then ⟨0, 2⟩ else ⟨startAccs + 2 * i, startAccs + 2 * (i + 1)⟩

/-- The loop shared by both gates, `plonk/gates/reducing_gate.go:96-107`, `reducing_extension_gate.go:95-106`. -/
def reducingLoop (alpha oldAcc : QAV) (coeffs accs : List QAV) (numCoeffs : ℕ) : Circ (List QEV) := do
  let st ← (List.range numCoeffs).foldlM (fun (st : QAV × List QEV) i => do
    let coeff ← idx coeffs i
    let tmp ← mulAlg st.1 alpha
    let tmp ← addAlg tmp coeff
    let a ← idx accs i
    let tmp ← subAlg tmp a
    pure (a, st.2 ++ coeffsV tmp)) (oldAcc, [])
  pure st.2

/-- `ReducingGate.EvalUnfiltered`, `plonk/gates/reducing_gate.go:45-110` (`START_COEFFS_REDUCING_GATE = 3 * D`).
`ToQuadraticExtensionAlgebra` (line 99) is applied when the coefficients are collected. -/
def reducing (numCoeffs : ℕ) (vars : Vars) : Circ (List QEV) := do
  let alpha ← vars.getLocalExtAlgebra ⟨2, 2 * 2⟩
  let oldAcc ← vars.getLocalExtAlgebra ⟨2 * 2, 3 * 2⟩
  let coeffs ← (List.range numCoeffs).mapM fun i => do
    let c ← idx vars.localWires (6 + i)
    pure (toQA c)
  let accs ← (List.range numCoeffs).mapM fun i => vars.getLocalExtAlgebra (wiresAccs numCoeffs (6 + numCoeffs) i)
  reducingLoop alpha oldAcc coeffs accs numCoeffs

/-- `ReducingExtensionGate.EvalUnfiltered`, `plonk/gates/reducing_extension_gate.go:45-109`. -/
def reducingExtension (numCoeffs : ℕ) (vars : Vars) : Circ (List QEV) := do
  let alpha ← vars.getLocalExtAlgebra ⟨2, 2 * 2⟩
  let oldAcc ← vars.getLocalExtAlgebra ⟨2 * 2, 3 * 2⟩
  let coeffs ← (List.range numCoeffs).mapM fun i => vars.getLocalExtAlgebra ⟨6 + 2 * i, 6 + 2 * (i + 1)⟩
  let accs ← (List.range numCoeffs).mapM fun i => vars.getLocalExtAlgebra (wiresAccs numCoeffs (6 + numCoeffs * 2) i)
  reducingLoop alpha oldAcc coeffs accs numCoeffs

/-! ## `coset_interpolation_gate.go` -/

/-- Go slice expression `l[a:b]`. -/
def slice {α : Type} (l : List α) (a b : ℕ) : Circ (List α) :=
  if a ≤ b ∧ b ≤ l.length then pure ((l.take b).drop a) else goPanic "slice bounds out of range"

/-- `numIntermediates`, `plonk/gates/coset_interpolation_gate.go:123-125` (the subtraction is modulo `2^64`). -/
def numIntermediates (subgroupBits degree : ℕ) : ℕ :=
  ((shl1 subgroupBits + (2 ^ 64 - 2)) % 2 ^ 64) / (degree - 1)

/-- `startIntermediates`, `plonk/gates/coset_interpolation_gate.go:119-121`. -/
def startIntermediates (subgroupBits : ℕ) : ℕ := 1 + shl1 subgroupBits * 2 + 2 + 2

/-- One iteration of the loop over intermediates, `plonk/gates/coset_interpolation_gate.go:189-217`. -/
def cosetStep (subgroupBits degree : ℕ) (domain : List Fp) (values : List QAV) (weights : List Fp) (point : QAV)
    (vars : Vars) (st : (QAV × QAV) × List QEV) (i : ℕ) : Circ ((QAV × QAV) × List QEV) := do
  let numInter := numIntermediates subgroupBits degree
  let intermediateEval ← vars.getLocalExtAlgebra
    ⟨startIntermediates subgroupBits + 2 * i, startIntermediates subgroupBits + 2 * i + 2⟩
  let intermediateProd ← vars.getLocalExtAlgebra
    ⟨startIntermediates subgroupBits + 2 * (numInter + i), startIntermediates subgroupBits + 2 * (numInter + i) + 2⟩
  let evalDiff ← subAlg intermediateEval st.1.1
  let prodDiff ← subAlg intermediateProd st.1.2
  let startIndex := 1 + (degree - 1) * (i + 1)
  let endIndex := startIndex + degree - 1
  let endIndex := if endIndex > shl1 subgroupBits then shl1 subgroupBits else endIndex
  let d ← slice domain startIndex endIndex
  let v ← slice values startIndex endIndex
  let w ← slice weights startIndex endIndex
  let st' ← partialInterpolate d v w point intermediateEval intermediateProd
  pure (st', st.2 ++ coeffsV evalDiff ++ coeffsV prodDiff)

/-- `CosetInterpolationGate.EvalUnfiltered`, `plonk/gates/coset_interpolation_gate.go:77-226`.  A zero divisor in
`numIntermediates` (`degree = 1`) panics; `degree = 0` panics in the first interpolation step (no values). -/
def cosetInterpolation (subgroupBits degree : ℕ) (weights : List Fp) (vars : Vars) : Circ (List QEV) := do
  if degree = 1 then goPanic "integer divide by zero"
  let shift ← idx vars.localWires 0
  let startPoint := 1 + shl1 subgroupBits * 2
  let evaluationPoint ← vars.getLocalExtAlgebra ⟨startPoint, startPoint + 2⟩
  let startShifted := startIntermediates subgroupBits + 2 * 2 * numIntermediates subgroupBits degree
  let shiftedEvaluationPoint ← vars.getLocalExtAlgebra ⟨startShifted, startShifted + 2⟩
  let negShift ← scalarMulExt shift negOne
  let tmp ← scalarMulAlg negShift shiftedEvaluationPoint
  let tmp ← addAlg tmp evaluationPoint
  let domain ← orPanic "n_log > TWO_ADICITY" (twoAdicSubgroup subgroupBits)
  let values ← (List.range (shl1 subgroupBits)).mapM fun i => vars.getLocalExtAlgebra ⟨1 + i * 2, 1 + i * 2 + 2⟩
  let d ← slice domain 0 degree
  let v ← slice values 0 degree
  let w ← slice weights 0 degree
  let st ← partialInterpolate d v w shiftedEvaluationPoint zeroAlg oneAlg
  let st ← (List.range (numIntermediates subgroupBits degree)).foldlM
    (cosetStep subgroupBits degree domain values weights shiftedEvaluationPoint vars) (st, coeffsV tmp)
  let startValue := startPoint + 2
  let evaluationValue ← vars.getLocalExtAlgebra ⟨startValue, startValue + 2⟩
  let evalDiff ← subAlg evaluationValue st.1.1
  pure (st.2 ++ coeffsV evalDiff)

/-! ## `poseidon_mds_gate.go` -/

/-- `mdsRowShfAlgebra`, `plonk/gates/poseidon_mds_gate.go:43-63`. -/
def mdsRowShfAlgebra (r : Fin 12) (v : Fin 12 → QAV) : Circ QAV := do
  let res ← (List.finRange 12).foldlM (fun res (i : Fin 12) => do
    let t ← scalarMulAlg (PoseidonGL.const1 PoseidonGL.MDS_MATRIX_CIRC i, 0) (v (i + r))
    addAlg res t) zeroAlg
  let t ← scalarMulAlg (PoseidonGL.const1 PoseidonGL.MDS_MATRIX_DIAG r, 0) (v r)
  addAlg res t

/-- `PoseidonMdsGate.EvalUnfiltered` and `mdsLayerAlgebra`, `plonk/gates/poseidon_mds_gate.go:29-99`. -/
def poseidonMds (vars : Vars) : Circ (List QEV) := do
  let inputs ← tabM 12 fun i => vars.getLocalExtAlgebra ⟨i * 2, (i + 1) * 2⟩
  let computedOutputs ← tabM 12 fun r => mdsRowShfAlgebra r inputs
  let cs ← tabM 12 fun i => do
    let output ← vars.getLocalExtAlgebra ⟨(12 + i) * 2, (12 + i + 1) * 2⟩
    subAlg output (computedOutputs i)
  pure ((List.ofFn cs).flatMap coeffsV)

/-! ## `poseidon_gate.go` -/

open PoseidonGL in
/-- Comparison of a state with the S-box input wires, which then replace it,
`plonk/gates/poseidon_gate.go:135-139, 166-170`. -/
def sBoxInputs (vars : Vars) (wire : Fin 12 → ℕ) (state : StateExt) : Circ (List QEV × StateExt) := do
  let rs ← tabM 12 fun i => do
    let sBoxIn ← idx vars.localWires (wire i)
    let c ← subExt (state i) sBoxIn
    pure (c, sBoxIn)
  pure (List.ofFn fun i => (rs i).1, fun i => (rs i).2)

open PoseidonGL in
/-- A full round of the first half, `plonk/gates/poseidon_gate.go:132-144`. -/
def poseidonFull0 (vars : Vars) (st : List QEV × StateExt) (r : ℕ) : Circ (List QEV × StateExt) := do
  let state ← constantLayerExt st.2 r
  let (cs, state) ← if r ≠ 0 then sBoxInputs vars (fun i => 29 + (r - 1) * 12 + i) state else pure ([], state)
  let state ← sBoxLayerExt state
  let state ← mdsLayerExt state
  pure (st.1 ++ cs, state)

open PoseidonGL in
/-- A partial round, `plonk/gates/poseidon_gate.go:150-160`; the last one adds no constant. -/
def poseidonPartial (vars : Vars) (st : List QEV × StateExt) (r : ℕ) : Circ (List QEV × StateExt) := do
  let sBoxIn ← idx vars.localWires (65 + r)
  let c ← subExt (st.2 0) sBoxIn
  let s0 ← sBoxMonomialExt sBoxIn
  let s0 ← if r < 21 then addExt s0 (const1 FAST_PARTIAL_ROUND_CONSTANTS r, 0) else pure s0
  let state ← mdsPartialLayerFastExt (Function.update st.2 0 s0) r
  pure (st.1 ++ [c], state)

open PoseidonGL in
/-- A full round of the second half, `plonk/gates/poseidon_gate.go:164-174`; the round counter is `26 + r`. -/
def poseidonFull1 (vars : Vars) (st : List QEV × StateExt) (r : ℕ) : Circ (List QEV × StateExt) := do
  let state ← constantLayerExt st.2 (26 + r)
  let (cs, state) ← sBoxInputs vars (fun i => 87 + r * 12 + i) state
  let state ← sBoxLayerExt state
  let state ← mdsLayerExt state
  pure (st.1 ++ cs, state)

open PoseidonGL in
/-- The possibly swapped input, `plonk/gates/poseidon_gate.go:116-127`. -/
def poseidonInput (vars : Vars) : Circ StateExt := do
  let sw ← tabM 4 fun i => do
    let deltaI ← idx vars.localWires (25 + i)
    let inputLhs ← idx vars.localWires i
    let inputRhs ← idx vars.localWires (i + 4)
    let l ← addExt inputLhs deltaI
    let r ← subExt inputRhs deltaI
    pure (l, r)
  let rest ← tabM 4 fun i => idx vars.localWires (8 + i)
  pure (Fin.append (Fin.append (fun i => (sw i).1) (fun i => (sw i).2)) rest)

open PoseidonGL in
/-- `PoseidonGate.EvalUnfiltered`, `plonk/gates/poseidon_gate.go:29-181`. -/
def poseidon (vars : Vars) : Circ (List QEV) := do
  let swap ← idx vars.localWires 24
  let swapMinusOne ← subExt swap oneExt
  let c0 ← mulExt swap swapMinusOne
  let deltas ← tabM 4 fun i => do
    let inputLhs ← idx vars.localWires i
    let inputRhs ← idx vars.localWires (i + 4)
    let deltaI ← idx vars.localWires (25 + i)
    let diff ← subExt inputRhs inputLhs
    let expectedDeltaI ← mulExt swap diff
    subExt expectedDeltaI deltaI
  let state ← poseidonInput vars
  let st ← [0, 1, 2, 3].foldlM (poseidonFull0 vars) (c0 :: List.ofFn deltas, state)
  let state ← partialFirstConstantLayerExt st.2
  let state ← mdsPartialLayerInitExt state
  let st ← (List.range 22).foldlM (poseidonPartial vars) (st.1, state)
  let st ← [0, 1, 2, 3].foldlM (poseidonFull1 vars) st
  let outs ← tabM 12 fun i => do
    let o ← idx vars.localWires (12 + i)
    subExt (st.2 i) o
  pure (st.1 ++ List.ofFn outs)

/-! ## The gate interface -/

/-- The gate kinds with their parameters (the implementations of `Gate`, `plonk/gates/gates.go:11-18`). -/
inductive Gate
  | arithmetic (numOps : ℕ)
  | arithmeticExtension (numOps : ℕ)
  | baseSum (numLimbs base : ℕ)
  | constant (numConsts : ℕ)
  | cosetInterpolation (subgroupBits degree : ℕ) (weights : List Fp)
  | exponentiation (numPowerBits : ℕ)
  | mulExtension (numOps : ℕ)
  | noop
  | poseidon
  | poseidonMds
  | publicInput
  | randomAccess (bits numCopies numExtraConstants : ℕ)
  | reducing (numCoeffs : ℕ)
  | reducingExtension (numCoeffs : ℕ)

/-- `Gate.EvalUnfiltered`, `plonk/gates/gates.go:13-17`. -/
def Gate.evalUnfiltered : Gate → Vars → Circ (List QEV)
  | .arithmetic n => Gates.arithmetic n
  | .arithmeticExtension n => Gates.arithmeticExtension n
  | .baseSum n b => Gates.baseSum n b
  | .constant n => Gates.constant n
  | .cosetInterpolation s d w => Gates.cosetInterpolation s d w
  | .exponentiation n => Gates.exponentiation n
  | .mulExtension n => Gates.mulExtension n
  | .noop => Gates.noop
  | .poseidon => Gates.poseidon
  | .poseidonMds => Gates.poseidonMds
  | .publicInput => Gates.publicInput
  | .randomAccess b c e => Gates.randomAccess b c e
  | .reducing n => Gates.reducing n
  | .reducingExtension n => Gates.reducingExtension n

end Verif.Gates
