import Verif.Model.EvaluateGates

/-!
# The gates on 64-bit words, `plonk/gates/*_gate.go`, `plonk/gates/vars.go`

`Verif.Model.Gates` has natural-number parameters and leaves out the checks inside the `wire...` accessors.  Here the
same evaluators are written with `UInt64` parameters, loop counters and wire numbers (arithmetic wraps around as in Go), and
every read goes through the accessor of the code with its checks.  Constants such as `gl.D = 2`, `SPONGE_WIDTH = 12`,
`HALF_N_FULL_ROUNDS = 4`, `N_PARTIAL_ROUNDS = 22` are written as numerals.  Parts without wire numbers (`foldPairs`,
`partialInterpolate`, the Poseidon layers) are shared with `Verif.Model.Gates`.
-/

set_option autoImplicit false

namespace Verif.Gates64

open Circ Gates

/-- `Range`, `plonk/gates/types.go:5-8`. -/
structure Range where
  start : UInt64
  stop : UInt64

/-- `1 << n` on `uint64`. -/
def shl1 (n : UInt64) : UInt64 := if n < 64 then 1 <<< n else 0

/-- `l[i]` with a `uint64` index. -/
def at_ {α : Type} (l : List α) (i : UInt64) : Circ α := idx l i.toNat

/-- `for i := uint64(0); i < n; i++` appending one value per iteration. -/
def loop {β : Type} (n : UInt64) (f : UInt64 → Circ β) : Circ (List β) :=
  (List.range n.toNat).mapM fun i => f (UInt64.ofNat i)

/-- The same loop appending a list per iteration. -/
def loopFlat (n : UInt64) (f : UInt64 → Circ (List QEV)) : Circ (List QEV) := do
  let cs ← loop n f
  pure cs.flatten

/-- `GetLocalExtAlgebra`, `plonk/gates/vars.go:30-42`.  The difference wraps around, so a range whose end has passed `2^64`
goes through the check, and the loop then leaves the zero value. -/
def getLocalExtAlgebra (vars : Vars) (r : Range) : Circ QAV :=
  if r.stop - r.start ≠ 2 then goPanic "Range must be of size D"
  else if r.start < r.stop then do
    let a ← at_ vars.localWires r.start
    let b ← at_ vars.localWires (r.start + 1)
    pure (a, b)
  else pure zeroAlg

/-! ## Arithmetic gates -/

/-- `WireIthMultiplicand0`, `plonk/gates/arithmetic_gate.go:44-46`. -/
def arithMultiplicand0 (i : UInt64) : UInt64 := 4 * i

/-- `WireIthMultiplicand1`, `plonk/gates/arithmetic_gate.go:48-50`. -/
def arithMultiplicand1 (i : UInt64) : UInt64 := 4 * i + 1

/-- `WireIthAddend`, `plonk/gates/arithmetic_gate.go:52-54`. -/
def arithAddend (i : UInt64) : UInt64 := 4 * i + 2

/-- `WireIthOutput`, `plonk/gates/arithmetic_gate.go:56-58`. -/
def arithOutput (i : UInt64) : UInt64 := 4 * i + 3

/-- `ArithmeticGate.EvalUnfiltered`, `plonk/gates/arithmetic_gate.go:60-84`. -/
def arithmetic (numOps : UInt64) (vars : Vars) : Circ (List QEV) := do
  let const0 ← at_ vars.localConstants 0
  let const1 ← at_ vars.localConstants 1
  loopFlat numOps fun i => do
    let multiplicand0 ← at_ vars.localWires (arithMultiplicand0 i)
    let multiplicand1 ← at_ vars.localWires (arithMultiplicand1 i)
    let addend ← at_ vars.localWires (arithAddend i)
    let output ← at_ vars.localWires (arithOutput i)
    let xy ← mulExt multiplicand0 multiplicand1
    let a ← mulExt xy const0
    let b ← mulExt addend const1
    let computedOutput ← addExt a b
    let d ← subExt output computedOutput
    pure [d]

/-- `wiresIthMultiplicand0`, `plonk/gates/arithmetic_extension_gate.go:43-45`. -/
def arithExtMultiplicand0 (i : UInt64) : Range := ⟨4 * 2 * i, 4 * 2 * i + 2⟩

/-- `wiresIthMultiplicand1`, `plonk/gates/arithmetic_extension_gate.go:47-49`. -/
def arithExtMultiplicand1 (i : UInt64) : Range := ⟨4 * 2 * i + 2, 4 * 2 * i + 2 * 2⟩

/-- `wiresIthAddend`, `plonk/gates/arithmetic_extension_gate.go:51-53`. -/
def arithExtAddend (i : UInt64) : Range := ⟨4 * 2 * i + 2 * 2, 4 * 2 * i + 3 * 2⟩

/-- `wiresIthOutput`, `plonk/gates/arithmetic_extension_gate.go:55-57`. -/
def arithExtOutput (i : UInt64) : Range := ⟨4 * 2 * i + 3 * 2, 4 * 2 * i + 4 * 2⟩

/-- `ArithmeticExtensionGate.EvalUnfiltered`, `plonk/gates/arithmetic_extension_gate.go:59-86`. -/
def arithmeticExtension (numOps : UInt64) (vars : Vars) : Circ (List QEV) := do
  let const0 ← at_ vars.localConstants 0
  let const1 ← at_ vars.localConstants 1
  loopFlat numOps fun i => do
    let multiplicand0 ← getLocalExtAlgebra vars (arithExtMultiplicand0 i)
    let multiplicand1 ← getLocalExtAlgebra vars (arithExtMultiplicand1 i)
    let addend ← getLocalExtAlgebra vars (arithExtAddend i)
    let output ← getLocalExtAlgebra vars (arithExtOutput i)
    let mul ← mulAlg multiplicand0 multiplicand1
    let scaledMul ← scalarMulAlg const0 mul
    let computedOutput ← scalarMulAlg const1 addend
    let computedOutput ← addAlg computedOutput scaledMul
    let diff ← subAlg output computedOutput
    pure (coeffsV diff)

/-- `wiresIthMultiplicand0`, `plonk/gates/multiplication_extension_gate.go:43-45`. -/
def mulExtMultiplicand0 (i : UInt64) : Range := ⟨3 * 2 * i, 3 * 2 * i + 2⟩

/-- `wiresIthMultiplicand1`, `plonk/gates/multiplication_extension_gate.go:47-49`. -/
def mulExtMultiplicand1 (i : UInt64) : Range := ⟨3 * 2 * i + 2, 3 * 2 * i + 2 * 2⟩

/-- `wiresIthOutput`, `plonk/gates/multiplication_extension_gate.go:51-53`. -/
def mulExtOutput (i : UInt64) : Range := ⟨3 * 2 * i + 2 * 2, 3 * 2 * i + 3 * 2⟩

/-- `MultiplicationExtensionGate.EvalUnfiltered`, `plonk/gates/multiplication_extension_gate.go:55-76`. -/
def mulExtension (numOps : UInt64) (vars : Vars) : Circ (List QEV) := do
  let const0 ← at_ vars.localConstants 0
  loopFlat numOps fun i => do
    let multiplicand0 ← getLocalExtAlgebra vars (mulExtMultiplicand0 i)
    let multiplicand1 ← getLocalExtAlgebra vars (mulExtMultiplicand1 i)
    let output ← getLocalExtAlgebra vars (mulExtOutput i)
    let mul ← mulAlg multiplicand0 multiplicand1
    let computedOutput ← scalarMulAlg const0 mul
    let diff ← subAlg output computedOutput
    pure (coeffsV diff)

/-! ## `base_sum_gate.go`, `constant_gate.go`, `public_input_gate.go` -/

/-- `make([]T, n)` for an extension element type: lengths above `maxLen` panic. -/
def make (maxLen : ℕ) (n : UInt64) : Circ Unit :=
  if n.toNat ≤ maxLen then pure () else goPanic "makeslice: len out of range"

/-- `BaseSumGate.EvalUnfiltered` with `limbs`, `plonk/gates/base_sum_gate.go:57-96`.  The slice of limb numbers (line 58) has
smaller elements than the slice of limbs (line 72), so only the latter can be too long. -/
def baseSum (maxLen : ℕ) (numLimbs base : UInt64) (vars : Vars) : Circ (List QEV) := do
  let sum ← at_ vars.localWires 0
  make maxLen numLimbs
  let limbs ← loop numLimbs fun i => at_ vars.localWires (1 + i)
  let computedSum ← reduceWithPowers limbs ((base.toNat : Fr), 0)
  let c0 ← subExt computedSum sum
  let cs ← limbs.mapM fun limb =>
    (List.range base.toNat).foldlM (fun acc (i : ℕ) => do
      let difference ← subExt limb (((UInt64.ofNat i).toNat : Fr), 0)
      mulExt acc difference) oneExt
  pure (c0 :: cs)

/-- `ConstInput`, `plonk/gates/constant_gate.go:43-48`. -/
def constInput (numConsts i : UInt64) : Circ UInt64 :=
  if i ≥ numConsts then goPanic "Invalid constant index" else pure i

/-- `WireOutput`, `plonk/gates/constant_gate.go:50-55`. -/
def constOutput (numConsts i : UInt64) : Circ UInt64 :=
  if i ≥ numConsts then goPanic "Invalid wire index" else pure i

/-- `ConstantGate.EvalUnfiltered`, `plonk/gates/constant_gate.go:57-69`. -/
def constant (numConsts : UInt64) (vars : Vars) : Circ (List QEV) :=
  loop numConsts fun i => do
    let ci ← constInput numConsts i
    let c ← at_ vars.localConstants ci
    let wi ← constOutput numConsts i
    let w ← at_ vars.localWires wi
    subExt c w

/-- `WiresPublicInputsHash`, `plonk/gates/public_input_gate.go:28-30`. -/
def wiresPublicInputsHash : Fin 4 → UInt64 := ![0, 1, 2, 3]

/-- `PublicInputGate.EvalUnfiltered`, `plonk/gates/public_input_gate.go:32-51`. -/
def publicInput (vars : Vars) : Circ (List QEV) :=
  (List.finRange 4).mapM fun (i : Fin 4) => do
    let w ← at_ vars.localWires (wiresPublicInputsHash i)
    subExt w (vars.publicInputsHash i, 0)

/-! ## `exponentiation_gate.go` -/

/-- `wirePowerBit`, `plonk/gates/exponentiation_gate.go:62-67`. -/
def wirePowerBit (numPowerBits i : UInt64) : Circ UInt64 :=
  if i ≥ numPowerBits then goPanic "Invalid power bit index" else pure (1 + i)

/-- `wireOutput`, `plonk/gates/exponentiation_gate.go:69-71`. -/
def expOutput (numPowerBits : UInt64) : UInt64 := 1 + numPowerBits

/-- `wireIntermediateValue`, `plonk/gates/exponentiation_gate.go:73-78`. -/
def wireIntermediateValue (numPowerBits i : UInt64) : Circ UInt64 :=
  if i ≥ numPowerBits then goPanic "Invalid intermediate value index" else pure (2 + numPowerBits + i)

/-- `prevIntermediateValue`, `plonk/gates/exponentiation_gate.go:102-107`. -/
def expPrev (intermediateValues : List QEV) (i : UInt64) : Circ QEV :=
  if i = 0 then pure oneExt else do
    let v ← at_ intermediateValues (i - 1)
    mulExt v v

/-- `ExponentiationGate.EvalUnfiltered`, `plonk/gates/exponentiation_gate.go:80-128`. -/
def exponentiation (numPowerBits : UInt64) (vars : Vars) : Circ (List QEV) := do
  let base ← at_ vars.localWires 0
  let powerBits ← loop numPowerBits fun i => do
    let w ← wirePowerBit numPowerBits i
    at_ vars.localWires w
  let intermediateValues ← loop numPowerBits fun i => do
    let w ← wireIntermediateValue numPowerBits i
    at_ vars.localWires w
  let output ← at_ vars.localWires (expOutput numPowerBits)
  let cs ← loop numPowerBits fun i => do
    let prev ← expPrev intermediateValues i
    let curBit ← at_ powerBits (numPowerBits - i - 1)
    let tmp ← mulExt curBit oneExt
    let tmp ← subExt tmp oneExt
    let mulBy ← mulExt curBit base
    let mulBy ← subExt mulBy tmp
    let diff ← mulExt prev mulBy
    let v ← at_ intermediateValues i
    subExt diff v
  let last ← at_ intermediateValues (numPowerBits - 1)
  let outputDiff ← subExt output last
  pure (cs ++ [outputDiff])

/-! ## `random_access_gate.go` -/

/-- Parameters of a `RandomAccessGate`, `plonk/gates/random_access_gate.go:56-60`. -/
structure RandomAccess where
  bits : UInt64
  numCopies : UInt64
  numExtraConstants : UInt64

namespace RandomAccess

/-- `vecSize`, `plonk/gates/random_access_gate.go:74-76`. -/
def vecSize (g : RandomAccess) : UInt64 := shl1 g.bits

/-- `WireAccessIndex`, `plonk/gates/random_access_gate.go:78-83`. -/
def wireAccessIndex (g : RandomAccess) (copy : UInt64) : Circ UInt64 :=
  if copy ≥ g.numCopies then goPanic "RandomAccessGate.WireAccessIndex called with copy >= num_copies"
  else pure ((2 + g.vecSize) * copy)

/-- `WireClaimedElement`, `plonk/gates/random_access_gate.go:85-91`. -/
def wireClaimedElement (g : RandomAccess) (copy : UInt64) : Circ UInt64 :=
  if copy ≥ g.numCopies then goPanic "RandomAccessGate.WireClaimedElement called with copy >= num_copies"
  else pure ((2 + g.vecSize) * copy + 1)

/-- `WireListItem`, `plonk/gates/random_access_gate.go:93-102`. -/
def wireListItem (g : RandomAccess) (i copy : UInt64) : Circ UInt64 :=
  if i ≥ g.vecSize then goPanic "RandomAccessGate.WireListItem called with i >= vec_size"
  else if copy ≥ g.numCopies then goPanic "RandomAccessGate.WireListItem called with copy >= num_copies"
  else pure ((2 + g.vecSize) * copy + 2 + i)

/-- `startExtraConstants`, `plonk/gates/random_access_gate.go:104-106`. -/
def startExtraConstants (g : RandomAccess) : UInt64 := (2 + g.vecSize) * g.numCopies

/-- `wireExtraConstant`, `plonk/gates/random_access_gate.go:108-114`. -/
def wireExtraConstant (g : RandomAccess) (i : UInt64) : Circ UInt64 :=
  if i ≥ g.numExtraConstants then goPanic "RandomAccessGate.wireExtraConstant called with i >= num_extra_constants"
  else pure (g.startExtraConstants + i)

/-- `NumRoutedWires`, `plonk/gates/random_access_gate.go:116-118`. -/
def numRoutedWires (g : RandomAccess) : UInt64 := g.startExtraConstants + g.numExtraConstants

/-- `WireBit`, `plonk/gates/random_access_gate.go:120-129`. -/
def wireBit (g : RandomAccess) (i copy : UInt64) : Circ UInt64 :=
  if i ≥ g.bits then goPanic "RandomAccessGate.WireBit called with i >= bits"
  else if copy ≥ g.numCopies then goPanic "RandomAccessGate.WireBit called with copy >= num_copies"
  else pure (g.numRoutedWires + copy * g.bits + i)

/-- One copy, `plonk/gates/random_access_gate.go:140-182`. -/
def evalCopy (g : RandomAccess) (vars : Vars) (copy : UInt64) : Circ (List QEV) := do
  let w ← g.wireAccessIndex copy
  let accessIndex ← at_ vars.localWires w
  let listItems ← loop g.vecSize fun i => do
    let w ← g.wireListItem i copy
    at_ vars.localWires w
  let w ← g.wireClaimedElement copy
  let claimedElement ← at_ vars.localWires w
  let bs ← loop g.bits fun i => do
    let w ← g.wireBit i copy
    at_ vars.localWires w
  let boolean ← bs.mapM fun b => do
    let bSquared ← mulExt b b
    subExt bSquared b
  let reconstructedIndex ← reduceWithPowers bs ((2 : ℕ), 0)
  let indexDiff ← subExt reconstructedIndex accessIndex
  let listItems ← bs.foldlM (fun l b => foldPairs b l) listItems
  match listItems with
  | [item] => do
    let d ← subExt item claimedElement
    pure (boolean ++ [indexDiff, d])
  | _ => goPanic "listItems(len) != 1"

/-- `RandomAccessGate.EvalUnfiltered`, `plonk/gates/random_access_gate.go:131-190`. -/
def eval (g : RandomAccess) (vars : Vars) : Circ (List QEV) := do
  let cs ← loopFlat g.numCopies (g.evalCopy vars)
  let es ← loop g.numExtraConstants fun i => do
    let c ← at_ vars.localConstants i
    let wi ← g.wireExtraConstant i
    let w ← at_ vars.localWires wi
    subExt c w
  pure (cs ++ es)

end RandomAccess

/-! ## `reducing_gate.go`, `reducing_extension_gate.go` -/

/-- `wiresOutput`, `plonk/gates/reducing_gate.go:45-47`, `reducing_extension_gate.go:45-47`. -/
def reducingOutput : Range := ⟨0, 2⟩

/-- `wiresAlpha`, `plonk/gates/reducing_gate.go:49-51`, `reducing_extension_gate.go:49-51`. -/
def reducingAlpha : Range := ⟨2, 2 * 2⟩

/-- `wiresOldAcc`, `plonk/gates/reducing_gate.go:53-55`, `reducing_extension_gate.go:53-55`. -/
def reducingOldAcc : Range := ⟨2 * 2, 3 * 2⟩

/-- `wiresAccs`, `plonk/gates/reducing_gate.go:65-75`, `reducing_extension_gate.go:65-75`. -/
def wiresAccs (numCoeffs startAccs i : UInt64) : Circ Range :=
  if i ≥ numCoeffs then goPanic "Accumulator index out of bounds"
  else if i = numCoeffs - 1 then pure reducingOutput
  else pure ⟨startAccs + 2 * i, startAccs + 2 * (i + 1)⟩

/-- `wiresCoeff`, `plonk/gates/reducing_gate.go:57-59`. -/
def reducingCoeffs (numCoeffs : UInt64) : Range := ⟨3 * 2, 3 * 2 + numCoeffs⟩

/-- `startAccs`, `plonk/gates/reducing_gate.go:61-63`. -/
def reducingStartAccs (numCoeffs : UInt64) : UInt64 := 3 * 2 + numCoeffs

/-- `ReducingGate.EvalUnfiltered`, `plonk/gates/reducing_gate.go:77-110`.  The loop over coefficients runs over the
numbers in the range, none if its end has passed `2^64`. -/
def reducing (numCoeffs : UInt64) (vars : Vars) : Circ (List QEV) := do
  let alpha ← getLocalExtAlgebra vars reducingAlpha
  let oldAcc ← getLocalExtAlgebra vars reducingOldAcc
  let r := reducingCoeffs numCoeffs
  let coeffs ← (List.range' r.start.toNat (r.stop.toNat - r.start.toNat)).mapM fun i => do
    let c ← at_ vars.localWires (UInt64.ofNat i)
    pure (toQA c)
  let accs ← loop numCoeffs fun i => do
    let w ← wiresAccs numCoeffs (reducingStartAccs numCoeffs) i
    getLocalExtAlgebra vars w
  reducingLoop alpha oldAcc coeffs accs numCoeffs.toNat

/-- `wiresCoeff`, `plonk/gates/reducing_extension_gate.go:57-59`. -/
def reducingExtCoeff (i : UInt64) : Range := ⟨3 * 2 + 2 * i, 3 * 2 + 2 * (i + 1)⟩

/-- `startAccs`, `plonk/gates/reducing_extension_gate.go:61-63`. -/
def reducingExtStartAccs (numCoeffs : UInt64) : UInt64 := 3 * 2 + numCoeffs * 2

/-- `ReducingExtensionGate.EvalUnfiltered`, `plonk/gates/reducing_extension_gate.go:77-109`. -/
def reducingExtension (numCoeffs : UInt64) (vars : Vars) : Circ (List QEV) := do
  let alpha ← getLocalExtAlgebra vars reducingAlpha
  let oldAcc ← getLocalExtAlgebra vars reducingOldAcc
  let coeffs ← loop numCoeffs fun i => getLocalExtAlgebra vars (reducingExtCoeff i)
  let accs ← loop numCoeffs fun i => do
    let w ← wiresAccs numCoeffs (reducingExtStartAccs numCoeffs) i
    getLocalExtAlgebra vars w
  reducingLoop alpha oldAcc coeffs accs numCoeffs.toNat

/-! ## `coset_interpolation_gate.go` -/

/-- Parameters of a `CosetInterpolationGate`, `plonk/gates/coset_interpolation_gate.go:53-57`. -/
structure Coset where
  subgroupBits : UInt64
  degree : UInt64
  weights : List Fp

namespace Coset

/-- `numPoints`, `plonk/gates/coset_interpolation_gate.go:77-79`. -/
def numPoints (g : Coset) : UInt64 := shl1 g.subgroupBits

/-- `wireShift`, `plonk/gates/coset_interpolation_gate.go:82-84`. -/
def wireShift : UInt64 := 0

/-- `startValues`, `plonk/gates/coset_interpolation_gate.go:86-88`. -/
def startValues : UInt64 := 1

/-- `wiresValue`, `plonk/gates/coset_interpolation_gate.go:91-97`. -/
def wiresValue (g : Coset) (i : UInt64) : Circ Range :=
  if i ≥ g.numPoints then goPanic "Invalid point index"
  else
    let start := startValues + i * 2
    pure ⟨start, start + 2⟩

/-- `startEvaluationPoint`, `plonk/gates/coset_interpolation_gate.go:99-101`. -/
def startEvaluationPoint (g : Coset) : UInt64 := startValues + g.numPoints * 2

/-- `wiresEvaluationPoint`, `plonk/gates/coset_interpolation_gate.go:104-107`. -/
def wiresEvaluationPoint (g : Coset) : Range := ⟨g.startEvaluationPoint, g.startEvaluationPoint + 2⟩

/-- `startEvaluationValue`, `plonk/gates/coset_interpolation_gate.go:109-111`. -/
def startEvaluationValue (g : Coset) : UInt64 := g.startEvaluationPoint + 2

/-- `wiresEvaluationValue`, `plonk/gates/coset_interpolation_gate.go:114-117`. -/
def wiresEvaluationValue (g : Coset) : Range := ⟨g.startEvaluationValue, g.startEvaluationValue + 2⟩

/-- `startIntermediates`, `plonk/gates/coset_interpolation_gate.go:119-121`. -/
def startIntermediates (g : Coset) : UInt64 := g.startEvaluationValue + 2

/-- `numIntermediates`, `plonk/gates/coset_interpolation_gate.go:123-125`. -/
def numIntermediates (g : Coset) : Circ UInt64 :=
  if g.degree - 1 = 0 then goPanic "integer divide by zero" else pure ((g.numPoints - 2) / (g.degree - 1))

/-- `wiresIntermediateEval`, `plonk/gates/coset_interpolation_gate.go:128-134`. -/
def wiresIntermediateEval (g : Coset) (i : UInt64) : Circ Range := do
  let n ← g.numIntermediates
  if i ≥ n then goPanic "Invalid intermediate index"
  else
    let start := g.startIntermediates + 2 * i
    pure ⟨start, start + 2⟩

/-- `wiresIntermediateProd`, `plonk/gates/coset_interpolation_gate.go:137-143`. -/
def wiresIntermediateProd (g : Coset) (i : UInt64) : Circ Range := do
  let n ← g.numIntermediates
  if i ≥ n then goPanic "Invalid intermediate index"
  else
    let start := g.startIntermediates + 2 * (n + i)
    pure ⟨start, start + 2⟩

/-- `wiresShiftedEvaluationPoint`, `plonk/gates/coset_interpolation_gate.go:146-149`. -/
def wiresShiftedEvaluationPoint (g : Coset) : Circ Range := do
  let n ← g.numIntermediates
  let start := g.startIntermediates + 2 * 2 * n
  pure ⟨start, start + 2⟩

/-- One iteration of the loop over intermediates, `plonk/gates/coset_interpolation_gate.go:189-217`. -/
def step (g : Coset) (domain : List Fp) (values : List QAV) (point : QAV) (vars : Vars)
    (st : (QAV × QAV) × List QEV) (i : UInt64) : Circ ((QAV × QAV) × List QEV) := do
  let w ← g.wiresIntermediateEval i
  let intermediateEval ← getLocalExtAlgebra vars w
  let w ← g.wiresIntermediateProd i
  let intermediateProd ← getLocalExtAlgebra vars w
  let evalDiff ← subAlg intermediateEval st.1.1
  let prodDiff ← subAlg intermediateProd st.1.2
  let startIndex := 1 + (g.degree - 1) * (i + 1)
  let endIndex := startIndex + g.degree - 1
  let endIndex := if endIndex > g.numPoints then g.numPoints else endIndex
  let d ← slice domain startIndex.toNat endIndex.toNat
  let v ← slice values startIndex.toNat endIndex.toNat
  let w ← slice g.weights startIndex.toNat endIndex.toNat
  let st' ← partialInterpolate d v w point intermediateEval intermediateProd
  pure (st', st.2 ++ coeffsV evalDiff ++ coeffsV prodDiff)

/-- `CosetInterpolationGate.EvalUnfiltered`, `plonk/gates/coset_interpolation_gate.go:151-226`. -/
def eval (g : Coset) (vars : Vars) : Circ (List QEV) := do
  let shift ← at_ vars.localWires wireShift
  let evaluationPoint ← getLocalExtAlgebra vars g.wiresEvaluationPoint
  let w ← g.wiresShiftedEvaluationPoint
  let shiftedEvaluationPoint ← getLocalExtAlgebra vars w
  let negShift ← scalarMulExt shift negOne
  let tmp ← scalarMulAlg negShift shiftedEvaluationPoint
  let tmp ← addAlg tmp evaluationPoint
  let domain ← orPanic "n_log > TWO_ADICITY" (twoAdicSubgroup g.subgroupBits.toNat)
  let values ← loop g.numPoints fun i => do
    let w ← g.wiresValue i
    getLocalExtAlgebra vars w
  let d ← slice domain 0 g.degree.toNat
  let v ← slice values 0 g.degree.toNat
  let w ← slice g.weights 0 g.degree.toNat
  let st ← partialInterpolate d v w shiftedEvaluationPoint zeroAlg oneAlg
  let n ← g.numIntermediates
  let st ← (List.range n.toNat).foldlM
    (fun st i => g.step domain values shiftedEvaluationPoint vars st (UInt64.ofNat i)) (st, coeffsV tmp)
  let evaluationValue ← getLocalExtAlgebra vars g.wiresEvaluationValue
  let evalDiff ← subAlg evaluationValue st.1.1
  pure (st.2 ++ coeffsV evalDiff)

end Coset

/-! ## `poseidon_mds_gate.go` -/

/-- `WireInput`, `plonk/gates/poseidon_mds_gate.go:29-34`. -/
def mdsInput (i : UInt64) : Circ Range :=
  if i ≥ 12 then goPanic "Input less than sponge width" else pure ⟨i * 2, (i + 1) * 2⟩

/-- `WireOutput`, `plonk/gates/poseidon_mds_gate.go:36-41`. -/
def mdsOutput (i : UInt64) : Circ Range :=
  if i ≥ 12 then goPanic "Input less than sponge width" else pure ⟨(12 + i) * 2, (12 + i + 1) * 2⟩

/-- `PoseidonMdsGate.EvalUnfiltered` and `mdsLayerAlgebra`, `plonk/gates/poseidon_mds_gate.go:65-99`. -/
def poseidonMds (vars : Vars) : Circ (List QEV) := do
  let inputs ← tabM 12 fun i => do
    let w ← mdsInput (UInt64.ofNat i)
    getLocalExtAlgebra vars w
  let computedOutputs ← tabM 12 fun r => mdsRowShfAlgebra r inputs
  let cs ← tabM 12 fun i => do
    let w ← mdsOutput (UInt64.ofNat i)
    let output ← getLocalExtAlgebra vars w
    subAlg output (computedOutputs i)
  pure ((List.ofFn cs).flatMap coeffsV)

/-! ## `poseidon_gate.go` -/

namespace Poseidon

/-- `WireInput`, `plonk/gates/poseidon_gate.go:29-31`. -/
def wireInput (i : UInt64) : UInt64 := i

/-- `WireOutput`, `plonk/gates/poseidon_gate.go:33-35`. -/
def wireOutput (i : UInt64) : UInt64 := 12 + i

/-- `WireSwap`, `plonk/gates/poseidon_gate.go:37-39`. -/
def wireSwap : UInt64 := 2 * 12

/-- `START_DELTA`, `plonk/gates/poseidon_gate.go:41`. -/
def START_DELTA : UInt64 := 2 * 12 + 1

/-- `WireDelta`, `plonk/gates/poseidon_gate.go:43-48`. -/
def wireDelta (i : UInt64) : Circ UInt64 :=
  if i ≥ 4 then goPanic "Delta index out of range" else pure (START_DELTA + i)

/-- `START_FULL_0`, `plonk/gates/poseidon_gate.go:50`. -/
def START_FULL_0 : UInt64 := START_DELTA + 4

/-- `WireFullSBox0`, `plonk/gates/poseidon_gate.go:52-64`. -/
def wireFullSBox0 (round i : UInt64) : Circ UInt64 :=
  if round = 0 then goPanic "First-round S-box inputs are not stored as wires"
  else if round ≥ 4 then goPanic "S-box input round out of range"
  else if i ≥ 12 then goPanic "S-box input index out of range"
  else pure (START_FULL_0 + (round - 1) * 12 + i)

/-- `START_PARTIAL`, `plonk/gates/poseidon_gate.go:66`. -/
def START_PARTIAL : UInt64 := START_FULL_0 + (4 - 1) * 12

/-- `WirePartialSBox`, `plonk/gates/poseidon_gate.go:68-73`. -/
def wirePartialSBox (round : UInt64) : Circ UInt64 :=
  if round ≥ 22 then goPanic "S-box input round out of range" else pure (START_PARTIAL + round)

/-- `START_FULL_1`, `plonk/gates/poseidon_gate.go:75`. -/
def START_FULL_1 : UInt64 := START_PARTIAL + 22

/-- `WireFullSBox1`, `plonk/gates/poseidon_gate.go:77-86`. -/
def wireFullSBox1 (round i : UInt64) : Circ UInt64 :=
  if round ≥ 4 then goPanic "S-box input round out of range"
  else if i ≥ 12 then goPanic "S-box input index out of range"
  else pure (START_FULL_1 + round * 12 + i)

/-- `WiresEnd`, `plonk/gates/poseidon_gate.go:88-90`. -/
def wiresEnd : UInt64 := START_FULL_1 + 4 * 12

open PoseidonGL in
/-- Comparison of a state with the S-box input wires, which then replace it,
`plonk/gates/poseidon_gate.go:135-139, 166-170`. -/
def sBoxInputs (vars : Vars) (wire : UInt64 → Circ UInt64) (state : StateExt) : Circ (List QEV × StateExt) := do
  let rs ← tabM 12 fun i => do
    let w ← wire (UInt64.ofNat i)
    let sBoxIn ← at_ vars.localWires w
    let c ← subExt (state i) sBoxIn
    pure (c, sBoxIn)
  pure (List.ofFn fun i => (rs i).1, fun i => (rs i).2)

open PoseidonGL in
/-- A full round of the first half, `plonk/gates/poseidon_gate.go:132-144`. -/
def full0 (vars : Vars) (st : List QEV × StateExt) (r : ℕ) : Circ (List QEV × StateExt) := do
  let state ← constantLayerExt st.2 r
  let (cs, state) ← if r ≠ 0 then sBoxInputs vars (wireFullSBox0 (UInt64.ofNat r)) state else pure ([], state)
  let state ← sBoxLayerExt state
  let state ← mdsLayerExt state
  pure (st.1 ++ cs, state)

open PoseidonGL in
/-- A partial round, `plonk/gates/poseidon_gate.go:150-160`; the last one adds no constant. -/
def partial_ (vars : Vars) (st : List QEV × StateExt) (r : ℕ) : Circ (List QEV × StateExt) := do
  let w ← wirePartialSBox (UInt64.ofNat r)
  let sBoxIn ← at_ vars.localWires w
  let c ← subExt (st.2 0) sBoxIn
  let s0 ← sBoxMonomialExt sBoxIn
  let s0 ← if r < 21 then addExt s0 (const1 FAST_PARTIAL_ROUND_CONSTANTS r, 0) else pure s0
  let state ← mdsPartialLayerFastExt (Function.update st.2 0 s0) r
  pure (st.1 ++ [c], state)

open PoseidonGL in
/-- A full round of the second half, `plonk/gates/poseidon_gate.go:164-174`; the round counter is `26 + r`. -/
def full1 (vars : Vars) (st : List QEV × StateExt) (r : ℕ) : Circ (List QEV × StateExt) := do
  let state ← constantLayerExt st.2 (26 + r)
  let (cs, state) ← sBoxInputs vars (wireFullSBox1 (UInt64.ofNat r)) state
  let state ← sBoxLayerExt state
  let state ← mdsLayerExt state
  pure (st.1 ++ cs, state)

open PoseidonGL in
/-- The possibly swapped input, `plonk/gates/poseidon_gate.go:116-127`. -/
def input (vars : Vars) : Circ StateExt := do
  let sw ← tabM 4 fun i => do
    let w ← wireDelta (UInt64.ofNat i)
    let deltaI ← at_ vars.localWires w
    let inputLhs ← at_ vars.localWires (wireInput (UInt64.ofNat i))
    let inputRhs ← at_ vars.localWires (wireInput (UInt64.ofNat i + 4))
    let l ← addExt inputLhs deltaI
    let r ← subExt inputRhs deltaI
    pure (l, r)
  let rest ← tabM 4 fun i => at_ vars.localWires (wireInput (UInt64.ofNat (8 + i)))
  pure (Fin.append (Fin.append (fun i => (sw i).1) (fun i => (sw i).2)) rest)

open PoseidonGL in
/-- `PoseidonGate.EvalUnfiltered`, `plonk/gates/poseidon_gate.go:92-181`. -/
def eval (vars : Vars) : Circ (List QEV) := do
  let swap ← at_ vars.localWires wireSwap
  let swapMinusOne ← subExt swap oneExt
  let c0 ← mulExt swap swapMinusOne
  let deltas ← tabM 4 fun i => do
    let inputLhs ← at_ vars.localWires (wireInput (UInt64.ofNat i))
    let inputRhs ← at_ vars.localWires (wireInput (UInt64.ofNat i + 4))
    let w ← wireDelta (UInt64.ofNat i)
    let deltaI ← at_ vars.localWires w
    let diff ← subExt inputRhs inputLhs
    let expectedDeltaI ← mulExt swap diff
    subExt expectedDeltaI deltaI
  let state ← input vars
  let st ← [0, 1, 2, 3].foldlM (full0 vars) (c0 :: List.ofFn deltas, state)
  let state ← partialFirstConstantLayerExt st.2
  let state ← mdsPartialLayerInitExt state
  let st ← (List.range 22).foldlM (partial_ vars) (st.1, state)
  let st ← [0, 1, 2, 3].foldlM (full1 vars) st
  let outs ← tabM 12 fun i => do
    let o ← at_ vars.localWires (wireOutput (UInt64.ofNat i))
    subExt (st.2 i) o
  pure (st.1 ++ List.ofFn outs)

end Poseidon

/-! ## The gate interface -/

/-- The gate kinds with their `uint64` parameters. -/
inductive Gate
  | arithmetic (numOps : UInt64)
  | arithmeticExtension (numOps : UInt64)
  | baseSum (numLimbs base : UInt64)
  | constant (numConsts : UInt64)
  | cosetInterpolation (g : Coset)
  | exponentiation (numPowerBits : UInt64)
  | mulExtension (numOps : UInt64)
  | noop
  | poseidon
  | poseidonMds
  | publicInput
  | randomAccess (g : RandomAccess)
  | reducing (numCoeffs : UInt64)
  | reducingExtension (numCoeffs : UInt64)

/-- `Gate.EvalUnfiltered`, `plonk/gates/gates.go:13-17`. -/
def Gate.evalUnfiltered (maxLen : ℕ) : Gate → Vars → Circ (List QEV)
  | .arithmetic n => Gates64.arithmetic n
  | .arithmeticExtension n => Gates64.arithmeticExtension n
  | .baseSum n b => Gates64.baseSum maxLen n b
  | .constant n => Gates64.constant n
  | .cosetInterpolation g => g.eval
  | .exponentiation n => Gates64.exponentiation n
  | .mulExtension n => Gates64.mulExtension n
  | .noop => fun _ => pure []
  | .poseidon => Poseidon.eval
  | .poseidonMds => Gates64.poseidonMds
  | .publicInput => Gates64.publicInput
  | .randomAccess g => g.eval
  | .reducing n => Gates64.reducing n
  | .reducingExtension n => Gates64.reducingExtension n

/-- The gate with its parameters as natural numbers. -/
def Gate.toNat : Gate → Gates.Gate
  | .arithmetic n => .arithmetic n.toNat
  | .arithmeticExtension n => .arithmeticExtension n.toNat
  | .baseSum n b => .baseSum n.toNat b.toNat
  | .constant n => .constant n.toNat
  | .cosetInterpolation g => .cosetInterpolation g.subgroupBits.toNat g.degree.toNat g.weights
  | .exponentiation n => .exponentiation n.toNat
  | .mulExtension n => .mulExtension n.toNat
  | .noop => .noop
  | .poseidon => .poseidon
  | .poseidonMds => .poseidonMds
  | .publicInput => .publicInput
  | .randomAccess g => .randomAccess g.bits.toNat g.numCopies.toNat g.numExtraConstants.toNat
  | .reducing n => .reducing n.toNat
  | .reducingExtension n => .reducingExtension n.toNat

/-- `evalFiltered`, `plonk/gates/evaluate_gates.go:57-75`. -/
def evalFiltered (maxLen : ℕ) (gate : Gate) (vars : Vars) (row selectorIndex : ℕ) (groupRange : ℕ × ℕ)
    (numSelectors : ℕ) : Circ (List QEV) := do
  let s ← idx vars.localConstants selectorIndex
  let filter ← computeFilter row groupRange s (decide (numSelectors > 1))
  let vars ← vars.removePrefix numSelectors
  let unfiltered ← gate.evalUnfiltered maxLen vars
  unfiltered.mapM fun x => mulExt x filter

/-- Body of the loop over gates, `plonk/gates/evaluate_gates.go:84-101`. -/
def gateStep (maxLen : ℕ) (si : SelectorsInfo) (vars : Vars) (constraints : List QEV) (gi : Gate × ℕ) :
    Circ (List QEV) := do
  let selectorIndex ← idx si.selectorIndices gi.2
  let group ← idx si.groups selectorIndex
  let gateConstraints ← evalFiltered maxLen gi.1 vars gi.2 selectorIndex group si.groups.length
  addConstraints constraints gateConstraints

/-- `EvaluateGateConstraints`, `plonk/gates/evaluate_gates.go:77-105`. -/
def evaluateGateConstraints (maxLen : ℕ) (gates : List Gate) (numGateConstraints : ℕ) (si : SelectorsInfo)
    (vars : Vars) : Circ (List QEV) :=
  gates.zipIdx.foldlM (gateStep maxLen si vars) (List.replicate numGateConstraints zeroExt)

end Verif.Gates64
