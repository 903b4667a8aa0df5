import Verif.Model.PoseidonBN
import Verif.Model.PoseidonGL
import Verif.Model.Gates

/-!
# Model of the test circuits in `goldilocks/*_test.go`, `poseidon/*_test.go` and `plonk/gates/gates_test.go`
-/

set_option autoImplicit false

namespace Verif.Tests

open Circ

/-- `TestGoldilocksRangeCheckCircuit.Define`, `goldilocks/base_test.go:20-24`. -/
def rangeCheckTest (x : Fr) : Circ Unit := rangeCheck x

/-- `TestGoldilocksMulAddCircuit.Define`, `goldilocks/base_test.go:90-95`. -/
def mulAddTest (x y z expected : Fr) : Circ Unit := do
  let calculateValue ← mulAdd x y z
  assertEq calculateValue expected

/-- `TestQuadraticExtensionMulCircuit.Define`, `goldilocks/quadratic_extension_test.go:17-23`. -/
def mulExtTest (operand1 operand2 expected : QEV) : Circ Unit := do
  let actualRes ← mulExt operand1 operand2
  glAssertIsEqual actualRes.1 expected.1
  glAssertIsEqual actualRes.2 expected.2

/-- `TestQuadraticExtensionDivCircuit.Define`, `goldilocks/quadratic_extension_test.go:60-66`. -/
def divExtTest (operand1 operand2 expected : QEV) : Circ Unit := do
  let actualRes ← divExt operand1 operand2
  glAssertIsEqual actualRes.1.1 expected.1
  glAssertIsEqual actualRes.1.2 expected.2

/-- `TestPoseidonBN254Circuit.Define`, `poseidon/bn254_test.go:17-29`. -/
def poseidonBNTest (input out : Fin 4 → Fr) : Circ Unit :=
  (List.finRange 4).forM fun i => assertEq (PoseidonBN.poseidon input i) (out i)

/-- `TestPoseidonCircuit.Define`, `poseidon/goldilocks_test.go:19-35`. -/
def poseidonGLTest (input out : Fin 12 → Fr) : Circ Unit := do
  let output ← PoseidonGL.poseidon input
  (List.finRange 12).forM fun i => glAssertIsEqual (output i) (out i)

/-- `TestPublicInputsHashCircuit.Define`, `poseidon/public_inputs_hash_test.go:20-41`; without a number of bits `ToBinary`
takes all 254. -/
def publicInputsHashTest (input : List Fr) (out : Fin 4 → Fr) : Circ Unit := do
  let input ← input.mapM fun x => do
    let bits ← toBinary 64 x
    pure (fromBinary bits)
  let output ← PoseidonGL.hashNoPad input
  (List.finRange 4).forM fun i => do
    let bits ← toBinary 254 (out i)
    glAssertIsEqual (output i) (fromBinary bits)

/-- `TestGateCircuit.Define`, `plonk/gates/gates_test.go:692-710`; `constants` are those after the selectors. -/
def gateTest (gate : Gates.Gate) (vars : Gates.Vars) (expected : List QEV) : Circ Unit := do
  let constraints ← gate.evalUnfiltered vars
  if constraints.length ≠ expected.length then goPanic "gate constraints length mismatch"
  else (constraints.zip expected).forM fun ce => assertIsEqualExt ce.1 ce.2

end Verif.Tests
