import Verif.Model.GateIds

/-!
# Model of the methods `Id` of the gates, `plonk/gates/*_gate.go`

`fmt.Sprint` of the barycentric weights prints a Go slice of field elements; how an element is printed is left open
(`render`).
-/

set_option autoImplicit false

namespace Verif.Gates

/-- `Id` of each gate; `%d` prints a `uint64` in decimal. -/
def Gate.id (render : List Fp → String) : Gate → String
  /- `plonk/gates/arithmetic_gate.go:40-42` -/
  | .arithmetic n => "ArithmeticGate { num_ops: " ++ toString n ++ " }"
  /- `plonk/gates/arithmetic_extension_gate.go:39-41` -/
  | .arithmeticExtension n => "ArithmeticExtensionGate { num_ops: " ++ toString n ++ " }"
  /- `plonk/gates/base_sum_gate.go:53-55` -/
  | .baseSum n b => "BaseSumGate { num_limbs: " ++ toString n ++ " } + Base: " ++ toString b
  /- `plonk/gates/constant_gate.go:39-41` -/
  | .constant n => "ConstantGate { num_consts: " ++ toString n ++ " }"
  /- `plonk/gates/coset_interpolation_gate.go:67-75` -/
  | .cosetInterpolation b d w => "CosetInterpolationGate { subgroup_bits: " ++ toString b ++ ", degree: " ++ toString d ++
      ", barycentric_weights: " ++ render w ++ " }"
  /- `plonk/gates/exponentiation_gate.go:53-55` -/
  | .exponentiation n => "ExponentiationGate { num_power_bits: " ++ toString n ++ " }"
  /- `plonk/gates/multiplication_extension_gate.go:39-41` -/
  | .mulExtension n => "MulExtensionGate { num_ops: " ++ toString n ++ " }"
  /- `plonk/gates/noop_gate.go:24-26` -/
  | .noop => "NoopGate"
  /- `plonk/gates/poseidon_gate.go:25-27` -/
  | .poseidon => "PoseidonGate"
  /- `plonk/gates/poseidon_mds_gate.go:25-27` -/
  | .poseidonMds => "PoseidonMdsGate"
  /- `plonk/gates/public_input_gate.go:24-26` -/
  | .publicInput => "PublicInputGate"
  /- `plonk/gates/random_access_gate.go:70-72` -/
  | .randomAccess b c e => "RandomAccessGate { bits: " ++ toString b ++ ", num_copies: " ++ toString c ++
      ", num_extra_constants: " ++ toString e ++ " }"
  /- `plonk/gates/reducing_gate.go:41-43` -/
  | .reducing n => "ReducingGate { num_coeffs: " ++ toString n ++ " }"
  /- `plonk/gates/reducing_extension_gate.go:41-43` -/
  | .reducingExtension n => "ReducingExtensionGate { num_coeffs: " ++ toString n ++ " }"

end Verif.Gates
