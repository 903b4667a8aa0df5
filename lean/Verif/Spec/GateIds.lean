import Verif.Model.Gates

/-!
# Specification: identifiers of gates

The identifier plonky2 gives each gate: the `Debug` output of the gate structure with, for some gates, a suffix.  The
barycentric weights of an interpolation gate are printed as the machine words that represent them, which need not be reduced
modulo `p` (those in the repository's test data are not).
-/

set_option autoImplicit false

namespace Verif.Spec.Gates

open Verif.Gates (Gate)

/-- Identifier of a gate with its parameters in decimal; `words` represent the weights. -/
def identifier (words : List ℕ) : Gate → String
  | .arithmetic n => "ArithmeticGate { num_ops: " ++ toString n ++ " }"
  | .arithmeticExtension n => "ArithmeticExtensionGate { num_ops: " ++ toString n ++ " }"
  | .baseSum n b => "BaseSumGate { num_limbs: " ++ toString n ++ " } + Base: " ++ toString b
  | .constant n => "ConstantGate { num_consts: " ++ toString n ++ " }"
  | .cosetInterpolation b d _ => "CosetInterpolationGate { subgroup_bits: " ++ toString b ++ ", degree: " ++ toString d ++
      ", barycentric_weights: [" ++ ", ".intercalate (words.map fun x => toString x) ++
      "], _phantom: PhantomData<plonky2_field::goldilocks_field::GoldilocksField> }<D=2>"
  | .exponentiation n => "ExponentiationGate { num_power_bits: " ++ toString n ++
      ", _phantom: PhantomData<plonky2_field::goldilocks_field::GoldilocksField> }<D=2>"
  | .mulExtension n => "MulExtensionGate { num_ops: " ++ toString n ++ " }"
  | .noop => "NoopGate"
  | .poseidon => "PoseidonGate(PhantomData<plonky2_field::goldilocks_field::GoldilocksField>)<WIDTH=12>"
  | .poseidonMds => "PoseidonMdsGate(PhantomData<plonky2_field::goldilocks_field::GoldilocksField>)<WIDTH=12>"
  | .publicInput => "PublicInputGate"
  | .randomAccess b c e => "RandomAccessGate { bits: " ++ toString b ++ ", num_copies: " ++ toString c ++
      ", num_extra_constants: " ++ toString e ++
      ", _phantom: PhantomData<plonky2_field::goldilocks_field::GoldilocksField> }<D=2>"
  | .reducing n => "ReducingGate { num_coeffs: " ++ toString n ++ " }"
  | .reducingExtension n => "ReducingExtensionGate { num_coeffs: " ++ toString n ++ " }"

/-- The words represent the weights of the gate. -/
def Represents (words : List ℕ) : Gate → Prop
  | .cosetInterpolation _ _ w => words.map (Nat.cast : ℕ → Fp) = w ∧ ∀ x ∈ words, x < 2 ^ 64
  | _ => True

/-- The string is an identifier of the gate. -/
def Identifies (id : String) (g : Gate) : Prop := ∃ words, Represents words g ∧ id = identifier words g

/-- The reduced words. -/
def reducedWords : Gate → List ℕ
  | .cosetInterpolation _ _ w => w.map ZMod.val
  | _ => []

/-- The identifier with reduced words. -/
def gateId (g : Gate) : String := identifier (reducedWords g) g

/-- Parameters fit the 64-bit integers they are parsed to, and an interpolation gate has degree at least two. -/
def InRange : Gate → Prop
  | .arithmetic n | .arithmeticExtension n | .constant n | .exponentiation n | .mulExtension n | .reducing n
  | .reducingExtension n => n < 2 ^ 63
  | .baseSum n b => n < 2 ^ 63 ∧ b < 2 ^ 63
  | .cosetInterpolation b d _ => b < 2 ^ 64 ∧ d < 2 ^ 64 ∧ 2 ≤ d
  | .randomAccess b c e => b < 2 ^ 64 ∧ c < 2 ^ 64 ∧ e < 2 ^ 64
  | .noop | .poseidon | .poseidonMds | .publicInput => True

instance (g : Gate) : Decidable (InRange g) := by cases g <;> unfold InRange <;> infer_instance

/-- Interpolation gates have at least one barycentric weight. -/
def HasWeights : Gate → Prop
  | .cosetInterpolation _ _ w => w ≠ []
  | _ => True

/-- The gates whose identifiers (as made by the methods `Id`) their own patterns do not accept. -/
def Lost : Gate → Prop
  | .cosetInterpolation _ _ _ | .exponentiation _ | .randomAccess _ _ _ => True
  | _ => False

instance (g : Gate) : Decidable (Lost g) := by cases g <;> unfold Lost <;> infer_instance

/-- The names that open the identifiers. -/
def names : List String :=
  ["ArithmeticGate", "ArithmeticExtensionGate", "BaseSumGate", "ConstantGate", "CosetInterpolationGate",
    "ExponentiationGate", "MulExtensionGate", "NoopGate", "PoseidonGate", "PoseidonMdsGate", "PublicInputGate",
    "RandomAccessGate", "ReducingExtensionGate", "ReducingGate"]

end Verif.Spec.Gates
