import Verif.Spec.Plonk

/-!
# Specification: which wires of a gate are inputs

The wires of a plonky2 gate split into inputs, read from elsewhere in the circuit, and the wires that its witness
generator fills in (outputs and intermediate values).  The rows below are total (`Row.w : ℕ → QE`); a gate uses the
first `width` wires.
-/

set_option autoImplicit false

namespace Verif.Spec.Gates

open Verif.Gates (Gate)

/-- Wire `i` is an input of the gate. -/
def Input : Gate → ℕ → Prop
  | .arithmetic n, i => i < 4 * n ∧ i % 4 ≠ 3
  | .arithmeticExtension n, i => i < 8 * n ∧ i % 8 < 6
  | .baseSum _ _, i => i = 0
  | .constant _, _ => False
  | .cosetInterpolation b _ _, i => i < 1 + 2 * 2 ^ b + 2
  | .exponentiation n, i => i < 1 + n
  | .mulExtension n, i => i < 6 * n ∧ i % 6 < 4
  | .noop, _ => False
  | .poseidon, i => i < 12 ∨ i = 24
  | .poseidonMds, i => i < 24
  | .publicInput, _ => False
  | .randomAccess b copies _, i => i < (2 + 2 ^ b) * copies ∧ i % (2 + 2 ^ b) ≠ 1
  | .reducing n, i => 2 ≤ i ∧ i < 6 + n
  | .reducingExtension n, i => 2 ≤ i ∧ i < 6 + 2 * n

/-- Number of wires of the gate. -/
def width : Gate → ℕ
  | .arithmetic n => 4 * n
  | .arithmeticExtension n => 8 * n
  | .baseSum n _ => 1 + n
  | .constant n => n
  | .cosetInterpolation b d _ => 1 + 2 * 2 ^ b + 4 + 4 * numInter b d + 2
  | .exponentiation n => 2 + 2 * n
  | .mulExtension n => 6 * n
  | .noop => 0
  | .poseidon => 135
  | .poseidonMds => 48
  | .publicInput => 4
  | .randomAccess b copies extra => (2 + 2 ^ b) * copies + extra + copies * b
  | .reducing n => 6 + n + 2 * (n - 1)
  | .reducingExtension n => 6 + 2 * n + 2 * (n - 1)

/-- Conditions on the inputs: a sum that fits its digits, an index in range, a boolean swap flag, an invertible coset
shift; and reducing gates with at least one coefficient. -/
def Admissible : Gate → Row → Prop
  | .baseSum n B, x => B ^ n ≤ p ∧ ∃ m : ℕ, m < B ^ n ∧ x.w 0 = (m : QE)
  | .cosetInterpolation _ _ _, x => x.w 0 ≠ 0
  | .poseidon, x => x.w 24 = 0 ∨ x.w 24 = 1
  | .randomAccess b copies _, x => ∀ k < copies, ∃ m : ℕ, m < 2 ^ b ∧ x.w ((2 + 2 ^ b) * k) = (m : QE)
  | .reducing n, _ => n ≠ 0
  | .reducingExtension n, _ => n ≠ 0
  | _, _ => True

end Verif.Spec.Gates
