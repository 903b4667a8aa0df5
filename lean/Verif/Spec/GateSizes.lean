import Verif.Spec.Plonk

/-!
# Specification: sizes a gate needs

Unlike `Fits`, which asks for a meaningful gate, this is exactly what an evaluation needs in order not to stop.
-/

set_option autoImplicit false

namespace Verif.Spec.Gates

open Verif.Gates (Gate)

/-- Gate `g` can be evaluated on `nc` constants and `nw` wires. -/
def Runs (nc nw : ℕ) : Gate → Prop
  | .arithmetic n => 2 ≤ nc ∧ 4 * n ≤ nw
  | .arithmeticExtension n => 2 ≤ nc ∧ 8 * n ≤ nw
  | .baseSum n _ => n + 1 ≤ nw
  | .constant n => n ≤ nc ∧ n ≤ nw
  | .cosetInterpolation b d wt =>
    b ≤ 32 ∧ 2 ≤ d ∧ d ≤ 2 ^ b ∧ 2 ^ b ≤ wt.length ∧ 1 + 2 * 2 ^ b + 4 + 4 * numInter b d + 2 ≤ nw
  | .exponentiation n => n ≠ 0 ∧ 2 * n + 2 ≤ nw
  | .mulExtension n => 1 ≤ nc ∧ 6 * n ≤ nw
  | .noop => True
  | .poseidon => 135 ≤ nw
  | .poseidonMds => 48 ≤ nw
  | .publicInput => 4 ≤ nw
  | .randomAccess b c e => (c ≠ 0 → b < 64) ∧ e ≤ nc ∧ (2 + 2 ^ b) * c + e + c * b ≤ nw
  | .reducing n => 6 + n + 2 * (n - 1) ≤ nw
  | .reducingExtension n => 6 + 2 * n + 2 * (n - 1) ≤ nw

/-- Gate `g` at position `i` can be evaluated: its selector and group exist, and after removing the selectors its sizes
are right; it has at most `m` constraints. -/
structure GateRuns (si : SelectorsInfo) (nc nw m : ℕ) (g : Gate) (i : ℕ) : Prop where
  selector : i < si.selectorIndices.length
  group : si.selectorIndices.getD i 0 < si.groups.length
  prefix_le : si.groups.length ≤ nc
  runs : Runs (nc - si.groups.length) nw g
  count : ∀ x : Row, (constraints g x).length ≤ m

end Verif.Spec.Gates
