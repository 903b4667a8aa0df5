import Verif.Spec.Plonk
import Verif.Spec.FriProver

/-!
# Specification: traces of a PLONK circuit

A trace is given by polynomials over the base field for the constants, the sigmas and the wires; row `x` of the trace
consists of their values at a point `x` of the subgroup of order `n = 2^degreeBits`.
-/

set_option autoImplicit false

namespace Verif.Spec.Gates

open Verif.Gates (Gate)

/-- Degree of the constraints of a gate in constants and wires. -/
def degree : Gate → ℕ
  | .arithmetic _ => 3
  | .arithmeticExtension _ => 3
  | .baseSum _ b => max 1 b
  | .constant _ => 1
  | .cosetInterpolation _ d _ => max 2 d
  | .exponentiation _ => 4
  | .mulExtension _ => 3
  | .noop => 0
  | .poseidon => 7
  | .poseidonMds => 1
  | .publicInput => 1
  | .randomAccess b _ _ => max 2 (b + 1)
  | .reducing _ => 2
  | .reducingExtension _ => 2

/-- Degree of the filter of gate number `i`. -/
def filterDegree (si : SelectorsInfo) (i : ℕ) : ℕ :=
  let g := si.groups.getD (si.selectorIndices.getD i 0) (0, 0)
  ((Finset.Ico g.1 g.2).erase i).card + if 1 < si.groups.length then 1 else 0

end Verif.Spec.Gates

namespace Verif.Spec.Plonk

open Polynomial
open Verif.Spec.Fri (omega)

/-- Constants and sigmas of a circuit and wires of a proof, as polynomials. -/
structure Trace where
  constants : List Fp[X]
  sigmas : List Fp[X]
  wires : List Fp[X]

variable (c : CommonCircuitData)

/-- Degree below the number of rows. -/
def Low (l : List Fp[X]) : Prop := ∀ f ∈ l, f.degree < 2 ^ c.degreeBits

/-- All columns have degree below the number of rows. -/
structure Trace.Low (t : Trace) : Prop where
  constants : Plonk.Low c t.constants
  sigmas : Plonk.Low c t.sigmas
  wires : Plonk.Low c t.wires

/-- Degree at most `d`. -/
def AtMost (d : ℕ) (l : List Fp[X]) : Prop := ∀ f ∈ l, f.natDegree ≤ d

/-- All columns have degree at most `d`. -/
structure Trace.AtMost (d : ℕ) (t : Trace) : Prop where
  constants : Plonk.AtMost d t.constants
  sigmas : Plonk.AtMost d t.sigmas
  wires : Plonk.AtMost d t.wires

/-- Value at a point of the extension field. -/
noncomputable def value (z : QE) (f : Fp[X]) : QE := f.eval₂ Fri.Prover.base z

/-- Openings of a trace, accumulators `zs`, partial products `pps` and quotient chunks `qs` at `z`. -/
noncomputable def openings (t : Trace) (zs pps qs : List Fp[X]) (z : QE) : OpeningSet QE where
  constants := t.constants.map (value z)
  plonkSigmas := t.sigmas.map (value z)
  wires := t.wires.map (value z)
  plonkZs := zs.map (value z)
  plonkZsNext := zs.map (value (ofBase (omega c.degreeBits) * z))
  partialProducts := pps.map (value z)
  quotientPolys := qs.map (value z)

/-- Row `m` of a trace with public-inputs hash `h`. -/
noncomputable def Trace.row (t : Trace) (h : Fin 4 → Fp) (m : ℕ) : Gates.Row :=
  ⟨fun i => ofBase ((t.constants.getD i 0).eval (omega c.degreeBits ^ m)),
    fun i => ofBase ((t.wires.getD i 0).eval (omega c.degreeBits ^ m)), h⟩

/-- Every combined constraint vanishes in every row. -/
def GatesHold (gates : List Verif.Gates.Gate) (t : Trace) (h : Fin 4 → Fp) : Prop :=
  ∀ m < n c, ∀ j < c.numGateConstraints, Gates.combined gates c.selectorsInfo (t.row c h m) j = 0

/-- Value of wire `j` in row `m`. -/
noncomputable def Trace.wire (t : Trace) (m j : ℕ) : Fp := (t.wires.getD j 0).eval (omega c.degreeBits ^ m)

/-- Name of the position of wire `j` in row `m`. -/
def name (m j : ℕ) : Fp := (c.kIs.getD j 0 : Fp) * omega c.degreeBits ^ m

/-- The sigmas name, for each routed wire position, another one, given by the permutation `s`. -/
def Trace.Routes (t : Trace) (s : Equiv.Perm (Fin (n c) × Fin c.config.numRoutedWires)) : Prop :=
  ∀ (m : Fin (n c)) (j : Fin c.config.numRoutedWires), (t.sigmas.getD j 0).eval (omega c.degreeBits ^ (m : ℕ)) = name c (s (m, j)).1 (s (m, j)).2

/-- Wires connected by the permutation `s` carry equal values. -/
def Trace.Copies (t : Trace) (s : Equiv.Perm (Fin (n c) × Fin c.config.numRoutedWires)) : Prop :=
  ∀ (m : Fin (n c)) (j : Fin c.config.numRoutedWires), t.wire c m j = t.wire c (s (m, j)).1 (s (m, j)).2

/-- `beta * k_j * x + w_j(x) + gamma` in row `m`. -/
noncomputable def Trace.num (t : Trace) (beta gamma : Fp) (m j : ℕ) : Fp := beta * name c m j + t.wire c m j + gamma

/-- `beta * sigma_j(x) + w_j(x) + gamma` in row `m`. -/
noncomputable def Trace.den (t : Trace) (beta gamma : Fp) (m j : ℕ) : Fp :=
  beta * (t.sigmas.getD j 0).eval (omega c.degreeBits ^ m) + t.wire c m j + gamma

/-! ## Circuits and what they mean -/

/-- Requirements on the circuit description alone. -/
structure Proper (gates : List Verif.Gates.Gate) : Prop where
  rows : 1 ≤ c.degreeBits ∧ c.degreeBits ≤ 32
  factor : c.quotientDegreeFactor ≠ 0
  /-- The routed wires split into chunks of `quotientDegreeFactor`. -/
  chunks : (c.numPartialProducts + 1) * c.quotientDegreeFactor = c.config.numRoutedWires
  routed : c.config.numRoutedWires ≤ c.config.numWires
  gatesOk : ∀ gi ∈ gates.zipIdx, Gates.GateOk c.selectorsInfo c.numConstants c.config.numWires gi.1 gi.2
  counts : ∀ gi ∈ gates.zipIdx, ∀ x, (Gates.constraints gi.1 x).length ≤ c.numGateConstraints
  /-- The degree of a filtered constraint is within the degree of the quotient. -/
  degrees : ∀ gi ∈ gates.zipIdx,
    Gates.degree gi.1 + Gates.filterDegree c.selectorsInfo gi.2 ≤ c.quotientDegreeFactor + 1
  /-- Every gate belongs to the group of its selector. -/
  groups : ∀ i < gates.length, (c.selectorsInfo.groups.getD (c.selectorsInfo.selectorIndices.getD i 0) (0, 0)).1 ≤ i ∧
    i < (c.selectorsInfo.groups.getD (c.selectorsInfo.selectorIndices.getD i 0) (0, 0)).2
  groupsLt : ∀ i < gates.length,
    (c.selectorsInfo.groups.getD (c.selectorsInfo.selectorIndices.getD i 0) (0, 0)).2 ≤ 2 ^ 32 - 1
  kIs : c.config.numRoutedWires ≤ c.kIs.length
  kIsLt : ∀ k ∈ c.kIs, k < p
  /-- Different positions have different names. -/
  names : Function.Injective fun x : Fin (n c) × Fin c.config.numRoutedWires => name c x.1 x.2

/-- The trace has as many columns as the circuit prescribes. -/
structure Trace.Sized (t : Trace) : Prop where
  constants : t.constants.length = c.numConstants
  sigmas : t.sigmas.length = c.config.numRoutedWires
  wires : t.wires.length = c.config.numWires

/-- The trace has as many columns as the circuit prescribes, all of low degree. -/
structure Trace.Fits (t : Trace) : Prop extends t.Sized c where
  low : t.Low c

/-- Row `m` selects gate number `k m`. -/
def Trace.Selects (gates : List Verif.Gates.Gate) (t : Trace) (k : ℕ → ℕ) : Prop :=
  ∀ m < n c, k m < gates.length ∧
    (t.constants.getD (c.selectorsInfo.selectorIndices.getD (k m) 0) 0).eval (omega c.degreeBits ^ m) = (k m : Fp) ∧
    ∀ s < c.selectorsInfo.groups.length, s ≠ c.selectorsInfo.selectorIndices.getD (k m) 0 →
      (t.constants.getD s 0).eval (omega c.degreeBits ^ m) = 2 ^ 32 - 1

/-- The wires satisfy the circuit: in every row all constraints of the selected gate hold, and connected wires carry
equal values. -/
def Trace.Satisfies (gates : List Verif.Gates.Gate) (t : Trace) (k : ℕ → ℕ)
    (s : Equiv.Perm (Fin (n c) × Fin c.config.numRoutedWires)) (h : Fin 4 → Fp) : Prop :=
  (∀ m < n c, ∀ g, gates[k m]? = some g →
    Gates.Vanish (Gates.constraints g ((t.row c h m).drop c.selectorsInfo.groups.length))) ∧ t.Copies c s

end Verif.Spec.Plonk
