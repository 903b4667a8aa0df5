import Verif.Spec.Gates
import Verif.Model.Plonk

/-!
# Specification: combined gate constraints and the PLONK identity

Only the types of gates, openings, challenges and common circuit data are taken from the model.
-/

set_option autoImplicit false

namespace Verif.Spec

namespace Gates

open Verif.Gates (Gate)

/-- Generator of the subgroup of order `2^b`. -/
def subgroupGen (b : ℕ) : Fp := (1753635133440165772 : Fp) ^ 2 ^ (32 - b)

/-- Constraint polynomials of a gate evaluated on a row. -/
def constraints : Gate → Row → List QE
  | .arithmetic n => arithmetic n
  | .arithmeticExtension n => arithmeticExtension n
  | .baseSum n b => baseSum n b
  | .constant n => constant n
  | .cosetInterpolation b d wt => cosetInterpolation b d (subgroupGen b) (fun i => wt.getD i 0)
  | .exponentiation n => exponentiation n
  | .mulExtension n => mulExtension n
  | .noop => fun _ => []
  | .poseidon => poseidon
  | .poseidonMds => poseidonMds
  | .publicInput => publicInput
  | .randomAccess b c e => randomAccess b c e
  | .reducing n => reducing n
  | .reducingExtension n => reducingExtension n

/-- Parameters are meaningful and `nc` constants and `nw` wires suffice for the gate. -/
def Fits (nc nw : ℕ) : Gate → Prop
  | .arithmetic n => 2 ≤ nc ∧ 4 * n ≤ nw
  | .arithmeticExtension n => 2 ≤ nc ∧ 8 * n ≤ nw
  | .baseSum n b => b < p ∧ n + 1 ≤ nw
  | .constant n => n ≤ nc ∧ n ≤ nw
  | .cosetInterpolation b d wt =>
    b ≤ 32 ∧ 2 ≤ d ∧ d ≤ 2 ^ b ∧ wt.length = 2 ^ b ∧ 1 + 2 * 2 ^ b + 4 + 4 * numInter b d + 2 ≤ nw
  | .exponentiation n => n ≠ 0 ∧ 2 * n + 2 ≤ nw
  | .mulExtension n => 1 ≤ nc ∧ 6 * n ≤ nw
  | .noop => True
  | .poseidon => 135 ≤ nw
  | .poseidonMds => 48 ≤ nw
  | .publicInput => 4 ≤ nw
  | .randomAccess b c e => b < 64 ∧ e ≤ nc ∧ (2 + 2 ^ b) * c + e + c * b ≤ nw
  | .reducing n => 6 + n + 2 * (n - 1) ≤ nw
  | .reducingExtension n => 6 + 2 * n + 2 * (n - 1) ≤ nw

/-- The row without its first `n` constants. -/
def Row.drop (x : Row) (n : ℕ) : Row := { x with c := fun i => x.c (n + i) }

/-- Selector filter: vanishes at the indices of the other gates of the group and, with several selectors, at
the marker `2^32 - 1` of unused selectors. -/
def filter (row : ℕ) (group : ℕ × ℕ) (many : Bool) (s : QE) : QE :=
  (∏ i ∈ (Finset.Ico group.1 group.2).erase row, ((i : QE) - s)) * if many then (2 ^ 32 - 1) - s else 1

/-- Filter of gate number `i`. -/
def gateFilter (si : SelectorsInfo) (x : Row) (i : ℕ) : QE :=
  let sel := si.selectorIndices.getD i 0
  filter i (si.groups.getD sel (0, 0)) (decide (1 < si.groups.length)) (x.c sel)

/-- Combined constraint `j`: sum over the gates of filter times constraint `j`. -/
def combined (gates : List Gate) (si : SelectorsInfo) (x : Row) (j : ℕ) : QE :=
  (gates.zipIdx.map fun gi =>
    gateFilter si x gi.2 * (constraints gi.1 (x.drop si.groups.length)).getD j 0).sum

/-- Selector data and openings of `nc` constants and `nw` wires are large enough for gate `g`, number `i`. -/
structure GateOk (si : SelectorsInfo) (nc nw : ℕ) (g : Gate) (i : ℕ) : Prop where
  selector : i < si.selectorIndices.length
  group : si.selectorIndices.getD i 0 < si.groups.length
  range : (si.groups.getD (si.selectorIndices.getD i 0) (0, 0)).2 ≤ p
  prefix_le : si.groups.length ≤ nc
  fits : Fits (nc - si.groups.length) nw g

end Gates

namespace Plonk

variable (c : CommonCircuitData)

/-- Number of rows. -/
def n : ℕ := 2 ^ c.degreeBits

/-- Accumulators of challenge `i`: `Z(x)`, the partial products, `Z(g x)`. -/
def acc (o : OpeningSet QE) (i k : ℕ) : QE :=
  if k = 0 then o.plonkZs.getD i 0
  else if k ≤ c.numPartialProducts then o.partialProducts.getD (i * c.numPartialProducts + (k - 1)) 0
  else o.plonkZsNext.getD i 0

/-- Partial product check `k` of challenge `i`, with numerators `nu` and denominators `de`. -/
def partialProduct (o : OpeningSet QE) (nu de : ℕ → QE) (i k : ℕ) : QE :=
  acc c o i k * (∏ j ∈ Finset.range c.quotientDegreeFactor, nu (k * c.quotientDegreeFactor + j)) -
  acc c o i (k + 1) * (∏ j ∈ Finset.range c.quotientDegreeFactor, de (k * c.quotientDegreeFactor + j))

/-- `beta * k_j * zeta + w_j + gamma`. -/
def numerator (ch : ProofChallenges Fp QE) (o : OpeningSet QE) (i j : ℕ) : QE :=
  ofBase (ch.plonkBetas.getD i 0) * (ch.plonkZeta * (c.kIs.getD j 0 : QE)) +
    (o.wires.getD j 0 + ofBase (ch.plonkGammas.getD i 0))

/-- `beta * sigma_j + w_j + gamma`. -/
def denominator (ch : ProofChallenges Fp QE) (o : OpeningSet QE) (i j : ℕ) : QE :=
  ofBase (ch.plonkBetas.getD i 0) * o.plonkSigmas.getD j 0 +
    (o.wires.getD j 0 + ofBase (ch.plonkGammas.getD i 0))

/-- First Lagrange basis polynomial of the subgroup of order `n`. -/
def L0 (x : QE) : QE := (x ^ n c - 1) / ((n c : QE) * (x - 1))

/-- The row opened at `zeta`. -/
def row (o : OpeningSet QE) (h : Fin 4 → Fp) : Gates.Row :=
  ⟨fun i => o.constants.getD i 0, fun i => o.wires.getD i 0, h⟩

/-- All terms of the vanishing polynomial at `zeta`. -/
def terms (gates : List Verif.Gates.Gate) (ch : ProofChallenges Fp QE) (o : OpeningSet QE) (h : Fin 4 → Fp) : List QE :=
  (List.range c.config.numChallenges).map (fun i => L0 c ch.plonkZeta * (o.plonkZs.getD i 0 - 1)) ++
  (List.range c.config.numChallenges).flatMap (fun i => (List.range (c.numPartialProducts + 1)).map fun k =>
    partialProduct c o (numerator c ch o i) (denominator ch o i) i k) ++
  (List.range c.numGateConstraints).map (Gates.combined gates c.selectorsInfo (row o h))

/-- Random linear combination of the terms. -/
def vanishing (gates : List Verif.Gates.Gate) (ch : ProofChallenges Fp QE) (o : OpeningSet QE) (h : Fin 4 → Fp) (i : ℕ) :
    QE :=
  ∑ j ∈ Finset.range (terms c gates ch o h).length, (terms c gates ch o h).getD j 0 * ofBase (ch.plonkAlphas.getD i 0) ^ j

/-- Quotient polynomial at `zeta` from its chunks. -/
def quotient (ch : ProofChallenges Fp QE) (o : OpeningSet QE) (i : ℕ) : QE :=
  ∑ k ∈ Finset.range c.quotientDegreeFactor,
    o.quotientPolys.getD (i * c.quotientDegreeFactor + k) 0 * (ch.plonkZeta ^ n c) ^ k

/-- The PLONK identity for every challenge. -/
def Identity (gates : List Verif.Gates.Gate) (ch : ProofChallenges Fp QE) (o : OpeningSet QE) (h : Fin 4 → Fp) : Prop :=
  ∀ i < c.config.numChallenges,
    vanishing c gates ch o h i = (ch.plonkZeta ^ n c - 1) * quotient c ch o i

/-- Lengths for which the verifier code does not run out of range, and parameters in range. -/
structure Shape (gates : List Verif.Gates.Gate) (ch : ProofChallenges Fp QE) (o : OpeningSet QE) : Prop where
  degree : c.degreeBits < 63
  factor : c.quotientDegreeFactor ≠ 0
  chunks : (c.numPartialProducts + 1) * c.quotientDegreeFactor ≤ c.config.numRoutedWires
  gatesOk : ∀ gi ∈ gates.zipIdx, Gates.GateOk c.selectorsInfo o.constants.length o.wires.length gi.1 gi.2
  counts : ∀ gi ∈ gates.zipIdx, ∀ x, (Gates.constraints gi.1 x).length ≤ c.numGateConstraints
  kIs : c.config.numRoutedWires ≤ c.kIs.length
  kIsLt : ∀ k ∈ c.kIs, k < p
  betas : c.config.numChallenges ≤ ch.plonkBetas.length
  gammas : c.config.numChallenges ≤ ch.plonkGammas.length
  alphas : c.config.numChallenges ≤ ch.plonkAlphas.length
  wires : c.config.numRoutedWires ≤ o.wires.length
  sigmas : c.config.numRoutedWires ≤ o.plonkSigmas.length
  zs : c.config.numChallenges ≤ o.plonkZs.length
  zsNext : c.config.numChallenges ≤ o.plonkZsNext.length
  partialProducts : c.config.numChallenges * c.numPartialProducts ≤ o.partialProducts.length
  quotients : c.config.numChallenges * c.quotientDegreeFactor ≤ o.quotientPolys.length

end Plonk

end Verif.Spec
