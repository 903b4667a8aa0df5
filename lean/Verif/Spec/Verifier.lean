import Verif.Spec.Challenger
import Verif.Spec.Fri
import Verif.Spec.Plonk
import Mathlib.Algebra.Polynomial.Eval.Defs

/-!
# Specification: the plonky2 verifier
-/

set_option autoImplicit false

namespace Verif.Spec.Verifier

open Verif (Proof CommonCircuitData VerifierOnlyCircuitData ProofChallenges)

/-- A canonical extension element. -/
def CanonicalQE (e : QEV) : Prop := e.1.val < p ∧ e.2.val < p

/-- Every Goldilocks element of a proof is canonical. -/
structure Canonical (x : Proof Fr QEV) : Prop where
  constants : ∀ e ∈ x.openings.constants, CanonicalQE e
  plonkSigmas : ∀ e ∈ x.openings.plonkSigmas, CanonicalQE e
  wires : ∀ e ∈ x.openings.wires, CanonicalQE e
  plonkZs : ∀ e ∈ x.openings.plonkZs, CanonicalQE e
  plonkZsNext : ∀ e ∈ x.openings.plonkZsNext, CanonicalQE e
  partialProducts : ∀ e ∈ x.openings.partialProducts, CanonicalQE e
  quotientPolys : ∀ e ∈ x.openings.quotientPolys, CanonicalQE e
  leaves : ∀ round ∈ x.openingProof.rounds, ∀ t ∈ round.initial, ∀ e ∈ t.elements, e.val < p
  evals : ∀ round ∈ x.openingProof.rounds, ∀ s ∈ round.steps, ∀ e ∈ s.evals, CanonicalQE e
  finalPoly : ∀ e ∈ x.openingProof.finalPoly, CanonicalQE e
  powWitness : x.openingProof.powWitness.val < p

/-- The checks of the verifier, given the hash of the public inputs and the challenges. -/
structure Checks (c : CommonCircuitData) (gates : List Gates.Gate) (vd : VerifierOnlyCircuitData) (x : Proof Fp QE)
    (h : Fin 4 → Fp) (ch : ProofChallenges Fp QE) : Prop where
  /-- The first Lagrange polynomial is evaluated as `(zeta^n - 1) / (n (zeta - 1))`. -/
  zeta : ch.plonkZeta ≠ 1
  /-- The vanishing polynomial is `zeta^n - 1` times the quotient. -/
  identity : Plonk.Identity c gates ch x.openings h
  /-- FRI: all polynomials open at `zeta` to the openings, the Zs also at `g zeta`; constants and sigmas are committed
  in the verifier data, the others in the proof. -/
  fri : Fri.Accepts c.friParams (Fri.plonkInstance c ch.plonkZeta)
    [x.openings.constants ++ x.openings.plonkSigmas ++ x.openings.wires ++ x.openings.plonkZs ++
      x.openings.partialProducts ++ x.openings.quotientPolys, x.openings.plonkZsNext]
    ch.friChallenges [vd.constantSigmasCap, x.wiresCap, x.plonkZsPartialProductsCap, x.quotientPolysCap] x.openingProof

/-- Hash of the public inputs. -/
def inputsHash (P : (Fin 12 → Fp) → Fin 12 → Fp) (inputs : List Fp) : Fin 4 → Fp := fun i => (hash P inputs 4).getD i 0

/-- The verifier: hash of the public inputs and challenges of the transcript, then the checks. -/
def Accepts (P : (Fin 12 → Fp) → Fin 12 → Fp) (c : CommonCircuitData) (gates : List Gates.Gate)
    (vd : VerifierOnlyCircuitData) (x : Proof Fp QE) (inputs : List Fp) : Prop :=
  Checks c gates vd x (inputsHash P inputs) (challenges P c.config.numChallenges c.config.friConfig.numQueryRounds
    vd.circuitDigest (inputsHash P inputs) x)

/-- The sizes plonky2 validates before it verifies a proof (those of the query rounds are part of `Fri.Accepts`): openings,
caps and the number of public inputs. -/
structure Shaped {B E I : Type} (c : CommonCircuitData) (x : Proof B E) (inputs : List I) : Prop where
  openings : Fri.OpeningsShape c x.openings
  caps : x.wiresCap.length = 2 ^ c.friParams.config.capHeight ∧
    x.plonkZsPartialProductsCap.length = 2 ^ c.friParams.config.capHeight ∧
    x.quotientPolysCap.length = 2 ^ c.friParams.config.capHeight
  inputs : inputs.length = c.numPublicInputs

/-- The verifier including the validation of sizes. -/
def Validates (P : (Fin 12 → Fp) → Fin 12 → Fp) (c : CommonCircuitData) (gates : List Gates.Gate)
    (vd : VerifierOnlyCircuitData) (x : Proof Fp QE) (inputs : List Fp) : Prop :=
  Shaped c x inputs ∧ Accepts P c gates vd x inputs

/-- Circuits supported by the code (see DESIGN.md, section 4): conditions on the circuit alone. -/
structure Supported (c : CommonCircuitData) (gates : List Gates.Gate) (vd : VerifierOnlyCircuitData) : Prop where
  degree : c.degreeBits ≤ 32
  factor : c.quotientDegreeFactor ≠ 0
  chunks : (c.numPartialProducts + 1) * c.quotientDegreeFactor ≤ c.config.numRoutedWires
  routed : c.config.numRoutedWires ≤ c.config.numWires
  gatesOk : ∀ gi ∈ gates.zipIdx, Gates.GateOk c.selectorsInfo c.numConstants c.config.numWires gi.1 gi.2
  counts : ∀ gi ∈ gates.zipIdx, ∀ v, (Gates.constraints gi.1 v).length ≤ c.numGateConstraints
  kIs : c.config.numRoutedWires ≤ c.kIs.length
  kIsLt : ∀ k ∈ c.kIs, k < p
  domain : 4 ≤ c.friParams.degreeBits + c.friParams.config.rateBits ∧
    c.friParams.degreeBits + c.friParams.config.rateBits ≤ 32 ∧ c.friParams.config.rateBits ≤ 15 ∧
    c.friParams.config.capHeight = 4
  pow : c.friParams.config.proofOfWorkBits ≤ 64
  arities : ∀ a ∈ c.friParams.reductionArityBits, a = 4
  cap : vd.constantSigmasCap.length = 16

/-- The cap of polynomials over a domain of `2 ^ n` points none of which share a cap entry: entry `v` is the leaf of the
values at point `v`. -/
def Commits (n : ℕ) (cap : List Fr) (polys : List (Polynomial Fp)) : Prop :=
  cap = (List.range (2 ^ n)).map fun v =>
    BN.leaf (polys.map fun f => emb (f.eval (Fri.queryPoint n (Fri.lowBits n v))))

/-- The gate constraints hold in every row of a trace given by polynomials for constants and wires. -/
def Satisfied (c : CommonCircuitData) (gates : List Gates.Gate) (constants wires : List (Polynomial Fp))
    (h : Fin 4 → Fp) : Prop :=
  ∀ x : Fp, x ^ 2 ^ c.degreeBits = 1 → ∀ j, Gates.combined gates c.selectorsInfo
    ⟨fun i => ofBase ((constants.getD i 0).eval x), fun i => ofBase ((wires.getD i 0).eval x), h⟩ j = 0

/-- Supported circuits and sizes of caps and openings (all fixed at compile time). -/
structure Fits {B E : Type} (c : CommonCircuitData) (gates : List Gates.Gate) (vd : VerifierOnlyCircuitData)
    (x : Proof B E) : Prop where
  degree : c.degreeBits ≤ 32
  factor : c.quotientDegreeFactor ≠ 0
  chunks : (c.numPartialProducts + 1) * c.quotientDegreeFactor ≤ c.config.numRoutedWires
  gatesOk : ∀ gi ∈ gates.zipIdx,
    Gates.GateOk c.selectorsInfo x.openings.constants.length x.openings.wires.length gi.1 gi.2
  counts : ∀ gi ∈ gates.zipIdx, ∀ v, (Gates.constraints gi.1 v).length ≤ c.numGateConstraints
  kIs : c.config.numRoutedWires ≤ c.kIs.length
  kIsLt : ∀ k ∈ c.kIs, k < p
  wires : c.config.numRoutedWires ≤ x.openings.wires.length
  sigmas : c.config.numRoutedWires ≤ x.openings.plonkSigmas.length
  zs : c.config.numChallenges ≤ x.openings.plonkZs.length
  zsNext : c.config.numChallenges ≤ x.openings.plonkZsNext.length
  partialProducts : c.config.numChallenges * c.numPartialProducts ≤ x.openings.partialProducts.length
  quotients : c.config.numChallenges * c.quotientDegreeFactor ≤ x.openings.quotientPolys.length
  domain : 4 ≤ c.friParams.degreeBits + c.friParams.config.rateBits ∧
    c.friParams.degreeBits + c.friParams.config.rateBits ≤ 32 ∧ c.friParams.config.rateBits ≤ 15 ∧
    c.friParams.config.capHeight = 4
  pow : c.friParams.config.proofOfWorkBits ≤ 64
  arities : ∀ a ∈ c.friParams.reductionArityBits, a = 4
  caps : vd.constantSigmasCap.length = 16 ∧ x.wiresCap.length = 16 ∧ x.plonkZsPartialProductsCap.length = 16 ∧
    x.quotientPolysCap.length = 16

/-- A proof of the same shape with all elements zero. -/
def zeros (x : Proof Fr QEV) : Proof Fr QEV where
  wiresCap := x.wiresCap.map fun _ => 0
  plonkZsPartialProductsCap := x.plonkZsPartialProductsCap.map fun _ => 0
  quotientPolysCap := x.quotientPolysCap.map fun _ => 0
  openings := {
    constants := x.openings.constants.map fun _ => 0
    plonkSigmas := x.openings.plonkSigmas.map fun _ => 0
    wires := x.openings.wires.map fun _ => 0
    plonkZs := x.openings.plonkZs.map fun _ => 0
    plonkZsNext := x.openings.plonkZsNext.map fun _ => 0
    partialProducts := x.openings.partialProducts.map fun _ => 0
    quotientPolys := x.openings.quotientPolys.map fun _ => 0 }
  openingProof := {
    commitCaps := x.openingProof.commitCaps.map fun cap => cap.map fun _ => 0
    rounds := x.openingProof.rounds.map fun round =>
      ⟨round.initial.map fun e => ⟨e.elements.map fun _ => 0, e.siblings.map fun _ => 0⟩,
        round.steps.map fun s => ⟨s.evals.map fun _ => 0, s.siblings.map fun _ => 0⟩⟩
    finalPoly := x.openingProof.finalPoly.map fun _ => 0
    powWitness := 0 }

end Verif.Spec.Verifier
