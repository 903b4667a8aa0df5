import Verif.Model.Template
import Verif.Spec.Verifier

/-!
# Templates of proofs

A program that builds an empty proof for a circuit with the constructors of `variables/fri.go` and the lengths given in the
comments of `variables/*.go`, in order to compile the verifier circuit before there is a proof.
-/

set_option autoImplicit false

namespace Verif.Spec.Template

open Verif Circ Verif.Template

/-- Numbers of elements in the leaves of the four oracles, comment at `variables/fri.go:31`. -/
def leafSizes (c : CommonCircuitData) : List ℕ :=
  let salt := if c.friParams.isHiding then 4 else 0
  [c.numConstants + c.config.numRoutedWires, c.config.numWires + salt,
    c.config.numChallenges * (1 + c.numPartialProducts) + salt, c.config.numChallenges * c.quotientDegreeFactor + salt]

/-- Depth of the initial Merkle trees below the cap, comment at `variables/fri.go:23`. -/
def depth (q : FriParams) : ℕ := q.degreeBits + q.config.rateBits - q.config.capHeight

/-- Depths below the cap of the trees of the folded codewords. -/
def stepDepths (q : FriParams) : List ℕ :=
  (List.range q.reductionArityBits.length).map fun i => depth q - (q.reductionArityBits.take (i + 1)).sum

/-- The depths as in the comment at `variables/fri.go:49`: `[regularSize - arityBit for arityBit in ReductionArityBits]`. -/
def commentDepths (q : FriParams) : List ℕ := q.reductionArityBits.map fun a => depth q - a

/-- An opened leaf. -/
def evalProof (q : FriParams) (size : ℕ) : Circ (FriEvalProof Fr) := do
  let siblings ← newFriMerkleProof (depth q)
  pure (newFriEvalProof (List.replicate size 0) siblings)

/-- A query round with the given depths of the folded trees. -/
def round (c : CommonCircuitData) (depths : List ℕ) : Circ (FriQueryRound Fr QEV) := do
  let initial ← (leafSizes c).mapM (evalProof c.friParams)
  let steps ← (c.friParams.reductionArityBits.zip depths).mapM fun ad => newFriQueryStep ad.1 ad.2
  pure (newFriQueryRound steps (newFriInitialTreeProof initial))

/-- A FRI proof. -/
def friProof (c : CommonCircuitData) (depths : List ℕ) : Circ (FriProof Fr QEV) := do
  let caps ← c.friParams.reductionArityBits.mapM fun _ => newFriMerkleCap c.friParams.config.capHeight
  let rounds ← (List.replicate c.friParams.config.numQueryRounds ()).mapM fun _ => round c depths
  let n ← finalPolyLen c.friParams
  let final ← newPolynomialCoeffs n.toNat
  pure ⟨caps, rounds, final, 0⟩

/-- Openings, comments in `variables/plonk.go:5-13`. -/
def openings (c : CommonCircuitData) : OpeningSet QEV where
  constants := List.replicate c.numConstants 0
  plonkSigmas := List.replicate c.config.numRoutedWires 0
  wires := List.replicate c.config.numWires 0
  plonkZs := List.replicate c.config.numChallenges 0
  plonkZsNext := List.replicate c.config.numChallenges 0
  partialProducts := List.replicate (c.config.numChallenges * c.numPartialProducts) 0
  quotientPolys := List.replicate (c.config.numChallenges * c.quotientDegreeFactor) 0

/-- A proof. -/
def proof (c : CommonCircuitData) (depths : List ℕ) : Circ (Proof Fr QEV) := do
  let wires ← newFriMerkleCap c.friParams.config.capHeight
  let zs ← newFriMerkleCap c.friParams.config.capHeight
  let quotients ← newFriMerkleCap c.friParams.config.capHeight
  let fri ← friProof c depths
  pure ⟨wires, zs, quotients, openings c, fri⟩

/-- All sizes of a proof are those of the circuit: the sizes validated by plonky2, and one cap for each reduction. -/
structure Sized (c : CommonCircuitData) (x : Proof Fr QEV) (inputs : List Fr) : Prop where
  shaped : Spec.Verifier.Shaped c x inputs
  fri : ∀ zeta, Spec.Fri.ProofShape c.friParams (Spec.Fri.plonkInstance c zeta) x.openingProof
  rounds : x.openingProof.rounds.length = c.friParams.config.numQueryRounds
  caps : x.openingProof.commitCaps.length = c.friParams.reductionArityBits.length

end Verif.Spec.Template
