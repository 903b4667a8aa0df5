import Verif.Model.Challenger
import Verif.Model.GateIds
import Verif.Model.Plonk

/-!
# Model of `verifier/verifier.go` and `verifier/util.go`

Parametrised by the Goldilocks permutation, like the challenger.
-/

set_option autoImplicit false

namespace Verif.Verifier

open Circ PoseidonGL Challenger

variable (perm : State → Circ State)

/-- `GetPublicInputsHash`, `verifier/verifier.go:41-43`. -/
def getPublicInputsHash (publicInputs : List Fr) : Circ (Fin 4 → Fr) := hashNoPadWith perm publicInputs

/-- The method calls of `GetChallenges` on the new challenger, `verifier/verifier.go:56-81`. -/
def challengesM (c : CommonCircuitData) (proof : Proof Fr QEV) (publicInputsHash : Fin 4 → Fr)
    (vd : VerifierOnlyCircuitData) : ChipM (ProofChallenges Fr QEV) := do
  observeBN254Hash perm vd.circuitDigest
  observeHash perm publicInputsHash
  observeCap perm proof.wiresCap
  let plonkBetas ← getNChallenges perm c.config.numChallenges
  let plonkGammas ← getNChallenges perm c.config.numChallenges
  observeCap perm proof.plonkZsPartialProductsCap
  let plonkAlphas ← getNChallenges perm c.config.numChallenges
  observeCap perm proof.quotientPolysCap
  let plonkZeta ← getExtensionChallenge perm
  observeOpenings perm (Fri.toOpenings proof.openings)
  let fri ← getFriChallenges perm proof.openingProof.commitCaps proof.openingProof.finalPoly
    proof.openingProof.powWitness c.config.friConfig
  pure ⟨plonkBetas, plonkGammas, plonkAlphas, plonkZeta, fri⟩

/-- `GetChallenges`, `verifier/verifier.go:45-82`. -/
def getChallenges (c : CommonCircuitData) (proof : Proof Fr QEV) (publicInputsHash : Fin 4 → Fr)
    (vd : VerifierOnlyCircuitData) : Circ (ProofChallenges Fr QEV) := do
  let r ← challengesM perm c proof publicInputsHash vd newChip
  pure r.1

/-- `rangeCheckProof`, `verifier/verifier.go:84-140`. -/
def rangeCheckProof (proof : Proof Fr QEV) : Circ Unit := do
  proof.openings.constants.forM rangeCheckQE
  proof.openings.plonkSigmas.forM rangeCheckQE
  proof.openings.wires.forM rangeCheckQE
  proof.openings.plonkZs.forM rangeCheckQE
  proof.openings.plonkZsNext.forM rangeCheckQE
  proof.openings.partialProducts.forM rangeCheckQE
  proof.openings.quotientPolys.forM rangeCheckQE
  proof.openingProof.rounds.forM fun queryRound => do
    queryRound.initial.forM fun evalsProof => evalsProof.elements.forM rangeCheck
    queryRound.steps.forM fun queryStep => queryStep.evals.forM rangeCheckQE
  proof.openingProof.finalPoly.forM rangeCheckQE
  rangeCheck proof.openingProof.powWitness

/-- `Verify`, `verifier/verifier.go:142-172`, for the gates created by `NewVerifierChip`. -/
def verify (c : CommonCircuitData) (gates : List Gates.Gate) (proof : Proof Fr QEV) (publicInputs : List Fr)
    (vd : VerifierOnlyCircuitData) : Circ Unit := do
  rangeCheckProof proof
  let publicInputsHash ← getPublicInputsHash perm publicInputs
  let proofChallenges ← getChallenges perm c proof publicInputsHash vd
  Plonk.verify c gates proofChallenges proof.openings publicInputsHash
  let initialMerkleCaps := [vd.constantSigmasCap, proof.wiresCap, proof.plonkZsPartialProductsCap,
    proof.quotientPolysCap]
  let inst ← Fri.getInstance c proofChallenges.plonkZeta
  Fri.verifyFriProof c.friParams inst (Fri.toOpenings proof.openings) proofChallenges.friChallenges initialMerkleCaps
    proof.openingProof

/-- `Define`, `verifier/util.go:19-24`, with `NewVerifierChip`, `verifier/verifier.go:24-39`, and `NewPlonkChip`,
`plonk/plonk.go:27-53`: creation of the gates, then `Verify`.  `orders` are the map iteration orders of the calls of
`GateInstanceFromId`.  (`verifyFriProof` takes the FRI parameters of the common data, `verifier/verifier.go:26`.) -/
def define (orders : List (List Gates.Handler)) (c : CommonCircuitData) (proof : Proof Fr QEV) (publicInputs : List Fr)
    (vd : VerifierOnlyCircuitData) : Circ Unit :=
  match Gates.gateInstances (orders.zip (c.gateIds.map String.toList)) with
  | some gates => verify perm c gates proof publicInputs vd
  | none => goPanic "gate not supported"

end Verif.Verifier
