import Verif.Model.Types
import Mathlib.Data.Nat.Digits.Defs

/-!
# Model of `types/deserialize.go`, `types/common_data.go` and `variables/deserialize.go`

The raw structures are those `encoding/json` fills; for the decoder see `Verif.Model.Json`.  `uint64` values are natural
numbers.  `none` stands for a panic, or for the failure of gnark's witness creation on a `nil` big integer, which is
what the code passes on when a hash string is malformed (it drops the result of `SetString`).
-/

set_option autoImplicit false

namespace Verif.Deserialize

/-- Openings of `ProofWithPublicInputsRaw`, `types/deserialize.go:14-22`. -/
structure OpeningsRaw where
  constants : List (List ℕ)
  plonkSigmas : List (List ℕ)
  wires : List (List ℕ)
  plonkZs : List (List ℕ)
  plonkZsNext : List (List ℕ)
  partialProducts : List (List ℕ)
  quotientPolys : List (List ℕ)

/-- `EvalProofRaw` with its `MerkleProofRaw`, `types/deserialize.go:46-57`. -/
structure EvalProofRaw where
  leafElements : List ℕ
  hash : List String

/-- Element of `Steps`, `types/deserialize.go:29-34`. -/
structure StepRaw where
  evals : List (List ℕ)
  siblings : List String

/-- Element of `QueryRoundProofs`, `types/deserialize.go:25-35`. -/
structure QueryRoundRaw where
  evalsProofs : List EvalProofRaw
  steps : List StepRaw

/-- `OpeningProof`, `types/deserialize.go:23-40`. -/
structure FriProofRaw where
  commitPhaseMerkleCaps : List (List String)
  queryRoundProofs : List QueryRoundRaw
  finalPoly : List (List ℕ)
  powWitness : ℕ

/-- `ProofWithPublicInputsRaw`, `types/deserialize.go:9-44`. -/
structure ProofWithPublicInputsRaw where
  wiresCap : List String
  plonkZsPartialProductsCap : List String
  quotientPolysCap : List String
  openings : OpeningsRaw
  openingProof : FriProofRaw
  publicInputs : List ℕ

/-- `VerifierOnlyCircuitDataRaw`, `types/deserialize.go:90-93`. -/
structure VerifierOnlyCircuitDataRaw where
  constantsSigmasCap : List String
  circuitDigest : String

/-- `ProofWithPublicInputs`, `variables/circuit.go:16-19`. -/
structure ProofWithPublicInputs (B E : Type) where
  proof : Proof B E
  publicInputs : List B

/-- Digits of a decimal number; `none` if there is none or another character occurs. -/
def bigDigits (s : List Char) : Option ℕ :=
  if s ≠ [] ∧ s.all Char.isDigit then some (Nat.ofDigitChars 10 s 0) else none

/-- `new(big.Int).SetString(s, 10)` of Go's `math/big`: an optional sign and decimal digits. -/
def bigSetString (s : String) : Option ℤ :=
  match s.toList with
  | '-' :: t => (bigDigits t).map fun n : ℕ => -(n : ℤ)
  | '+' :: t => (bigDigits t).map fun n : ℕ => (n : ℤ)
  | t => (bigDigits t).map fun n : ℕ => (n : ℤ)

/-- A hash given as a string, as a witness value (gnark reduces a big integer modulo `r`),
`variables/deserialize.go:16-17`. -/
def hashVar (s : String) : Option Fr := (bigSetString s).map fun z : ℤ => (z : Fr)

/-- `DeserializeMerkleCap`, `variables/deserialize.go:12-20`, and `StringArrayToHashBN254Array`,
`variables/deserialize.go:54-64`. -/
def hashArray (l : List String) : Option (List Fr) := l.mapM hashVar

/-- `Uint64ArrayToVariableArray`, `goldilocks/utils.go:28-34`. -/
def uint64ArrayToVariableArray (l : List ℕ) : List Fr := l.map fun n : ℕ => (n : Fr)

/-- Loop body of `Uint64ArrayToQuadraticExtensionArray`, `goldilocks/utils.go:43`: indices 0 and 1, further
components ignored. -/
def uint64ArrayToQuadraticExtension (l : List ℕ) : Option QEV :=
  match l with
  | a :: b :: _ => some ((a : Fr), (b : Fr))
  | _ => none

/-- `Uint64ArrayToQuadraticExtensionArray`, `goldilocks/utils.go:40-46`. -/
def uint64ArrayToQuadraticExtensionArray (l : List (List ℕ)) : Option (List QEV) :=
  l.mapM uint64ArrayToQuadraticExtension

/-- `DeserializeOpeningSet`, `variables/deserialize.go:33-52`. -/
def deserializeOpeningSet (raw : OpeningsRaw) : Option (OpeningSet QEV) := do
  let constants ← uint64ArrayToQuadraticExtensionArray raw.constants
  let plonkSigmas ← uint64ArrayToQuadraticExtensionArray raw.plonkSigmas
  let wires ← uint64ArrayToQuadraticExtensionArray raw.wires
  let plonkZs ← uint64ArrayToQuadraticExtensionArray raw.plonkZs
  let plonkZsNext ← uint64ArrayToQuadraticExtensionArray raw.plonkZsNext
  let partialProducts ← uint64ArrayToQuadraticExtensionArray raw.partialProducts
  let quotientPolys ← uint64ArrayToQuadraticExtensionArray raw.quotientPolys
  return ⟨constants, plonkSigmas, wires, plonkZs, plonkZsNext, partialProducts, quotientPolys⟩

/-- Body of the loop over `EvalsProofs`, `variables/deserialize.go:98-99`. -/
def deserializeEvalProof (raw : EvalProofRaw) : Option (FriEvalProof Fr) := do
  let siblings ← hashArray raw.hash
  return ⟨uint64ArrayToVariableArray raw.leafElements, siblings⟩

/-- Body of the loop over `Steps`, `variables/deserialize.go:105-106`. -/
def deserializeStep (raw : StepRaw) : Option (FriQueryStep QEV) := do
  let evals ← uint64ArrayToQuadraticExtensionArray raw.evals
  let siblings ← hashArray raw.siblings
  return ⟨evals, siblings⟩

/-- Body of the loop over `QueryRoundProofs`, `variables/deserialize.go:95-107`. -/
def deserializeQueryRound (raw : QueryRoundRaw) : Option (FriQueryRound Fr QEV) := do
  let initial ← raw.evalsProofs.mapM deserializeEvalProof
  let steps ← raw.steps.mapM deserializeStep
  return ⟨initial, steps⟩

/-- `DeserializeFriProof`, `variables/deserialize.go:66-111`. -/
def deserializeFriProof (raw : FriProofRaw) : Option (FriProof Fr QEV) := do
  let finalPoly ← uint64ArrayToQuadraticExtensionArray raw.finalPoly
  let caps ← raw.commitPhaseMerkleCaps.mapM hashArray
  let rounds ← raw.queryRoundProofs.mapM deserializeQueryRound
  return ⟨caps, rounds, finalPoly, (raw.powWitness : Fr)⟩

/-- `DeserializeProofWithPublicInputs`, `variables/deserialize.go:113-145`. -/
def deserializeProofWithPublicInputs (raw : ProofWithPublicInputsRaw) : Option (ProofWithPublicInputs Fr QEV) := do
  let wiresCap ← hashArray raw.wiresCap
  let zsCap ← hashArray raw.plonkZsPartialProductsCap
  let quotientCap ← hashArray raw.quotientPolysCap
  let openings ← deserializeOpeningSet raw.openings
  let openingProof ← deserializeFriProof raw.openingProof
  return ⟨⟨wiresCap, zsCap, quotientCap, openings, openingProof⟩, uint64ArrayToVariableArray raw.publicInputs⟩

/-- `DeserializeVerifierOnlyCircuitData`, `variables/deserialize.go:147-154`. -/
def deserializeVerifierOnlyCircuitData (raw : VerifierOnlyCircuitDataRaw) : Option VerifierOnlyCircuitData := do
  let cap ← hashArray raw.constantsSigmasCap
  let digest ← hashVar raw.circuitDigest
  return ⟨cap, digest⟩

/-! ## `types/common_data.go` -/

/-- `fri_config` and `fri_params.config`, `types/common_data.go:21-29, 32-40`. -/
structure FriConfigRaw where
  rateBits : ℕ
  capHeight : ℕ
  proofOfWorkBits : ℕ
  constantArityBits : List ℕ
  numQueryRounds : ℕ

/-- `CommonCircuitDataRaw`, `types/common_data.go:11-60`. -/
structure CommonCircuitDataRaw where
  numWires : ℕ
  numRoutedWires : ℕ
  configNumConstants : ℕ
  useBaseArithmeticGate : Bool
  securityBits : ℕ
  numChallenges : ℕ
  zeroKnowledge : Bool
  maxQuotientDegreeFactor : ℕ
  friConfig : FriConfigRaw
  friParamsConfig : FriConfigRaw
  hidingEnabled : Bool
  degreeBits : ℕ
  reductionArityBits : List ℕ
  gates : List String
  selectorIndices : List ℕ
  groups : List (ℕ × ℕ)
  quotientDegreeFactor : ℕ
  numGateConstraints : ℕ
  numConstants : ℕ
  numPublicInputs : ℕ
  kIs : List ℕ
  numPartialProducts : ℕ

/-- `NewSelectorsInfo`, `plonk/gates/types.go:15-32`. -/
def newSelectorsInfo (selectorIndices groupStarts groupEnds : List ℕ) : Option SelectorsInfo :=
  if groupStarts.length ≠ groupEnds.length then none
  else some ⟨selectorIndices, groupStarts.zip groupEnds⟩

/-- The part of `ReadCommonCircuitData` after decoding, `types/common_data.go:77-128`.  `FriParams.Hiding` of the result
keeps Go's zero value. -/
def readCommonCircuitData (raw : CommonCircuitDataRaw) : Option CommonCircuitData := do
  let friConfig : FriConfig := ⟨raw.friConfig.rateBits, raw.friConfig.capHeight, raw.friConfig.proofOfWorkBits,
    raw.friConfig.numQueryRounds⟩
  let config : CircuitConfig := ⟨raw.numWires, raw.numRoutedWires, raw.configNumConstants, raw.useBaseArithmeticGate,
    raw.securityBits, raw.numChallenges, raw.zeroKnowledge, raw.maxQuotientDegreeFactor, friConfig⟩
  let friParams : FriParams := ⟨⟨raw.friParamsConfig.rateBits, raw.friParamsConfig.capHeight,
    raw.friParamsConfig.proofOfWorkBits, raw.friParamsConfig.numQueryRounds⟩, false, raw.degreeBits,
    raw.reductionArityBits⟩
  let selectorsInfo ← newSelectorsInfo raw.selectorIndices (raw.groups.map Prod.fst) (raw.groups.map Prod.snd)
  if raw.hidingEnabled then none
  else
    return ⟨config, friParams, raw.gates, selectorsInfo, raw.degreeBits, raw.quotientDegreeFactor,
      raw.numGateConstraints, raw.numConstants, raw.numPublicInputs, raw.kIs, raw.numPartialProducts⟩

end Verif.Deserialize
