import Verif.Model.QuadExt

/-!
# Model of the data types in `types/types.go`, `variables/*.go` and `fri/vars.go`

The circuit structures are parametric in the types of Goldilocks elements (`B`) and extension elements (`E`): the
model uses circuit values (`B = Fr`, `E = QEV`), specifications use field elements (`B = Fp`, `E = QE`).
`uint64` and `int` parameters are natural numbers; shifts are as in Go, for sums and products see `Verifier64.lean`
(C88).
-/

set_option autoImplicit false

namespace Verif

/-- `FriConfig`, `types/types.go:7-15`. -/
structure FriConfig where
  rateBits : ℕ
  capHeight : ℕ
  proofOfWorkBits : ℕ
  numQueryRounds : ℕ

/-- `FriParams`, `types/types.go:21-26`. -/
structure FriParams where
  config : FriConfig
  isHiding : Bool
  degreeBits : ℕ
  reductionArityBits : List ℕ

/-- `TotalArities`, `types/types.go:28-34`. -/
def FriParams.totalArities (q : FriParams) : ℕ := q.reductionArityBits.foldl (· + ·) 0

/-- `LdeBits`, `types/types.go:46-48`. -/
def FriParams.ldeBits (q : FriParams) : ℕ := q.degreeBits + q.config.rateBits

/-- `FinalPolyBits`, `types/types.go:54-56`; an `int`, possibly negative. -/
def FriParams.finalPolyBits (q : FriParams) : ℤ := (q.degreeBits : ℤ) - q.totalArities

/-- Go's `1 << n` on `int` (64 bits, two's complement), for a non-negative shift count. -/
def goShl1 (n : ℕ) : ℤ := if n < 63 then 2 ^ n else if n = 63 then -2 ^ 63 else 0

/-- `FriEvalProof`, `variables/fri.go:30-33`; the Merkle proof is its list of siblings. -/
structure FriEvalProof (B : Type) where
  elements : List B
  siblings : List Fr

/-- `FriQueryStep`, `variables/fri.go:47-50`. -/
structure FriQueryStep (E : Type) where
  evals : List E
  siblings : List Fr

/-- `FriQueryRound`, `variables/fri.go:59-62`; `initial` is `InitialTreesProof.EvalsProofs`. -/
structure FriQueryRound (B E : Type) where
  initial : List (FriEvalProof B)
  steps : List (FriQueryStep E)

/-- `FriProof`, `variables/fri.go:68-73`; `finalPoly` is `FinalPoly.Coeffs`. -/
structure FriProof (B E : Type) where
  commitCaps : List (List Fr)
  rounds : List (FriQueryRound B E)
  finalPoly : List E
  powWitness : B

/-- `FriChallenges`, `variables/fri.go:75-80`. -/
structure FriChallenges (B E : Type) where
  alpha : E
  betas : List E
  powResponse : B
  queryIndices : List B

/-- `OpeningSet`, `variables/plonk.go:5-13`. -/
structure OpeningSet (E : Type) where
  constants : List E
  plonkSigmas : List E
  wires : List E
  plonkZs : List E
  plonkZsNext : List E
  partialProducts : List E
  quotientPolys : List E

/-- `Proof`, `variables/circuit.go:8-14`. -/
structure Proof (B E : Type) where
  wiresCap : List Fr
  plonkZsPartialProductsCap : List Fr
  quotientPolysCap : List Fr
  openings : OpeningSet E
  openingProof : FriProof B E

/-- `VerifierOnlyCircuitData`, `variables/circuit.go:21-24`. -/
structure VerifierOnlyCircuitData where
  constantSigmasCap : List Fr
  circuitDigest : Fr

/-- `ProofChallenges`, `variables/plonk.go:15-21`. -/
structure ProofChallenges (B E : Type) where
  plonkBetas : List B
  plonkGammas : List B
  plonkAlphas : List B
  plonkZeta : E
  friChallenges : FriChallenges B E

/-- `PolynomialInfo`, `fri/fri_utils.go:11-14`. -/
structure PolynomialInfo where
  oracleIndex : ℕ
  polynomialInfo : ℕ
deriving DecidableEq

/-- `OracleInfo`, `fri/fri_utils.go:16-19`. -/
structure OracleInfo where
  numPolys : ℕ
  blinding : Bool
deriving DecidableEq

/-- `BatchInfo`, `fri/vars.go:5-8`. -/
structure BatchInfo (E : Type) where
  point : E
  polynomials : List PolynomialInfo

/-- `InstanceInfo`, `fri/vars.go:10-13`. -/
structure InstanceInfo (E : Type) where
  oracles : List OracleInfo
  batches : List (BatchInfo E)

/-- `SelectorsInfo`, `plonk/gates/types.go`. -/
structure SelectorsInfo where
  selectorIndices : List ℕ
  groups : List (ℕ × ℕ)

/-- `CircuitConfig`, `types/types.go:62-72`. -/
structure CircuitConfig where
  numWires : ℕ
  numRoutedWires : ℕ
  numConstants : ℕ
  useBaseArithmeticGate : Bool
  securityBits : ℕ
  numChallenges : ℕ
  zeroKnowledge : Bool
  maxQuotientDegreeFactor : ℕ
  friConfig : FriConfig

/-- `CommonCircuitData`, `types/types.go:74-86`; `degreeBits` is the outer field, which shadows the one of the
embedded `FriParams`. -/
structure CommonCircuitData where
  config : CircuitConfig
  friParams : FriParams
  gateIds : List String
  selectorsInfo : SelectorsInfo
  degreeBits : ℕ
  quotientDegreeFactor : ℕ
  numGateConstraints : ℕ
  numConstants : ℕ
  numPublicInputs : ℕ
  kIs : List ℕ
  numPartialProducts : ℕ

/-! ## Encoding of field elements as circuit values -/

/-- Circuit form of an opened leaf. -/
def FriEvalProof.enc (x : FriEvalProof Fp) : FriEvalProof Fr := ⟨x.elements.map emb, x.siblings⟩

/-- Circuit form of a reduction step. -/
def FriQueryStep.enc (x : FriQueryStep QE) : FriQueryStep QEV := ⟨x.evals.map embQ, x.siblings⟩

/-- Circuit form of a query round. -/
def FriQueryRound.enc (x : FriQueryRound Fp QE) : FriQueryRound Fr QEV :=
  ⟨x.initial.map FriEvalProof.enc, x.steps.map FriQueryStep.enc⟩

/-- Circuit form of a FRI proof. -/
def FriProof.enc (x : FriProof Fp QE) : FriProof Fr QEV :=
  ⟨x.commitCaps, x.rounds.map FriQueryRound.enc, x.finalPoly.map embQ, emb x.powWitness⟩

/-- Circuit form of the FRI challenges. -/
def FriChallenges.enc (x : FriChallenges Fp QE) : FriChallenges Fr QEV :=
  ⟨embQ x.alpha, x.betas.map embQ, emb x.powResponse, x.queryIndices.map emb⟩

/-- Circuit form of the openings. -/
def OpeningSet.enc (x : OpeningSet QE) : OpeningSet QEV :=
  ⟨x.constants.map embQ, x.plonkSigmas.map embQ, x.wires.map embQ, x.plonkZs.map embQ, x.plonkZsNext.map embQ,
    x.partialProducts.map embQ, x.quotientPolys.map embQ⟩

/-- Circuit form of a proof. -/
def Proof.enc (x : Proof Fp QE) : Proof Fr QEV :=
  ⟨x.wiresCap, x.plonkZsPartialProductsCap, x.quotientPolysCap, x.openings.enc, x.openingProof.enc⟩

/-- Circuit form of the challenges. -/
def ProofChallenges.enc (x : ProofChallenges Fp QE) : ProofChallenges Fr QEV :=
  ⟨x.plonkBetas.map emb, x.plonkGammas.map emb, x.plonkAlphas.map emb, embQ x.plonkZeta, x.friChallenges.enc⟩

/-- Circuit form of a batch. -/
def BatchInfo.enc (x : BatchInfo QE) : BatchInfo QEV := ⟨embQ x.point, x.polynomials⟩

/-- Circuit form of an instance. -/
def InstanceInfo.enc (x : InstanceInfo QE) : InstanceInfo QEV := ⟨x.oracles, x.batches.map BatchInfo.enc⟩

end Verif
