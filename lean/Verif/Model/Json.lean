import Verif.Model.Deserialize
import Verif.Model.GateIds

/-!
# Model of the decoding of the JSON files, `types/deserialize.go` and `types/common_data.go`

A JSON document is a tree (`Json`); its syntax is not modelled.  `encoding/json` decodes into an existing value: absent
keys and `null` leave it as it is, unknown keys are skipped, keys are compared up to case, and a value of the wrong type makes
`Unmarshal` fail, on which the code panics (`none`).  Each Go structure is a table of its keys (the `json:"..."` tags, or
the name of the field) with the decoders of the fields.  Simplification: a key that occurs twice overwrites lists completely (Go may
reuse elements of the first occurrence).
-/

set_option autoImplicit false

namespace Verif.JsonModel

open Deserialize

/-- JSON documents; numbers are given by their literals. -/
inductive Json where
  | null
  | bool (b : Bool)
  | num (literal : String)
  | str (s : String)
  | arr (l : List Json)
  | obj (l : List (String × Json))

/-- Decodes into an existing value. -/
abbrev Dec (α : Type) := Json → α → Option α

/-- `uint64`: `strconv.ParseUint` of the literal. -/
def uint64 : Dec ℕ
  | .null, n => some n
  | .num s, _ => Gates.parseUint s.toList
  | _, _ => none

/-- `bool`. -/
def boolean : Dec Bool
  | .null, b => some b
  | .bool b, _ => some b
  | _, _ => none

/-- `string`. -/
def string : Dec String
  | .null, s => some s
  | .str s, _ => some s
  | _, _ => none

/-- A slice; the elements start from the zero value. -/
def slice {α : Type} (d : Dec α) (zero : α) : Dec (List α)
  | .null, _ => some []
  | .arr l, _ => l.mapM fun j => d j zero
  | _, _ => none

/-- Case folding of keys in `encoding/json`: ASCII letters, the long s and the Kelvin sign. -/
def foldChar (c : Char) : Char :=
  if c = Char.ofNat 0x17f then 's' else if c = Char.ofNat 0x212a then 'k' else c.toLower

/-- Case folding of a key. -/
def fold (s : String) : List Char := s.toList.map foldChar

/-- A structure with its keys. -/
abbrev Table (α : Type) := List (String × Dec α)

/-- Entry for a field. -/
def field {α β : Type} (key : String) (get : α → β) (set : α → β → α) (d : Dec β) : String × Dec α :=
  (key, fun j x => (d j (get x)).map (set x))

/-- One key of an object. -/
def step {α : Type} (t : Table α) (x : α) (kv : String × Json) : Option α :=
  match t.find? fun f => fold f.1 == fold kv.1 with
  | some f => f.2 kv.2 x
  | none => some x

/-- A structure. -/
def struct {α : Type} (t : Table α) : Dec α
  | .null, x => some x
  | .obj o, x => o.foldlM (step t) x
  | _, _ => none

/-! ## `types/deserialize.go` -/

/-- `[]uint64`. -/
def uint64s : Dec (List ℕ) := slice uint64 0
/-- `[][]uint64`. -/
def uint64ss : Dec (List (List ℕ)) := slice uint64s []
/-- `[]string`. -/
def strings : Dec (List String) := slice string ""

/-- `MerkleProofRaw.UnmarshalJSON`, `types/deserialize.go:59-72`: an object with the key `Siblings`, copied. -/
def merkleProof : Dec (List String)
  | j, _ => struct [field "Siblings" (fun s : List String => s) (fun _ x => x) strings] j []

/-- `EvalProofRaw.UnmarshalJSON`, `types/deserialize.go:51-53`: the first two elements of an array go into the two
fields (`null` changes nothing); further elements go into new values. -/
def evalProof : Dec EvalProofRaw
  | .null, e => some e
  | .arr l, e => do
    let leaf ← match l[0]? with
      | none => some e.leafElements
      | some Json.null => some e.leafElements
      | some j => uint64s j e.leafElements
    let hash ← match l[1]? with
      | none => some e.hash
      | some Json.null => some e.hash
      | some j => merkleProof j e.hash
    return ⟨leaf, hash⟩
  | _, _ => none

/-- `types/deserialize.go:14-22`. -/
def openings : Table OpeningsRaw := [
  field "constants" (·.constants) (fun o x => { o with constants := x }) uint64ss,
  field "plonk_sigmas" (·.plonkSigmas) (fun o x => { o with plonkSigmas := x }) uint64ss,
  field "wires" (·.wires) (fun o x => { o with wires := x }) uint64ss,
  field "plonk_zs" (·.plonkZs) (fun o x => { o with plonkZs := x }) uint64ss,
  field "plonk_zs_next" (·.plonkZsNext) (fun o x => { o with plonkZsNext := x }) uint64ss,
  field "partial_products" (·.partialProducts) (fun o x => { o with partialProducts := x }) uint64ss,
  field "quotient_polys" (·.quotientPolys) (fun o x => { o with quotientPolys := x }) uint64ss]

/-- `types/deserialize.go:29-34`. -/
def friStep : Table StepRaw := [
  field "evals" (·.evals) (fun o x => { o with evals := x }) uint64ss,
  field "merkle_proof" (·.siblings) (fun o x => { o with siblings := x })
    (struct [field "siblings" (fun s : List String => s) (fun _ x => x) strings])]

/-- `types/deserialize.go:25-35`. -/
def queryRound : Table QueryRoundRaw := [
  field "initial_trees_proof" (·.evalsProofs) (fun o x => { o with evalsProofs := x })
    (struct [field "evals_proofs" (fun s : List EvalProofRaw => s) (fun _ x => x) (slice evalProof ⟨[], []⟩)]),
  field "steps" (·.steps) (fun o x => { o with steps := x }) (slice (struct friStep) ⟨[], []⟩)]

/-- `types/deserialize.go:23-40`. -/
def friProof : Table FriProofRaw := [
  field "commit_phase_merkle_caps" (·.commitPhaseMerkleCaps) (fun o x => { o with commitPhaseMerkleCaps := x }) (slice strings []),
  field "query_round_proofs" (·.queryRoundProofs) (fun o x => { o with queryRoundProofs := x })
    (slice (struct queryRound) ⟨[], []⟩),
  field "final_poly" (·.finalPoly) (fun o x => { o with finalPoly := x })
    (struct [field "coeffs" (fun s : List (List ℕ) => s) (fun _ x => x) uint64ss]),
  field "pow_witness" (·.powWitness) (fun o x => { o with powWitness := x }) uint64]

/-- The structure `Proof`, `types/deserialize.go:10-41`. -/
def proof : Table ProofWithPublicInputsRaw := [
  field "wires_cap" (·.wiresCap) (fun o x => { o with wiresCap := x }) strings,
  field "plonk_zs_partial_products_cap" (·.plonkZsPartialProductsCap) (fun o x => { o with plonkZsPartialProductsCap := x }) strings,
  field "quotient_polys_cap" (·.quotientPolysCap) (fun o x => { o with quotientPolysCap := x }) strings,
  field "openings" (·.openings) (fun o x => { o with openings := x }) (struct openings),
  field "opening_proof" (·.openingProof) (fun o x => { o with openingProof := x }) (struct friProof)]

/-- `ProofWithPublicInputsRaw`, `types/deserialize.go:9-44`. -/
def proofWithPublicInputs : Table ProofWithPublicInputsRaw := [
  ("proof", struct proof),
  field "public_inputs" (·.publicInputs) (fun o x => { o with publicInputs := x }) uint64s]

/-- Zero value of `ProofWithPublicInputsRaw`. -/
def zeroProof : ProofWithPublicInputsRaw := ⟨[], [], [], ⟨[], [], [], [], [], [], []⟩, ⟨[], [], [], 0⟩, []⟩

/-- `ReadProofWithPublicInputs`, `types/deserialize.go:95-111`, on the parsed file. -/
def readProofWithPublicInputs (j : Json) : Option ProofWithPublicInputsRaw := struct proofWithPublicInputs j zeroProof

/-- `VerifierOnlyCircuitDataRaw`, `types/deserialize.go:90-93`. -/
def verifierOnly : Table VerifierOnlyCircuitDataRaw := [
  field "constants_sigmas_cap" (·.constantsSigmasCap) (fun o x => { o with constantsSigmasCap := x }) strings,
  field "circuit_digest" (·.circuitDigest) (fun o x => { o with circuitDigest := x }) string]

/-- `ReadVerifierOnlyCircuitData`, `types/deserialize.go:113-129`, on the parsed file. -/
def readVerifierOnlyCircuitData (j : Json) : Option VerifierOnlyCircuitDataRaw := struct verifierOnly j ⟨[], ""⟩

/-! ## `types/common_data.go` -/

/-- `types/common_data.go:21-29, 32-40`. -/
def friConfig : Table FriConfigRaw := [
  field "rate_bits" (·.rateBits) (fun o x => { o with rateBits := x }) uint64,
  field "cap_height" (·.capHeight) (fun o x => { o with capHeight := x }) uint64,
  field "proof_of_work_bits" (·.proofOfWorkBits) (fun o x => { o with proofOfWorkBits := x }) uint64,
  field "reduction_strategy" (·.constantArityBits) (fun o x => { o with constantArityBits := x })
    (struct [field "ConstantArityBits" (fun s : List ℕ => s) (fun _ x => x) uint64s]),
  field "num_query_rounds" (·.numQueryRounds) (fun o x => { o with numQueryRounds := x }) uint64]

/-- `types/common_data.go:12-30`. -/
def config : Table CommonCircuitDataRaw := [
  field "num_wires" (·.numWires) (fun o x => { o with numWires := x }) uint64,
  field "num_routed_wires" (·.numRoutedWires) (fun o x => { o with numRoutedWires := x }) uint64,
  field "num_constants" (·.configNumConstants) (fun o x => { o with configNumConstants := x }) uint64,
  field "use_base_arithmetic_gate" (·.useBaseArithmeticGate) (fun o x => { o with useBaseArithmeticGate := x }) boolean,
  field "security_bits" (·.securityBits) (fun o x => { o with securityBits := x }) uint64,
  field "num_challenges" (·.numChallenges) (fun o x => { o with numChallenges := x }) uint64,
  field "zero_knowledge" (·.zeroKnowledge) (fun o x => { o with zeroKnowledge := x }) boolean,
  field "max_quotient_degree_factor" (·.maxQuotientDegreeFactor) (fun o x => { o with maxQuotientDegreeFactor := x }) uint64,
  field "fri_config" (·.friConfig) (fun o x => { o with friConfig := x }) (struct friConfig)]

/-- `types/common_data.go:31-44`. -/
def friParams : Table CommonCircuitDataRaw := [
  field "config" (·.friParamsConfig) (fun o x => { o with friParamsConfig := x }) (struct friConfig),
  field "hiding" (·.hidingEnabled) (fun o x => { o with hidingEnabled := x }) boolean,
  field "degree_bits" (·.degreeBits) (fun o x => { o with degreeBits := x }) uint64,
  field "reduction_arity_bits" (·.reductionArityBits) (fun o x => { o with reductionArityBits := x }) uint64s]

/-- `types/common_data.go:48-51`. -/
def group : Table (ℕ × ℕ) := [
  field "start" (·.1) (fun o x => (x, o.2)) uint64,
  field "end" (·.2) (fun o x => (o.1, x)) uint64]

/-- `types/common_data.go:46-52`. -/
def selectorsInfo : Table CommonCircuitDataRaw := [
  field "selector_indices" (·.selectorIndices) (fun o x => { o with selectorIndices := x }) uint64s,
  field "groups" (·.groups) (fun o x => { o with groups := x }) (slice (struct group) (0, 0))]

/-- `CommonCircuitDataRaw`, `types/common_data.go:11-59`. -/
def commonCircuitData : Table CommonCircuitDataRaw := [
  ("config", struct config),
  ("fri_params", struct friParams),
  field "gates" (·.gates) (fun o x => { o with gates := x }) strings,
  ("selectors_info", struct selectorsInfo),
  field "quotient_degree_factor" (·.quotientDegreeFactor) (fun o x => { o with quotientDegreeFactor := x }) uint64,
  field "num_gate_constraints" (·.numGateConstraints) (fun o x => { o with numGateConstraints := x }) uint64,
  field "num_constants" (·.numConstants) (fun o x => { o with numConstants := x }) uint64,
  field "num_public_inputs" (·.numPublicInputs) (fun o x => { o with numPublicInputs := x }) uint64,
  field "k_is" (·.kIs) (fun o x => { o with kIs := x }) uint64s,
  field "num_partial_products" (·.numPartialProducts) (fun o x => { o with numPartialProducts := x }) uint64]

/-- Zero value of `CommonCircuitDataRaw`. -/
def zeroCommon : CommonCircuitDataRaw :=
  ⟨0, 0, 0, false, 0, 0, false, 0, ⟨0, 0, 0, [], 0⟩, ⟨0, 0, 0, [], 0⟩, false, 0, [], [], [], [], 0, 0, 0, 0, [], 0⟩

/-- The decoding part of `ReadCommonCircuitData`, `types/common_data.go:61-76`, on the parsed file. -/
def decodeCommonCircuitData (j : Json) : Option CommonCircuitDataRaw := struct commonCircuitData j zeroCommon

end Verif.JsonModel
