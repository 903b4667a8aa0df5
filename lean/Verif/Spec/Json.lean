import Verif.Model.Json

/-!
# Specification: JSON documents of proofs and circuits

The format that plonky2 writes: objects with the keys below in any order, possibly with further keys.
-/

set_option autoImplicit false

namespace Verif.Spec.JsonFormat

open JsonModel Deserialize

/-- The object has the key, and what it holds under this key (up to case) satisfies `P`. -/
def Key (o : List (String × Json)) (key : String) (P : Json → Prop) : Prop :=
  (∃ v, (key, v) ∈ o) ∧ ∀ kv ∈ o, fold kv.1 = fold key → P kv.2

/-- An object. -/
def Obj (j : Json) (P : List (String × Json) → Prop) : Prop := ∃ o, j = .obj o ∧ P o

/-- A 64-bit number in decimal notation. -/
def Num (n : ℕ) (j : Json) : Prop := n < 2 ^ 64 ∧ j = .num (String.ofList (Nat.toDigits 10 n))

/-- A truth value. -/
def Bool (b : Bool) (j : Json) : Prop := j = .bool b

/-- A string. -/
def Str (s : String) (j : Json) : Prop := j = .str s

/-- An array whose elements represent those of a list. -/
def Arr {α : Type} (R : α → Json → Prop) (l : List α) (j : Json) : Prop := ∃ js, j = .arr js ∧ l.Forall₂ R js

/-- Array of numbers. -/
abbrev Nums := Arr Num
/-- Array of strings. -/
abbrev Strs := Arr Str

/-- `[leaf, {"siblings": [...]}]` -/
def EvalProof (x : EvalProofRaw) (j : Json) : Prop :=
  ∃ a b, j = .arr [a, b] ∧ Nums x.leafElements a ∧ Obj b fun o => Key o "siblings" (Strs x.hash)

/-- Openings. -/
def Openings (x : OpeningsRaw) (j : Json) : Prop := Obj j fun o =>
  Key o "constants" (Arr Nums x.constants) ∧ Key o "plonk_sigmas" (Arr Nums x.plonkSigmas) ∧
  Key o "wires" (Arr Nums x.wires) ∧ Key o "plonk_zs" (Arr Nums x.plonkZs) ∧
  Key o "plonk_zs_next" (Arr Nums x.plonkZsNext) ∧ Key o "partial_products" (Arr Nums x.partialProducts) ∧
  Key o "quotient_polys" (Arr Nums x.quotientPolys)

/-- Reduction step. -/
def Step (x : StepRaw) (j : Json) : Prop := Obj j fun o =>
  Key o "evals" (Arr Nums x.evals) ∧ Key o "merkle_proof" fun m => Obj m fun o => Key o "siblings" (Strs x.siblings)

/-- Query round. -/
def Round (x : QueryRoundRaw) (j : Json) : Prop := Obj j fun o =>
  Key o "initial_trees_proof" (fun i => Obj i fun o => Key o "evals_proofs" (Arr EvalProof x.evalsProofs)) ∧
  Key o "steps" (Arr Step x.steps)

/-- FRI proof. -/
def Fri (x : FriProofRaw) (j : Json) : Prop := Obj j fun o =>
  Key o "commit_phase_merkle_caps" (Arr Strs x.commitPhaseMerkleCaps) ∧
  Key o "query_round_proofs" (Arr Round x.queryRoundProofs) ∧
  Key o "final_poly" (fun f => Obj f fun o => Key o "coeffs" (Arr Nums x.finalPoly)) ∧
  Key o "pow_witness" (Num x.powWitness)

/-- Proof with public inputs. -/
def Proof (x : ProofWithPublicInputsRaw) (j : Json) : Prop := Obj j fun o =>
  Key o "proof" (fun p => Obj p fun o =>
    Key o "wires_cap" (Strs x.wiresCap) ∧ Key o "plonk_zs_partial_products_cap" (Strs x.plonkZsPartialProductsCap) ∧
    Key o "quotient_polys_cap" (Strs x.quotientPolysCap) ∧ Key o "openings" (Openings x.openings) ∧
    Key o "opening_proof" (Fri x.openingProof)) ∧
  Key o "public_inputs" (Nums x.publicInputs)

/-- Verifier data. -/
def VerifierOnly (x : VerifierOnlyCircuitDataRaw) (j : Json) : Prop := Obj j fun o =>
  Key o "constants_sigmas_cap" (Strs x.constantsSigmasCap) ∧ Key o "circuit_digest" (Str x.circuitDigest)

/-- FRI configuration. -/
def FriConfig (x : FriConfigRaw) (j : Json) : Prop := Obj j fun o =>
  Key o "rate_bits" (Num x.rateBits) ∧ Key o "cap_height" (Num x.capHeight) ∧
  Key o "proof_of_work_bits" (Num x.proofOfWorkBits) ∧
  Key o "reduction_strategy" (fun s => Obj s fun o => Key o "ConstantArityBits" (Nums x.constantArityBits)) ∧
  Key o "num_query_rounds" (Num x.numQueryRounds)

/-- Group of selectors. -/
def Group (x : ℕ × ℕ) (j : Json) : Prop := Obj j fun o => Key o "start" (Num x.1) ∧ Key o "end" (Num x.2)

/-- Circuit data. -/
def Common (x : CommonCircuitDataRaw) (j : Json) : Prop := Obj j fun o =>
  Key o "config" (fun c => Obj c fun o =>
    Key o "num_wires" (Num x.numWires) ∧ Key o "num_routed_wires" (Num x.numRoutedWires) ∧
    Key o "num_constants" (Num x.configNumConstants) ∧ Key o "use_base_arithmetic_gate" (Bool x.useBaseArithmeticGate) ∧
    Key o "security_bits" (Num x.securityBits) ∧ Key o "num_challenges" (Num x.numChallenges) ∧
    Key o "zero_knowledge" (Bool x.zeroKnowledge) ∧ Key o "max_quotient_degree_factor" (Num x.maxQuotientDegreeFactor) ∧
    Key o "fri_config" (FriConfig x.friConfig)) ∧
  Key o "fri_params" (fun c => Obj c fun o =>
    Key o "config" (FriConfig x.friParamsConfig) ∧ Key o "hiding" (Bool x.hidingEnabled) ∧
    Key o "degree_bits" (Num x.degreeBits) ∧ Key o "reduction_arity_bits" (Nums x.reductionArityBits)) ∧
  Key o "gates" (Strs x.gates) ∧
  Key o "selectors_info" (fun c => Obj c fun o =>
    Key o "selector_indices" (Nums x.selectorIndices) ∧ Key o "groups" (Arr Group x.groups)) ∧
  Key o "quotient_degree_factor" (Num x.quotientDegreeFactor) ∧ Key o "num_gate_constraints" (Num x.numGateConstraints) ∧
  Key o "num_constants" (Num x.numConstants) ∧ Key o "num_public_inputs" (Num x.numPublicInputs) ∧
  Key o "k_is" (Nums x.kIs) ∧ Key o "num_partial_products" (Num x.numPartialProducts)

/-! ## The documents as plonky2 writes them -/

/-- Number. -/
def num (n : ℕ) : Json := .num (String.ofList (Nat.toDigits 10 n))
/-- Array of numbers. -/
def nums (l : List ℕ) : Json := .arr (l.map num)
/-- Array of arrays of numbers. -/
def numss (l : List (List ℕ)) : Json := .arr (l.map nums)
/-- Array of strings. -/
def strs (l : List String) : Json := .arr (l.map .str)

/-- Opened leaf. -/
def writeEvalProof (x : EvalProofRaw) : Json := .arr [nums x.leafElements, .obj [("siblings", strs x.hash)]]

/-- Openings. -/
def writeOpenings (x : OpeningsRaw) : Json := .obj [
  ("constants", numss x.constants), ("plonk_sigmas", numss x.plonkSigmas), ("wires", numss x.wires),
  ("plonk_zs", numss x.plonkZs), ("plonk_zs_next", numss x.plonkZsNext), ("partial_products", numss x.partialProducts),
  ("quotient_polys", numss x.quotientPolys)]

/-- Reduction step. -/
def writeStep (x : StepRaw) : Json := .obj [("evals", numss x.evals), ("merkle_proof", .obj [("siblings", strs x.siblings)])]

/-- Query round. -/
def writeRound (x : QueryRoundRaw) : Json := .obj [
  ("initial_trees_proof", .obj [("evals_proofs", .arr (x.evalsProofs.map writeEvalProof))]),
  ("steps", .arr (x.steps.map writeStep))]

/-- FRI proof. -/
def writeFri (x : FriProofRaw) : Json := .obj [
  ("commit_phase_merkle_caps", .arr (x.commitPhaseMerkleCaps.map strs)),
  ("query_round_proofs", .arr (x.queryRoundProofs.map writeRound)),
  ("final_poly", .obj [("coeffs", numss x.finalPoly)]), ("pow_witness", num x.powWitness)]

/-- Proof with public inputs. -/
def writeProof (x : ProofWithPublicInputsRaw) : Json := .obj [
  ("proof", .obj [("wires_cap", strs x.wiresCap), ("plonk_zs_partial_products_cap", strs x.plonkZsPartialProductsCap),
    ("quotient_polys_cap", strs x.quotientPolysCap), ("openings", writeOpenings x.openings),
    ("opening_proof", writeFri x.openingProof)]),
  ("public_inputs", nums x.publicInputs)]

/-- Verifier data. -/
def writeVerifierOnly (x : VerifierOnlyCircuitDataRaw) : Json := .obj [
  ("constants_sigmas_cap", strs x.constantsSigmasCap), ("circuit_digest", .str x.circuitDigest)]

/-- FRI configuration. -/
def writeFriConfig (x : FriConfigRaw) : Json := .obj [
  ("rate_bits", num x.rateBits), ("cap_height", num x.capHeight), ("proof_of_work_bits", num x.proofOfWorkBits),
  ("reduction_strategy", .obj [("ConstantArityBits", nums x.constantArityBits)]), ("num_query_rounds", num x.numQueryRounds)]

/-- Group of selectors. -/
def writeGroup (x : ℕ × ℕ) : Json := .obj [("start", num x.1), ("end", num x.2)]

/-- Circuit data. -/
def writeCommon (x : CommonCircuitDataRaw) : Json := .obj [
  ("config", .obj [("num_wires", num x.numWires), ("num_routed_wires", num x.numRoutedWires),
    ("num_constants", num x.configNumConstants), ("use_base_arithmetic_gate", .bool x.useBaseArithmeticGate),
    ("security_bits", num x.securityBits), ("num_challenges", num x.numChallenges), ("zero_knowledge", .bool x.zeroKnowledge),
    ("max_quotient_degree_factor", num x.maxQuotientDegreeFactor), ("fri_config", writeFriConfig x.friConfig)]),
  ("fri_params", .obj [("config", writeFriConfig x.friParamsConfig), ("hiding", .bool x.hidingEnabled),
    ("degree_bits", num x.degreeBits), ("reduction_arity_bits", nums x.reductionArityBits)]),
  ("gates", strs x.gates),
  ("selectors_info", .obj [("selector_indices", nums x.selectorIndices), ("groups", .arr (x.groups.map writeGroup))]),
  ("quotient_degree_factor", num x.quotientDegreeFactor), ("num_gate_constraints", num x.numGateConstraints),
  ("num_constants", num x.numConstants), ("num_public_inputs", num x.numPublicInputs), ("k_is", nums x.kIs),
  ("num_partial_products", num x.numPartialProducts)]

/-- 64-bit numbers. -/
def U64 (n : ℕ) : Prop := n < 2 ^ 64
/-- List of 64-bit numbers. -/
def U64s (l : List ℕ) : Prop := ∀ n ∈ l, U64 n
/-- List of lists of 64-bit numbers. -/
def U64ss (l : List (List ℕ)) : Prop := ∀ m ∈ l, U64s m

/-- All numbers of the proof have 64 bits, as the types of the fields say. -/
def Proof64 (x : ProofWithPublicInputsRaw) : Prop :=
  (U64ss x.openings.constants ∧ U64ss x.openings.plonkSigmas ∧ U64ss x.openings.wires ∧ U64ss x.openings.plonkZs ∧
    U64ss x.openings.plonkZsNext ∧ U64ss x.openings.partialProducts ∧ U64ss x.openings.quotientPolys) ∧
  (∀ y ∈ x.openingProof.queryRoundProofs, (∀ z ∈ y.evalsProofs, U64s z.leafElements) ∧ ∀ z ∈ y.steps, U64ss z.evals) ∧
  U64ss x.openingProof.finalPoly ∧ U64 x.openingProof.powWitness ∧ U64s x.publicInputs

/-- All numbers of a FRI configuration have 64 bits. -/
def FriConfig64 (x : FriConfigRaw) : Prop :=
  U64 x.rateBits ∧ U64 x.capHeight ∧ U64 x.proofOfWorkBits ∧ U64s x.constantArityBits ∧ U64 x.numQueryRounds

/-- All numbers of the circuit data have 64 bits. -/
def Common64 (x : CommonCircuitDataRaw) : Prop :=
  (U64 x.numWires ∧ U64 x.numRoutedWires ∧ U64 x.configNumConstants ∧ U64 x.securityBits ∧ U64 x.numChallenges ∧
    U64 x.maxQuotientDegreeFactor ∧ FriConfig64 x.friConfig) ∧
  (FriConfig64 x.friParamsConfig ∧ U64 x.degreeBits ∧ U64s x.reductionArityBits) ∧
  (U64s x.selectorIndices ∧ ∀ g ∈ x.groups, U64 g.1 ∧ U64 g.2) ∧
  U64 x.quotientDegreeFactor ∧ U64 x.numGateConstraints ∧ U64 x.numConstants ∧ U64 x.numPublicInputs ∧ U64s x.kIs ∧
  U64 x.numPartialProducts

end Verif.Spec.JsonFormat
