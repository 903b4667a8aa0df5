import Verif.Proofs.Deserialize

/-!
# Properties C60, C61, C64, C66: input data and the trusted setup
-/

set_option autoImplicit false

namespace Verif

open Deserialize Spec.Deserialize

/-! ## C60 -/

/-- **C60** Deserialisation succeeds with `x` exactly when `x` corresponds to the raw proof field by field and element by
element (same lengths and order, values below `2^64` kept unreduced, hashes modulo `r`). -/
theorem C60_proof (raw : ProofWithPublicInputsRaw) (x : ProofWithPublicInputs Fr QEV) :
    deserializeProofWithPublicInputs raw = some x ↔ WithPublicInputs raw x := withPublicInputs_iff raw x

/-- **C60** The same for the verifier data. -/
theorem C60_verifierOnly (raw : VerifierOnlyCircuitDataRaw) (x : VerifierOnlyCircuitData) :
    deserializeVerifierOnlyCircuitData raw = some x ↔ VerifierOnly raw x := verifierOnly_iff raw x

/-- **C60** Every proof over the fields is recovered from its serialised form. -/
theorem C60_roundtrip (x : Proof Fp QE) (pis : List Fp) :
    deserializeProofWithPublicInputs (serialize x pis) = some ⟨x.enc, pis.map emb⟩ :=
  (withPublicInputs_iff _ _).2 (serialize_corresponds x pis)

/-- **C60** The same for the verifier data. -/
theorem C60_verifierOnly_roundtrip (x : VerifierOnlyCircuitData) :
    deserializeVerifierOnlyCircuitData (serializeVerifierOnly x) = some x :=
  (verifierOnly_iff _ _).2 ⟨hash_map _, hash_hashStr _⟩

/-- **C60** Distinct 64-bit values stay distinct circuit values (in particular `n` and `n + p`). -/
theorem C60_injective {n m : ℕ} {x : Fr} (hn : n < 2 ^ 64) (hm : m < 2 ^ 64) (h1 : Elt n x) (h2 : Elt m x) : n = m := by
  rw [Elt] at h1 h2
  have h : (n : Fr) = (m : Fr) := h1.symm.trans h2
  have b : 2 ^ 64 < r := by norm_num [r]
  rwa [ZMod.natCast_eq_natCast_iff', Nat.mod_eq_of_lt (hn.trans b), Nat.mod_eq_of_lt (hm.trans b)] at h

/-- `7` and `7 + p` stay distinct. -/
example : Elt 7 ((7 : ℕ) : Fr) ∧ ¬ Elt (7 + p) ((7 : ℕ) : Fr) :=
  ⟨rfl, fun h => absurd (C60_injective (n := 7) (by norm_num) (by norm_num [p]) rfl h) (by norm_num [p])⟩

/-- **C60** A malformed hash in a cap or digest, or an extension element of fewer than two components, is never turned
into a value. -/
theorem C60_malformed (s : String) (l : List ℕ) :
    ((∀ z, ¬ Decimal s z) → hashVar s = none) ∧ (l.length < 2 → uint64ArrayToQuadraticExtension l = none) := by
  constructor
  · intro h
    rw [Option.eq_none_iff_forall_ne_some]
    intro x hx
    obtain ⟨z, hz, _⟩ := (hashVar_iff s x).1 hx
    exact h z hz
  · intro h
    match l, h with
    | [], _ => rfl
    | [_], _ => rfl

/-- Leading zeros, a sign and values above `r` are accepted, a hexadecimal number is not; a third component is
ignored. -/
example : hashVar "007" = some 7 ∧ hashVar "-1" = some (-1) ∧ hashVar (toString (r + 5)) = some 5 ∧
    hashVar "0x10" = none ∧ hashVar "" = none ∧ uint64ArrayToQuadraticExtension [3, p + 4, 5] = some (3, (p : Fr) + 4) ∧
    uint64ArrayToQuadraticExtension [3] = none := by
  refine ⟨by decide +kernel, by decide +kernel, by decide +kernel, by decide +kernel, by decide +kernel, ?_, rfl⟩
  simp [uint64ArrayToQuadraticExtension]

/-! ## C61 -/

/-- **C61** Hiding is rejected; otherwise every parameter is carried over unchanged, and hiding is off. -/
theorem C61_readCommonCircuitData (raw : CommonCircuitDataRaw) :
    (raw.hidingEnabled = true → readCommonCircuitData raw = none) ∧
    (raw.hidingEnabled = false → ∃ c, readCommonCircuitData raw = some c ∧
      c.config.numWires = raw.numWires ∧ c.config.numRoutedWires = raw.numRoutedWires ∧
      c.config.numConstants = raw.configNumConstants ∧ c.config.useBaseArithmeticGate = raw.useBaseArithmeticGate ∧
      c.config.securityBits = raw.securityBits ∧ c.config.numChallenges = raw.numChallenges ∧
      c.config.zeroKnowledge = raw.zeroKnowledge ∧ c.config.maxQuotientDegreeFactor = raw.maxQuotientDegreeFactor ∧
      c.config.friConfig.rateBits = raw.friConfig.rateBits ∧ c.config.friConfig.capHeight = raw.friConfig.capHeight ∧
      c.config.friConfig.proofOfWorkBits = raw.friConfig.proofOfWorkBits ∧
      c.config.friConfig.numQueryRounds = raw.friConfig.numQueryRounds ∧
      c.friParams.config.rateBits = raw.friParamsConfig.rateBits ∧
      c.friParams.config.capHeight = raw.friParamsConfig.capHeight ∧
      c.friParams.config.proofOfWorkBits = raw.friParamsConfig.proofOfWorkBits ∧
      c.friParams.config.numQueryRounds = raw.friParamsConfig.numQueryRounds ∧
      c.friParams.isHiding = false ∧ c.friParams.degreeBits = raw.degreeBits ∧
      c.friParams.reductionArityBits = raw.reductionArityBits ∧ c.gateIds = raw.gates ∧
      c.selectorsInfo.selectorIndices = raw.selectorIndices ∧ c.selectorsInfo.groups = raw.groups ∧
      c.degreeBits = raw.degreeBits ∧ c.quotientDegreeFactor = raw.quotientDegreeFactor ∧
      c.numGateConstraints = raw.numGateConstraints ∧ c.numConstants = raw.numConstants ∧
      c.numPublicInputs = raw.numPublicInputs ∧ c.kIs = raw.kIs ∧ c.numPartialProducts = raw.numPartialProducts) := by
  have hz : newSelectorsInfo raw.selectorIndices (raw.groups.map Prod.fst) (raw.groups.map Prod.snd) =
      some ⟨raw.selectorIndices, raw.groups⟩ := by
    have e := List.zip_unzip raw.groups
    rw [List.unzip_eq_map] at e
    rw [newSelectorsInfo, if_neg (by simp), e]
  constructor
  · intro h
    rw [readCommonCircuitData, hz, h]
    rfl
  · intro h
    rw [readCommonCircuitData, hz, h]
    exact ⟨_, rfl, rfl, rfl, rfl, rfl, rfl, rfl, rfl, rfl, rfl, rfl, rfl, rfl, rfl, rfl, rfl, rfl, rfl, rfl, rfl, rfl,
      rfl, rfl, rfl, rfl, rfl, rfl, rfl, rfl, rfl⟩

/-- **C61** `NewSelectorsInfo` panics on lists of group bounds of different length. -/
theorem C61_newSelectorsInfo (indices starts ends : List ℕ) :
    (starts.length ≠ ends.length → newSelectorsInfo indices starts ends = none) ∧
    (starts.length = ends.length → newSelectorsInfo indices starts ends = some ⟨indices, starts.zip ends⟩) :=
  ⟨fun h => if_pos h, fun h => if_neg (not_not.2 h)⟩

/-- Two groups; lists of different lengths. -/
example : newSelectorsInfo [0, 0, 0, 1] [0, 3] [3, 4] = some ⟨[0, 0, 0, 1], [(0, 3), (3, 4)]⟩ ∧ newSelectorsInfo [0] [0, 3] [3] = none :=
  ⟨(C61_newSelectorsInfo _ _ _).2 rfl, (C61_newSelectorsInfo _ _ _).1 (by decide)⟩

/-! ## C64 -/

/-- **C64** `eval` is the value of the polynomial; an empty slice panics. -/
theorem C64_eval (p : List Fr) (x : Fr) :
    TrustedSetup.eval p x = if p = [] then none else some (∑ i ∈ Finset.range p.length, p.getD i 0 * x ^ i) := by
  by_cases h : p = []
  · rw [if_pos h, h]; rfl
  · rw [if_neg h]; exact TrustedSetup.eval_eq h x

/-- `1 + 2·10 + 3·100`. -/
example : TrustedSetup.eval [1, 2, 3] 10 = some 321 := by decide +kernel

/-! ## C66 -/

/-- **C66** The reference string is taken from contribution `c` exactly when the contributions of all participants from
`startIdx` on (at least two) could be fetched, each follows its predecessor, and `c` is the last of them. -/
theorem C66_ceremony {κ C : Type} (get : κ → Option C) (follows : C → C → Bool) (participants : List κ) (startIdx : ℕ)
    (c : C) : TrustedSetup.lastContribution get follows participants startIdx = some c ↔
      ∃ cs : List C, 2 ≤ cs.length ∧ (participants.drop startIdx).Forall₂ (fun k c => get k = some c) cs ∧
        cs.IsChain (fun a b => follows b a = true) ∧ cs.getLast? = some c := TrustedSetup.last_iff participants startIdx c

/-- Contributions 3 → 4 → 5 → 6 with "follows" the successor relation, from the second participant on; a gap is
rejected. -/
example : TrustedSetup.lastContribution (fun k : ℕ => some k) (fun a b => a == b + 1) [3, 4, 5, 6] 1 = some 6 ∧
    TrustedSetup.lastContribution (fun k : ℕ => some k) (fun a b => a == b + 1) [3, 4, 6, 7] 1 = none ∧
    TrustedSetup.lastContribution (fun k : ℕ => some k) (fun a b => a == b + 1) [3, 4, 5, 6] 3 = none := by decide

end Verif
