import Verif.Proofs.Json
import Verif.Proofs.Deserialize

/-!
# Property C83: decoding of the JSON files
-/

set_option autoImplicit false

namespace Verif

open JsonModel Deserialize Spec.JsonFormat

/-- **C83** A document that represents a proof, whatever the order of its keys and whatever further keys it has, is decoded
to that proof. -/
theorem C83_proof {x : ProofWithPublicInputsRaw} {j : Json} (h : Spec.JsonFormat.Proof x j) : readProofWithPublicInputs j = some x :=
  read_proof h

/-- **C83** The same for the verifier data. -/
theorem C83_verifierOnly {x : VerifierOnlyCircuitDataRaw} {j : Json} (h : VerifierOnly x j) :
    readVerifierOnlyCircuitData j = some x := struct_verifierOnly h _

/-- **C83** The same for the circuit data. -/
theorem C83_common {x : CommonCircuitDataRaw} {j : Json} (h : Common x j) : decodeCommonCircuitData j = some x :=
  decode_common h

/-- **C83** Every proof with 64-bit numbers is represented by the document that plonky2 writes, every circuit too; so they are read
back unchanged. -/
theorem C83_roundtrip :
    (∀ x, Proof64 x → Spec.JsonFormat.Proof x (writeProof x) ∧ readProofWithPublicInputs (writeProof x) = some x) ∧
    (∀ x, VerifierOnly x (writeVerifierOnly x) ∧ readVerifierOnlyCircuitData (writeVerifierOnly x) = some x) ∧
    (∀ x, Common64 x → Common x (writeCommon x) ∧ decodeCommonCircuitData (writeCommon x) = some x) :=
  ⟨fun _ h => ⟨proof_write h, read_proof (proof_write h)⟩,
    fun _ => ⟨verifierOnly_write _, struct_verifierOnly (verifierOnly_write _) _⟩,
    fun _ h => ⟨common_write h, decode_common (common_write h)⟩⟩

/-- **C83** From the file to the circuit: a document that represents a serialised proof over the fields gives the witness values that
encode this proof. -/
theorem C83_witness (x : Proof Fp QE) (pis : List Fp) {j : Json}
    (h : Spec.JsonFormat.Proof (Spec.Deserialize.serialize x pis) j) :
    (readProofWithPublicInputs j).bind deserializeProofWithPublicInputs = some ⟨x.enc, pis.map emb⟩ := by
  rw [read_proof h]
  exact (withPublicInputs_iff _ _).2 (serialize_corresponds x pis)

/-- **C83** A public input that is not a 64-bit number makes the decoding fail. -/
theorem C83_rejects {o : List (String × Json)} {l : List Json} {n : ℕ} (ho : ("public_inputs", .arr l) ∈ o)
    (hl : num n ∈ l) (hn : 2 ^ 64 ≤ n) : readProofWithPublicInputs (.obj o) = none := by
  refine struct_none (t := proofWithPublicInputs) ?_ (List.mem_cons_of_mem _ List.mem_cons_self) ho rfl (fun x => ?_) _
  · exact List.pairwise_map.1 (show (["proof", "public_inputs"].map fold).Nodup by decide +kernel)
  · simp only [field]
    rw [uint64s, slice_none hl]
    · rfl
    · rw [num, uint64, String.toList_ofList, Gates.parseUint_digits, if_neg (by omega)]

/-- `2^64` is refused. -/
example : readProofWithPublicInputs (.obj [("public_inputs", .arr [num 5, num (2 ^ 64)])]) = none :=
  C83_rejects (List.mem_singleton_self _) (List.mem_cons_of_mem _ (List.mem_singleton_self _)) le_rfl

/-- **C83** Which values the scalar decoders accept: a value of the wrong type is refused, `null` changes nothing; for lists `null`
is the empty list, whatever was there. -/
theorem C83_types {α : Type} (d : Dec α) (zero : α) (j : Json) :
    (∀ n m, uint64 j n = some m ↔ j = .null ∧ m = n ∨ ∃ s, j = .num s ∧ Gates.parseUint s.toList = some m) ∧
    (∀ b b', boolean j b = some b' ↔ j = .null ∧ b' = b ∨ j = .bool b') ∧
    (∀ s s', string j s = some s' ↔ j = .null ∧ s' = s ∨ j = .str s') ∧
    (∀ x y, slice d zero j x = some y ↔ j = .null ∧ y = [] ∨
      ∃ l, j = .arr l ∧ List.Forall₂ (fun i z => d i zero = some z) l y) := by
  have hm : ∀ (l : List Json) (y : List α), (l.mapM fun i => d i zero) = some y ↔
      List.Forall₂ (fun i z => d i zero = some z) l y := by
    intro l
    induction l with
    | nil => intro y; cases y <;> simp
    | cons a l ih => intro y; cases y <;> simp [Option.bind_eq_some_iff, ih]
  refine ⟨fun n m => ?_, fun b b' => ?_, fun s s' => ?_, fun x y => ?_⟩
  · cases j <;> simp [uint64, eq_comm]
  · cases j <;> simp [boolean, eq_comm]
  · cases j <;> simp [string, eq_comm]
  · cases j <;> simp only [slice, hm, Option.some.injEq, reduceCtorEq, Json.arr.injEq, true_and, false_and, false_or,
      exists_eq_left', exists_false, or_false, eq_comm (a := y)]

/-- **C83** A public input that is neither a number nor `null` makes the decoding fail, and `null` for all of them leaves none, also
after another occurrence of the key. -/
theorem C83_publicInputs {o : List (String × Json)} :
    (∀ (l : List Json) (j : Json), ("public_inputs", .arr l) ∈ o → j ∈ l → j ≠ .null → (∀ s, j ≠ .num s) →
      readProofWithPublicInputs (.obj o) = none) ∧
    (∀ x, readProofWithPublicInputs (.obj o) = some x →
      readProofWithPublicInputs (.obj (o ++ [("public_inputs", .null)])) = some { x with publicInputs := [] }) := by
  have hnd : proofWithPublicInputs.Pairwise fun f g => fold f.1 ≠ fold g.1 :=
    List.pairwise_map.1 (show (["proof", "public_inputs"].map fold).Nodup by decide +kernel)
  refine ⟨fun l j ho hl h1 h2 => struct_none (t := proofWithPublicInputs) hnd (List.mem_cons_of_mem _ List.mem_cons_self) ho rfl
    (fun x => ?_) _, fun x h => ?_⟩
  · simp only [field]
    rw [uint64s, slice_none hl]
    · rfl
    · cases j <;> simp_all [uint64]
  · rw [readProofWithPublicInputs, struct] at h ⊢
    rw [List.foldlM_append, h]
    change List.foldlM _ _ _ = _
    have hs : JsonModel.step proofWithPublicInputs x ("public_inputs", .null) = some { x with publicInputs := [] } := by
      rw [JsonModel.step, find_key hnd (k := "public_inputs") (List.mem_cons_of_mem _ List.mem_cons_self) rfl]
      rfl
    rw [List.foldlM_cons, hs]
    rfl

/-- A string among the public inputs. -/
example : readProofWithPublicInputs (.obj [("public_inputs", .arr [num 5, .str "6"])]) = none :=
  C83_publicInputs.1 _ _ (List.mem_singleton_self _) (List.mem_cons_of_mem _ (List.mem_singleton_self _)) (by simp) (by simp)

/-- **C83** Absent keys are not noticed: a document without them is decoded to zero values; without the key `hiding` the circuit is
taken for one without hiding, so the rejection of C61 is by-passed. -/
theorem C83_absent :
    readProofWithPublicInputs (.obj []) = some ⟨[], [], [], ⟨[], [], [], [], [], [], []⟩, ⟨[], [], [], 0⟩, []⟩ ∧
    readVerifierOnlyCircuitData (.obj []) = some ⟨[], ""⟩ ∧
    (∀ raw, decodeCommonCircuitData (.obj []) = some raw →
      [raw.numWires, raw.numRoutedWires, raw.configNumConstants, raw.securityBits, raw.numChallenges,
        raw.maxQuotientDegreeFactor, raw.degreeBits, raw.quotientDegreeFactor, raw.numGateConstraints, raw.numConstants,
        raw.numPublicInputs, raw.numPartialProducts] = List.replicate 12 0 ∧
      [raw.useBaseArithmeticGate, raw.zeroKnowledge, raw.hidingEnabled] = List.replicate 3 false ∧
      raw.friConfig = ⟨0, 0, 0, [], 0⟩ ∧ raw.friParamsConfig = ⟨0, 0, 0, [], 0⟩ ∧ raw.reductionArityBits = [] ∧
      raw.gates = [] ∧ raw.selectorIndices = [] ∧ raw.groups = [] ∧ raw.kIs = []) ∧
    (decodeCommonCircuitData (.obj [])).isSome ∧
    (∀ (o : List (String × Json)) (raw : CommonCircuitDataRaw), decodeCommonCircuitData (.obj o) = some raw →
      (∀ kv ∈ o, fold kv.1 = fold "fri_params" → ∀ o', kv.2 = .obj o' → ∀ kv' ∈ o', fold kv'.1 ≠ fold "hiding") →
      (readCommonCircuitData raw).isSome) := by
  refine ⟨rfl, rfl, fun raw h => ?_, rfl, fun o raw he h => ?_⟩
  · obtain rfl : zeroCommon = raw := Option.some.inj h
    exact ⟨rfl, rfl, rfl, rfl, rfl, rfl, rfl, rfl, rfl⟩
  rw [readCommonCircuitData, hiding_absent he h, newSelectorsInfo, if_neg (by simp)]
  rfl

/-- Verifier data with the keys exchanged, one in capitals, and a further key. -/
example : readVerifierOnlyCircuitData (.obj [("CIRCUIT_DIGEST", .str "12"), ("comment", .null),
    ("constants_sigmas_cap", .arr [.str "3", .str "4"])]) = some ⟨["3", "4"], "12"⟩ := by
  have h1 : fold "CIRCUIT_DIGEST" = fold "circuit_digest" := by decide +kernel
  have h2 : fold "circuit_digest" ≠ fold "constants_sigmas_cap" := by decide +kernel
  have h3 : fold "circuit_digest" ≠ fold "comment" := by decide +kernel
  have h4 : fold "constants_sigmas_cap" ≠ fold "comment" := by decide +kernel
  simp [readVerifierOnlyCircuitData, struct, step, verifierOnly, field, h1, h2.symm, h3, h4, string, strings, slice]

end Verif
