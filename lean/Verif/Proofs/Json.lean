import Verif.Spec.Json
import Verif.Proofs.GateIds

/-!
# Proofs about the decoding of JSON documents
-/

set_option autoImplicit false

namespace Verif.JsonModel

open Deserialize Spec.JsonFormat

/-! ## Tables -/

theorem find_key {α : Type} {t : Table α} (hnd : t.Pairwise fun f g => fold f.1 ≠ fold g.1) {k : String} {f : String × Dec α}
    (hf : f ∈ t) (hk : fold k = fold f.1) : t.find? (fun f => fold f.1 == fold k) = some f := by
  induction t with
  | nil => simp at hf
  | cons g t ih =>
    rw [List.pairwise_cons] at hnd
    rcases List.mem_cons.1 hf with rfl | hf
    · rw [List.find?_cons_of_pos (by simp [hk])]
    · rw [List.find?_cons_of_neg (by simpa [hk] using hnd.1 f hf)]
      exact ih hnd.2 hf

/-- A field of a table with the property its value shall have. -/
structure FieldSpec (α : Type) where
  /-- Key. -/
  key : String
  /-- Decoder. -/
  dec : Dec α
  /-- Property of the value. -/
  q : α → Prop

/-- The table. -/
abbrev tableOf {α : Type} (fs : List (FieldSpec α)) : Table α := fs.map fun f => (f.key, f.dec)

/-- The object holds a value of the field, decoding it gives the property and keeps those of the other fields. -/
def Good {α : Type} (fs : List (FieldSpec α)) (o : List (String × Json)) (R : α → Prop) (f : FieldSpec α) : Prop :=
  (∃ v, (f.key, v) ∈ o) ∧ ∀ kv ∈ o, fold kv.1 = fold f.key → ∀ x, R x →
    ∃ x', f.dec kv.2 x = some x' ∧ f.q x' ∧ R x' ∧ ∀ g ∈ fs, g.key ≠ f.key → g.q x → g.q x'

/-- The fields are read from their keys. -/
theorem struct_obj {α : Type} {fs : List (FieldSpec α)} (hnd : (fs.map fun f => fold f.key).Nodup)
    {o : List (String × Json)} (R : α → Prop) (hstep : ∀ f ∈ fs, Good fs o R f) {x₀ : α} (hx₀ : R x₀) :
    ∃ x', struct (tableOf fs) (.obj o) x₀ = some x' ∧ (∀ f ∈ fs, f.q x') ∧ R x' := by
  rw [List.Nodup, List.pairwise_map] at hnd
  have hnd' : (tableOf fs).Pairwise fun f g => fold f.1 ≠ fold g.1 := List.pairwise_map.2 hnd
  have hfind : ∀ {k : String} {f : FieldSpec α}, f ∈ fs → fold k = fold f.key →
      (tableOf fs).find? (fun f => fold f.1 == fold k) = some (f.key, f.dec) := fun {k f} hf hk =>
    find_key hnd' (List.mem_map_of_mem (f := fun f : FieldSpec α => (f.key, f.dec)) hf) hk
  have key : ∀ (l done : List (String × Json)) (x : α), done ++ l = o → R x →
      (∀ f ∈ fs, (∃ kv ∈ done, fold kv.1 = fold f.key) → f.q x) →
      ∃ x', l.foldlM (step (tableOf fs)) x = some x' ∧ (∀ f ∈ fs, (∃ kv ∈ o, fold kv.1 = fold f.key) → f.q x') ∧ R x' := by
    intro l
    induction l with
    | nil =>
      intro done x ho hR hQ
      rw [List.append_nil] at ho
      exact ⟨x, rfl, ho ▸ hQ, hR⟩
    | cons kv l ih =>
      intro done x ho hR hQ
      have hmem : kv ∈ o := by simp [← ho]
      rw [List.foldlM_cons]
      by_cases hf : ∃ f ∈ fs, fold kv.1 = fold f.key
      · obtain ⟨f, hf, hk⟩ := hf
        obtain ⟨x', h1, h2, h3, h4⟩ := (hstep f hf).2 kv hmem hk x hR
        have hs : step (tableOf fs) x kv = some x' := by rw [step, hfind hf hk]; exact h1
        rw [hs]
        refine ih (done ++ [kv]) x' (by simp [← ho]) h3 fun g hg hex => ?_
        by_cases hgf : g = f
        · rw [hgf]; exact h2
        have hne : fold g.key ≠ fold f.key := by
          have : Std.Symm (fun f g : FieldSpec α => fold f.key ≠ fold g.key) := ⟨fun _ _ h => h.symm⟩
          exact hnd.forall hg hf hgf
        refine h4 g hg (fun h => hne (by rw [h])) (hQ g hg ?_)
        obtain ⟨kv', hkv', hk'⟩ := hex
        rcases List.mem_append.1 hkv' with h | h
        · exact ⟨kv', h, hk'⟩
        · rw [List.mem_singleton.1 h] at hk'
          exact absurd (hk'.symm.trans hk) hne
      · have hs : step (tableOf fs) x kv = some x := by
          rw [step, List.find?_eq_none.2 fun f hf' => ?_]
          obtain ⟨f, hf₂, rfl⟩ := List.mem_map.1 hf'
          simpa using fun h => hf ⟨f, hf₂, h.symm⟩
        rw [hs]
        refine ih (done ++ [kv]) x (by simp [← ho]) hR fun g hg hex => hQ g hg ?_
        obtain ⟨kv', hkv', hk'⟩ := hex
        rcases List.mem_append.1 hkv' with h | h
        · exact ⟨kv', h, hk'⟩
        · exact absurd ⟨g, hg, List.mem_singleton.1 h ▸ hk'⟩ hf
  obtain ⟨x', h1, h2, h3⟩ := key o [] x₀ rfl hx₀ fun f _ h => by simp at h
  exact ⟨x', h1, fun f hf => h2 f hf ⟨_, (hstep f hf).1.choose_spec, rfl⟩, h3⟩

/-- Specification of a field. -/
abbrev fieldSpec {α β : Type} (key : String) (get : α → β) (set : α → β → α) (d : Dec β) (b : β) : FieldSpec α :=
  ⟨key, (field key get set d).2, fun z => get z = b⟩

theorem good_field {α β : Type} {fs : List (FieldSpec α)} {o : List (String × Json)} {R : α → Prop} {key : String}
    {get : α → β} {set : α → β → α} {d : Dec β} {b : β} {P : Json → Prop} (h : Key o key P)
    (hd : ∀ j x, P j → d j x = some b) (hget : ∀ x, get (set x b) = b) (hR : ∀ x, R x → R (set x b))
    (hg : ∀ x, ∀ g ∈ fs, g.key ≠ key → g.q x → g.q (set x b)) : Good fs o R (fieldSpec key get set d b) := by
  refine ⟨h.1, fun kv hkv hk x hRx => ⟨set x b, ?_, hget x, hR x hRx, hg x⟩⟩
  simp only [field]
  rw [hd _ _ (h.2 kv hkv hk)]
  rfl

theorem good_upd {α : Type} {fs : List (FieldSpec α)} {o : List (String × Json)} {R : α → Prop} {key : String} {d : Dec α}
    {q : α → Prop} {P : Json → Prop} {upd : α → α} (h : Key o key P)
    (hd : ∀ j x, P j → d j x = some (upd x)) (hq : ∀ x, q (upd x)) (hR : ∀ x, R x → R (upd x))
    (hg : ∀ x, ∀ g ∈ fs, g.key ≠ key → g.q x → g.q (upd x)) : Good fs o R ⟨key, d, q⟩ :=
  ⟨h.1, fun kv hkv hk x hRx => ⟨upd x, hd _ _ (h.2 kv hkv hk), hq x, hR x hRx, hg x⟩⟩

/-- A field whose value does not decode makes the whole fail. -/
theorem struct_none {α : Type} {t : Table α} (hnd : t.Pairwise fun f g => fold f.1 ≠ fold g.1) {o : List (String × Json)}
    {f : String × Dec α} (hf : f ∈ t) {kv : String × Json} (hkv : kv ∈ o) (hk : fold kv.1 = fold f.1)
    (hn : ∀ x, f.2 kv.2 x = none) (x₀ : α) : struct t (.obj o) x₀ = none := by
  obtain ⟨l, l', rfl⟩ := List.append_of_mem hkv
  rw [struct, List.foldlM_append]
  cases h : l.foldlM (step t) x₀ with
  | none => rfl
  | some x =>
    have hs : step t x kv = none := by rw [step, find_key hnd hf hk]; exact hn x
    change List.foldlM (step t) x (kv :: l') = none
    rw [List.foldlM_cons, hs]
    rfl

/-! ## Values -/

theorem uint64_num {n : ℕ} {j : Json} (h : Num n j) (x : ℕ) : uint64 j x = some n := by
  obtain ⟨hn, rfl⟩ := h
  rw [uint64, String.toList_ofList, Gates.parseUint_digits, if_pos hn]

theorem boolean_bool {b : Bool} {j : Json} (h : Spec.JsonFormat.Bool b j) (x : _root_.Bool) : boolean j x = some b := by
  rw [h, boolean]

theorem string_str {s : String} {j : Json} (h : Str s j) (x : String) : string j x = some s := by
  rw [h, string]

theorem slice_arr {α : Type} {R : α → Json → Prop} {d : Dec α} {zero : α} (hd : ∀ a j, R a j → d j zero = some a) {l : List α}
    {j : Json} (h : Arr R l j) (x : List α) : slice d zero j x = some l := by
  obtain ⟨js, rfl, hjs⟩ := h
  rw [slice]
  induction hjs with
  | nil => rfl
  | cons h _ ih => rw [List.mapM_cons, hd _ _ h, ih]; rfl

theorem uint64s_nums {l : List ℕ} {j : Json} (h : Nums l j) (x : List ℕ) : uint64s j x = some l :=
  slice_arr (R := Num) (d := uint64) (fun _ _ h => uint64_num h _) h x

theorem uint64ss_nums {l : List (List ℕ)} {j : Json} (h : Arr Nums l j) (x : List (List ℕ)) : uint64ss j x = some l :=
  slice_arr (R := Nums) (d := uint64s) (fun _ _ h => uint64s_nums h _) h x

theorem strings_strs {l : List String} {j : Json} (h : Strs l j) (x : List String) : strings j x = some l :=
  slice_arr (R := Str) (d := string) (fun _ _ h => string_str h _) h x

/-! ## Structures -/

/-- A structure with one field. -/
theorem struct_one {β : Type} {key : String} {d : Dec β} {P : Json → Prop} {b : β} (hd : ∀ j x, P j → d j x = some b)
    {j : Json} (h : Obj j fun o => Key o key P) (x : β) :
    struct [field key (fun s : β => s) (fun _ x => x) d] j x = some b := by
  obtain ⟨o, rfl, h⟩ := h
  obtain ⟨x', h1, h2, -⟩ := struct_obj (fs := [fieldSpec key (fun s : β => s) (fun _ x => x) d b]) (List.nodup_singleton _)
    (o := o) (fun _ => True) (fun f hf => by
      rw [List.mem_singleton.1 hf]
      refine good_field h hd (fun _ => rfl) (fun _ _ => trivial) fun _ g hg hne => ?_
      exact absurd (by rw [List.mem_singleton.1 hg]) hne) (x₀ := x) trivial
  have := h2 _ (List.mem_singleton_self _)
  exact h1.trans (congrArg some this)

theorem struct_openings {x : OpeningsRaw} {j : Json} (h : Openings x j) (y : OpeningsRaw) : struct openings j y = some x := by
  obtain ⟨o, rfl, h1, h2, h3, h4, h5, h6, h7⟩ := h
  obtain ⟨x', e, q, -⟩ := struct_obj (fs := [
      fieldSpec "constants" (·.constants) (fun o x => { o with constants := x }) uint64ss x.constants,
      fieldSpec "plonk_sigmas" (·.plonkSigmas) (fun o x => { o with plonkSigmas := x }) uint64ss x.plonkSigmas,
      fieldSpec "wires" (·.wires) (fun o x => { o with wires := x }) uint64ss x.wires,
      fieldSpec "plonk_zs" (·.plonkZs) (fun o x => { o with plonkZs := x }) uint64ss x.plonkZs,
      fieldSpec "plonk_zs_next" (·.plonkZsNext) (fun o x => { o with plonkZsNext := x }) uint64ss x.plonkZsNext,
      fieldSpec "partial_products" (·.partialProducts) (fun o x => { o with partialProducts := x }) uint64ss x.partialProducts,
      fieldSpec "quotient_polys" (·.quotientPolys) (fun o x => { o with quotientPolys := x }) uint64ss x.quotientPolys])
    (show (["constants", "plonk_sigmas", "wires", "plonk_zs", "plonk_zs_next", "partial_products", "quotient_polys"].map fold).Nodup by decide +kernel) (o := o)
    (fun _ => True)
    (by
      simp only [List.forall_mem_cons]
      refine ⟨good_field h1 (fun _ y h => uint64ss_nums h y) (fun _ => rfl) (fun _ _ => trivial) ?_,
        good_field h2 (fun _ y h => uint64ss_nums h y) (fun _ => rfl) (fun _ _ => trivial) ?_,
        good_field h3 (fun _ y h => uint64ss_nums h y) (fun _ => rfl) (fun _ _ => trivial) ?_,
        good_field h4 (fun _ y h => uint64ss_nums h y) (fun _ => rfl) (fun _ _ => trivial) ?_,
        good_field h5 (fun _ y h => uint64ss_nums h y) (fun _ => rfl) (fun _ _ => trivial) ?_,
        good_field h6 (fun _ y h => uint64ss_nums h y) (fun _ => rfl) (fun _ _ => trivial) ?_,
        good_field h7 (fun _ y h => uint64ss_nums h y) (fun _ => rfl) (fun _ _ => trivial) ?_, by simp⟩ <;> simp) (x₀ := y) trivial
  simp only [List.forall_mem_cons] at q
  refine e.trans (congrArg some ?_)
  cases x; cases x'
  simp_all

theorem struct_friStep {x : StepRaw} {j : Json} (h : Step x j) (y : StepRaw) : struct friStep j y = some x := by
  obtain ⟨o, rfl, h1, h2⟩ := h
  obtain ⟨x', e, q, -⟩ := struct_obj (fs := [
      fieldSpec "evals" (·.evals) (fun o x => { o with evals := x }) uint64ss x.evals,
      fieldSpec "merkle_proof" (·.siblings) (fun o x => { o with siblings := x }) (struct [field "siblings" (fun s : List String => s) (fun _ x => x) strings]) x.siblings])
    (show (["evals", "merkle_proof"].map fold).Nodup by decide +kernel) (o := o)
    (fun _ => True)
    (by
      simp only [List.forall_mem_cons]
      refine ⟨good_field h1 (fun _ y h => uint64ss_nums h y) (fun _ => rfl) (fun _ _ => trivial) ?_,
        good_field h2 (fun _ y h => struct_one (fun _ y h => strings_strs h y) h y) (fun _ => rfl) (fun _ _ => trivial) ?_, by simp⟩ <;> simp) (x₀ := y) trivial
  simp only [List.forall_mem_cons] at q
  refine e.trans (congrArg some ?_)
  cases x; cases x'
  simp_all

theorem merkleProof_obj {l : List String} {j : Json} (h : Obj j fun o => Key o "siblings" (Strs l)) (x : List String) :
    merkleProof j x = some l := by
  have hfold : fold "Siblings" = fold "siblings" := by decide +kernel
  have h1 := struct_one (fun _ y h => strings_strs h y) h []
  obtain ⟨o, rfl, h⟩ := h
  rw [merkleProof, ← h1]
  simp only [struct]
  congr 1
  funext x kv
  by_cases hk : fold "siblings" = fold kv.1 <;> simp [step, field, hfold, hk]

theorem evalProof_arr {x : EvalProofRaw} {j : Json} (h : EvalProof x j) (y : EvalProofRaw) : evalProof j y = some x := by
  obtain ⟨a, b, rfl, ha, hb⟩ := h
  have h1 : a ≠ .null := by obtain ⟨js, rfl, -⟩ := ha; simp
  have h2 : b ≠ .null := by obtain ⟨js, rfl, -⟩ := hb; simp
  have e1 := uint64s_nums ha y.leafElements
  have e2 := merkleProof_obj hb y.hash
  cases a <;> cases b <;> simp_all [evalProof]

theorem struct_queryRound {x : QueryRoundRaw} {j : Json} (h : Round x j) (y : QueryRoundRaw) : struct queryRound j y = some x := by
  obtain ⟨o, rfl, h1, h2⟩ := h
  obtain ⟨x', e, q, -⟩ := struct_obj (fs := [
      fieldSpec "initial_trees_proof" (·.evalsProofs) (fun o x => { o with evalsProofs := x }) (struct [field "evals_proofs" (fun s : List EvalProofRaw => s) (fun _ x => x) (slice evalProof ⟨[], []⟩)]) x.evalsProofs,
      fieldSpec "steps" (·.steps) (fun o x => { o with steps := x }) (slice (struct friStep) ⟨[], []⟩) x.steps])
    (show (["initial_trees_proof", "steps"].map fold).Nodup by decide +kernel) (o := o)
    (fun _ => True)
    (by
      simp only [List.forall_mem_cons]
      refine ⟨good_field h1 (fun _ y h => struct_one (fun _ y h => slice_arr (d := evalProof) (fun _ _ h => evalProof_arr h _) h y) h y) (fun _ => rfl) (fun _ _ => trivial) ?_,
        good_field h2 (fun _ y h => slice_arr (d := struct friStep) (fun _ _ h => struct_friStep h _) h y) (fun _ => rfl) (fun _ _ => trivial) ?_, by simp⟩ <;> simp) (x₀ := y) trivial
  simp only [List.forall_mem_cons] at q
  refine e.trans (congrArg some ?_)
  cases x; cases x'
  simp_all

theorem struct_friProof {x : FriProofRaw} {j : Json} (h : Fri x j) (y : FriProofRaw) : struct friProof j y = some x := by
  obtain ⟨o, rfl, h1, h2, h3, h4⟩ := h
  obtain ⟨x', e, q, -⟩ := struct_obj (fs := [
      fieldSpec "commit_phase_merkle_caps" (·.commitPhaseMerkleCaps) (fun o x => { o with commitPhaseMerkleCaps := x }) (slice strings []) x.commitPhaseMerkleCaps,
      fieldSpec "query_round_proofs" (·.queryRoundProofs) (fun o x => { o with queryRoundProofs := x }) (slice (struct queryRound) ⟨[], []⟩) x.queryRoundProofs,
      fieldSpec "final_poly" (·.finalPoly) (fun o x => { o with finalPoly := x }) (struct [field "coeffs" (fun s : List (List ℕ) => s) (fun _ x => x) uint64ss]) x.finalPoly,
      fieldSpec "pow_witness" (·.powWitness) (fun o x => { o with powWitness := x }) uint64 x.powWitness])
    (show (["commit_phase_merkle_caps", "query_round_proofs", "final_poly", "pow_witness"].map fold).Nodup by decide +kernel) (o := o)
    (fun _ => True)
    (by
      simp only [List.forall_mem_cons]
      refine ⟨good_field h1 (fun _ y h => slice_arr (d := strings) (fun _ _ h => strings_strs h _) h y) (fun _ => rfl) (fun _ _ => trivial) ?_,
        good_field h2 (fun _ y h => slice_arr (d := struct queryRound) (fun _ _ h => struct_queryRound h _) h y) (fun _ => rfl) (fun _ _ => trivial) ?_,
        good_field h3 (fun _ y h => struct_one (fun _ y h => uint64ss_nums h y) h y) (fun _ => rfl) (fun _ _ => trivial) ?_,
        good_field h4 (fun _ y h => uint64_num h y) (fun _ => rfl) (fun _ _ => trivial) ?_, by simp⟩ <;> simp) (x₀ := y) trivial
  simp only [List.forall_mem_cons] at q
  refine e.trans (congrArg some ?_)
  cases x; cases x'
  simp_all

theorem struct_verifierOnly {x : VerifierOnlyCircuitDataRaw} {j : Json} (h : VerifierOnly x j) (y : VerifierOnlyCircuitDataRaw) : struct verifierOnly j y = some x := by
  obtain ⟨o, rfl, h1, h2⟩ := h
  obtain ⟨x', e, q, -⟩ := struct_obj (fs := [
      fieldSpec "constants_sigmas_cap" (·.constantsSigmasCap) (fun o x => { o with constantsSigmasCap := x }) strings x.constantsSigmasCap,
      fieldSpec "circuit_digest" (·.circuitDigest) (fun o x => { o with circuitDigest := x }) string x.circuitDigest])
    (show (["constants_sigmas_cap", "circuit_digest"].map fold).Nodup by decide +kernel) (o := o)
    (fun _ => True)
    (by
      simp only [List.forall_mem_cons]
      refine ⟨good_field h1 (fun _ y h => strings_strs h y) (fun _ => rfl) (fun _ _ => trivial) ?_,
        good_field h2 (fun _ y h => string_str h y) (fun _ => rfl) (fun _ _ => trivial) ?_, by simp⟩ <;> simp) (x₀ := y) trivial
  simp only [List.forall_mem_cons] at q
  refine e.trans (congrArg some ?_)
  cases x; cases x'
  simp_all

theorem struct_friConfig {x : FriConfigRaw} {j : Json} (h : Spec.JsonFormat.FriConfig x j) (y : FriConfigRaw) : struct friConfig j y = some x := by
  obtain ⟨o, rfl, h1, h2, h3, h4, h5⟩ := h
  obtain ⟨x', e, q, -⟩ := struct_obj (fs := [
      fieldSpec "rate_bits" (·.rateBits) (fun o x => { o with rateBits := x }) uint64 x.rateBits,
      fieldSpec "cap_height" (·.capHeight) (fun o x => { o with capHeight := x }) uint64 x.capHeight,
      fieldSpec "proof_of_work_bits" (·.proofOfWorkBits) (fun o x => { o with proofOfWorkBits := x }) uint64 x.proofOfWorkBits,
      fieldSpec "reduction_strategy" (·.constantArityBits) (fun o x => { o with constantArityBits := x }) (struct [field "ConstantArityBits" (fun s : List ℕ => s) (fun _ x => x) uint64s]) x.constantArityBits,
      fieldSpec "num_query_rounds" (·.numQueryRounds) (fun o x => { o with numQueryRounds := x }) uint64 x.numQueryRounds])
    (show (["rate_bits", "cap_height", "proof_of_work_bits", "reduction_strategy", "num_query_rounds"].map fold).Nodup by decide +kernel) (o := o)
    (fun _ => True)
    (by
      simp only [List.forall_mem_cons]
      refine ⟨good_field h1 (fun _ y h => uint64_num h y) (fun _ => rfl) (fun _ _ => trivial) ?_,
        good_field h2 (fun _ y h => uint64_num h y) (fun _ => rfl) (fun _ _ => trivial) ?_,
        good_field h3 (fun _ y h => uint64_num h y) (fun _ => rfl) (fun _ _ => trivial) ?_,
        good_field h4 (fun _ y h => struct_one (fun _ y h => uint64s_nums h y) h y) (fun _ => rfl) (fun _ _ => trivial) ?_,
        good_field h5 (fun _ y h => uint64_num h y) (fun _ => rfl) (fun _ _ => trivial) ?_, by simp⟩ <;> simp) (x₀ := y) trivial
  simp only [List.forall_mem_cons] at q
  refine e.trans (congrArg some ?_)
  cases x; cases x'
  simp_all

theorem struct_group {x : ℕ × ℕ} {j : Json} (h : Group x j) (y : ℕ × ℕ) : struct group j y = some x := by
  obtain ⟨o, rfl, h1, h2⟩ := h
  obtain ⟨x', e, q, -⟩ := struct_obj (fs := [
      fieldSpec "start" (·.1) (fun o x => (x, o.2)) uint64 x.1,
      fieldSpec "end" (·.2) (fun o x => (o.1, x)) uint64 x.2])
    (show (["start", "end"].map fold).Nodup by decide +kernel) (o := o)
    (fun _ => True)
    (by
      simp only [List.forall_mem_cons]
      refine ⟨good_field h1 (fun _ y h => uint64_num h y) (fun _ => rfl) (fun _ _ => trivial) ?_,
        good_field h2 (fun _ y h => uint64_num h y) (fun _ => rfl) (fun _ _ => trivial) ?_, by simp⟩ <;> simp) (x₀ := y) trivial
  simp only [List.forall_mem_cons] at q
  refine e.trans (congrArg some ?_)
  cases x; cases x'
  simp_all

theorem struct_proof {x : ProofWithPublicInputsRaw} {j : Json} (h : Obj j fun o =>
    Key o "wires_cap" (Strs x.wiresCap) ∧ Key o "plonk_zs_partial_products_cap" (Strs x.plonkZsPartialProductsCap) ∧
    Key o "quotient_polys_cap" (Strs x.quotientPolysCap) ∧ Key o "openings" (Openings x.openings) ∧
    Key o "opening_proof" (Fri x.openingProof)) (y : ProofWithPublicInputsRaw) :
    struct proof j y = some { y with wiresCap := x.wiresCap, plonkZsPartialProductsCap := x.plonkZsPartialProductsCap, quotientPolysCap := x.quotientPolysCap, openings := x.openings, openingProof := x.openingProof } := by
  obtain ⟨o, rfl, h1, h2, h3, h4, h5⟩ := h
  obtain ⟨x', e, q, r⟩ := struct_obj (fs := [
      fieldSpec "wires_cap" (·.wiresCap) (fun o x => { o with wiresCap := x }) strings x.wiresCap,
      fieldSpec "plonk_zs_partial_products_cap" (·.plonkZsPartialProductsCap) (fun o x => { o with plonkZsPartialProductsCap := x }) strings x.plonkZsPartialProductsCap,
      fieldSpec "quotient_polys_cap" (·.quotientPolysCap) (fun o x => { o with quotientPolysCap := x }) strings x.quotientPolysCap,
      fieldSpec "openings" (·.openings) (fun o x => { o with openings := x }) (struct openings) x.openings,
      fieldSpec "opening_proof" (·.openingProof) (fun o x => { o with openingProof := x }) (struct friProof) x.openingProof])
    (show (["wires_cap", "plonk_zs_partial_products_cap", "quotient_polys_cap", "openings", "opening_proof"].map fold).Nodup by decide +kernel) (o := o)
    (fun z => { z with wiresCap := y.wiresCap, plonkZsPartialProductsCap := y.plonkZsPartialProductsCap, quotientPolysCap := y.quotientPolysCap, openings := y.openings, openingProof := y.openingProof } = y)
    (by
      simp only [List.forall_mem_cons]
      refine ⟨good_field h1 (fun _ y h => strings_strs h y) (fun _ => rfl) (fun _ h => h) ?_,
        good_field h2 (fun _ y h => strings_strs h y) (fun _ => rfl) (fun _ h => h) ?_,
        good_field h3 (fun _ y h => strings_strs h y) (fun _ => rfl) (fun _ h => h) ?_,
        good_field h4 (fun _ y h => struct_openings h y) (fun _ => rfl) (fun _ h => h) ?_,
        good_field h5 (fun _ y h => struct_friProof h y) (fun _ => rfl) (fun _ h => h) ?_, by simp⟩ <;> simp) (x₀ := y) rfl
  simp only [List.forall_mem_cons] at q
  refine e.trans (congrArg some ?_)
  rw [← r]
  cases x; cases x'
  simp_all

theorem struct_config {x : CommonCircuitDataRaw} {j : Json} (h : Obj j fun o =>
    Key o "num_wires" (Num x.numWires) ∧ Key o "num_routed_wires" (Num x.numRoutedWires) ∧
    Key o "num_constants" (Num x.configNumConstants) ∧
    Key o "use_base_arithmetic_gate" (Spec.JsonFormat.Bool x.useBaseArithmeticGate) ∧
    Key o "security_bits" (Num x.securityBits) ∧ Key o "num_challenges" (Num x.numChallenges) ∧
    Key o "zero_knowledge" (Spec.JsonFormat.Bool x.zeroKnowledge) ∧
    Key o "max_quotient_degree_factor" (Num x.maxQuotientDegreeFactor) ∧ Key o "fri_config" (Spec.JsonFormat.FriConfig x.friConfig)) (y : CommonCircuitDataRaw) :
    struct config j y = some { y with numWires := x.numWires, numRoutedWires := x.numRoutedWires, configNumConstants := x.configNumConstants, useBaseArithmeticGate := x.useBaseArithmeticGate, securityBits := x.securityBits, numChallenges := x.numChallenges, zeroKnowledge := x.zeroKnowledge, maxQuotientDegreeFactor := x.maxQuotientDegreeFactor, friConfig := x.friConfig } := by
  obtain ⟨o, rfl, h1, h2, h3, h4, h5, h6, h7, h8, h9⟩ := h
  obtain ⟨x', e, q, r⟩ := struct_obj (fs := [
      fieldSpec "num_wires" (·.numWires) (fun o x => { o with numWires := x }) uint64 x.numWires,
      fieldSpec "num_routed_wires" (·.numRoutedWires) (fun o x => { o with numRoutedWires := x }) uint64 x.numRoutedWires,
      fieldSpec "num_constants" (·.configNumConstants) (fun o x => { o with configNumConstants := x }) uint64 x.configNumConstants,
      fieldSpec "use_base_arithmetic_gate" (·.useBaseArithmeticGate) (fun o x => { o with useBaseArithmeticGate := x }) boolean x.useBaseArithmeticGate,
      fieldSpec "security_bits" (·.securityBits) (fun o x => { o with securityBits := x }) uint64 x.securityBits,
      fieldSpec "num_challenges" (·.numChallenges) (fun o x => { o with numChallenges := x }) uint64 x.numChallenges,
      fieldSpec "zero_knowledge" (·.zeroKnowledge) (fun o x => { o with zeroKnowledge := x }) boolean x.zeroKnowledge,
      fieldSpec "max_quotient_degree_factor" (·.maxQuotientDegreeFactor) (fun o x => { o with maxQuotientDegreeFactor := x }) uint64 x.maxQuotientDegreeFactor,
      fieldSpec "fri_config" (·.friConfig) (fun o x => { o with friConfig := x }) (struct friConfig) x.friConfig])
    (show (["num_wires", "num_routed_wires", "num_constants", "use_base_arithmetic_gate", "security_bits", "num_challenges", "zero_knowledge", "max_quotient_degree_factor", "fri_config"].map fold).Nodup by decide +kernel) (o := o)
    (fun z => { z with numWires := y.numWires, numRoutedWires := y.numRoutedWires, configNumConstants := y.configNumConstants, useBaseArithmeticGate := y.useBaseArithmeticGate, securityBits := y.securityBits, numChallenges := y.numChallenges, zeroKnowledge := y.zeroKnowledge, maxQuotientDegreeFactor := y.maxQuotientDegreeFactor, friConfig := y.friConfig } = y)
    (by
      simp only [List.forall_mem_cons]
      refine ⟨good_field h1 (fun _ y h => uint64_num h y) (fun _ => rfl) (fun _ h => h) ?_,
        good_field h2 (fun _ y h => uint64_num h y) (fun _ => rfl) (fun _ h => h) ?_,
        good_field h3 (fun _ y h => uint64_num h y) (fun _ => rfl) (fun _ h => h) ?_,
        good_field h4 (fun _ y h => boolean_bool h y) (fun _ => rfl) (fun _ h => h) ?_,
        good_field h5 (fun _ y h => uint64_num h y) (fun _ => rfl) (fun _ h => h) ?_,
        good_field h6 (fun _ y h => uint64_num h y) (fun _ => rfl) (fun _ h => h) ?_,
        good_field h7 (fun _ y h => boolean_bool h y) (fun _ => rfl) (fun _ h => h) ?_,
        good_field h8 (fun _ y h => uint64_num h y) (fun _ => rfl) (fun _ h => h) ?_,
        good_field h9 (fun _ y h => struct_friConfig h y) (fun _ => rfl) (fun _ h => h) ?_, by simp⟩ <;> simp) (x₀ := y) rfl
  simp only [List.forall_mem_cons] at q
  refine e.trans (congrArg some ?_)
  rw [← r]
  cases x; cases x'
  simp_all

theorem struct_friParams {x : CommonCircuitDataRaw} {j : Json} (h : Obj j fun o =>
    Key o "config" (Spec.JsonFormat.FriConfig x.friParamsConfig) ∧ Key o "hiding" (Spec.JsonFormat.Bool x.hidingEnabled) ∧
    Key o "degree_bits" (Num x.degreeBits) ∧ Key o "reduction_arity_bits" (Nums x.reductionArityBits)) (y : CommonCircuitDataRaw) :
    struct friParams j y = some { y with friParamsConfig := x.friParamsConfig, hidingEnabled := x.hidingEnabled, degreeBits := x.degreeBits, reductionArityBits := x.reductionArityBits } := by
  obtain ⟨o, rfl, h1, h2, h3, h4⟩ := h
  obtain ⟨x', e, q, r⟩ := struct_obj (fs := [
      fieldSpec "config" (·.friParamsConfig) (fun o x => { o with friParamsConfig := x }) (struct friConfig) x.friParamsConfig,
      fieldSpec "hiding" (·.hidingEnabled) (fun o x => { o with hidingEnabled := x }) boolean x.hidingEnabled,
      fieldSpec "degree_bits" (·.degreeBits) (fun o x => { o with degreeBits := x }) uint64 x.degreeBits,
      fieldSpec "reduction_arity_bits" (·.reductionArityBits) (fun o x => { o with reductionArityBits := x }) uint64s x.reductionArityBits])
    (show (["config", "hiding", "degree_bits", "reduction_arity_bits"].map fold).Nodup by decide +kernel) (o := o)
    (fun z => { z with friParamsConfig := y.friParamsConfig, hidingEnabled := y.hidingEnabled, degreeBits := y.degreeBits, reductionArityBits := y.reductionArityBits } = y)
    (by
      simp only [List.forall_mem_cons]
      refine ⟨good_field h1 (fun _ y h => struct_friConfig h y) (fun _ => rfl) (fun _ h => h) ?_,
        good_field h2 (fun _ y h => boolean_bool h y) (fun _ => rfl) (fun _ h => h) ?_,
        good_field h3 (fun _ y h => uint64_num h y) (fun _ => rfl) (fun _ h => h) ?_,
        good_field h4 (fun _ y h => uint64s_nums h y) (fun _ => rfl) (fun _ h => h) ?_, by simp⟩ <;> simp) (x₀ := y) rfl
  simp only [List.forall_mem_cons] at q
  refine e.trans (congrArg some ?_)
  rw [← r]
  cases x; cases x'
  simp_all

theorem struct_selectorsInfo {x : CommonCircuitDataRaw} {j : Json} (h : Obj j fun o =>
    Key o "selector_indices" (Nums x.selectorIndices) ∧ Key o "groups" (Arr Group x.groups)) (y : CommonCircuitDataRaw) :
    struct selectorsInfo j y = some { y with selectorIndices := x.selectorIndices, groups := x.groups } := by
  obtain ⟨o, rfl, h1, h2⟩ := h
  obtain ⟨x', e, q, r⟩ := struct_obj (fs := [
      fieldSpec "selector_indices" (·.selectorIndices) (fun o x => { o with selectorIndices := x }) uint64s x.selectorIndices,
      fieldSpec "groups" (·.groups) (fun o x => { o with groups := x }) (slice (struct group) (0, 0)) x.groups])
    (show (["selector_indices", "groups"].map fold).Nodup by decide +kernel) (o := o)
    (fun z => { z with selectorIndices := y.selectorIndices, groups := y.groups } = y)
    (by
      simp only [List.forall_mem_cons]
      refine ⟨good_field h1 (fun _ y h => uint64s_nums h y) (fun _ => rfl) (fun _ h => h) ?_,
        good_field h2 (fun _ y h => slice_arr (d := struct group) (fun _ _ h => struct_group h _) h y) (fun _ => rfl) (fun _ h => h) ?_, by simp⟩ <;> simp) (x₀ := y) rfl
  simp only [List.forall_mem_cons] at q
  refine e.trans (congrArg some ?_)
  rw [← r]
  cases x; cases x'
  simp_all

theorem read_proof {x : ProofWithPublicInputsRaw} {j : Json} (h : Spec.JsonFormat.Proof x j) :
    readProofWithPublicInputs j = some x := by
  obtain ⟨o, rfl, h1, h2⟩ := h
  obtain ⟨x', e, q, -⟩ := struct_obj (fs := [
      ⟨"proof", struct proof, fun z => { z with publicInputs := x.publicInputs } = x⟩,
      fieldSpec "public_inputs" (·.publicInputs) (fun o x => { o with publicInputs := x }) uint64s x.publicInputs])
    (show (["proof", "public_inputs"].map fold).Nodup by decide +kernel) (o := o) (fun _ => True)
    (by
      simp only [List.forall_mem_cons]
      refine ⟨good_upd h1 (fun _ y h => struct_proof h y) (fun _ => rfl) (fun _ _ => trivial) ?_,
        good_field h2 (fun _ y h => uint64s_nums h y) (fun _ => rfl) (fun _ _ => trivial) ?_, by simp⟩ <;> simp)
    (x₀ := zeroProof) trivial
  simp only [List.forall_mem_cons] at q
  refine e.trans (congrArg some ?_)
  cases x; cases x'
  simp_all

theorem decode_common {x : CommonCircuitDataRaw} {j : Json} (h : Common x j) : decodeCommonCircuitData j = some x := by
  obtain ⟨o, rfl, h1, h2, h3, h4, h5, h6, h7, h8, h9, h10⟩ := h
  obtain ⟨x', e, q, -⟩ := struct_obj (fs := [
      ⟨"config", struct config, fun z => z.numWires = x.numWires ∧ z.numRoutedWires = x.numRoutedWires ∧
        z.configNumConstants = x.configNumConstants ∧ z.useBaseArithmeticGate = x.useBaseArithmeticGate ∧
        z.securityBits = x.securityBits ∧ z.numChallenges = x.numChallenges ∧ z.zeroKnowledge = x.zeroKnowledge ∧
        z.maxQuotientDegreeFactor = x.maxQuotientDegreeFactor ∧ z.friConfig = x.friConfig⟩,
      ⟨"fri_params", struct friParams, fun z => z.friParamsConfig = x.friParamsConfig ∧ z.hidingEnabled = x.hidingEnabled ∧
        z.degreeBits = x.degreeBits ∧ z.reductionArityBits = x.reductionArityBits⟩,
      fieldSpec "gates" (·.gates) (fun o x => { o with gates := x }) strings x.gates,
      ⟨"selectors_info", struct selectorsInfo, fun z => z.selectorIndices = x.selectorIndices ∧ z.groups = x.groups⟩,
      fieldSpec "quotient_degree_factor" (·.quotientDegreeFactor) (fun o x => { o with quotientDegreeFactor := x }) uint64
        x.quotientDegreeFactor,
      fieldSpec "num_gate_constraints" (·.numGateConstraints) (fun o x => { o with numGateConstraints := x }) uint64
        x.numGateConstraints,
      fieldSpec "num_constants" (·.numConstants) (fun o x => { o with numConstants := x }) uint64 x.numConstants,
      fieldSpec "num_public_inputs" (·.numPublicInputs) (fun o x => { o with numPublicInputs := x }) uint64 x.numPublicInputs,
      fieldSpec "k_is" (·.kIs) (fun o x => { o with kIs := x }) uint64s x.kIs,
      fieldSpec "num_partial_products" (·.numPartialProducts) (fun o x => { o with numPartialProducts := x }) uint64
        x.numPartialProducts])
    (show (["config", "fri_params", "gates", "selectors_info", "quotient_degree_factor", "num_gate_constraints", "num_constants",
      "num_public_inputs", "k_is", "num_partial_products"].map fold).Nodup by decide +kernel) (o := o) (fun _ => True)
    (by
      simp only [List.forall_mem_cons]
      refine ⟨good_upd h1 (fun _ y h => struct_config h y) ?_ (fun _ _ => trivial) ?_,
        good_upd h2 (fun _ y h => struct_friParams h y) ?_ (fun _ _ => trivial) ?_,
        good_field h3 (fun _ y h => strings_strs h y) (fun _ => rfl) (fun _ _ => trivial) ?_,
        good_upd h4 (fun _ y h => struct_selectorsInfo h y) ?_ (fun _ _ => trivial) ?_,
        good_field h5 (fun _ y h => uint64_num h y) (fun _ => rfl) (fun _ _ => trivial) ?_,
        good_field h6 (fun _ y h => uint64_num h y) (fun _ => rfl) (fun _ _ => trivial) ?_,
        good_field h7 (fun _ y h => uint64_num h y) (fun _ => rfl) (fun _ _ => trivial) ?_,
        good_field h8 (fun _ y h => uint64_num h y) (fun _ => rfl) (fun _ _ => trivial) ?_,
        good_field h9 (fun _ y h => uint64s_nums h y) (fun _ => rfl) (fun _ _ => trivial) ?_,
        good_field h10 (fun _ y h => uint64_num h y) (fun _ => rfl) (fun _ _ => trivial) ?_, by simp⟩ <;> simp +contextual)
    (x₀ := zeroCommon) trivial
  simp only [List.forall_mem_cons] at q
  refine e.trans (congrArg some ?_)
  cases x; cases x'
  simp_all

/-! ## Absent keys -/

theorem struct_inv {α : Type} {t : Table α} {I : α → Prop} {j : Json}
    (h : ∀ o, j = .obj o → ∀ kv ∈ o, ∀ f ∈ t, fold f.1 = fold kv.1 → ∀ x x', I x → f.2 kv.2 x = some x' → I x') {x x' : α}
    (hx : I x) (he : struct t j x = some x') : I x' := by
  cases j with
  | null => rw [struct] at he; exact Option.some.inj he ▸ hx
  | obj o =>
    rw [struct] at he
    replace h := h o rfl
    induction o generalizing x with
    | nil => exact Option.some.inj he ▸ hx
    | cons kv o ih =>
      rw [List.foldlM_cons] at he
      cases hs : step t x kv with
      | none => rw [hs] at he; exact absurd he (by simp)
      | some y =>
        rw [hs] at he
        refine ih ?_ he fun kv' hkv' => h kv' (List.mem_cons_of_mem _ hkv')
        rw [step] at hs
        split at hs
        · next f hf =>
          exact h kv List.mem_cons_self f (List.mem_of_find?_eq_some hf) (by simpa using List.find?_some hf) x y hx hs
        · exact Option.some.inj hs ▸ hx
  | _ => simp [struct] at he

theorem field_inv {α β : Type} {I : α → Prop} {key : String} {get : α → β} {set : α → β → α} {d : Dec β} {j : Json}
    {x x' : α} (hx : I x) (he : (field key get set d).2 j x = some x') (h : ∀ x b, I x → I (set x b)) : I x' := by
  simp only [field, Option.map_eq_some_iff] at he
  obtain ⟨b, -, rfl⟩ := he
  exact h x b hx

theorem hiding_absent {o : List (String × Json)} {raw : CommonCircuitDataRaw} (he : decodeCommonCircuitData (.obj o) = some raw)
    (h : ∀ kv ∈ o, fold kv.1 = fold "fri_params" → ∀ o', kv.2 = .obj o' → ∀ kv' ∈ o', fold kv'.1 ≠ fold "hiding") :
    raw.hidingEnabled = false := by
  refine struct_inv (I := fun z => z.hidingEnabled = false) (fun o' ho kv hkv f hf hk x x' hx e => ?_) rfl he
  cases ho
  simp only [commonCircuitData, List.mem_cons, List.not_mem_nil, or_false] at hf
  rcases hf with rfl | rfl | rfl | rfl | rfl | rfl | rfl | rfl | rfl | rfl
  · refine struct_inv (I := fun z => z.hidingEnabled = false) (fun o' ho kv hkv f hf hk x x' hx e => ?_) hx e
    simp only [config, List.mem_cons, List.not_mem_nil, or_false] at hf
    rcases hf with rfl | rfl | rfl | rfl | rfl | rfl | rfl | rfl | rfl <;> exact field_inv (I := fun z : CommonCircuitDataRaw => z.hidingEnabled = false) hx e fun _ _ h => h
  · refine struct_inv (I := fun z => z.hidingEnabled = false) (fun o' ho kv' hkv' f hf hk' x x' hx e => ?_) hx e
    simp only [friParams, List.mem_cons, List.not_mem_nil, or_false] at hf
    rcases hf with rfl | rfl | rfl | rfl
    · exact field_inv (I := fun z : CommonCircuitDataRaw => z.hidingEnabled = false) hx e fun _ _ h => h
    · exact absurd hk'.symm (h kv hkv hk.symm o' ho kv' hkv')
    · exact field_inv (I := fun z : CommonCircuitDataRaw => z.hidingEnabled = false) hx e fun _ _ h => h
    · exact field_inv (I := fun z : CommonCircuitDataRaw => z.hidingEnabled = false) hx e fun _ _ h => h
  · exact field_inv (I := fun z : CommonCircuitDataRaw => z.hidingEnabled = false) hx e fun _ _ h => h
  · refine struct_inv (I := fun z => z.hidingEnabled = false) (fun o' ho kv hkv f hf hk x x' hx e => ?_) hx e
    simp only [selectorsInfo, List.mem_cons, List.not_mem_nil, or_false] at hf
    rcases hf with rfl | rfl <;> exact field_inv (I := fun z : CommonCircuitDataRaw => z.hidingEnabled = false) hx e fun _ _ h => h
  all_goals exact field_inv (I := fun z : CommonCircuitDataRaw => z.hidingEnabled = false) hx e fun _ _ h => h

theorem slice_none {α : Type} {d : Dec α} {zero : α} {l : List Json} {j : Json} (hj : j ∈ l) (hd : d j zero = none) (x : List α) :
    slice d zero (.arr l) x = none := by
  rw [slice]
  induction l with
  | nil => simp at hj
  | cons a l ih =>
    rw [List.mapM_cons]
    rcases List.mem_cons.1 hj with rfl | hj
    · rw [hd]; rfl
    · rw [ih hj]
      cases d a zero <;> rfl

/-! ## Written documents -/

theorem key_mem {o : List (String × Json)} {k : String} {v : Json} {P : Json → Prop}
    (hnd : (o.map fun kv => fold kv.1).Nodup) (hv : (k, v) ∈ o) (hP : P v) : Key o k P := by
  refine ⟨⟨v, hv⟩, fun kv hkv hk => ?_⟩
  rw [List.inj_on_of_nodup_map hnd hkv hv hk]
  exact hP

theorem arr_map {α : Type} {R : α → Json → Prop} {w : α → Json} {l : List α} (h : ∀ a ∈ l, R a (w a)) : Arr R l (.arr (l.map w)) :=
  ⟨_, rfl, by rw [List.forall₂_map_right_iff, List.forall₂_same]; exact h⟩

theorem num_num {n : ℕ} (h : U64 n) : Num n (num n) := ⟨h, rfl⟩
theorem nums_nums {l : List ℕ} (h : U64s l) : Nums l (nums l) := arr_map fun n hn => num_num (h n hn)
theorem numss_nums {l : List (List ℕ)} (h : U64ss l) : Arr Nums l (numss l) := arr_map fun n hn => nums_nums (h n hn)
theorem strs_strs (l : List String) : Strs l (strs l) := arr_map fun _ _ => rfl

theorem siblings_write (l : List String) : Obj (.obj [("siblings", strs l)]) fun o => Key o "siblings" (Strs l) :=
  ⟨_, rfl, key_mem (List.nodup_singleton _) List.mem_cons_self (strs_strs l)⟩

theorem evalProof_write {x : EvalProofRaw} (h : U64s x.leafElements) : EvalProof x (writeEvalProof x) :=
  ⟨_, _, rfl, nums_nums h, siblings_write _⟩

theorem openings_write {x : OpeningsRaw} (h : U64ss x.constants ∧ U64ss x.plonkSigmas ∧ U64ss x.wires ∧ U64ss x.plonkZs ∧
    U64ss x.plonkZsNext ∧ U64ss x.partialProducts ∧ U64ss x.quotientPolys) : Openings x (writeOpenings x) := by
  have nd : (["constants", "plonk_sigmas", "wires", "plonk_zs", "plonk_zs_next", "partial_products", "quotient_polys"].map
    fold).Nodup := by decide +kernel
  obtain ⟨h1, h2, h3, h4, h5, h6, h7⟩ := h
  exact ⟨_, rfl, key_mem nd (by simp) (numss_nums h1), key_mem nd (by simp) (numss_nums h2),
    key_mem nd (by simp) (numss_nums h3), key_mem nd (by simp) (numss_nums h4), key_mem nd (by simp) (numss_nums h5),
    key_mem nd (by simp) (numss_nums h6), key_mem nd (by simp) (numss_nums h7)⟩

theorem step_write {x : StepRaw} (h : U64ss x.evals) : Step x (writeStep x) := by
  have nd : (["evals", "merkle_proof"].map fold).Nodup := by decide +kernel
  exact ⟨_, rfl, key_mem nd (by simp) (numss_nums h), key_mem nd (by simp) (siblings_write _)⟩

theorem round_write {x : QueryRoundRaw} (h : (∀ z ∈ x.evalsProofs, U64s z.leafElements) ∧ ∀ z ∈ x.steps, U64ss z.evals) :
    Round x (writeRound x) := by
  have nd : (["initial_trees_proof", "steps"].map fold).Nodup := by decide +kernel
  exact ⟨_, rfl, key_mem nd (List.mem_cons_self) ⟨_, rfl, key_mem (List.nodup_singleton _) List.mem_cons_self
    (arr_map fun z hz => evalProof_write (h.1 z hz))⟩,
    key_mem nd (List.mem_cons_of_mem _ List.mem_cons_self) (arr_map fun z hz => step_write (h.2 z hz))⟩

theorem fri_write {x : FriProofRaw} (h1 : ∀ y ∈ x.queryRoundProofs, (∀ z ∈ y.evalsProofs, U64s z.leafElements) ∧
    ∀ z ∈ y.steps, U64ss z.evals) (h2 : U64ss x.finalPoly) (h3 : U64 x.powWitness) : Fri x (writeFri x) := by
  have nd : (["commit_phase_merkle_caps", "query_round_proofs", "final_poly", "pow_witness"].map fold).Nodup := by
    decide +kernel
  exact ⟨_, rfl, key_mem nd List.mem_cons_self (arr_map fun z _ => strs_strs z),
    key_mem nd (List.mem_cons_of_mem _ List.mem_cons_self) (arr_map fun z hz => round_write (h1 z hz)),
    key_mem nd (List.mem_cons_of_mem _ (List.mem_cons_of_mem _ List.mem_cons_self))
      ⟨_, rfl, key_mem (List.nodup_singleton _) List.mem_cons_self (numss_nums h2)⟩,
    key_mem nd (by simp) (num_num h3)⟩

theorem proof_write {x : ProofWithPublicInputsRaw} (h : Proof64 x) : Spec.JsonFormat.Proof x (writeProof x) := by
  have nd : (["proof", "public_inputs"].map fold).Nodup := by decide +kernel
  have nd' : (["wires_cap", "plonk_zs_partial_products_cap", "quotient_polys_cap", "openings", "opening_proof"].map
    fold).Nodup := by decide +kernel
  obtain ⟨h1, h2, h3, h4, h5⟩ := h
  exact ⟨_, rfl, key_mem nd List.mem_cons_self ⟨_, rfl, key_mem nd' (by simp) (strs_strs _), key_mem nd' (by simp) (strs_strs _),
    key_mem nd' (by simp) (strs_strs _), key_mem nd' (by simp) (openings_write h1), key_mem nd' (by simp) (fri_write h2 h3 h4)⟩,
    key_mem nd (by simp) (nums_nums h5)⟩

theorem verifierOnly_write (x : VerifierOnlyCircuitDataRaw) : VerifierOnly x (writeVerifierOnly x) := by
  have nd : (["constants_sigmas_cap", "circuit_digest"].map fold).Nodup := by decide +kernel
  exact ⟨_, rfl, key_mem nd (by simp) (strs_strs _), key_mem (v := .str x.circuitDigest) nd (by simp) rfl⟩

theorem friConfig_write {x : FriConfigRaw} (h : FriConfig64 x) : Spec.JsonFormat.FriConfig x (writeFriConfig x) := by
  have nd : (["rate_bits", "cap_height", "proof_of_work_bits", "reduction_strategy", "num_query_rounds"].map fold).Nodup := by
    decide +kernel
  obtain ⟨h1, h2, h3, h4, h5⟩ := h
  exact ⟨_, rfl, key_mem nd (by simp) (num_num h1), key_mem nd (by simp) (num_num h2), key_mem nd (by simp) (num_num h3),
    key_mem nd (List.mem_cons_of_mem _ (List.mem_cons_of_mem _ (List.mem_cons_of_mem _ List.mem_cons_self)))
      ⟨_, rfl, key_mem (List.nodup_singleton _) List.mem_cons_self (nums_nums h4)⟩,
    key_mem nd (by simp) (num_num h5)⟩

theorem group_write {x : ℕ × ℕ} (h : U64 x.1 ∧ U64 x.2) : Spec.JsonFormat.Group x (writeGroup x) := by
  have nd : (["start", "end"].map fold).Nodup := by decide +kernel
  exact ⟨_, rfl, key_mem nd (by simp) (num_num h.1), key_mem nd (by simp) (num_num h.2)⟩

theorem common_write {x : CommonCircuitDataRaw} (h : Common64 x) : Common x (writeCommon x) := by
  have nd : (["config", "fri_params", "gates", "selectors_info", "quotient_degree_factor", "num_gate_constraints",
    "num_constants", "num_public_inputs", "k_is", "num_partial_products"].map fold).Nodup := by decide +kernel
  have nd1 : (["num_wires", "num_routed_wires", "num_constants", "use_base_arithmetic_gate", "security_bits", "num_challenges",
    "zero_knowledge", "max_quotient_degree_factor", "fri_config"].map fold).Nodup := by decide +kernel
  have nd2 : (["config", "hiding", "degree_bits", "reduction_arity_bits"].map fold).Nodup := by decide +kernel
  have nd3 : (["selector_indices", "groups"].map fold).Nodup := by decide +kernel
  obtain ⟨⟨a1, a2, a3, a4, a5, a6, a7⟩, ⟨b1, b2, b3⟩, ⟨c1, c2⟩, d1, d2, d3, d4, d5, d6⟩ := h
  exact ⟨_, rfl, key_mem nd List.mem_cons_self ⟨_, rfl, key_mem nd1 (by simp) (num_num a1), key_mem nd1 (by simp) (num_num a2),
      key_mem nd1 (by simp) (num_num a3), key_mem (v := .bool x.useBaseArithmeticGate) nd1 (by simp) rfl,
      key_mem nd1 (by simp) (num_num a4),
      key_mem nd1 (by simp) (num_num a5), key_mem (v := .bool x.zeroKnowledge) nd1 (by simp) rfl,
      key_mem nd1 (by simp) (num_num a6), key_mem nd1 (by simp) (friConfig_write a7)⟩,
    key_mem nd (List.mem_cons_of_mem _ List.mem_cons_self) ⟨_, rfl, key_mem nd2 (by simp) (friConfig_write b1),
      key_mem (v := .bool x.hidingEnabled) nd2 (by simp) rfl,
      key_mem nd2 (by simp) (num_num b2), key_mem nd2 (by simp) (nums_nums b3)⟩,
    key_mem nd (by simp) (strs_strs _),
    key_mem nd (List.mem_cons_of_mem _ (List.mem_cons_of_mem _ (List.mem_cons_of_mem _ List.mem_cons_self)))
      ⟨_, rfl, key_mem nd3 (by simp) (nums_nums c1),
        key_mem (v := .arr (x.groups.map writeGroup)) nd3 (by simp) (arr_map fun g hg => group_write (c2 g hg))⟩,
    key_mem nd (by simp) (num_num d1), key_mem nd (by simp) (num_num d2), key_mem nd (by simp) (num_num d3),
    key_mem nd (by simp) (num_num d4), key_mem nd (by simp) (nums_nums d5), key_mem nd (by simp) (num_num d6)⟩

end Verif.JsonModel
