import Verif.Proofs.Benchmark
import Verif.Properties.Deserialize
import Verif.Properties.Json
import Verif.Properties.Verifier

/-!
# Property C87: the command-line program
-/

set_option autoImplicit false

namespace Verif

open Benchmark Deserialize JsonModel Spec.Benchmark Spec.JsonFormat
open Spec (residue)

/-- **C87** The program ends with outcome `o` (exit status 0) exactly when a circuit is named, its files can be read, and - for the
circuit with the proof and verifier data of the files, and the public inputs of the files - compilation, key generation, proof
generation and, except with dummy Groth16 keys, verification succeed.  The same files give the circuit and the assignment. -/
theorem C87_success (plonk groth16 : Backend) (orders : List (List Gates.Handler)) (files : String → Files) (fl : Flags) (o : Outcome) :
    Benchmark.main plonk groth16 orders files fl = .ok o ↔ fl.circuit ≠ "" ∧
      ∃ (jc jp jv : Json) (rawc : CommonCircuitDataRaw) (c : CommonCircuitData) (rawp : ProofWithPublicInputsRaw)
        (x : ProofWithPublicInputs Fr QEV) (rawv : VerifierOnlyCircuitDataRaw) (vd : VerifierOnlyCircuitData),
        (files fl.circuit).common = some jc ∧ (files fl.circuit).proof = some jp ∧ (files fl.circuit).verifierOnly = some jv ∧
        decodeCommonCircuitData jc = some rawc ∧ readCommonCircuitData rawc = some c ∧
        readProofWithPublicInputs jp = some rawp ∧ deserializeProofWithPublicInputs rawp = some x ∧
        readVerifierOnlyCircuitData jv = some rawv ∧ deserializeVerifierOnlyCircuitData rawv = some vd ∧
        Succeeds plonk groth16 (fun pis => Verifier.define PoseidonGL.poseidon orders c x.proof pis vd) x.publicInputs fl o := by
  rw [Benchmark.main]
  split
  · next h => simp [h]
  · next h =>
    rw [run_ok]
    simp only [load_ok, Option.bind_eq_some_iff]
    constructor
    · rintro ⟨rawc, c, ⟨x, vd⟩, ⟨jc, h1, h2⟩, h3, ⟨⟨rawp, ⟨jp, h4, h5⟩, h6⟩, rawv, ⟨jv, h7, h8⟩, h9⟩, hs⟩
      exact ⟨h, jc, jp, jv, rawc, c, rawp, x, rawv, vd, h1, h4, h7, h2, h3, h5, h6, h8, h9, hs⟩
    · rintro ⟨-, jc, jp, jv, rawc, c, rawp, x, rawv, vd, h1, h4, h7, h2, h3, h5, h6, h8, h9, hs⟩
      exact ⟨rawc, c, (x, vd), ⟨jc, h1, h2⟩, h3, ⟨⟨rawp, ⟨jp, h4, h5⟩, h6⟩, rawv, ⟨jv, h7, h8⟩, h9⟩, hs⟩

/-- **C87** Success without verification is only possible for Groth16 with dummy keys and without saving; another proof system
never succeeds. -/
theorem C87_verified (plonk groth16 : Backend) (orders : List (List Gates.Handler)) (files : String → Files) (fl : Flags)
    (o : Outcome) (h : Benchmark.main plonk groth16 orders files fl = .ok o) :
    (fl.proofSystem = "plonk" ∧ o = .plonk ∧ ∃ π vk w, plonk.verify π vk w = true) ∨
    (fl.proofSystem = "groth16" ∧ fl.dummy = false ∧ ∃ π vk w, groth16.verify π vk w = true) ∨
    (fl.proofSystem = "groth16" ∧ fl.dummy = true ∧ fl.save = false ∧ o = .skipped) := by
  obtain ⟨-, jc, jp, jv, rawc, c, rawp, x, rawv, vd, -, -, -, -, -, -, -, -, -, hs⟩ := (C87_success _ _ _ _ _ _).1 h
  cases hs with
  | plonk h1 h2 h3 h4 h5 h6 h7 h8 => exact Or.inl ⟨h1, rfl, _, _, _, h8⟩
  | groth16 h1 h2 h3 h4 h5 h6 h7 => exact Or.inr (Or.inl ⟨h1, h2, _, _, _, h7⟩)
  | skipped h1 h2 h3 => exact Or.inr (Or.inr ⟨h1, h2, h3, rfl⟩)

theorem length_bigEndian (w n : ℕ) : (bigEndian w n).length = w := by
  induction w generalizing n with
  | zero => rfl
  | succ w ih => simp [bigEndian, ih]

/-- Big-endian numbers are read. -/
theorem ofBytes_bigEndian (w n : ℕ) (h : n < 256 ^ w) : ofBytes (bigEndian w n) = n := by
  induction w generalizing n with
  | zero => rw [pow_zero] at h; rw [bigEndian, ofBytes, List.foldl_nil]; omega
  | succ w ih =>
    have := ih (n / 256) (by rw [pow_succ] at h; omega)
    rw [ofBytes] at this ⊢
    rw [bigEndian, List.foldl_append, this, List.foldl_cons, List.foldl_nil]
    omega

/-- Numbers of `w` bytes are read one after another. -/
theorem read_bigEndian (w : ℕ) (xs t : List ℕ) (hx : ∀ n ∈ xs, n < 256 ^ w) : ((List.range xs.length).map fun i =>
    ofBytes (((xs.flatMap (bigEndian w) ++ t).drop (w * i)).take w)) = xs := by
  induction xs with
  | nil => rfl
  | cons n xs ih =>
    rw [List.length_cons, List.range_succ_eq_map, List.map_cons, List.map_map, List.flatMap_cons, List.append_assoc,
      Nat.mul_zero, List.drop_zero, List.take_left' (length_bigEndian _ _), ofBytes_bigEndian _ _ (hx n List.mem_cons_self)]
    refine congrArg (n :: ·) (Eq.trans ?_ (ih fun m hm => hx m (List.mem_cons_of_mem _ hm)))
    refine List.map_congr_left fun i _ => ?_
    rw [Function.comp_apply, Nat.succ_eq_add_one, Nat.mul_add, Nat.mul_one, Nat.add_comm, ← List.drop_drop,
      List.drop_left' (length_bigEndian _ _)]

/-- **C87** The coordinates printed after a Groth16 run are those of a verified proof, when its raw form starts with eight
coordinates of 32 bytes, most significant first (gnark's `WriteRawTo`). -/
theorem C87_coordinates (plonk groth16 : Backend) (coords : groth16.Pf → List ℕ)
    (hc : ∀ π, (coords π).length = 8 ∧ (∀ n ∈ coords π, n < 2 ^ 256) ∧
      (coords π).flatMap (bigEndian 32) <+: groth16.raw π)
    (orders : List (List Gates.Handler)) (files : String → Files) (fl : Flags) (l : List ℕ)
    (h : Benchmark.main plonk groth16 orders files fl = .ok (.groth16 l)) :
    ∃ π vk w, groth16.verify π vk w = true ∧ l = coords π := by
  obtain ⟨-, jc, jp, jv, rawc, c, rawp, x, rawv, vd, -, -, -, -, -, -, -, -, -, hs⟩ := (C87_success _ _ _ _ _ _).1 h
  cases hs with
  | groth16 h1 h2 h3 h4 h5 h6 h7 h8 =>
    refine ⟨_, _, _, h7, ?_⟩
    obtain ⟨hl, hlt, t, ht⟩ := hc _
    rw [← ht]
    have := read_bigEndian 32 _ t fun n hn => lt_of_lt_of_eq (hlt n hn) (by norm_num)
    rwa [hl] at this

/-- **C87** Saving with dummy Groth16 keys panics (`ExportSolidity` is called on a nil key). -/
theorem C87_dummy_save (b : Backend) (cs : b.CS) (files : Files) (x : ProofWithPublicInputs Fr QEV × VerifierOnlyCircuitData)
    (pk : b.PK) (h1 : load files = .ok x) (h2 : b.dummySetup cs = some pk) :
    groth16Proof b cs files true true = .error .panic := by
  simp [groth16Proof, h1, h2, orExit, Bind.bind, Except.bind]

/-- **C87** Profiling has no influence, and with PLONK or real keys neither has saving. -/
theorem C87_flags (plonk groth16 : Backend) (orders : List (List Gates.Handler)) (files : String → Files) (fl : Flags) (b s : Bool)
    (h : fl.proofSystem = "plonk" ∨ fl.dummy = false ∨ s = fl.save) :
    Benchmark.main plonk groth16 orders files { fl with profile := b, save := s } =
      Benchmark.main plonk groth16 orders files fl := by
  have key : ∀ cs, fl.dummy = false → groth16Proof groth16 cs (files fl.circuit) fl.dummy s =
      groth16Proof groth16 cs (files fl.circuit) fl.dummy fl.save := by
    intro cs hd
    unfold groth16Proof
    rw [hd]
    cases groth16.setup cs with
    | none => rfl
    | some keys => simp [orExit, Bind.bind, Except.bind]
  unfold Benchmark.main runBenchmark
  by_cases hp : fl.proofSystem = "plonk"
  · simp [hp]
  · rcases h.resolve_left hp with hd | rfl
    · simp only [key _ hd]
    · rfl

/-- **C87** With an ideal proof system the exit status is the verdict of plonky2: for files that represent a proof over the fields,
verifier data and circuit data, with gates known to the code and proper sizes, the program succeeds exactly when the
plonky2 verifier accepts. -/
theorem C87_end_to_end {plonk groth16 : Backend} (hp : Ideal plonk) (hg : Ideal groth16) {orders : List (List Gates.Handler)}
    {files : String → Files} {fl : Flags} (hn : fl.circuit ≠ "")
    (hfl : fl.proofSystem = "plonk" ∨ fl.proofSystem = "groth16" ∧ ¬ (fl.dummy = true ∧ fl.save = true))
    {jc jp jv : Json} {raw : CommonCircuitDataRaw} {c : CommonCircuitData} {gates : List Gates.Gate} {x : Verif.Proof Fp QE}
    {inputs : List Fp} {vd : VerifierOnlyCircuitData}
    (hfiles : files fl.circuit = ⟨some jc, some jp, some jv⟩) (hc : Common raw jc) (hr : readCommonCircuitData raw = some c)
    (hx : Spec.JsonFormat.Proof (Spec.Deserialize.serialize x inputs) jp)
    (hv : VerifierOnly (Spec.Deserialize.serializeVerifierOnly vd) jv)
    (hids : List.Forall₂ Spec.Gates.Identifies c.gateIds gates) (hlen : orders.length = gates.length)
    (ho : ∀ o ∈ orders, o.Perm Gates.gateRegexHandlers) (hgates : ∀ g ∈ gates, Spec.Gates.HasWeights g ∧ Spec.Gates.InRange g)
    (hf : Spec.Verifier.Fits c gates vd x.enc) :
    (∃ o, Benchmark.main plonk groth16 orders files fl = .ok o) ↔ Spec.Verifier.Accepts Spec.poseidon c gates vd x inputs := by
  have hdef := fun pis => C58_define PoseidonGL.poseidon orders c gates vd x.enc pis hids hlen ho hgates
  have hres : (inputs.map emb).map residue = inputs := by
    rw [List.map_map]
    conv_rhs => rw [← List.map_id inputs]
    refine List.map_congr_left fun a _ => ?_
    rw [Function.comp_apply, residue, emb_val, cast_val_fp]; rfl
  have hh : Circ.honest (Verifier.define PoseidonGL.poseidon orders c x.enc (inputs.map emb) vd) = some () ↔
      Spec.Verifier.Accepts Spec.poseidon c gates vd x inputs := by
    rw [hdef, C58_honest c gates vd x.enc hf]
    constructor
    · rintro ⟨x', he, -, ha⟩
      rw [hres] at ha
      rwa [Verifier.enc_injective he]
    · intro ha
      refine ⟨x, rfl, fun v hv => ?_, by rwa [hres]⟩
      obtain ⟨a, -, rfl⟩ := List.mem_map.1 hv
      exact (Verifier.canonical_emb a).trans (by norm_num [p])
  rw [← hh]
  have hread := C83_witness x inputs hx
  rw [C83_proof hx, Option.bind_some] at hread
  have hvd := C60_verifierOnly_roundtrip vd
  constructor
  · rintro ⟨o, h⟩
    obtain ⟨-, jc', jp', jv', rawc, c', rawp, x', rawv, vd', h1, h2, h3, h4, h5, h6, h7, h8, h9, hs⟩ := (C87_success _ _ _ _ _ _).1 h
    rw [hfiles] at h1 h2 h3
    cases h1; cases h2; cases h3
    rw [C83_common hc] at h4; cases h4
    rw [hr] at h5; cases h5
    rw [C83_proof hx] at h6; cases h6
    rw [hread] at h7; cases h7
    rw [C83_verifierOnly hv] at h8; cases h8
    rw [hvd] at h9; cases h9
    cases hs with
    | plonk _ k2 _ _ _ k6 k7 _ => exact (hp.prove _ _ _ _ _ k2 k6).1 (by rw [k7]; rfl)
    | groth16 _ _ k2 _ k6 k7 _ _ => exact (hg.prove _ _ _ _ _ k2 k6).1 (by rw [k7]; rfl)
    | skipped _ _ _ k2 _ k6 k7 => exact (hg.prove _ _ _ _ _ k2 k6).1 (by rw [k7]; rfl)
  · intro ha
    have build : ∀ o, Succeeds plonk groth16 (fun pis => Verifier.define PoseidonGL.poseidon orders c x.enc pis vd) (inputs.map emb) fl o →
        Benchmark.main plonk groth16 orders files fl = .ok o := fun o hs =>
      (C87_success _ _ _ _ _ _).2 ⟨hn, jc, jp, jv, raw, c, _, _, _, vd, by rw [hfiles], by rw [hfiles], by rw [hfiles], C83_common hc, hr,
        C83_proof hx, hread, C83_verifierOnly hv, hvd, hs⟩
    rcases hfl with hps | ⟨hps, hds⟩
    · obtain ⟨cs, hcs⟩ := hp.compile (fun pis => Verifier.define PoseidonGL.poseidon orders c x.enc pis vd) (inputs.map emb) ha
      obtain ⟨w, hw⟩ := hp.witness (inputs.map emb)
      obtain ⟨srs, h1, h2⟩ : ∃ srs, (fl.dummy = true → plonk.testSrs cs = some srs) ∧ (fl.dummy = false → plonk.fileSrs = .ok srs) := by
        cases fl.dummy with
        | true => obtain ⟨srs, h⟩ := hp.testSrs cs; exact ⟨srs, fun _ => h, by simp⟩
        | false => obtain ⟨srs, h⟩ := hp.fileSrs; exact ⟨srs, by simp, fun _ => h⟩
      obtain ⟨keys, hk⟩ := hp.plonkSetup cs srs
      obtain ⟨π, hπ⟩ := Option.isSome_iff_exists.1 ((hp.prove _ _ _ keys.1 _ hcs hw).2 ha)
      exact ⟨_, build _ (.plonk hps hcs h1 h2 hk hw hπ (hp.verifyPlonk _ _ _ _ _ hk hπ))⟩
    · obtain ⟨cs, hcs⟩ := hg.compile (fun pis => Verifier.define PoseidonGL.poseidon orders c x.enc pis vd) (inputs.map emb) ha
      obtain ⟨w, hw⟩ := hg.witness (inputs.map emb)
      cases hd : fl.dummy with
      | true =>
        obtain ⟨pk, hk⟩ := hg.dummySetup cs
        obtain ⟨π, hπ⟩ := Option.isSome_iff_exists.1 ((hg.prove _ _ _ pk _ hcs hw).2 ha)
        exact ⟨_, build _ (.skipped hps hd (by simpa [hd] using hds) hcs hk hw hπ)⟩
      | false =>
        obtain ⟨keys, hk⟩ := hg.setup cs
        obtain ⟨π, hπ⟩ := Option.isSome_iff_exists.1 ((hg.prove _ _ _ keys.1 _ hcs hw).2 ha)
        exact ⟨_, build _ (.groth16 hps hd hcs hk hw hπ (hg.verify _ _ _ _ hk hπ) (hg.raw π))⟩

open Classical in
/-- A backend whose proofs are a checked run. -/
noncomputable def toyBackend : Backend where
  CS := List Fr → Circ Unit
  SRS := Unit
  PK := Unit
  VK := Unit
  W := List Fr
  Pf := Unit
  compile := fun f _ => .ok f
  testSrs := fun _ => some ()
  fileSrs := .ok ()
  plonkSetup := fun _ _ => some ((), ())
  setup := fun _ => some ((), ())
  dummySetup := fun _ => some ()
  witness := some
  prove := fun f _ w => if Circ.honest (f w) = some () then some () else none
  verify := fun _ _ _ => true
  raw := fun _ => List.replicate 256 7

theorem toyBackend_ideal : Ideal toyBackend where
  compile := fun f _ _ => ⟨f, rfl⟩
  testSrs := fun _ => ⟨(), rfl⟩
  fileSrs := ⟨(), rfl⟩
  plonkSetup := fun _ _ => ⟨((), ()), rfl⟩
  setup := fun _ => ⟨((), ()), rfl⟩
  dummySetup := fun _ => ⟨(), rfl⟩
  witness := fun pis => ⟨pis, rfl⟩
  prove := by
    intro f pis cs pk w h1 h2
    cases h1; cases h2
    simp only [toyBackend]
    split <;> simp [*]
  verifyPlonk := fun _ _ _ _ _ _ _ => rfl
  verify := fun _ _ _ _ _ _ => rfl
  raw := fun _ => (List.length_replicate ..).ge

/-- The assumptions on the proof system can be met. -/
example : ∃ b, Ideal b := ⟨_, toyBackend_ideal⟩

/-- An unknown proof system. -/
example (files : String → Files) (o : Outcome) :
    Benchmark.main toyBackend toyBackend [] files ⟨"step", "stark", true, true, false⟩ ≠ .ok o := by
  intro h
  have := C87_verified _ _ _ _ _ _ h
  simp at this

/-- Big-endian numbers are printed. -/
example : ofBytes [1, 2, 3] = 66051 := by decide

end Verif
