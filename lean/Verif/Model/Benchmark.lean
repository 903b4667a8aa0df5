import Verif.Model.Verifier
import Verif.Model.Json
import Verif.Model.PoseidonGL

/-!
# Model of `benchmark.go`

The calls of gnark are the fields of `Backend`.  Printing (except of the Groth16 proof), profiling and the files written with
`-save` are left out: the code ignores all errors of the latter.
-/

set_option autoImplicit false

namespace Verif.Benchmark

open Deserialize JsonModel

/-- How the program can end early: `os.Exit(1)` or a panic. -/
inductive Stop where
  | exit1
  | panic
  deriving DecidableEq

/-- How it ends otherwise: with a verified PLONK proof, a verified Groth16 proof whose coordinates are printed, or without
verification. -/
inductive Outcome where
  | plonk
  | groth16 (printed : List ℕ)
  | skipped
  deriving DecidableEq

/-- The command-line flags, `benchmark.go:307-311`. -/
structure Flags where
  circuit : String
  proofSystem : String
  profile : Bool
  dummy : Bool
  save : Bool

/-- The files of a circuit; `none` if one cannot be opened or is not JSON. -/
structure Files where
  common : Option Json
  proof : Option Json
  verifierOnly : Option Json

/-- gnark as seen by `benchmark.go`, for one proof system: constraint systems, reference strings, keys, witnesses and proofs. -/
structure Backend where
  CS : Type
  SRS : Type
  PK : Type
  VK : Type
  W : Type
  Pf : Type
  /-- `frontend.Compile` of a circuit with the given number of public inputs. -/
  compile : (List Fr → Circ Unit) → ℕ → Except Stop CS
  /-- `test.NewKZGSRS`. -/
  testSrs : CS → Option SRS
  /-- The reference string in the file `srs_setup`, or the one downloaded. -/
  fileSrs : Except Stop SRS
  /-- `plonk.Setup`. -/
  plonkSetup : CS → SRS → Option (PK × VK)
  /-- `groth16.Setup`. -/
  setup : CS → Option (PK × VK)
  /-- `groth16.DummySetup`. -/
  dummySetup : CS → Option PK
  /-- `frontend.NewWitness`. -/
  witness : List Fr → Option W
  prove : CS → PK → W → Option Pf
  /-- `Verify`, with the public part of the witness. -/
  verify : Pf → VK → W → Bool
  /-- `WriteRawTo`. -/
  raw : Pf → List ℕ

/-- A panic if there is no result. -/
def orPanic {α : Type} : Option α → Except Stop α
  | some a => .ok a
  | none => .error .panic

/-- `if err != nil { ...; os.Exit(1) }`. -/
def orExit {α : Type} : Option α → Except Stop α
  | some a => .ok a
  | none => .error .exit1

/-- Proof and verifier data as read by each of the three functions, `benchmark.go:30-31, 86-87, 197-198`. -/
def load (files : Files) : Except Stop (ProofWithPublicInputs Fr QEV × VerifierOnlyCircuitData) := do
  let proof ← orPanic (files.proof.bind readProofWithPublicInputs)
  let proof ← orPanic (deserializeProofWithPublicInputs proof)
  let vd ← orPanic (files.verifierOnly.bind readVerifierOnlyCircuitData)
  let vd ← orPanic (deserializeVerifierOnlyCircuitData vd)
  return (proof, vd)

/-- The reference string, `benchmark.go:101-125`. -/
def plonkSrs (b : Backend) (cs : b.CS) (dummy : Bool) : Except Stop b.SRS := if dummy then orPanic (b.testSrs cs) else b.fileSrs

/-- `plonkProof`, `benchmark.go:80-190`. -/
def plonkProof (b : Backend) (cs : b.CS) (files : Files) (dummy : Bool) : Except Stop Outcome := do
  let assignment ← load files
  let srs ← plonkSrs b cs dummy
  let keys ← orExit (b.plonkSetup cs srs)
  let witness ← orPanic (b.witness assignment.1.publicInputs)
  let proof ← orExit (b.prove cs keys.1 witness)
  if b.verify proof keys.2 witness then return .plonk else .error .exit1

/-- `new(big.Int).SetBytes`: big-endian. -/
def ofBytes (l : List ℕ) : ℕ := l.foldl (fun n b => n * 256 + b) 0

/-- `groth16Proof`, `benchmark.go:192-304`; without a verifying key `vk.ExportSolidity` (`:236`) panics. -/
def groth16Proof (b : Backend) (cs : b.CS) (files : Files) (dummy save : Bool) : Except Stop Outcome := do
  let assignment ← load files
  let keys ← orExit (if dummy then (b.dummySetup cs).map fun pk => (pk, none)
    else (b.setup cs).map fun keys => (keys.1, some keys.2))
  if save && keys.2.isNone then .error .panic
  let witness ← orPanic (b.witness assignment.1.publicInputs)
  let proof ← orExit (b.prove cs keys.1 witness)
  match keys.2 with
  | none => return .skipped
  | some vk =>
    if b.verify proof vk witness then
      let bytes := b.raw proof
      if bytes.length < 256 then .error .panic
      else return .groth16 ((List.range 8).map fun i => ofBytes ((bytes.drop (32 * i)).take 32))
    else .error .exit1

/-- `runBenchmark`, `benchmark.go:27-78`; `orders` are the map iteration orders of `GateInstanceFromId`.  The circuit's only
variables are its public inputs, `verifier/util.go:10-17`. -/
def runBenchmark (plonk groth16 : Backend) (orders : List (List Gates.Handler)) (files : Files) (fl : Flags) :
    Except Stop Outcome := do
  let common ← orPanic (files.common.bind decodeCommonCircuitData)
  let common ← orPanic (readCommonCircuitData common)
  let circuit ← load files
  let define := fun pis => Verifier.define PoseidonGL.poseidon orders common circuit.1.proof pis circuit.2
  if fl.proofSystem = "plonk" then
    let cs ← plonk.compile define circuit.1.publicInputs.length
    plonkProof plonk cs files fl.dummy
  else if fl.proofSystem = "groth16" then
    let cs ← groth16.compile define circuit.1.publicInputs.length
    groth16Proof groth16 cs files fl.dummy fl.save
  else .error .exit1

/-- `main`, `benchmark.go:306-324`; `files` is the directory `testdata`. -/
def main (plonk groth16 : Backend) (orders : List (List Gates.Handler)) (files : String → Files) (fl : Flags) :
    Except Stop Outcome :=
  if fl.circuit = "" then .error .exit1 else runBenchmark plonk groth16 orders (files fl.circuit) fl

end Verif.Benchmark
