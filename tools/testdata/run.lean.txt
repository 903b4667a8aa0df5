import Verif.Model.Benchmark
import Lean.Data.Json

/-! Runs the model on the test data of the repository: `lake env lean --run ../tools/testdata/run.lean.txt DIR`. -/

open Verif Circ Deserialize JsonModel

instance : Inhabited JsonModel.Json := ⟨.null⟩
instance : ToString Fr := ⟨fun x => toString x.val⟩

partial def conv : Lean.Json → JsonModel.Json
  | .null => .null
  | .bool b => .bool b
  | .num n => .num n.toString
  | .str s => .str s
  | .arr l => .arr (l.toList.map conv)
  | .obj o => .obj (o.toList.map fun kv => (kv.1, conv kv.2))

structure Counts where
  hints : Nat := 0
  constraints : Nat := 0
  checks : Nat := 0
deriving Repr

/-- Honest run with the numbers of calls. -/
partial def run {α : Type} (c : Circ α) (n : Counts) : Except String (α × Counts) :=
  match c with
  | .ret a => .ok (a, n)
  | .hint _ h k => match h with
    | some v => run (k v) { n with hints := n.hints + 1 }
    | none => .error s!"hint function fails after {repr n}"
  | .require b k => if b then run k { n with constraints := n.constraints + 1 } else .error s!"constraint violated after {repr n}"
  | .check v w k => if v.val < 2 ^ w then run k { n with checks := n.checks + 1 } else .error s!"range check violated after {repr n}"
  | .panic m => .error s!"panic {m} after {repr n}"

def readFile (f : String) : IO JsonModel.Json := do
  let s ← IO.FS.readFile f
  match Lean.Json.parse s with
  | .ok j => return conv j
  | .error e => throw (IO.userError e)

def say (s : String) : IO Unit := do
  IO.println s
  (← IO.getStdout).flush

def main (args : List String) : IO UInt32 := do
  let dir := args.headD "."
  let common ← readFile (dir ++ "/common_circuit_data.json")
  let proof ← readFile (dir ++ "/proof_with_public_inputs.json")
  let vd ← readFile (dir ++ "/verifier_only_circuit_data.json")
  let some c := (decodeCommonCircuitData common).bind readCommonCircuitData | say "common data"; return 1
  let some x := (readProofWithPublicInputs proof).bind deserializeProofWithPublicInputs | say "proof"; return 1
  let some vd := (readVerifierOnlyCircuitData vd).bind deserializeVerifierOnlyCircuitData | say "verifier data"; return 1
  let orders := c.gateIds.map fun _ => Gates.gateRegexHandlers
  let x ← match args.tail with
    | ["pow"] => pure { x with proof := { x.proof with openingProof := { x.proof.openingProof with powWitness := x.proof.openingProof.powWitness + 1 } } }
    | ["input"] => pure { x with publicInputs := x.publicInputs.map (· + 1) }
    | _ => pure x
  say s!"{c.gateIds.length} gates, {x.publicInputs.length} public inputs, {x.proof.openingProof.rounds.length} rounds"
  let .ok (h, n) := run (Verifier.getPublicInputsHash PoseidonGL.poseidon x.publicInputs) {} | say "hash"; return 1
  say s!"hash {((List.finRange 4).map h)} {repr n}"
  match run (Verifier.getChallenges PoseidonGL.poseidon c x.proof h vd) {} with
  | .error e => say e; return 1
  | .ok (ch, n) =>
    say s!"betas {ch.plonkBetas} gammas {ch.plonkGammas} alphas {ch.plonkAlphas} zeta {ch.plonkZeta.1}"
    say s!"fri alpha {ch.friChallenges.alpha.1} beta {ch.friChallenges.betas.map (·.1)} pow {ch.friChallenges.powResponse} indices {ch.friChallenges.queryIndices}"
    say s!"{repr n}"
  match run (Verifier.define PoseidonGL.poseidon orders c x.proof x.publicInputs vd) {} with
  | .error e => say e; return 1
  | .ok (_, n) => say s!"accepted, {repr n}"; return 0
