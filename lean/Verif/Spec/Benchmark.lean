import Verif.Model.Benchmark

/-!
# Specification: success of the command-line program, and the ideal proof system
-/

set_option autoImplicit false

namespace Verif.Spec.Benchmark

open Verif.Benchmark

/-- What success means for a backend: the circuit of the files has been compiled, keys were made, and a proof for the public inputs
of the file was made and verified; with `dummy` Groth16 keys there is no verification. -/
inductive Succeeds (plonk groth16 : Backend) (define : List Fr → Circ Unit) (pis : List Fr) (fl : Flags) : Outcome → Prop
  | plonk {cs srs pk vk w π} : fl.proofSystem = "plonk" → plonk.compile define pis.length = .ok cs →
      (fl.dummy = true → plonk.testSrs cs = some srs) → (fl.dummy = false → plonk.fileSrs = .ok srs) →
      plonk.plonkSetup cs srs = some (pk, vk) → plonk.witness pis = some w → plonk.prove cs pk w = some π →
      plonk.verify π vk w = true → Succeeds plonk groth16 define pis fl .plonk
  | groth16 {cs pk vk w π} : fl.proofSystem = "groth16" → fl.dummy = false → groth16.compile define pis.length = .ok cs →
      groth16.setup cs = some (pk, vk) → groth16.witness pis = some w → groth16.prove cs pk w = some π →
      groth16.verify π vk w = true → 256 ≤ (groth16.raw π).length →
      Succeeds plonk groth16 define pis fl
        (.groth16 ((List.range 8).map fun i => ofBytes (((groth16.raw π).drop (32 * i)).take 32)))
  | skipped {cs pk w π} : fl.proofSystem = "groth16" → fl.dummy = true → fl.save = false →
      groth16.compile define pis.length = .ok cs → groth16.dummySetup cs = some pk → groth16.witness pis = some w →
      groth16.prove cs pk w = some π → Succeeds plonk groth16 define pis fl .skipped

/-- An ideal proof system, on circuits with a given number of public inputs: whatever can be solved is compiled, keys can be made,
proofs are found exactly for the public inputs with which an honest run of the circuit succeeds, and they are verified. -/
structure Ideal (b : Backend) : Prop where
  compile : ∀ (f : List Fr → Circ Unit) (pis : List Fr), Circ.honest (f pis) = some () → ∃ cs, b.compile f pis.length = .ok cs
  testSrs : ∀ cs, ∃ srs, b.testSrs cs = some srs
  fileSrs : ∃ srs, b.fileSrs = .ok srs
  plonkSetup : ∀ cs srs, ∃ keys, b.plonkSetup cs srs = some keys
  setup : ∀ cs, ∃ keys, b.setup cs = some keys
  dummySetup : ∀ cs, ∃ pk, b.dummySetup cs = some pk
  witness : ∀ pis, ∃ w, b.witness pis = some w
  prove : ∀ (f : List Fr → Circ Unit) (pis : List Fr) cs pk w, b.compile f pis.length = .ok cs → b.witness pis = some w →
    ((b.prove cs pk w).isSome ↔ Circ.honest (f pis) = some ())
  verifyPlonk : ∀ cs srs keys w π, b.plonkSetup cs srs = some keys → b.prove cs keys.1 w = some π → b.verify π keys.2 w = true
  verify : ∀ cs keys w π, b.setup cs = some keys → b.prove cs keys.1 w = some π → b.verify π keys.2 w = true
  raw : ∀ π, 256 ≤ (b.raw π).length

/-- The `w` bytes of a number, most significant first. -/
def bigEndian : ℕ → ℕ → List ℕ
  | 0, _ => []
  | w + 1, n => bigEndian w (n / 256) ++ [n % 256]

end Verif.Spec.Benchmark
