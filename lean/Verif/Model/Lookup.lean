import Verif.Model.RangeCheckUtils

/-!
# The lookup argument of the commit-based range checker

`checkCollected` hands the collected requests to gnark's checker (`goldilocks/base.go:434-440`; created in `New`,
`goldilocks/base.go:152`).  Its deferred function (gnark v0.9.1, `std/rangecheck/rangecheck_commit.go`, and
`std/internal/logderivarg/logderivarg.go`) splits every value into limbs, counts how often each table entry occurs among them,
commits to limbs and counts, and compares two sums of inverses at a challenge derived from the commitment.  (Trusted
transcription, like `Model/Gnark.lean`.)
-/

set_option autoImplicit false

namespace Verif.Lookup

open Circ

/-- `api.Inverse(x)`. -/
def apiInverse (x : Fr) : Circ Fr := do
  let v ← newHint 1 (if x = 0 then none else some fun _ => x⁻¹)
  assertEq (x * v 0) 1
  pure (v 0)

/-- `api.DivUnchecked(a, b)`: any value `q` with `q * b = a`. -/
def apiDivUnchecked (a b : Fr) : Circ Fr := do
  let v ← newHint 1 (if b = 0 then none else some fun _ => a * b⁻¹)
  assertEq (v 0 * b) a
  pure (v 0)

/-- `Σ limbs[j] * base^j` for limbs of `w` bits. -/
def compose (w : ℕ) : List Fr → Fr
  | [] => 0
  | l :: ls => l + ((2 ^ w : ℕ) : Fr) * compose w ls

/-- Limbs of one collected value: `DecomposeHint` and the comparison with the value. -/
def decompose (w : ℕ) (e : Fr × ℕ) : Circ (List Fr) := do
  let v ← newHint (decompSize e.2 w) (some fun j => ((e.1.val / 2 ^ (w * j) % 2 ^ w : ℕ) : Fr))
  assertEq (compose w (List.ofFn v)) e.1
  pure (List.ofFn v)

/-- `countHint`: occurrences of each table entry; an error when a limb is not in the table. -/
def countHint (w : ℕ) (queries : List Fr) : Option (Fin (2 ^ w) → Fr) :=
  if ∀ q ∈ queries, q.val < 2 ^ w then some fun j => (queries.count ((j : ℕ) : Fr) : Fr) else none

/-- What is committed to: all limbs, and the counts. -/
def commitPhase (w : ℕ) (log : List (Fr × ℕ)) : Circ (List Fr × (Fin (2 ^ w) → Fr)) := do
  let limbs ← log.mapM (decompose w)
  let counts ← newHint (2 ^ w) (countHint w limbs.flatten)
  pure (limbs.flatten, counts)

/-- The check at the challenge; the table has the entries `0, ..., 2^w - 1`. -/
def challengePhase (w : ℕ) (challenge : Fr) (queries : List Fr) (counts : Fin (2 ^ w) → Fr) : Circ Unit := do
  let lp ← (List.finRange (2 ^ w)).foldlM (fun lp i => do
    let t ← apiDivUnchecked (counts i) (challenge - ((i : ℕ) : Fr))
    pure (lp + t)) 0
  let rp ← queries.foldlM (fun rp q => do
    let t ← apiInverse (challenge - q)
    pure (rp + t)) 0
  assertEq lp rp

/-- The deferred function with a challenge. -/
def check (w : ℕ) (challenge : Fr) (log : List (Fr × ℕ)) : Circ Unit := do
  let committed ← commitPhase w log
  challengePhase w challenge committed.1 committed.2

end Verif.Lookup
