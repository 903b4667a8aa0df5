import Verif.Model.Types

/-!
# Model of `trusted_setup/trusted_setup.go`

Modelled: `eval` and the loop over the contributions of the ceremony in `DownloadAndSaveAztecIgnitionSrs`.  Downloads,
the check `Follows` of the `ignition` package, KZG and files are parameters or not modelled.
-/

set_option autoImplicit false

namespace Verif.TrustedSetup

/-- `eval`, `trusted_setup/trusted_setup.go:55-63`; `none` is the panic of `p[n-1]` on an empty slice. -/
def eval (p : List Fr) (point : Fr) : Option Fr :=
  match p.reverse with
  | [] => none
  | a :: rest => some (rest.foldl (fun res c => res * point + c) a)

variable {κ C : Type} (get : κ → Option C) (follows : C → C → Bool)

/-- The loop of `DownloadAndSaveAztecIgnitionSrs`, `trusted_setup/trusted_setup.go:101-109`, over the remaining
participants: `current, next = next, current`, `next.Get`, `next.Follows(&current)`. -/
def contributionLoop : List κ → C → C → Option (C × C)
  | [], current, next => some (current, next)
  | k :: ks, _current, next => do
    let current := next
    let next ← get k
    if !follows next current then none else contributionLoop ks current next

/-- Contribution the reference string is taken from, `trusted_setup/trusted_setup.go:89-119`; `none` is `log.Fatal` or
an index out of range. -/
def lastContribution (participants : List κ) (startIdx : ℕ) : Option C := do
  let k0 ← participants[startIdx]?
  let current ← get k0
  let k1 ← participants[startIdx + 1]?
  let next ← get k1
  if !follows next current then none
  else
    let r ← contributionLoop get follows (participants.drop (startIdx + 2)) current next
    return r.2

end Verif.TrustedSetup
