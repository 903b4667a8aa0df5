import Verif.Model.Json

/-!
# Model of helpers not called by the verifier: `goldilocks/utils.go:10-18`, `variables/deserialize.go:22-31`

`none` stands for a panic.
-/

set_option autoImplicit false

namespace Verif.Helpers

open Deserialize JsonModel

/-- `StrArrayToBigIntArray`, `goldilocks/utils.go:10-18`: the second result of `SetString` is dropped, and the `nil` it
returns for a malformed string is dereferenced in line 15. -/
def strArrayToBigIntArray (l : List String) : Option (List ℤ) := l.mapM bigSetString

/-- Dynamic value of an `interface{}`: one that `encoding/json` makes (nil, bool, float64, string, slice or map), or a
`struct{ Elements []uint64 }`. -/
inductive Value where
  | decoded (j : Json)
  | elements (l : List ℕ)

/-- Dynamic value of a sibling, whose type `BN254HashOut` is `frontend.Variable`, an empty interface
(`poseidon/bn254.go:29`). -/
inductive Sibling where
  | hash (h : Fr)
  | slice (l : List Fr)

/-- `DeserializeMerkleProof`, `variables/deserialize.go:22-31`: a type assertion, then a slice of variables is stored as the
sibling. -/
def deserializeMerkleProof (l : List Value) : Option (List Sibling) :=
  l.mapM fun
    | .elements e => some (.slice (uint64ArrayToVariableArray e))
    | .decoded _ => none

/-- The hashes of a Merkle proof, as `StringArrayToHashBN254Array` makes them for the same field of the proofs that are
verified, `variables/deserialize.go:54-64`. -/
def hashes (l : List Sibling) : Option (List Fr) :=
  l.mapM fun
    | .hash h => some h
    | .slice _ => none

end Verif.Helpers
