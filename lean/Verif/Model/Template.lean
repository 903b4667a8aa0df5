import Verif.Model.Types

/-!
# Model of the constructors in `variables/fri.go` and of the sizes computed in `types/types.go`

A new slice is filled with zeros (`make` of a slice of variables leaves nil interfaces in it; only its length matters here).
-/

set_option autoImplicit false

namespace Verif.Template

open Verif Circ

/-- `make([]T, n)`: panics for a negative length (sizes that exceed the memory are not modelled). -/
def goMake {α : Type} (zero : α) (n : ℤ) : Circ (List α) :=
  if n < 0 then goPanic "makeslice: len out of range" else pure (List.replicate n.toNat zero)

/-- `NewPolynomialCoeffs`, `variables/fri.go:12-14`. -/
def newPolynomialCoeffs (numCoeffs : ℕ) : Circ (List QEV) := goMake 0 numCoeffs

/-- `NewFriMerkleCap`, `variables/fri.go:18-20`. -/
def newFriMerkleCap (capHeight : ℕ) : Circ (List Fr) := goMake 0 (goShl1 capHeight)

/-- `NewFriMerkleProof`, `variables/fri.go:26-28`. -/
def newFriMerkleProof (merkleProofLen : ℕ) : Circ (List Fr) := goMake 0 merkleProofLen

/-- `NewFriEvalProof`, `variables/fri.go:35-37`. -/
def newFriEvalProof (elements : List Fr) (merkleProof : List Fr) : FriEvalProof Fr := ⟨elements, merkleProof⟩

/-- `NewFriInitialTreeProof`, `variables/fri.go:43-45`. -/
def newFriInitialTreeProof (evalsProofs : List (FriEvalProof Fr)) : List (FriEvalProof Fr) := evalsProofs

/-- `NewFriQueryStep`, `variables/fri.go:52-57`. -/
def newFriQueryStep (arityBit merkleProofLen : ℕ) : Circ (FriQueryStep QEV) := do
  let evals ← goMake 0 (goShl1 arityBit)
  let siblings ← newFriMerkleProof merkleProofLen
  pure ⟨evals, siblings⟩

/-- `NewFriQueryRound`, `variables/fri.go:64-66`. -/
def newFriQueryRound (steps : List (FriQueryStep QEV)) (initialTreesProof : List (FriEvalProof Fr)) : FriQueryRound Fr QEV :=
  ⟨initialTreesProof, steps⟩

/-- `MaxArityBits`, `types/types.go:36-44`. -/
def maxArityBits (q : FriParams) : ℕ := q.reductionArityBits.foldl (fun res b => if b > res then b else res) 0

/-- `LdeSize`, `types/types.go:50-52`. -/
def ldeSize (q : FriParams) : ℤ := goShl1 q.ldeBits

/-- `FinalPolyLen`, `types/types.go:58-60`. -/
def finalPolyLen (q : FriParams) : Circ ℤ :=
  if q.finalPolyBits < 0 then goPanic "negative shift amount" else pure (goShl1 q.finalPolyBits.toNat)

end Verif.Template
