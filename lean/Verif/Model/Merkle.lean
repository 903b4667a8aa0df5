import Verif.Model.PoseidonBN

/-!
# Model of `verifyMerkleProofToCapWithCapIndex`, `fri/fri.go`
-/

set_option autoImplicit false

namespace Verif.Fri

open Circ PoseidonBN

/-- Body of the loop over the siblings, `fri/fri.go:104-116`; the state is the current digest. -/
def merkleStep (leafIndexBits : List Fr) (currentDigest : Fr) (si : Fr × ℕ) : Circ Fr := do
  let bit ← idx leafIndexBits si.2
  let in2 ← select bit si.1 currentDigest
  let in3 ← select bit currentDigest si.1
  let state := poseidon ![0, 0, in2, in3]
  pure (state 0)

/-- Two-level lookup of the cap entry, `fri/fri.go:118-142`. -/
def capLookup (capIndexBits : List Fr) (merkleCap : List Fr) : Circ Fr :=
  if capIndexBits.length ≠ 4 ∨ merkleCap.length ≠ 16 then
    goPanic "capIndexBits length should be 4 and the merkleCap length should be 16"
  else do
    let b0 ← idx capIndexBits 0
    let b1 ← idx capIndexBits 1
    let leafLookups ← (List.range 4).mapM fun i => do
      let c0 ← idx merkleCap (i * 4)
      let c1 ← idx merkleCap (i * 4 + 1)
      let c2 ← idx merkleCap (i * 4 + 2)
      let c3 ← idx merkleCap (i * 4 + 3)
      apiLookup2 b0 b1 c0 c1 c2 c3
    let b2 ← idx capIndexBits 2
    let b3 ← idx capIndexBits 3
    let l0 ← idx leafLookups 0
    let l1 ← idx leafLookups 1
    let l2 ← idx leafLookups 2
    let l3 ← idx leafLookups 3
    apiLookup2 b2 b3 l0 l1 l2 l3

/-- `verifyMerkleProofToCapWithCapIndex`, `fri/fri.go:96-144`; `siblings` is `proof.Siblings`. -/
def verifyMerkleProofToCap (leafData leafIndexBits capIndexBits merkleCap siblings : List Fr) : Circ Unit := do
  let currentDigest := hashOrNoop leafData
  let currentDigest ← siblings.zipIdx.foldlM (merkleStep leafIndexBits) currentDigest
  let merkleCapEntry ← capLookup capIndexBits merkleCap
  assertEq currentDigest merkleCapEntry

end Verif.Fri
