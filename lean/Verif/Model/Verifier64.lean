import Verif.Model.Gates64
import Verif.Model.Verifier
import Verif.Model.Words

/-!
# The verifier on 64-bit words: `types/types.go`, `fri/fri_utils.go`, `fri/fri.go`, `plonk/plonk.go`

The other models add and multiply circuit parameters as natural numbers.  Here every function whose code does arithmetic on
parameters is written again with the wrap-around of `uint64` and `int`, the gates being those of `Verif.Model.Gates64`.
Functions without such arithmetic are shared.  `maxLen` is the length beyond which `make`, and `append` in the loops of
`fri/fri_utils.go`, panic.
-/

set_option autoImplicit false

namespace Verif

open Circ

/-- `make([]T, 0, n)` or `make([]T, n)`. -/
def makeCap (maxLen n : ℕ) : Circ Unit :=
  if n ≤ maxLen then pure () else goPanic "makeslice: len out of range"

/-- Slice expression `l[a:b]` with `int` bounds. -/
def sliceInt {α : Type} (l : List α) (a b : ℤ) : Circ (List α) :=
  if 0 ≤ a ∧ a ≤ b ∧ b ≤ l.length then pure ((l.take b.toNat).drop a.toNat) else goPanic "slice bounds out of range"

namespace Plonk64

open Gates Plonk

/-- `plonk/plonk.go:104-109` (see `Plonk.chunkProduct`). -/
def chunkProduct (l : List QEV) (ppStartIdx quotDegreeFactor : ℕ) : Circ QEV := do
  let first ← idx l ppStartIdx
  (List.range' 1 (quotDegreeFactor - 1)).foldlM (fun acc j => do
    let x ← idx l (u64 (ppStartIdx + j))
    mulExt acc x) first

/-- One iteration of the loop of `checkPartialProducts`, `plonk/plonk.go:102-117`. -/
def partialProductCheck (quotDegreeFactor : ℕ) (numerators denominators productAccs : List QEV) (i : ℕ) : Circ QEV := do
  let numeProduct ← chunkProduct numerators (u64 (i * quotDegreeFactor)) quotDegreeFactor
  let denoProduct ← chunkProduct denominators (u64 (i * quotDegreeFactor)) quotDegreeFactor
  let a ← idx productAccs i
  let l ← mulExt a numeProduct
  let b ← idx productAccs (u64 (i + 1))
  let r ← mulExt b denoProduct
  subExt l r

/-- `checkPartialProducts`, `plonk/plonk.go:85-119`. -/
def checkPartialProducts (maxLen : ℕ) (c : CommonCircuitData) (numerators denominators : List QEV) (challengeNum : ℕ)
    (openings : OpeningSet QEV) : Circ (List QEV) := do
  makeCap maxLen (u64 (c.numPartialProducts + 2))
  let z ← idx openings.plonkZs challengeNum
  let pp ← slice openings.partialProducts (u64 (challengeNum * c.numPartialProducts))
    (u64 (u64 (challengeNum + 1) * c.numPartialProducts))
  let zNext ← idx openings.plonkZsNext challengeNum
  makeCap maxLen c.numPartialProducts
  (List.range (c.numPartialProducts + 1)).mapM
    (partialProductCheck c.quotientDegreeFactor numerators denominators (z :: (pp ++ [zNext])))

/-- Body of the loop over challenges, `plonk/plonk.go:142-183`. -/
def challengeTerms (maxLen : ℕ) (c : CommonCircuitData) (ch : ProofChallenges Fr QEV) (openings : OpeningSet QEV)
    (sIDs : List QEV) (l0Zeta : QEV) (i : ℕ) : Circ (QEV × List QEV) := do
  let z ← idx openings.plonkZs i
  let t ← subExt z oneExt
  let z1 ← mulExt l0Zeta t
  makeCap maxLen c.config.numRoutedWires
  let values ← (List.range c.config.numRoutedWires).mapM fun j => do
    let gamma ← idx ch.plonkGammas i
    let beta ← idx ch.plonkBetas i
    permutationTerm beta gamma openings sIDs j
  let pp ← checkPartialProducts maxLen c (values.map Prod.fst) (values.map Prod.snd) i openings
  pure (z1, pp)

/-- `evalVanishingPoly`, `plonk/plonk.go:121-207`. -/
def evalVanishingPoly (maxLen : ℕ) (c : CommonCircuitData) (gates : List Gates64.Gate) (vars : Vars)
    (ch : ProofChallenges Fr QEV) (openings : OpeningSet QEV) (zetaPowN : QEV) : Circ (List QEV) := do
  let constraintTerms ← Gates64.evaluateGateConstraints maxLen gates c.numGateConstraints c.selectorsInfo vars
  makeCap maxLen c.config.numRoutedWires
  let sIDs ← (List.range c.config.numRoutedWires).mapM fun i => do
    let k ← idx c.kIs i
    scalarMulExt ch.plonkZeta (k : Fr)
  let l0Zeta ← evalL0 c ch.plonkZeta zetaPowN
  makeCap maxLen c.config.numChallenges
  makeCap maxLen (u64 (c.config.numChallenges * c.numPartialProducts))
  let terms ← (List.range c.config.numChallenges).mapM (challengeTerms maxLen c ch openings sIDs l0Zeta)
  let vanishingTerms := terms.map Prod.fst ++ terms.flatMap Prod.snd ++ constraintTerms
  vanishingTerms.reverse.foldlM (reduceStep c ch.plonkAlphas) (List.replicate c.config.numChallenges zeroExt)

/-- Check for challenge `i`, `plonk/plonk.go:238-248`; the bounds are computed as `int`. -/
def quotientCheck (c : CommonCircuitData) (openings : OpeningSet QEV) (zHZeta zetaPowN : QEV) (vi : QEV × ℕ) :
    Circ Unit := do
  let quotientPolysStartIdx := int64 (vi.2 * int64 c.quotientDegreeFactor)
  let quotientPolysEndIdx := int64 (quotientPolysStartIdx + int64 c.quotientDegreeFactor)
  let quotients ← sliceInt openings.quotientPolys quotientPolysStartIdx quotientPolysEndIdx
  let t ← reduceWithPowers quotients zetaPowN
  let prod ← mulExt zHZeta t
  assertIsEqualExt vi.1 prod

/-- `Verify`, `plonk/plonk.go:209-250`. -/
def verify (maxLen : ℕ) (c : CommonCircuitData) (gates : List Gates64.Gate) (ch : ProofChallenges Fr QEV)
    (openings : OpeningSet QEV) (publicInputsHash : Fin 4 → Fr) : Circ Unit := do
  let zetaPowN ← expPowerOf2Extension c ch.plonkZeta
  let vars : Vars := ⟨openings.constants, openings.wires, publicInputsHash⟩
  let vanishingPolysZeta ← evalVanishingPoly maxLen c gates vars ch openings zetaPowN
  let zHZeta ← subExt zetaPowN oneExt
  vanishingPolysZeta.zipIdx.forM (quotientCheck c openings zHZeta zetaPowN)

end Plonk64

namespace Fri64

open Fri

/-- `TotalArities`, `types/types.go:28-34`. -/
def totalArities (q : FriParams) : ℤ := q.reductionArityBits.foldl (fun (res : ℤ) (b : ℕ) => int64 (res + int64 b)) 0

/-- The sum `DegreeBits + RateBits` of `types/types.go:47`, `fri/fri.go:401` and `fri/fri.go:524`. -/
def nLog (q : FriParams) : ℕ := u64 (q.degreeBits + q.config.rateBits)

/-- `LdeBits`, `types/types.go:46-48`. -/
def ldeBits (q : FriParams) : ℤ := int64 (nLog q)

/-- `FinalPolyBits`, `types/types.go:54-56`. -/
def finalPolyBits (q : FriParams) : ℤ := int64 (int64 q.degreeBits - totalArities q)

/-- `polynomialInfoFromRange`, `fri/fri_utils.go:46-57`, from 0. -/
def polynomialInfoFromRange (maxLen oracleIdx endPolyIdx : ℕ) : Circ (List PolynomialInfo) :=
  if endPolyIdx ≤ maxLen then pure ((List.range endPolyIdx).map fun i => ⟨oracleIdx, i⟩) else goPanic "out of memory"

/-- `numPreprocessedPolys` with `sigmasRange`, `fri/fri_utils.go:60-72`.  If the sum wraps around the slice is empty; if it
is the largest word the loop does not end. -/
def numPreprocessedPolys (maxLen : ℕ) (c : CommonCircuitData) : Circ ℕ :=
  if u64 (c.numConstants + c.config.numRoutedWires) < c.numConstants then goPanic "index out of range [-1]"
  else if u64 (c.numConstants + c.config.numRoutedWires) = 2 ^ 64 - 1 then goPanic "out of memory"
  else if maxLen < u64 (c.numConstants + c.config.numRoutedWires) - c.numConstants + 1 then goPanic "out of memory"
  else pure (u64 (c.numConstants + c.config.numRoutedWires))

/-- `numZSPartialProductsPolys`, `fri/fri_utils.go:74-76`. -/
def numZSPartialProductsPolys (c : CommonCircuitData) : ℕ := u64 (c.config.numChallenges * u64 (1 + c.numPartialProducts))

/-- `numQuotientPolys`, `fri/fri_utils.go:78-80`. -/
def numQuotientPolys (c : CommonCircuitData) : ℕ := u64 (c.config.numChallenges * c.quotientDegreeFactor)

/-- `friAllPolys`, `fri/fri_utils.go:82-112` and `144-152`. -/
def friAllPolys (maxLen : ℕ) (c : CommonCircuitData) : Circ (List PolynomialInfo) := do
  let n ← numPreprocessedPolys maxLen c
  let l0 ← polynomialInfoFromRange maxLen 0 n
  let l1 ← polynomialInfoFromRange maxLen 1 c.config.numWires
  let l2 ← polynomialInfoFromRange maxLen 2 (numZSPartialProductsPolys c)
  let l3 ← polynomialInfoFromRange maxLen 3 (numQuotientPolys c)
  pure (l0 ++ l1 ++ l2 ++ l3)

/-- `friOracles`, `fri/fri_utils.go:123-142`. -/
def friOracles (maxLen : ℕ) (c : CommonCircuitData) : Circ (List OracleInfo) := do
  let n ← numPreprocessedPolys maxLen c
  pure [⟨n, false⟩, ⟨c.config.numWires, true⟩, ⟨numZSPartialProductsPolys c, true⟩, ⟨numQuotientPolys c, true⟩]

/-- `GetInstance`, `fri/fri.go:40-61`. -/
def getInstance (maxLen : ℕ) (c : CommonCircuitData) (zeta : QEV) : Circ (InstanceInfo QEV) := do
  let allPolys ← friAllPolys maxLen c
  let g ← orPanic "nLog is greater than TWO_ADICITY" (primitiveRootOfUnity c.degreeBits)
  let zetaNext ← mulExt (toQE (emb g)) zeta
  let zsPolys ← polynomialInfoFromRange maxLen 2 c.config.numChallenges
  let oracles ← friOracles maxLen c
  pure ⟨oracles, [⟨zeta, allPolys⟩, ⟨zetaNext, zsPolys⟩]⟩

/-- One initial opening, `fri/fri_utils.go:187-201`. -/
def validateEvalProof (inst : InstanceInfo QEV) (q : FriParams) (ei : FriEvalProof Fr × ℕ) : Circ Unit := do
  let oracle ← idx inst.oracles ei.2
  let saltSize : ℤ := if oracle.blinding && q.isHiding then 4 else 0
  if (ei.1.elements.length : ℤ) ≠ int64 (int64 oracle.numPolys + saltSize) then
    goPanic "eval proof leaf length doesn't match oracle info"
  else if int64 (ei.1.siblings.length + int64 q.config.capHeight) ≠ ldeBits q then
    goPanic "length of merkle proof + capHeight doesn't match lde_bits from params"
  else pure ()

/-- One reduction step, `fri/fri_utils.go:207-222`. -/
def validateStep (q : FriParams) (codewordLenBits : ℤ) (si : FriQueryStep QEV × ℕ) : Circ ℤ := do
  let arityBits ← idx q.reductionArityBits si.2
  let codewordLenBits := int64 (codewordLenBits - int64 arityBits)
  if (si.1.evals.length : ℤ) ≠ goShl1 arityBits then goPanic "len evals doesn't match arity"
  else if int64 (si.1.siblings.length + int64 q.config.capHeight) ≠ codewordLenBits then
    goPanic "len merkleProof doesn't match codewordLenBits"
  else pure codewordLenBits

/-- One query round, `fri/fri_utils.go:181-223`. -/
def validateRound (inst : InstanceInfo QEV) (q : FriParams) (round : FriQueryRound Fr QEV) : Circ Unit :=
  if round.initial.length ≠ inst.oracles.length then
    goPanic "eval proofs length is not equal to instance oracles length"
  else do
    round.initial.zipIdx.forM (validateEvalProof inst q)
    if round.steps.length ≠ q.reductionArityBits.length then
      goPanic "length of steps != params.reduction_arity_bits"
    else do
      let _ ← round.steps.zipIdx.foldlM (validateStep q) (ldeBits q)
      pure ()

/-- `validateFriProofShape`, `fri/fri_utils.go:167-228`. -/
def validateFriProofShape (proof : FriProof Fr QEV) (inst : InstanceInfo QEV) (q : FriParams) : Circ Unit := do
  proof.commitCaps.forM fun cap =>
    if goShl1 q.config.capHeight ≠ cap.length then
      goPanic "config cap_height does not match commit_phase_merkle_caps"
    else pure ()
  proof.rounds.forM (validateRound inst q)
  if finalPolyBits q < 0 then goPanic "negative shift amount"
  else if (proof.finalPoly.length : ℤ) ≠ goShl1 (finalPolyBits q).toNat then
    goPanic "len finalPoly doesn't match params FinalPolyLen"
  else pure ()

/-- `verifyQueryRound`, `fri/fri.go:386-498`. -/
def verifyQueryRound (q : FriParams) (inst : InstanceInfo QEV) (ch : FriChallenges Fr QEV)
    (precomputedReducedEval : List QEV) (initialMerkleCaps : List (List Fr)) (proof : FriProof Fr QEV) (xIndex : Fr)
    (nLog : ℕ) (roundProof : FriQueryRound Fr QEV) : Circ Unit := do
  assertNoncanonicalIndicesOK q
  let xIndex ← reduce xIndex
  let bits ← toBinary 64 xIndex
  let xIndexBits ← sliceTo bits (Fri64.nLog q)
  let capIndexBits ← sliceInt xIndexBits (int64 (xIndexBits.length - int64 q.config.capHeight)) xIndexBits.length
  verifyInitialProof xIndexBits roundProof.initial initialMerkleCaps capIndexBits
  let subgroupX ← calculateSubgroupX xIndexBits nLog
  let oldEval ← friCombineInitial inst roundProof.initial ch.alpha (toQE subgroupX) precomputedReducedEval
  let st ← q.reductionArityBits.zipIdx.foldlM (reductionStep ch proof roundProof.steps capIndexBits)
    (xIndexBits, subgroupX, oldEval)
  let fin ← finalPolyEval proof.finalPoly (toQE st.2.1)
  glAssertIsEqual st.2.2.1 fin.1
  glAssertIsEqual st.2.2.2 fin.2

/-- `VerifyFriProof`, `fri/fri.go:500-552`. -/
def verifyFriProof (q : FriParams) (inst : InstanceInfo QEV) (openings : List (List QEV))
    (ch : FriChallenges Fr QEV) (initialMerkleCaps : List (List Fr)) (proof : FriProof Fr QEV) : Circ Unit := do
  validateFriProofShape proof inst q
  assertLeadingZeros ch.powResponse q.config
  if int64 q.config.numQueryRounds ≠ proof.rounds.length then
    goPanic "Number of query rounds does not match config."
  else do
    let precomputedReducedEvals ← fromOpeningsAndAlpha openings ch.alpha
    if ch.queryIndices.length ≠ proof.rounds.length then
      goPanic "Number of query indices should equal number of query round proofs"
    else
      ch.queryIndices.zipIdx.forM fun xi => do
        let roundProof ← idx proof.rounds xi.2
        verifyQueryRound q inst ch precomputedReducedEvals initialMerkleCaps proof xi.1 (nLog q) roundProof

end Fri64

namespace Verifier64

open PoseidonGL Challenger Verifier

variable (perm : State → Circ State)

/-- `Verify`, `verifier/verifier.go:142-172`. -/
def verify (maxLen : ℕ) (c : CommonCircuitData) (gates : List Gates64.Gate) (proof : Proof Fr QEV)
    (publicInputs : List Fr) (vd : VerifierOnlyCircuitData) : Circ Unit := do
  rangeCheckProof proof
  let publicInputsHash ← getPublicInputsHash perm publicInputs
  let proofChallenges ← getChallenges perm c proof publicInputsHash vd
  Plonk64.verify maxLen c gates proofChallenges proof.openings publicInputsHash
  let initialMerkleCaps := [vd.constantSigmasCap, proof.wiresCap, proof.plonkZsPartialProductsCap,
    proof.quotientPolysCap]
  let inst ← Fri64.getInstance maxLen c proofChallenges.plonkZeta
  Fri64.verifyFriProof c.friParams inst (Fri.toOpenings proof.openings) proofChallenges.friChallenges initialMerkleCaps
    proof.openingProof

end Verifier64

end Verif
