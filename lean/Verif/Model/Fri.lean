import Verif.Model.Types
import Verif.Model.Merkle
import Verif.Model.Roots

/-!
# Model of `fri/fri.go` and `fri/fri_utils.go`
-/

set_option autoImplicit false

namespace Verif.Fri

open Circ

/-! ## Instance and openings -/

/-- `polynomialInfoFromRange`, `fri/fri_utils.go:46-57`. -/
def polynomialInfoFromRange (oracleIdx startPolyIdx endPolyIdx : ℕ) : List PolynomialInfo :=
  (List.range' startPolyIdx (endPolyIdx - startPolyIdx)).map fun i => ⟨oracleIdx, i⟩

/-- `sigmasRange`, `fri/fri_utils.go:60-67` (the upper bound is included). -/
def sigmasRange (c : CommonCircuitData) : List ℕ :=
  List.range' c.numConstants (c.config.numRoutedWires + 1)

/-- `numPreprocessedPolys`, `fri/fri_utils.go:69-72`; the list is never empty. -/
def numPreprocessedPolys (c : CommonCircuitData) : ℕ := (sigmasRange c).getLastD 0

/-- `numZSPartialProductsPolys`, `fri/fri_utils.go:74-76`. -/
def numZSPartialProductsPolys (c : CommonCircuitData) : ℕ := c.config.numChallenges * (1 + c.numPartialProducts)

/-- `numQuotientPolys`, `fri/fri_utils.go:78-80`. -/
def numQuotientPolys (c : CommonCircuitData) : ℕ := c.config.numChallenges * c.quotientDegreeFactor

/-- `friPreprocessedPolys`, `fri/fri_utils.go:82-89`; `CONSTANTS_SIGMAS.index` is 0 (`:26-29`). -/
def friPreprocessedPolys (c : CommonCircuitData) : List PolynomialInfo :=
  polynomialInfoFromRange 0 0 (numPreprocessedPolys c)

/-- `friWirePolys`, `fri/fri_utils.go:91-94`; `WIRES.index` is 1 (`:31-34`). -/
def friWirePolys (c : CommonCircuitData) : List PolynomialInfo := polynomialInfoFromRange 1 0 c.config.numWires

/-- `friZSPartialProductsPolys`, `fri/fri_utils.go:96-103`; `ZS_PARTIAL_PRODUCTS.index` is 2 (`:36-39`). -/
def friZSPartialProductsPolys (c : CommonCircuitData) : List PolynomialInfo :=
  polynomialInfoFromRange 2 0 (numZSPartialProductsPolys c)

/-- `friQuotientPolys`, `fri/fri_utils.go:105-112`; `QUOTIENT.index` is 3 (`:41-44`). -/
def friQuotientPolys (c : CommonCircuitData) : List PolynomialInfo :=
  polynomialInfoFromRange 3 0 (numQuotientPolys c)

/-- `friZSPolys`, `fri/fri_utils.go:114-121`. -/
def friZSPolys (c : CommonCircuitData) : List PolynomialInfo :=
  polynomialInfoFromRange 2 0 c.config.numChallenges

/-- `friOracles`, `fri/fri_utils.go:123-142`. -/
def friOracles (c : CommonCircuitData) : List OracleInfo :=
  [⟨numPreprocessedPolys c, false⟩, ⟨c.config.numWires, true⟩, ⟨numZSPartialProductsPolys c, true⟩,
    ⟨numQuotientPolys c, true⟩]

/-- `friAllPolys`, `fri/fri_utils.go:144-152`. -/
def friAllPolys (c : CommonCircuitData) : List PolynomialInfo :=
  friPreprocessedPolys c ++ friWirePolys c ++ friZSPartialProductsPolys c ++ friQuotientPolys c

/-- `GetInstance`, `fri/fri.go:40-61`. -/
def getInstance (c : CommonCircuitData) (zeta : QEV) : Circ (InstanceInfo QEV) := do
  let zetaBatch : BatchInfo QEV := ⟨zeta, friAllPolys c⟩
  let g ← orPanic "nLog is greater than TWO_ADICITY" (primitiveRootOfUnity c.degreeBits)
  let zetaNext ← mulExt (toQE (emb g)) zeta
  let zetaNextBatch : BatchInfo QEV := ⟨zetaNext, friZSPolys c⟩
  pure ⟨friOracles c, [zetaBatch, zetaNextBatch]⟩

/-- `ToOpenings`, `fri/fri.go:63-73`: the values of the two batches. (Go's `append` may also write into spare capacity
of `c.Constants`: `Model/Slices.lean` and C82.) -/
def toOpenings {E : Type} (c : OpeningSet E) : List (List E) :=
  [c.constants ++ c.plonkSigmas ++ c.wires ++ c.plonkZs ++ c.partialProducts ++ c.quotientPolys, c.plonkZsNext]

/-- `assertLeadingZeros`, `fri/fri.go:75-80`; `64-friConfig.ProofOfWorkBits` is a `uint64` subtraction. -/
def assertLeadingZeros (powWitness : Fr) (cfg : FriConfig) : Circ Unit :=
  rangeCheckWithMaxBits powWitness ((64 + 2 ^ 64 - cfg.proofOfWorkBits % 2 ^ 64) % 2 ^ 64)

/-- `fromOpeningsAndAlpha`, `fri/fri.go:82-95`. -/
def fromOpeningsAndAlpha (openings : List (List QEV)) (alpha : QEV) : Circ (List QEV) :=
  openings.mapM fun values => reduceWithPowers values alpha

/-! ## Query point -/

/-- `basePow.Exp(base, big.NewInt(int64(1 << i)))`, `fri/fri.go:169-171`: the exponent wraps to `-2^63` at `i = 63`
(`Element.Exp` inverts for negative exponents) and to `0` beyond. -/
def basePow (base : Fp) (i : ℕ) : Fp :=
  if i < 63 then base ^ (2 ^ i) else if i = 63 then base⁻¹ ^ (2 ^ 63) else base ^ 0

/-- `gl.NewVariable(basePow.Uint64() - 1)`, `fri/fri.go:172`, with `uint64` wrap-around. -/
def basePowMinusOne (b : Fp) : Fr := (((b.val + (2 ^ 64 - 1)) % 2 ^ 64 : ℕ) : Fr)

/-- `expFromBitsConstBase`, `fri/fri.go:159-185`. -/
def expFromBitsConstBase (base : Fp) (exponentBits : List Fr) : Circ Fr :=
  exponentBits.zipIdx.foldlM (fun product bi => do
    let m ← mul (basePowMinusOne (basePow base bi.2)) product
    let m ← mul m bi.1
    add m product) 1

/-- `calculateSubgroupX`, `fri/fri.go:187-206`. -/
def calculateSubgroupX (xIndexBits : List Fr) (nLog : ℕ) : Circ Fr := do
  let base ← orPanic "nLog is greater than TWO_ADICITY" (primitiveRootOfUnity nLog)
  let product ← expFromBitsConstBase base xIndexBits.reverse
  mul (emb MULTIPLICATIVE_GROUP_GENERATOR) product

/-! ## Batched quotient -/

/-- `verifyInitialProof`, `fri/fri.go:146-157`. -/
def verifyInitialProof (xIndexBits : List Fr) (proof : List (FriEvalProof Fr)) (initialMerkleCaps : List (List Fr))
    (capIndexBits : List Fr) : Circ Unit :=
  if proof.length ≠ initialMerkleCaps.length then
    goPanic "length of eval proofs in fri proof should equal length of initial merkle caps"
  else (proof.zip initialMerkleCaps).forM fun ec =>
    verifyMerkleProofToCap ec.1.elements xIndexBits capIndexBits ec.2 ec.1.siblings

/-- One batch of `friCombineInitial`, `fri/fri.go:222-248`. -/
def combineBatch (proof : List (FriEvalProof Fr)) (friAlpha subgroupX_QE : QEV) (sum : QEV)
    (bo : BatchInfo QEV × QEV) : Circ QEV := do
  let evals ← bo.1.polynomials.mapM fun polynomial => do
    let ep ← idx proof polynomial.oracleIndex
    let e ← idx ep.elements polynomial.polynomialInfo
    pure ((e, 0) : QEV)
  let reducedEvals ← reduceWithPowers evals friAlpha
  let numerator := subExtNoReduce reducedEvals bo.2
  let denominator ← subExt subgroupX_QE bo.1.point
  let ae ← expExt friAlpha evals.length
  let sum ← mulExt ae sum
  let inv ← inverseExt denominator
  assertEq inv.2 1
  mulAddExt numerator inv.1 sum

/-- `friCombineInitial`, `fri/fri.go:208-251`. -/
def friCombineInitial (inst : InstanceInfo QEV) (proof : List (FriEvalProof Fr)) (friAlpha subgroupX_QE : QEV)
    (precomputedReducedEval : List QEV) : Circ QEV :=
  if inst.batches.length ≠ precomputedReducedEval.length then
    goPanic "len(openings) != len(precomputedReducedEval)"
  else (inst.batches.zip precomputedReducedEval).foldlM (combineBatch proof friAlpha subgroupX_QE) zeroExt

/-- `finalPolyEval`, `fri/fri.go:253-259`. -/
def finalPolyEval (coeffs : List QEV) (point : QEV) : Circ QEV :=
  coeffs.reverse.foldlM (fun ret c => mulAddExt ret point c) zeroExt

/-! ## Folding -/

/-- `interpolate`, `fri/fri.go:261-312`. -/
def interpolate (x : QEV) (xPoints yPoints barycentricWeights : List QEV) : Circ QEV :=
  if xPoints.length ≠ yPoints.length ∨ xPoints.length ≠ barycentricWeights.length then
    goPanic "length of xPoints, yPoints, and barycentricWeights are inconsistent"
  else do
    let lX ← xPoints.foldlM (fun lX xi => subMulExt x xi lX) oneExt
    let st ← (xPoints.zip (yPoints.zip barycentricWeights)).foldlM (fun (st : QEV × Fr) xyw => do
      let d ← subExt x xyw.1
      let q ← divExt xyw.2.2 d
      let lookupFromPoints := q.2 * st.2
      let m ← mulExt xyw.2.1 q.1
      let sum ← addExt m st.1
      pure (sum, lookupFromPoints)) (zeroExt, 1)
    let interpolation ← mulExt lX st.1
    let lookupVal ← (xPoints.zip yPoints).foldlM (fun lookupVal xy => do
      let d ← subExt x xy.1
      lookup (isZeroExt d) lookupVal xy.2) zeroExt
    lookup st.2 lookupVal interpolation

/-- `bits.Reverse8`. -/
def reverse8 (i : ℕ) : ℕ := (List.range 8).foldl (fun a k => 2 * a + (if i.testBit k then 1 else 0)) 0

/-- The permutation loop of `computeEvaluation`, `fri/fri.go:339-342`, with its `uint8` counter. `fuel` bounds the
number of iterations; `none` means that the loop has not ended by then. -/
def permuteLoop {E : Type} (evals : List E) (arityBits : ℕ) : ℕ → ℕ → List E → Option (List E)
  | 0, _, _ => none
  | fuel + 1, i, permutedEvals =>
    if i ≤ (evals.length - 1) % 256 then
      permuteLoop evals arityBits fuel ((i + 1) % 256)
        (match evals[i]? with
          | some e => permutedEvals.set (reverse8 i >>> (8 - arityBits)) e
          | none => permutedEvals)
    else some permutedEvals

/-- The barycentric weight of point `i` before inversion, `fri/fri.go:366-375`. -/
def weightLoop (xPoints : List QEV) (xi : QEV) (i : ℕ) : Circ QEV :=
  xPoints.zipIdx.foldlM (fun w xj => if i ≠ xj.2 then subMulExt xi xj.1 w else pure w) oneExt

/-- `computeEvaluation`, `fri/fri.go:314-384`. A permutation loop still running after 1000 iterations is modelled as a
panic (C50 treats its termination). -/
def computeEvaluation (x : Fr) (xIndexWithinCosetBits : List Fr) (arityBits : ℕ) (evals : List QEV) (beta : QEV) :
    Circ QEV :=
  if (evals.length : ℤ) ≠ goShl1 arityBits then goPanic "len(evals) != arity"
  else if arityBits > 8 then goPanic "currently assuming that arityBits is <= 8"
  else do
    let g ← orPanic "nLog is greater than TWO_ADICITY" (primitiveRootOfUnity arityBits)
    let gInv := g ^ (evals.length - 1)
    let permutedEvals ← orPanic "no termination" (permuteLoop evals arityBits 1000 0 (evals.map fun _ => (0, 0)))
    let start ← expFromBitsConstBase gInv xIndexWithinCosetBits.reverse
    let cosetStart ← mul start x
    let g_F := toQE (emb g)
    let xPoints ← (List.range (evals.length - 1)).foldlM (fun (pts : List QEV) _ => do
      let next ← mulExt (pts.getLastD (0, 0)) g_F
      pure (pts ++ [next])) [(cosetStart, 0)]
    let barycentricWeights ← xPoints.zipIdx.mapM fun xi => do
      let w ← weightLoop xPoints xi.1 xi.2
      let inv ← inverseExt w
      assertEq inv.2 1
      pure inv.1
    interpolate beta xPoints permutedEvals barycentricWeights

/-! ## Query rounds -/

/-- `assertNoncanonicalIndicesOK`, `fri/fri_utils.go:156-163`: panics when `pAmbiguous >= queryError * 1e-5`, here in
exact rational arithmetic (`C62` shows that floating-point rounding cannot change the outcome); from 64 rate bits on,
`uint64(1) << RateBits` is zero and the query error is `+Inf`. -/
def assertNoncanonicalIndicesOK (q : FriParams) : Circ Unit :=
  if q.config.rateBits < 64 ∧ p ≤ (2 ^ 32 - 1) * 10 ^ 5 * 2 ^ q.config.rateBits then
    goPanic "A non-negligible portion of field elements are in the range that permits non-canonical encodings"
  else pure ()

/-- Slice expression `l[n:]`. -/
def sliceFrom {α : Type} (l : List α) (n : ℕ) : Circ (List α) :=
  if n ≤ l.length then pure (l.drop n) else goPanic "slice bounds out of range"

/-- Slice expression `l[:n]` for a slice without spare capacity. -/
def sliceTo {α : Type} (l : List α) (n : ℕ) : Circ (List α) :=
  if n ≤ l.length then pure (l.take n) else goPanic "slice bounds out of range"

/-- Two-level lookup of the evaluation at the query position, `fri/fri.go:435-458`. -/
def evalLookup (bits : List Fr) (evals : List QEV) : Circ QEV := do
  let b0 ← idx bits 0
  let b1 ← idx bits 1
  let leafLookups ← (List.range 4).mapM fun i => do
    let e0 ← idx evals (i * 4)
    let e1 ← idx evals (i * 4 + 1)
    let e2 ← idx evals (i * 4 + 2)
    let e3 ← idx evals (i * 4 + 3)
    lookup2 b0 b1 e0 e1 e2 e3
  let b2 ← idx bits 2
  let b3 ← idx bits 3
  let l0 ← idx leafLookups 0
  let l1 ← idx leafLookups 1
  let l2 ← idx leafLookups 2
  let l3 ← idx leafLookups 3
  lookup2 b2 b3 l0 l1 l2 l3

/-- State of the reduction loop: `xIndexBits`, `subgroupX`, `oldEval`. -/
abbrev RoundState := List Fr × Fr × QEV

/-- One reduction step of `verifyQueryRound`, `fri/fri.go:421-491`. -/
def reductionStep (ch : FriChallenges Fr QEV) (proof : FriProof Fr QEV) (steps : List (FriQueryStep QEV))
    (capIndexBits : List Fr) (st : RoundState) (ai : ℕ × ℕ) : Circ RoundState := do
  let xIndexBits := st.1
  let subgroupX := st.2.1
  let oldEval := st.2.2
  let arityBits := ai.1
  let step ← idx steps ai.2
  let evals := step.evals
  let cosetIndexBits ← sliceFrom xIndexBits arityBits
  let xIndexWithinCosetBits ← sliceTo xIndexBits arityBits
  if arityBits ≠ 4 then goPanic "assuming arity bits is 4"
  else do
    let newEval ← evalLookup xIndexWithinCosetBits evals
    glAssertIsEqual newEval.1 oldEval.1
    glAssertIsEqual newEval.2 oldEval.2
    let beta ← idx ch.betas ai.2
    let oldEval ← computeEvaluation subgroupX xIndexWithinCosetBits arityBits evals beta
    let fieldEvals := evals.flatMap fun e => [e.1, e.2]
    let cap ← idx proof.commitCaps ai.2
    verifyMerkleProofToCap fieldEvals cosetIndexBits capIndexBits cap step.siblings
    let subgroupX ← (List.range arityBits).foldlM (fun s _ => mul s s) subgroupX
    pure (cosetIndexBits, subgroupX, oldEval)

/-- `verifyQueryRound`, `fri/fri.go:386-498`. -/
def verifyQueryRound (q : FriParams) (inst : InstanceInfo QEV) (ch : FriChallenges Fr QEV)
    (precomputedReducedEval : List QEV) (initialMerkleCaps : List (List Fr)) (proof : FriProof Fr QEV) (xIndex : Fr)
    (nLog : ℕ) (roundProof : FriQueryRound Fr QEV) : Circ Unit := do
  assertNoncanonicalIndicesOK q
  let xIndex ← reduce xIndex
  let bits ← toBinary 64 xIndex
  let xIndexBits ← sliceTo bits (q.degreeBits + q.config.rateBits)
  let capIndexBits ← (if q.config.capHeight ≤ xIndexBits.length then
    sliceFrom xIndexBits (xIndexBits.length - q.config.capHeight) else goPanic "slice bounds out of range")
  verifyInitialProof xIndexBits roundProof.initial initialMerkleCaps capIndexBits
  let subgroupX ← calculateSubgroupX xIndexBits nLog
  let oldEval ← friCombineInitial inst roundProof.initial ch.alpha (toQE subgroupX) precomputedReducedEval
  let st ← q.reductionArityBits.zipIdx.foldlM (reductionStep ch proof roundProof.steps capIndexBits)
    (xIndexBits, subgroupX, oldEval)
  let fin ← finalPolyEval proof.finalPoly (toQE st.2.1)
  glAssertIsEqual st.2.2.1 fin.1
  glAssertIsEqual st.2.2.2 fin.2

/-! ## Shape validation -/

/-- One initial opening, `fri/fri_utils.go:187-201`. -/
def validateEvalProof (inst : InstanceInfo QEV) (q : FriParams) (ei : FriEvalProof Fr × ℕ) : Circ Unit := do
  let oracle ← idx inst.oracles ei.2
  let saltSize := if oracle.blinding && q.isHiding then 4 else 0
  if ei.1.elements.length ≠ oracle.numPolys + saltSize then
    goPanic "eval proof leaf length doesn't match oracle info"
  else if ei.1.siblings.length + q.config.capHeight ≠ q.ldeBits then
    goPanic "length of merkle proof + capHeight doesn't match lde_bits from params"
  else pure ()

/-- One reduction step, `fri/fri_utils.go:207-222`; the state is `codewordLenBits`. -/
def validateStep (q : FriParams) (codewordLenBits : ℤ) (si : FriQueryStep QEV × ℕ) : Circ ℤ := do
  let arityBits ← idx q.reductionArityBits si.2
  let codewordLenBits := codewordLenBits - (arityBits : ℤ)
  if (si.1.evals.length : ℤ) ≠ goShl1 arityBits then goPanic "len evals doesn't match arity"
  else if ((si.1.siblings.length + q.config.capHeight : ℕ) : ℤ) ≠ codewordLenBits then
    goPanic "len merkleProof doesn't match codewordLenBits"
  else pure codewordLenBits

/-- One query round, `fri/fri_utils.go:181-223`. -/
def validateRound (inst : InstanceInfo QEV) (q : FriParams) (round : FriQueryRound Fr QEV) : Circ Unit :=
  if round.initial.length ≠ inst.oracles.length then
    goPanic "eval proofs length is not equal to instance oracles length"
  else do
    round.initial.zipIdx.forM (validateEvalProof inst q)
    if round.steps.length ≠ q.reductionArityBits.length then
      goPanic "length of steps != params.reduction_arity_bits"
    else do
      let _ ← round.steps.zipIdx.foldlM (validateStep q) (q.ldeBits : ℤ)
      pure ()

/-- `validateFriProofShape`, `fri/fri_utils.go:167-228`; a negative shift count panics. -/
def validateFriProofShape (proof : FriProof Fr QEV) (inst : InstanceInfo QEV) (q : FriParams) : Circ Unit := do
  proof.commitCaps.forM fun cap =>
    if goShl1 q.config.capHeight ≠ cap.length then
      goPanic "config cap_height does not match commit_phase_merkle_caps"
    else pure ()
  proof.rounds.forM (validateRound inst q)
  if q.finalPolyBits < 0 then goPanic "negative shift amount"
  else if (proof.finalPoly.length : ℤ) ≠ goShl1 q.finalPolyBits.toNat then
    goPanic "len finalPoly doesn't match params FinalPolyLen"
  else pure ()

/-- `VerifyFriProof`, `fri/fri.go:500-552`; `openings` are the values of the batches. -/
def verifyFriProof (q : FriParams) (inst : InstanceInfo QEV) (openings : List (List QEV))
    (ch : FriChallenges Fr QEV) (initialMerkleCaps : List (List Fr)) (proof : FriProof Fr QEV) : Circ Unit := do
  validateFriProofShape proof inst q
  assertLeadingZeros ch.powResponse q.config
  if q.config.numQueryRounds ≠ proof.rounds.length then
    goPanic "Number of query rounds does not match config."
  else do
    let precomputedReducedEvals ← fromOpeningsAndAlpha openings ch.alpha
    let nLog := q.degreeBits + q.config.rateBits
    if ch.queryIndices.length ≠ proof.rounds.length then
      goPanic "Number of query indices should equal number of query round proofs"
    else
      ch.queryIndices.zipIdx.forM fun xi => do
        let roundProof ← idx proof.rounds xi.2
        verifyQueryRound q inst ch precomputedReducedEvals initialMerkleCaps proof xi.1 nLog roundProof

end Verif.Fri
