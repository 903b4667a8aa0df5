import Verif.Spec.Layout

/-!
# Size of the verifier circuit

The number of API calls of each kind made by the generator, as a function of the circuit data.
-/

set_option autoImplicit false

namespace Verif.Spec.Cost

open Layout

/-- Numbers of hints, constraints, and range checks for 32, 144, 192 and other numbers of bits. -/
abbrev Tally := ℕ × ℕ × ℕ × ℕ × ℕ × ℕ

/-- One call. -/
def item : Item → Tally
  | .hint _ => (1, 0, 0, 0, 0, 0)
  | .constraint => (0, 1, 0, 0, 0, 0)
  | .check n => if n = 32 then (0, 0, 1, 0, 0, 0) else if n = 144 then (0, 0, 0, 1, 0, 0)
    else if n = 192 then (0, 0, 0, 0, 1, 0) else (0, 0, 0, 0, 0, 1)
  | .panic => 0

/-- Calls of a list. -/
def tally (l : List Item) : Tally := (l.map item).sum

/-- Hint calls, constraints, range checks. -/
def summary (k : Tally) : ℕ × ℕ × ℕ := (k.1, k.2.1, k.2.2.1 + k.2.2.2.1 + k.2.2.2.2.1 + k.2.2.2.2.2)

/-! ## Goldilocks -/

/-- Hint, constraint. -/
def H : Tally := item (.hint 1)
def R : Tally := item .constraint

/-- `RangeCheck`: two limbs. -/
def rangeCheck : Tally := H + 3 • R + 2 • item (.check 32)
/-- `MulAdd`, hence `Add`, `Sub`, `Mul`. -/
def mulAdd : Tally := H + R + 2 • rangeCheck
/-- `ReduceWithMaxBits`. -/
def reduceTo (n : ℕ) : Tally := H + R + item (.check n) + rangeCheck
/-- `Reduce`. -/
def reduce : Tally := reduceTo 144
/-- `Inverse`. -/
def inverse : Tally := H + rangeCheck + mulAdd + 2 • R
/-- Two base-field operations: `AddExtension`, `SubExtension`, `ScalarMulExtension`. -/
def addExt : Tally := 2 • mulAdd
/-- Two reductions: `MulExtension`, `MulAddExtension`, `SubMulExtension`, `ReduceExtension`. -/
def mulExt : Tally := 2 • reduce
def inverseExt : Tally := R + mulAdd + mulExt + inverse + addExt
def divExt : Tally := inverseExt + mulExt
/-- `ExpExtension`: squarings and multiplications. -/
def expExt : ℕ → Tally
  | 0 => 0
  | 1 => 0
  | 2 => mulExt
  | e => ((List.range (Nat.size e)).map fun i =>
      (if i ≠ 0 then mulExt else 0) + if e >>> i &&& 1 ≠ 0 then mulExt else 0).sum
def lookup : Tally := 2 • R
def lookup2 : Tally := 3 • lookup
def addAlg : Tally := 2 • addExt
def scalarMulAlg : Tally := 2 • mulExt
def mulAlg : Tally := 4 • addExt + 4 • mulExt

/-- `api.ToBinary` of 64 bits, and `ToVec`, which takes 254. -/
def toBinary64 : Tally := H + 65 • R
def toVec : Tally := H + 256 • R

/-- The Goldilocks permutation. -/
def sBox : Tally := 2 • reduceTo 192
def fullRound : Tally := 12 • mulAdd + 12 • sBox + 12 • reduce
def poseidon : Tally := 8 • fullRound + 12 • mulAdd + 12 • reduce + 22 • (sBox + mulAdd + 13 • reduce)

/-! ## Gates -/

def sBoxLayerExt : Tally := 12 • (4 • mulExt)
def mdsLayerExt : Tally := 12 • (13 • (mulExt + addExt))

/-- A full round of the Poseidon gate whose S-box inputs are wires. -/
def gateFullRound : Tally := 12 • addExt + 12 • addExt + sBoxLayerExt + mdsLayerExt
/-- A partial round. -/
def gatePartialRound : Tally := addExt + 4 • mulExt + addExt + mulExt + 22 • (mulExt + addExt)

/-- Swap flag, eight full rounds (the first of which compares no wires), initial layer of the partial rounds, 22 partial rounds (the
last of which adds no constant), outputs. -/
def gatePoseidon : Tally :=
  (addExt + mulExt) + 4 • (2 • addExt + mulExt) + 4 • (2 • addExt) + (12 • addExt + sBoxLayerExt + mdsLayerExt) +
    7 • gateFullRound + 12 • addExt + 11 • (11 • (mulExt + addExt)) + 21 • gatePartialRound +
    (addExt + 4 • mulExt + mulExt + 22 • (mulExt + addExt)) + 12 • addExt

/-- Pairs folded by `b` halvings of a list of length `n`. -/
def halvings : ℕ → ℕ → ℕ
  | 0, _ => 0
  | b + 1, n => n / 2 + halvings b (n / 2)

/-- `PartialInterpolateExtAlgebra`, one point. -/
def interpolatePoint : Tally := 2 • addAlg + scalarMulAlg + 3 • mulAlg

/-- Points interpolated by a coset-interpolation gate after intermediate value `i`. -/
def cosetPoints (subgroupBits degree i : ℕ) : ℕ :=
  min (1 + (degree - 1) * (i + 1) + degree - 1) (Gates.shl1 subgroupBits) - (1 + (degree - 1) * (i + 1))

/-- `EvalUnfiltered`. -/
def gate : Gates.Gate → Tally
  | .arithmetic n => n • (3 • mulExt + 2 • addExt)
  | .arithmeticExtension n => n • (mulAlg + 2 • scalarMulAlg + 2 • addAlg)
  | .baseSum n b => n • mulExt + addExt + n • (b • (addExt + mulExt))
  | .constant n => n • addExt
  | .cosetInterpolation s d _ => addExt + scalarMulAlg + addAlg + d • interpolatePoint +
      ((List.range (Gates.numIntermediates s d)).map fun i => 2 • addAlg + cosetPoints s d i • interpolatePoint).sum + addAlg
  | .exponentiation n => ((List.range n).map fun i => (if i = 0 then 0 else mulExt) + 3 • (mulExt + addExt)).sum + addExt
  | .mulExtension n => n • (mulAlg + scalarMulAlg + addAlg)
  | .noop => 0
  | .poseidon => gatePoseidon
  | .poseidonMds => 12 • (13 • (scalarMulAlg + addAlg)) + 12 • addAlg
  | .publicInput => 4 • addExt
  | .randomAccess b c e => c • (b • (mulExt + addExt) + b • mulExt + addExt +
      halvings b (Gates.shl1 b) • (2 • addExt + mulExt) + addExt) + e • addExt
  | .reducing n => n • (mulAlg + 2 • addAlg)
  | .reducingExtension n => n • (mulAlg + 2 • addAlg)

/-- Number of constraints of a gate. -/
def constraints : Gates.Gate → ℕ
  | .arithmetic n => n
  | .arithmeticExtension n => 2 * n
  | .baseSum n _ => n + 1
  | .constant n => n
  | .cosetInterpolation s d _ => 4 + 4 * Gates.numIntermediates s d
  | .exponentiation n => n + 1
  | .mulExtension n => 2 * n
  | .noop => 0
  | .poseidon => 123
  | .poseidonMds => 24
  | .publicInput => 4
  | .randomAccess b c e => c * (b + 2) + e
  | .reducing n => 2 * n
  | .reducingExtension n => 2 * n

/-- `computeFilter`: the other rows of the group, and the unused selector. -/
def filter (row : ℕ) (group : ℕ × ℕ) (many : Bool) : Tally :=
  ((List.range' group.1 (group.2 - group.1)).map fun i => if i = row then 0 else addExt + mulExt).sum +
    if many then addExt + mulExt else 0

/-- Evaluating gate `i`, filtering and adding its constraints. -/
def gateStep (si : SelectorsInfo) (gi : Gates.Gate × ℕ) : Tally :=
  filter gi.2 (si.groups.getD (si.selectorIndices.getD gi.2 0) (0, 0)) (decide (si.groups.length > 1)) + gate gi.1 +
    constraints gi.1 • (mulExt + addExt)

/-! ## PLONK -/

/-- Terms for one challenge. -/
def challengeTerms (c : CommonCircuitData) : Tally :=
  addExt + mulExt + c.config.numRoutedWires • (3 • addExt + 2 • mulExt) +
    (c.numPartialProducts + 1) • (2 • ((c.quotientDegreeFactor - 1) • mulExt) + 2 • mulExt + addExt)

/-- Number of terms of the vanishing polynomial. -/
def numTerms (c : CommonCircuitData) : ℕ :=
  c.config.numChallenges + c.config.numChallenges * (c.numPartialProducts + 1) + c.numGateConstraints

/-- `plonk.Verify`. -/
def plonk (c : CommonCircuitData) (gates : List Gates.Gate) : Tally :=
  c.degreeBits • mulExt + (gates.zipIdx.map (gateStep c.selectorsInfo)).sum + c.config.numRoutedWires • addExt +
    (3 • addExt + divExt + R) + c.config.numChallenges • challengeTerms c +
    numTerms c • (c.config.numChallenges • (2 • addExt)) + addExt +
    c.config.numChallenges • (c.quotientDegreeFactor • mulExt + mulExt + 2 • R)

/-! ## FRI -/

/-- A Merkle path of `n` siblings. -/
def merkle (n : ℕ) : Tally := n • (2 • R) + 11 • R

/-- One batch of `n` polynomials of the batched quotient. -/
def combineBatch (n : ℕ) : Tally := n • mulExt + addExt + expExt n + mulExt + inverseExt + R + mulExt

/-- `interpolate` with `n` points. -/
def interpolate (n : ℕ) : Tally :=
  n • mulExt + n • (2 • addExt + divExt + mulExt) + mulExt + n • (addExt + lookup) + lookup

/-- `computeEvaluation` with 16 points. -/
def computeEvaluation : Tally :=
  4 • (3 • mulAdd) + mulAdd + 15 • mulExt + 16 • (15 • mulExt + inverseExt + R) + interpolate 16

/-- A reduction step with a Merkle path of `n` siblings. -/
def reductionStep (n : ℕ) : Tally := 5 • lookup2 + 2 • R + computeEvaluation + merkle n + 4 • mulAdd

/-- Number of opened polynomials. -/
def numPolys (c : CommonCircuitData) : ℕ :=
  c.numConstants + c.config.numRoutedWires + c.config.numWires + c.config.numChallenges * (1 + c.numPartialProducts) +
    c.config.numChallenges * c.quotientDegreeFactor

/-- `log2` of the size of the evaluation domain. -/
def ldeBits (c : CommonCircuitData) : ℕ := c.friParams.degreeBits + c.friParams.config.rateBits

/-- Length of the final polynomial. -/
def finalPoly (c : CommonCircuitData) : ℕ := 2 ^ (c.friParams.degreeBits - c.friParams.reductionArityBits.sum)

/-- A query round. -/
def queryRound (c : CommonCircuitData) : Tally :=
  reduce + toBinary64 + 4 • merkle (ldeBits c - c.friParams.config.capHeight) + (ldeBits c • (3 • mulAdd) + mulAdd) +
    (combineBatch (numPolys c) + combineBatch c.config.numChallenges) +
    ((List.range c.friParams.reductionArityBits.length).map fun i =>
      reductionStep (ldeBits c - c.friParams.config.capHeight - (c.friParams.reductionArityBits.take (i + 1)).sum)).sum +
    finalPoly c • mulExt + 2 • R

/-- `VerifyFriProof`, after `GetInstance`. -/
def fri (c : CommonCircuitData) : Tally :=
  mulExt + item (.check ((64 + 2 ^ 64 - c.friParams.config.proofOfWorkBits % 2 ^ 64) % 2 ^ 64)) +
    (numPolys c + c.config.numChallenges) • mulExt + c.friParams.config.numQueryRounds • queryRound c

/-! ## Transcript -/

/-- Pending inputs and available outputs of the challenger, and the calls made so far. -/
structure Sponge where
  pending : ℕ
  outputs : ℕ
  cost : Tally

/-- `ObserveElement`: a permutation for every eighth input. -/
def observe (s : Sponge) : Sponge :=
  if s.pending + 1 = 8 then ⟨0, 8, s.cost + (8 • reduce + poseidon)⟩ else ⟨s.pending + 1, 0, s.cost⟩

/-- `GetChallenge`: a permutation if there are inputs or no outputs left. -/
def challenge (s : Sponge) : Sponge :=
  if s.pending ≠ 0 ∨ s.outputs = 0 then ⟨0, 7, s.cost + (s.pending • reduce + poseidon)⟩
  else ⟨s.pending, s.outputs - 1, s.cost⟩

/-- `ObserveBN254Hash`: five elements. -/
def observeHash (s : Sponge) : Sponge := observe^[5] ⟨s.pending, s.outputs, s.cost + toVec⟩

/-- A commit-phase cap of `n` hashes and its challenge. -/
def capBeta (n : ℕ) (s : Sponge) : Sponge := challenge^[2] (observeHash^[n] s)

/-- `GetChallenges` for a proof with `numCaps` commit-phase caps. -/
def transcript (c : CommonCircuitData) (numCaps : ℕ) : Tally :=
  let cap := 2 ^ c.friParams.config.capHeight
  let s := observe^[4] (observeHash ⟨0, 0, 0⟩)
  let s := challenge^[2 * c.config.numChallenges] (observeHash^[cap] s)
  let s := challenge^[c.config.numChallenges] (observeHash^[cap] s)
  let s := challenge^[2] (observeHash^[cap] s)
  let s := challenge^[2] (observe^[2 * (numPolys c + c.config.numChallenges)] s)
  let s := observe^[2 * finalPoly c + 1] ((capBeta cap)^[numCaps] s)
  (challenge^[c.friParams.config.numQueryRounds + 1] s).cost

/-! ## The verifier -/

/-- Elements opened in a query round. -/
def leaves (c : CommonCircuitData) : ℕ := numPolys c + if c.friParams.isHiding then 12 else 0

/-- `rangeCheckProof`. -/
def rangeCheckProof (c : CommonCircuitData) : Tally :=
  (2 * (numPolys c + c.config.numChallenges + finalPoly c) + c.friParams.config.numQueryRounds *
    (leaves c + 32 * c.friParams.reductionArityBits.length) + 1) • rangeCheck

/-- `GetPublicInputsHash` of `n` inputs. -/
def publicInputs (n : ℕ) : Tally := n • reduce + ((n + 7) / 8) • poseidon

/-- `Verify`, for a proof with `numCaps` commit-phase caps. -/
def verify (c : CommonCircuitData) (gates : List Gates.Gate) (numCaps : ℕ) : Tally :=
  rangeCheckProof c + publicInputs c.numPublicInputs + transcript c numCaps + plonk c gates + fri c

end Verif.Spec.Cost
