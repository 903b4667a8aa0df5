import Verif.Model.Types
import Verif.Spec.Merkle
import Verif.Spec.SpongeBN
import Mathlib.LinearAlgebra.Lagrange

/-!
# Specification: FRI queries

Only field arithmetic, polynomials and Merkle roots; nothing here mentions circuits.
-/

set_option autoImplicit false

namespace Verif.Spec.Fri

open Polynomial

/-- Number denoted by little-endian bits. -/
def bitsVal : List Bool → ℕ
  | [] => 0
  | b :: l => b.toNat + 2 * bitsVal l

/-- The `n` low bits of `v`, little endian. -/
def lowBits (n v : ℕ) : List Bool := (List.range n).map v.testBit

/-- Reversal of the `n` low bits of `v`. -/
def bitRev (n v : ℕ) : ℕ := bitsVal (lowBits n v).reverse

/-- The generator of the subgroup of order `2^n` (for `n ≤ 32`). -/
def omega (n : ℕ) : Fp := ((1753635133440165772 : ℕ) : Fp) ^ 2 ^ (32 - n)

/-- Point of the LDE domain `7 * <omega n>` at the (bit-reversed) position `bits`. -/
def queryPoint (n : ℕ) (bits : List Bool) : Fp := 7 * omega n ^ bitsVal bits.reverse

/-- `Σ_i c_i x^i`. -/
def evalPoly (c : List QE) (x : QE) : QE := ∑ i ∈ Finset.range c.length, c.getD i 0 * x ^ i

/-- One batch: point, values of the batch's polynomials at the query point, combination of the claimed openings. -/
structure Batch where
  point : QE
  evals : List QE
  opening : QE

/-- Batched quotient `Σ_b α^(…) (Σ_i α^i f_i(x) - y_b) / (x - z_b)`, later batches shifting earlier ones. -/
def combine (α x : QE) : List Batch → QE
  | [] => 0
  | b :: l => α ^ (l.map fun b' => b'.evals.length).sum * ((evalPoly b.evals α - b.opening) / (x - b.point)) +
      combine α x l

/-- `i`-th point (in bit-reversed order) of the coset `x * <omega a>` when `x` itself sits at position `bits`. -/
def cosetPoint (a : ℕ) (x : Fp) (bits : List Bool) (i : ℕ) : QE :=
  ofBase (x * omega a ^ bitRev a i / omega a ^ bitsVal bits.reverse)

/-- Folding: the value at `β` of the polynomial of degree below `2^a` through the evaluations on the coset. -/
noncomputable def fold (a : ℕ) (x : Fp) (bits : List Bool) (evals : List QE) (β : QE) : QE :=
  (Lagrange.interpolate (Finset.range (2 ^ a)) (cosetPoint a x bits) fun i => evals.getD i 0).eval β

/-- Both coordinates of the evaluations, the preimage of a commit-phase leaf. -/
def flatten (evals : List QE) : List Fr := evals.flatMap fun e => [emb e.re, emb e.im]

/-- Authenticity of a leaf at position `bits` (lowest bit next to the leaf) under a cap indexed by `cap.length` bits. -/
def Opens (leaf : List Fr) (bits : List Bool) (siblings cap : List Fr) (capIndex : ℕ) : Prop :=
  Merkle.root BN.compress (BN.leaf leaf) (bits.zip siblings) = cap.getD capIndex 0

/-- A reduction step with its challenge and its commitment. -/
structure Step where
  step : FriQueryStep QE
  beta : QE
  cap : List Fr

/-- Consistency of the reduction steps (arity 16) from the value `old` at point `x`, position `bits`, down to the
final polynomial. -/
def Chain (capIndex : ℕ) (finalPoly : List QE) : List Step → List Bool → Fp → QE → Prop
  | [], _, x, old => old = evalPoly finalPoly (ofBase x)
  | s :: l, bits, x, old =>
    s.step.evals.getD (bitsVal (bits.take 4)) 0 = old ∧
    (∀ i < 16, s.beta ≠ cosetPoint 4 x (bits.take 4) i) ∧
    Opens (flatten s.step.evals) (bits.drop 4) s.step.siblings s.cap capIndex ∧
    Chain capIndex finalPoly l (bits.drop 4) (x ^ 16) (fold 4 x (bits.take 4) s.step.evals s.beta)

/-- The value of the polynomial `q` committed in the opened leaves of a round. -/
def opened (initial : List (FriEvalProof Fp)) (q : PolynomialInfo) : QE :=
  ofBase ((initial.getD q.oracleIndex ⟨[], []⟩).elements.getD q.polynomialInfo 0)

/-- Batches of a query round: values from the opened leaves, combined openings `y`. -/
def roundBatches (inst : InstanceInfo QE) (initial : List (FriEvalProof Fp)) (y : List QE) : List Batch :=
  (inst.batches.zip y).map fun by' => ⟨by'.1.point, by'.1.polynomials.map (opened initial), by'.2⟩

/-- Acceptance of one query round at index `v`. -/
def RoundOk (q : FriParams) (inst : InstanceInfo QE) (ch : FriChallenges Fp QE) (y : List QE)
    (caps : List (List Fr)) (proof : FriProof Fp QE) (v : ℕ) (round : FriQueryRound Fp QE) : Prop :=
  let n := q.degreeBits + q.config.rateBits
  let bits := lowBits n v
  let capIndex := bitsVal (bits.drop (n - q.config.capHeight))
  let x := queryPoint n bits
  (∀ ec ∈ round.initial.zip caps, Opens (ec.1.elements.map emb) bits ec.1.siblings ec.2 capIndex) ∧
  (∀ b ∈ inst.batches, ofBase x ≠ b.point) ∧
  Chain capIndex proof.finalPoly
    ((round.steps.zip (ch.betas.zip proof.commitCaps)).map fun s => ⟨s.1, s.2.1, s.2.2⟩)
    bits x (combine ch.alpha (ofBase x) (roundBatches inst round.initial y))

/-- Sizes for which a query round is well-formed (arity 16, cap height 4). -/
structure RoundFits (q : FriParams) (inst : InstanceInfo QE) (ch : FriChallenges Fp QE) (y : List QE)
    (caps : List (List Fr)) (proof : FriProof Fp QE) (round : FriQueryRound Fp QE) : Prop where
  /-- Domain size and cap height. -/
  domain : 4 ≤ q.degreeBits + q.config.rateBits ∧ q.degreeBits + q.config.rateBits ≤ 32 ∧
    q.config.rateBits ≤ 15 ∧ q.config.capHeight = 4
  /-- One opened leaf per oracle, with a path no longer than the index. -/
  initial : round.initial.length = caps.length ∧ (∀ cap ∈ caps, cap.length = 16) ∧
    ∀ e ∈ round.initial, e.siblings.length ≤ q.degreeBits + q.config.rateBits
  /-- One combined opening per batch, and all batch polynomials are among the opened ones. -/
  batches : inst.batches.length = y.length ∧ ∀ b ∈ inst.batches, ∀ f ∈ b.polynomials,
    ∃ e, round.initial[f.oracleIndex]? = some e ∧ f.polynomialInfo < e.elements.length
  /-- Arity 16 throughout, and a challenge and a commitment for every step. -/
  arities : (∀ a ∈ q.reductionArityBits, a = 4) ∧ round.steps.length = q.reductionArityBits.length ∧
    q.reductionArityBits.length ≤ ch.betas.length ∧ q.reductionArityBits.length ≤ proof.commitCaps.length
  /-- Sizes of the steps. -/
  steps : ∀ j (h : j < round.steps.length), (round.steps[j]).evals.length = 16 ∧
    (round.steps[j]).siblings.length + 4 * (j + 1) ≤ q.degreeBits + q.config.rateBits
  /-- Sizes of the commit-phase caps. -/
  commitCaps : ∀ cap ∈ proof.commitCaps, cap.length = 16

/-- Sizes of a query round prescribed by the parameters and the instance. -/
structure RoundShape {B E F : Type} (q : FriParams) (inst : InstanceInfo F) (round : FriQueryRound B E) : Prop where
  /-- One opened leaf per oracle, of the oracle's width (plus four salts when blinded and hiding), and a Merkle path
  from the leaf to the cap. -/
  initial : round.initial.length = inst.oracles.length ∧
    ∀ (i : ℕ) (e : FriEvalProof B) (o : OracleInfo), round.initial[i]? = some e → inst.oracles[i]? = some o →
      e.elements.length = o.numPolys + (if o.blinding ∧ q.isHiding then 4 else 0) ∧
      e.siblings.length + q.config.capHeight = q.degreeBits + q.config.rateBits
  /-- One step per reduction: as many evaluations as the arity, and a path in the tree of the folded codeword. -/
  steps : round.steps.length = q.reductionArityBits.length ∧
    ∀ (i : ℕ) (s : FriQueryStep E) (a : ℕ), round.steps[i]? = some s → q.reductionArityBits[i]? = some a →
      s.evals.length = 2 ^ a ∧
      s.siblings.length + q.config.capHeight + (q.reductionArityBits.take (i + 1)).sum =
        q.degreeBits + q.config.rateBits

/-- Sizes of a FRI proof prescribed by the parameters and the instance. -/
structure ProofShape {B E F : Type} (q : FriParams) (inst : InstanceInfo F) (proof : FriProof B E) : Prop where
  caps : ∀ cap ∈ proof.commitCaps, cap.length = 2 ^ q.config.capHeight
  rounds : ∀ round ∈ proof.rounds, RoundShape q inst round
  final : q.reductionArityBits.sum ≤ q.degreeBits ∧
    proof.finalPoly.length = 2 ^ (q.degreeBits - q.reductionArityBits.sum)

/-- Parameters supported by the code, and sizes of the data that does not come from the proof. -/
structure Supported (q : FriParams) (inst : InstanceInfo QE) (openings : List (List QE)) (caps : List (List Fr)) : Prop where
  domain : 4 ≤ q.degreeBits + q.config.rateBits ∧ q.degreeBits + q.config.rateBits ≤ 32 ∧
    q.config.rateBits ≤ 15 ∧ q.config.capHeight = 4
  pow : q.config.proofOfWorkBits ≤ 64
  arities : ∀ a ∈ q.reductionArityBits, a = 4
  caps : caps.length = inst.oracles.length ∧ ∀ cap ∈ caps, cap.length = 16
  openings : inst.batches.length = openings.length
  batches : ∀ b ∈ inst.batches, ∀ f ∈ b.polynomials,
    ∃ o, inst.oracles[f.oracleIndex]? = some o ∧ f.polynomialInfo < o.numPolys

/-- Acceptance of a FRI proof. -/
structure Accepts (q : FriParams) (inst : InstanceInfo QE) (openings : List (List QE)) (ch : FriChallenges Fp QE)
    (caps : List (List Fr)) (proof : FriProof Fp QE) : Prop where
  shape : ProofShape q inst proof
  /-- The proof-of-work response has enough leading zeros among 64 bits. -/
  pow : ch.powResponse.val < 2 ^ (64 - q.config.proofOfWorkBits)
  /-- The prescribed number of query rounds. -/
  count : q.config.numQueryRounds = proof.rounds.length ∧ ch.queryIndices.length = proof.rounds.length
  /-- A challenge and a commitment for every reduction. -/
  enough : proof.rounds = [] ∨ (q.reductionArityBits.length ≤ ch.betas.length ∧
    q.reductionArityBits.length ≤ proof.commitCaps.length)
  /-- Every round is accepted at its index. -/
  rounds : ∀ (i : ℕ) (v : Fp) (round : FriQueryRound Fp QE), ch.queryIndices[i]? = some v →
    proof.rounds[i]? = some round →
    RoundOk q inst ch (openings.map fun l => evalPoly l ch.alpha) caps proof v.val round

/-! ## Instance of a PLONK proof -/

/-- Sizes of the opening set of a circuit. -/
structure OpeningsShape {E : Type} (c : CommonCircuitData) (o : OpeningSet E) : Prop where
  constants : o.constants.length = c.numConstants
  plonkSigmas : o.plonkSigmas.length = c.config.numRoutedWires
  wires : o.wires.length = c.config.numWires
  plonkZs : o.plonkZs.length = c.config.numChallenges
  plonkZsNext : o.plonkZsNext.length = c.config.numChallenges
  partialProducts : o.partialProducts.length = c.config.numChallenges * c.numPartialProducts
  quotientPolys : o.quotientPolys.length = c.config.numChallenges * c.quotientDegreeFactor

/-- Number of polynomials of each of the four oracles. -/
def oracleSizes (c : CommonCircuitData) : List ℕ :=
  [c.numConstants + c.config.numRoutedWires, c.config.numWires, c.config.numChallenges * (1 + c.numPartialProducts),
    c.config.numChallenges * c.quotientDegreeFactor]

/-- The FRI instance of a PLONK proof: all polynomials at `zeta`, the Zs at `g * zeta`. -/
def plonkInstance (c : CommonCircuitData) (zeta : QE) : InstanceInfo QE where
  oracles := List.zipWith OracleInfo.mk (oracleSizes c) [false, true, true, true]
  batches := [⟨zeta, (oracleSizes c).zipIdx.flatMap fun si => (List.range si.1).map (PolynomialInfo.mk si.2)⟩,
    ⟨ofBase (omega c.degreeBits) * zeta, (List.range c.config.numChallenges).map (PolynomialInfo.mk 2)⟩]

/-- Polynomials of each of the four oracles, opened at `zeta`: constants and sigmas, wires, Zs and partial products,
quotient chunks. -/
def oracleOpenings {E : Type} (o : OpeningSet E) : List (List E) :=
  [o.constants ++ o.plonkSigmas, o.wires, o.plonkZs ++ o.partialProducts, o.quotientPolys]

/-- Opening at `zeta` of one polynomial. -/
def openingAt {E : Type} (o : OpeningSet E) (f : PolynomialInfo) : Option E :=
  (oracleOpenings o)[f.oracleIndex]? >>= fun l => l[f.polynomialInfo]?

/-- Opening at `g * zeta` of one polynomial: only the Zs are opened there. -/
def openingNext {E : Type} (o : OpeningSet E) (f : PolynomialInfo) : Option E :=
  if f.oracleIndex = 2 then o.plonkZsNext[f.polynomialInfo]? else none

end Verif.Spec.Fri
