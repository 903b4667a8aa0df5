import Verif.Spec.Interactive
import Verif.Spec.Challenger
import Mathlib.Algebra.Group.Prod
import Mathlib.Algebra.Group.Pi.Basic

/-!
# Specification: the protocol with challenges from a random oracle

The challenges of every round are the answer of a random function to the transcript so far.  The prover may ask for any
answers it likes, in any order, before it sends a proof together with the public inputs; the verifier then asks for the
challenges of that proof.
-/

set_option autoImplicit false

namespace Verif.Spec.Verifier

/-- A transcript up to a point at which the verifier draws challenges: the hash of the public inputs, the messages and the
challenges so far. -/
inductive Query
  /-- All `beta` and `gamma`, after the cap of the wires. -/
  | perm (h : Fin 4 → Fp) (w : List Fr)
  /-- All `alpha`, after the cap of accumulators and partial products. -/
  | alphas (h : Fin 4 → Fp) (w : List Fr) (bs gs : List Fp) (z : List Fr)
  /-- `zeta`, after the cap of the quotients. -/
  | zeta (h : Fin 4 → Fp) (w : List Fr) (bs gs : List Fp) (z : List Fr) (as : List Fp) (q : List Fr)
  /-- `alpha` of FRI, after the openings. -/
  | mix (h : Fin 4 → Fp) (w : List Fr) (bs gs : List Fp) (z : List Fr) (as : List Fp) (q : List Fr) (ζ : QE) (o : OpeningSet QE)
  /-- The next folding challenge, after the caps of the layers up to this one. -/
  | fold (h : Fin 4 → Fp) (w : List Fr) (bs gs : List Fp) (z : List Fr) (as : List Fp) (q : List Fr) (ζ : QE) (o : OpeningSet QE)
      (α : QE) (caps : List (List Fr)) (βs : List QE)
  /-- The proof-of-work response and the query indices, after the final polynomial and the proof-of-work witness. -/
  | indices (h : Fin 4 → Fp) (w : List Fr) (bs gs : List Fp) (z : List Fr) (as : List Fp) (q : List Fr) (ζ : QE) (o : OpeningSet QE)
      (α : QE) (caps : List (List Fr)) (βs : List QE) (final : List QE) (pow : Fp)

noncomputable instance : DecidableEq Query := Classical.decEq _

variable (c : CommonCircuitData)

/-- An answer of the oracle: `beta` and `gamma`, `alpha`, `zeta`, `alpha` of FRI, a folding challenge, the proof-of-work
response with the query indices.  Of an answer only the part that the query asks for is used. -/
abbrev Answer : Type :=
  ((Fin c.config.numChallenges → Fp) × (Fin c.config.numChallenges → Fp)) × (Fin c.config.numChallenges → Fp) × QE × QE × QE ×
    Fp × (Fin c.config.friConfig.numQueryRounds → Fp)

/-- The first `k` answers to a strategy, which chooses each query after the answers to the earlier ones. -/
def run {I O : Type} (oracle : I → O) (next : List O → I) : ℕ → List O
  | 0 => []
  | k + 1 => run oracle next k ++ [oracle (next (run oracle next k))]

/-- Number of queries of the verifier. -/
def numRounds : ℕ := 5 + c.friParams.reductionArityBits.length

variable {c} in
/-- The challenges of a proof from the answers to the queries of the verifier. -/
def answerChallenges (l : List (Answer c)) : ProofChallenges Fp QE :=
  { plonkBetas := List.ofFn (l.getD 0 0).1.1
    plonkGammas := List.ofFn (l.getD 0 0).1.2
    plonkAlphas := List.ofFn (l.getD 1 0).2.1
    plonkZeta := (l.getD 2 0).2.2.1
    friChallenges :=
      { alpha := (l.getD 3 0).2.2.2.1
        betas := (List.range c.friParams.reductionArityBits.length).map fun j => (l.getD (4 + j) 0).2.2.2.2.1
        powResponse := (l.getD (4 + c.friParams.reductionArityBits.length) 0).2.2.2.2.2.1
        queryIndices := List.ofFn (l.getD (4 + c.friParams.reductionArityBits.length) 0).2.2.2.2.2.2 } }

variable {c} in
/-- The next query of the verifier, after the answers `l`. -/
def nextQuery (h : Fin 4 → Fp) (x : Proof Fp QE) (l : List (Answer c)) : Query :=
  let ch := answerChallenges l
  let w := x.wiresCap
  let z := x.plonkZsPartialProductsCap
  let q := x.quotientPolysCap
  let f := x.openingProof
  match l.length with
  | 0 => .perm h w
  | 1 => .alphas h w ch.plonkBetas ch.plonkGammas z
  | 2 => .zeta h w ch.plonkBetas ch.plonkGammas z ch.plonkAlphas q
  | 3 => .mix h w ch.plonkBetas ch.plonkGammas z ch.plonkAlphas q ch.plonkZeta x.openings
  | j + 4 =>
    if j < c.friParams.reductionArityBits.length then
      .fold h w ch.plonkBetas ch.plonkGammas z ch.plonkAlphas q ch.plonkZeta x.openings ch.friChallenges.alpha
        (f.commitCaps.take (j + 1)) (ch.friChallenges.betas.take j)
    else
      .indices h w ch.plonkBetas ch.plonkGammas z ch.plonkAlphas q ch.plonkZeta x.openings ch.friChallenges.alpha
        f.commitCaps ch.friChallenges.betas f.finalPoly f.powWitness

/-- The challenges of a proof, the oracle given. -/
def oracleChallenges (oracle : Query → Answer c) (h : Fin 4 → Fp) (x : Proof Fp QE) : ProofChallenges Fp QE :=
  answerChallenges (run oracle (nextQuery h x) (numRounds c))

/-- A prover with access to the oracle: after `queries` adaptive queries it outputs public inputs, with their hash, and a
proof. -/
structure OracleProver where
  queries : ℕ
  next : List (Answer c) → Query
  output : List (Answer c) → (Fin 4 → Fp) × List Fp × Proof Fp QE

variable {c} in
/-- A set of queries that contains those of the prover and of the verifier whatever the answers are. -/
structure OracleProver.Within (A : OracleProver c) (S : Finset Query) : Prop where
  prover : ∀ l, l.length < A.queries → A.next l ∈ S
  verifier : ∀ l, l.length = A.queries → ∀ m : List (Answer c), m.length < numRounds c →
    nextQuery (A.output l).1 (A.output l).2.2 m ∈ S

variable {c} in
/-- The oracle that answers queries in `S` by `f`. -/
noncomputable def oracleOf {S : Finset Query} (f : S → Answer c) (q : Query) : Answer c :=
  if h : q ∈ S then f ⟨q, h⟩ else 0

/-- The largest of the errors of a round: `beta` and `gamma`; `alpha`; `zeta`; the challenges of FRI; proof of work and
queries. -/
def roundError (e : ℕ) : ℚ :=
  max ((2 * (Plonk.n c * c.config.numRoutedWires) : ℕ) / (p : ℚ)) <|
  max ((numTerms c - 1 : ℕ) / (p : ℚ)) <|
  max (((c.quotientDegreeFactor + 1) * Plonk.n c : ℕ) / (p ^ 2 : ℚ)) <|
  max (((numOpenings c - 1) * (Plonk.n c * e + e + 1) : ℕ) / (p ^ 2 : ℚ)) <|
  max ((15 * (Plonk.n c * e + e + 1) : ℕ) / (p ^ 2 : ℚ)) <|
  powChance c * (((2 ^ (c.friParams.degreeBits + c.friParams.config.rateBits) - e - 1) *
    (p / 2 ^ (c.friParams.degreeBits + c.friParams.config.rateBits) + 1) : ℕ) / (p : ℚ)) ^ c.config.friConfig.numQueryRounds

/-- The events of the actual transcript up to the openings, for `n` challenges of each kind. -/
def openingEvents (n : ℕ) (digest : Fr) (h : Fin 4 → Fp) (w z q : List Fr) (o : OpeningSet QE) : List Ev :=
  absorbs (limbs digest ++ (List.ofFn h).map emb ++ capElems w) ++ squeezes n ++ squeezes n ++ absorbs (capElems z) ++
  squeezes n ++ absorbs (capElems q) ++ squeezes 2 ++
  absorbs (coords (o.constants ++ o.plonkSigmas ++ o.wires ++ o.plonkZs ++ o.partialProducts ++ o.quotientPolys ++
    o.plonkZsNext))

/-- The events of the actual transcript before a query. -/
def Query.events (n : ℕ) (digest : Fr) : Query → List Ev
  | .perm h w => absorbs (limbs digest ++ (List.ofFn h).map emb ++ capElems w)
  | .alphas h w _ _ z => absorbs (limbs digest ++ (List.ofFn h).map emb ++ capElems w) ++ squeezes n ++ squeezes n ++
      absorbs (capElems z)
  | .zeta h w _ _ z _ q => absorbs (limbs digest ++ (List.ofFn h).map emb ++ capElems w) ++ squeezes n ++ squeezes n ++
      absorbs (capElems z) ++ squeezes n ++ absorbs (capElems q)
  | .mix h w _ _ z _ q _ o => openingEvents n digest h w z q o
  | .fold h w _ _ z _ q _ o _ caps _ => openingEvents n digest h w z q o ++ squeezes 2 ++
      (caps.dropLast.flatMap fun cap => absorbs (capElems cap) ++ squeezes 2) ++ absorbs (capElems (caps.getLastD []))
  | .indices h w _ _ z _ q _ o _ caps _ final pow => openingEvents n digest h w z q o ++ squeezes 2 ++
      (caps.flatMap fun cap => absorbs (capElems cap) ++ squeezes 2) ++ absorbs (coords final ++ [emb pow])

/-- The oracle that the random one stands for: the elements squeezed after the transcript. -/
def spongeOracle (P : (Fin 12 → Fp) → Fin 12 → Fp) (digest : Fr) (q : Query) : Answer c :=
  let n := c.config.numChallenges
  let o := (Sponge.init.after P (q.events n digest)).outputs P (squeezes (2 * n + 2 + 1 + c.config.friConfig.numQueryRounds))
  ((fun i => o.getD i 0, fun i => o.getD (n + i) 0), fun i => o.getD i 0, extAt o 0, extAt o 0, extAt o 0, o.getD 0 0,
    fun i => o.getD (1 + i) 0)

end Verif.Spec.Verifier
