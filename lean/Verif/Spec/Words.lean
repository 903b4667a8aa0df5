import Verif.Model.Types

/-!
# Parameters in 64-bit words, lists in memory
-/

set_option autoImplicit false

namespace Verif.Spec.Words

/-- The integers of the common circuit data are 64-bit words. -/
structure Parameters (c : CommonCircuitData) : Prop where
  wires : c.config.numWires < 2 ^ 64
  routed : c.config.numRoutedWires < 2 ^ 64
  challenges : c.config.numChallenges < 2 ^ 64
  rate : c.friParams.config.rateBits < 2 ^ 64
  cap : c.friParams.config.capHeight < 2 ^ 64
  queries : c.friParams.config.numQueryRounds < 2 ^ 64
  degree : c.friParams.degreeBits < 2 ^ 64
  arities : ∀ a ∈ c.friParams.reductionArityBits, a < 2 ^ 64
  factor : c.quotientDegreeFactor < 2 ^ 64
  constants : c.numConstants < 2 ^ 64
  partialProducts : c.numPartialProducts < 2 ^ 64

/-- The lists of the circuit data and of the proof have lengths possible for slices: at most `maxLen` (with room for one or
two more elements where the code adds them). -/
structure InMemory {B E : Type} (maxLen : ℕ) (c : CommonCircuitData) (proof : Proof B E) : Prop where
  kIs : c.kIs.length + 1 ≤ maxLen
  arities : c.friParams.reductionArityBits.length ≤ maxLen
  constants : proof.openings.constants.length ≤ maxLen
  wires : proof.openings.wires.length ≤ maxLen
  plonkZs : proof.openings.plonkZs.length ≤ maxLen
  partialProducts : proof.openings.partialProducts.length + 2 ≤ maxLen
  quotients : proof.openings.quotientPolys.length ≤ maxLen
  rounds : proof.openingProof.rounds.length ≤ maxLen
  leaves : ∀ round ∈ proof.openingProof.rounds, ∀ e ∈ round.initial, e.elements.length ≤ maxLen ∧
    e.siblings.length ≤ maxLen
  siblings : ∀ round ∈ proof.openingProof.rounds, ∀ s ∈ round.steps, s.siblings.length ≤ maxLen

/-- Parameters without rate bits (a code of rate 1) for the domain of size `2^n`, `n` the sum modulo `2^64` of the degree
bits and the rate bits of `q`. -/
def rateOne (q : FriParams) : FriParams where
  config := ⟨0, q.config.capHeight, q.config.proofOfWorkBits, q.config.numQueryRounds⟩
  isHiding := q.isHiding
  degreeBits := (q.degreeBits + q.config.rateBits) % 2 ^ 64
  reductionArityBits := q.reductionArityBits

end Verif.Spec.Words
