import Verif.Spec.Traps
import Mathlib.Data.Fintype.Prod
import Mathlib.Data.Fintype.Pi
import Mathlib.Algebra.Field.Rat

/-!
# Specification: the interactive protocol

The protocol of which the transcript is the Fiat-Shamir transform: the challenges are drawn uniformly and independently
after the messages that precede them in the transcript, and the verifier makes the same checks.
-/

set_option autoImplicit false

namespace Verif.Spec.Verifier

/-- Probability of an event for a uniform outcome. -/
noncomputable def prob {Ω : Type} [Fintype Ω] (P : Ω → Prop) : ℚ :=
  open Classical in ((Finset.univ.filter P).card : ℚ) / Fintype.card Ω

/-- The challenges in the order of the transcript: all `beta`, all `gamma`, all `alpha`, `zeta`, `alpha` of FRI, the folding
challenges, the proof-of-work response, the query indices. -/
abbrev Coins (c : CommonCircuitData) : Type :=
  (Fin c.config.numChallenges → Fp) × (Fin c.config.numChallenges → Fp) × (Fin c.config.numChallenges → Fp) × QE × QE ×
    (Fin c.friParams.reductionArityBits.length → QE) × Fp × (Fin c.config.friConfig.numQueryRounds → Fp)

/-- A prover: each message depends on the challenges drawn before. -/
structure Adversary where
  wiresCap : List Fr
  zsCap : List Fp → List Fp → List Fr
  quotientCap : List Fp → List Fp → List Fp → List Fr
  openings : List Fp → List Fp → List Fp → QE → OpeningSet QE
  /-- Cap of a layer, after `alpha` of FRI and the folding challenges of the earlier layers. -/
  commitCap : List Fp → List Fp → List Fp → QE → QE → List QE → List Fr
  finalPoly : List Fp → List Fp → List Fp → QE → QE → List QE → List QE
  powWitness : List Fp → List Fp → List Fp → QE → QE → List QE → Fp
  /-- Answers to the queries, after all challenges. -/
  rounds : List Fp → List Fp → List Fp → QE → QE → List QE → Fp → List Fp → List (FriQueryRound Fp QE)

/-- The challenges as the checks of the verifier take them. -/
def Coins.challenges {c : CommonCircuitData} : Coins c → ProofChallenges Fp QE
  | (bs, gs, as, ζ, α, βs, r, qs) =>
    { plonkBetas := List.ofFn bs
      plonkGammas := List.ofFn gs
      plonkAlphas := List.ofFn as
      plonkZeta := ζ
      friChallenges := ⟨α, List.ofFn βs, r, List.ofFn qs⟩ }

/-- The messages of a prover, given the challenges. -/
def Adversary.proof (A : Adversary) {c : CommonCircuitData} : Coins c → Proof Fp QE
  | (bs, gs, as, ζ, α, βs, r, qs) =>
    let b := List.ofFn bs
    let g := List.ofFn gs
    let a := List.ofFn as
    let f := List.ofFn βs
    { wiresCap := A.wiresCap
      plonkZsPartialProductsCap := A.zsCap b g
      quotientPolysCap := A.quotientCap b g a
      openings := A.openings b g a ζ
      openingProof :=
        { commitCaps := (List.range c.friParams.reductionArityBits.length).map fun j => A.commitCap b g a ζ α (f.take j)
          rounds := A.rounds b g a ζ α f r (List.ofFn qs)
          finalPoly := A.finalPoly b g a ζ α f
          powWitness := A.powWitness b g a ζ α f } }

/-- The soundness error: in every repetition one of `beta`, `gamma`, `alpha` is bad; or `zeta` is; or a challenge of FRI is;
or all query positions miss more than `e` bad ones. -/
def error (c : CommonCircuitData) (e : ℕ) : ℚ :=
  ((2 * (Plonk.n c * c.config.numRoutedWires) + (numTerms c - 1) : ℕ) / (p : ℚ)) ^ c.config.numChallenges +
  ((c.quotientDegreeFactor + 1) * Plonk.n c : ℕ) / (p ^ 2 : ℚ) +
  ((numOpenings c - 1) * (Plonk.n c * e + e + 1) : ℕ) / (p ^ 2 : ℚ) +
  (c.friParams.reductionArityBits.length * (15 * (Plonk.n c * e + e + 1)) : ℕ) / (p ^ 2 : ℚ) +
  (((2 ^ (c.friParams.degreeBits + c.friParams.config.rateBits) - e - 1) *
    (p / 2 ^ (c.friParams.degreeBits + c.friParams.config.rateBits) + 1) : ℕ) / (p : ℚ)) ^ c.config.friConfig.numQueryRounds

/-- The chance of a response with enough leading zeros for the proof of work. -/
def powChance (c : CommonCircuitData) : ℚ := (min p (2 ^ (64 - c.friParams.config.proofOfWorkBits)) : ℕ) / (p : ℚ)

end Verif.Spec.Verifier
