import Verif.Spec.PlonkTrace
import Verif.Spec.Verifier

/-!
# Specification: the honest plonky2 prover

The prover commits to the wires, then (after the challenges `beta`, `gamma`) to accumulators and partial products, then
(after `alpha`) to the quotient chunks, opens everything at `zeta` and proves the openings by FRI.
-/

set_option autoImplicit false

namespace Verif.Spec.Prover

open Polynomial

/-- The committed polynomials, and the salts of the leaves. -/
structure Polys where
  trace : Plonk.Trace
  zs : List Fp[X]
  pps : List Fp[X]
  qs : List Fp[X]
  wireSalt : ℕ → List Fp
  zSalt : ℕ → List Fp
  qSalt : ℕ → List Fp

/-- How the prover computes accumulators and partial products from `beta`, `gamma`, and quotient chunks from these and
`alpha`. -/
structure Strategy where
  zs : List Fp → List Fp → List Fp[X]
  pps : List Fp → List Fp → List Fp[X]
  qs : List Fp → List Fp → List Fp → List Fp[X]

/-- The polynomials for a trace, three salts and given challenges. -/
def Strategy.polys (S : Strategy) (t : Plonk.Trace) (sw sz sq : ℕ → List Fp) (ch : ProofChallenges Fp QE) : Polys :=
  ⟨t, S.zs ch.plonkBetas ch.plonkGammas, S.pps ch.plonkBetas ch.plonkGammas,
    S.qs ch.plonkBetas ch.plonkGammas ch.plonkAlphas, sw, sz, sq⟩

/-- Constants and sigmas are committed once for the circuit, without salt. -/
def circuitOracle (t : Plonk.Trace) : Fri.Prover.Oracle := ⟨t.constants ++ t.sigmas, fun _ => []⟩

/-- The four oracles. -/
def oracles (x : Polys) : List Fri.Prover.Oracle :=
  [circuitOracle x.trace, ⟨x.trace.wires, x.wireSalt⟩, ⟨x.zs ++ x.pps, x.zSalt⟩, ⟨x.qs, x.qSalt⟩]

variable (c : CommonCircuitData)

/-- Commitment of an oracle of the circuit. -/
noncomputable def cap (o : Fri.Prover.Oracle) : List Fr := o.cap (c.friParams.degreeBits + c.friParams.config.rateBits)

/-- The proof for given challenges. -/
noncomputable def proof (x : Polys) (ch : ProofChallenges Fp QE) (powWitness : Fp) : Proof Fp QE where
  wiresCap := cap c ⟨x.trace.wires, x.wireSalt⟩
  plonkZsPartialProductsCap := cap c ⟨x.zs ++ x.pps, x.zSalt⟩
  quotientPolysCap := cap c ⟨x.qs, x.qSalt⟩
  openings := Plonk.openings c x.trace x.zs x.pps x.qs ch.plonkZeta
  openingProof := Fri.Prover.proof c.friParams (Fri.plonkInstance c ch.plonkZeta) (oracles x) ch.friChallenges powWitness

/-- One folding challenge for each reduction, and the challenges are those of the transcript of the proof made for them. -/
def Consistent (P : (Fin 12 → Fp) → Fin 12 → Fp) (digest : Fr) (h : Fin 4 → Fp) (x : Polys) (ch : ProofChallenges Fp QE)
    (powWitness : Fp) : Prop :=
  ch.friChallenges.betas.length = c.friParams.reductionArityBits.length ∧
  ch = challenges P c.config.numChallenges c.config.friConfig.numQueryRounds digest h (proof c x ch powWitness)

/-- The unlikely challenges for which a proof cannot be made or is not accepted are avoided, and the proof-of-work
witness is good. -/
structure Good (t : Plonk.Trace) (ch : ProofChallenges Fp QE) : Prop where
  denominators : ∀ i < c.config.numChallenges, ∀ m < Plonk.n c, ∀ j < c.config.numRoutedWires,
    t.den c (ch.plonkBetas.getD i 0) (ch.plonkGammas.getD i 0) m j ≠ 0
  zeta : ch.plonkZeta ≠ 1
  /-- `zeta` and `g * zeta` are outside of the evaluation domain. -/
  domain : ∀ u < 2 ^ (c.friParams.degreeBits + c.friParams.config.rateBits),
    ofBase (7 * Fri.omega (c.friParams.degreeBits + c.friParams.config.rateBits) ^ u) ≠ ch.plonkZeta ∧
    ofBase (7 * Fri.omega (c.friParams.degreeBits + c.friParams.config.rateBits) ^ u) ≠
      ofBase (Fri.omega c.degreeBits) * ch.plonkZeta
  betas : ∀ β ∈ ch.friChallenges.betas, ∀ z : Fp, β ≠ ofBase z
  pow : ch.friChallenges.powResponse.val < 2 ^ (64 - c.friParams.config.proofOfWorkBits)

/-- Requirements on the FRI parameters of a circuit. -/
structure FriOk : Prop where
  degree : c.friParams.degreeBits = c.degreeBits
  queries : c.friParams.config.numQueryRounds = c.config.friConfig.numQueryRounds
  domain : 4 ≤ c.friParams.degreeBits + c.friParams.config.rateBits ∧
    c.friParams.degreeBits + c.friParams.config.rateBits ≤ 32 ∧ c.friParams.config.rateBits ≤ 15 ∧
    c.friParams.config.capHeight = 4
  pow : c.friParams.config.proofOfWorkBits ≤ 64
  arities : ∀ a ∈ c.friParams.reductionArityBits, a = 4
  final : c.friParams.reductionArityBits.sum ≤ c.friParams.degreeBits
  fit : c.friParams.reductionArityBits.sum + 4 ≤ c.friParams.degreeBits + c.friParams.config.rateBits

/-- Numbers of polynomials, degrees and salts. -/
structure Polys.Ok (x : Polys) : Prop where
  trace : x.trace.Fits c
  zs : Plonk.Low c x.zs ∧ x.zs.length = c.config.numChallenges
  pps : Plonk.Low c x.pps ∧ x.pps.length = c.config.numChallenges * c.numPartialProducts
  qs : Plonk.Low c x.qs ∧ x.qs.length = c.config.numChallenges * c.quotientDegreeFactor
  salts : ∀ s ∈ [x.wireSalt, x.zSalt, x.qSalt], ∀ u, (s u).length = if c.friParams.isHiding then 4 else 0

end Verif.Spec.Prover
