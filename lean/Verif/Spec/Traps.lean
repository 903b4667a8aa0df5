import Verif.Spec.Prover
import Verif.Spec.FriWords

/-!
# Specification: the few challenges for which a cheating prover may get away

In every round of the protocol the verifier draws challenges after the prover has sent its message.  `Traps` assigns to
the messages and challenges so far a set of values of the next challenge.
-/

set_option autoImplicit false

namespace Verif.Spec.Verifier

/-- Exceptional values of each challenge, depending on what precedes it in the transcript. -/
structure Traps where
  /-- `beta`, after the cap of the wires. -/
  beta : List Fr → Finset Fp
  /-- `gamma`, after the cap of the wires and `beta`. -/
  gamma : List Fr → Fp → Finset Fp
  /-- `alpha`, after the cap of the wires, all `beta`, all `gamma` and the cap of accumulators and partial products. -/
  alpha : List Fr → List Fp → List Fp → List Fr → Finset Fp
  /-- `zeta`, after these, all `alpha` and the cap of the quotients. -/
  zeta : List Fr → List Fp → List Fp → List Fr → List Fp → List Fr → Finset QE
  /-- `alpha` of FRI, after the three caps, `zeta` and the openings. -/
  mix : List Fr → List Fr → List Fr → QE → OpeningSet QE → Finset QE
  /-- The folding challenge of a layer, after the cap of the layer. -/
  fold : ℕ → List Fr → Finset QE
  /-- Query positions, after the three caps, `zeta`, the openings, `alpha` of FRI, the caps of the commit phase, the folding
  challenges and the final polynomial. -/
  query : List Fr → List Fr → List Fr → QE → OpeningSet QE → QE → List (List Fr) → List QE → List QE → Finset ℕ

/-- Number of openings. -/
def numOpenings (c : CommonCircuitData) : ℕ := (Fri.oracleSizes c).sum + c.config.numChallenges

/-- Number of terms of the vanishing polynomial. -/
def numTerms (c : CommonCircuitData) : ℕ :=
  c.config.numChallenges + c.config.numChallenges * (c.numPartialProducts + 1) + c.numGateConstraints

/-- The exceptional values are few; `e` is the number of errors tolerated by FRI. -/
structure Traps.Small (T : Traps) (c : CommonCircuitData) (e : ℕ) : Prop where
  beta : ∀ w, (T.beta w).card ≤ Plonk.n c * c.config.numRoutedWires
  gamma : ∀ w b, (T.gamma w b).card ≤ Plonk.n c * c.config.numRoutedWires
  alpha : ∀ w bs gs z, (T.alpha w bs gs z).card ≤ numTerms c - 1
  zeta : ∀ w bs gs z as q, (T.zeta w bs gs z as q).card ≤ (c.quotientDegreeFactor + 1) * Plonk.n c
  mix : ∀ w z q ζ o, (T.mix w z q ζ o).card ≤ (numOpenings c - 1) * (Plonk.n c * e + e + 1)
  fold : ∀ j cap, (T.fold j cap).card ≤ 15 * (Plonk.n c * e + e + 1)
  query : ∀ w z q ζ o α caps βs final, (T.query w z q ζ o α caps βs final).card + e <
    2 ^ (c.friParams.degreeBits + c.friParams.config.rateBits)

/-- The challenges of a proof hit exceptional values: in every repetition `beta`, `gamma` or `alpha`; or `zeta`; or one of
the challenges of FRI; or all query positions. -/
def Traps.Hit (T : Traps) (c : CommonCircuitData) (x : Proof Fp QE) (ch : ProofChallenges Fp QE) : Prop :=
  (∀ i < c.config.numChallenges, ch.plonkBetas.getD i 0 ∈ T.beta x.wiresCap ∨
    ch.plonkGammas.getD i 0 ∈ T.gamma x.wiresCap (ch.plonkBetas.getD i 0) ∨
    ch.plonkAlphas.getD i 0 ∈ T.alpha x.wiresCap ch.plonkBetas ch.plonkGammas x.plonkZsPartialProductsCap) ∨
  ch.plonkZeta ∈ T.zeta x.wiresCap ch.plonkBetas ch.plonkGammas x.plonkZsPartialProductsCap ch.plonkAlphas
    x.quotientPolysCap ∨
  ch.friChallenges.alpha ∈ T.mix x.wiresCap x.plonkZsPartialProductsCap x.quotientPolysCap ch.plonkZeta x.openings ∨
  (∃ j < c.friParams.reductionArityBits.length,
    ch.friChallenges.betas.getD j 0 ∈ T.fold j (x.openingProof.commitCaps.getD j [])) ∨
  ∀ z ∈ ch.friChallenges.queryIndices, z.val % 2 ^ (c.friParams.degreeBits + c.friParams.config.rateBits) ∈
    T.query x.wiresCap x.plonkZsPartialProductsCap x.quotientPolysCap ch.plonkZeta x.openings ch.friChallenges.alpha
      x.openingProof.commitCaps ch.friChallenges.betas x.openingProof.finalPoly

end Verif.Spec.Verifier
