import Verif.Model.Deserialize
import Verif.Model.TrustedSetup

/-!
# Specification: decoded structures

`Corresponds` relations between raw (JSON) data and circuit data, field by field; lists correspond element by element.
-/

set_option autoImplicit false

namespace Verif.Spec.Deserialize

open Verif.Deserialize

/-- `s` is the decimal notation (optional sign, at least one digit, leading zeros allowed) of `z`. -/
def Decimal (s : String) (z : ℤ) : Prop :=
  ∃ d : List Char, d ≠ [] ∧ (∀ c ∈ d, c.isDigit = true) ∧
    ((s.toList = d ∨ s.toList = '+' :: d) ∧ z = Nat.ofDigitChars 10 d 0 ∨
      s.toList = '-' :: d ∧ z = -(Nat.ofDigitChars 10 d 0 : ℤ))

/-- A hash string and its value modulo `r`. -/
def Hash (s : String) (h : Fr) : Prop := ∃ z : ℤ, Decimal s z ∧ h = (z : Fr)

/-- A base field element. -/
def Elt (n : ℕ) (x : Fr) : Prop := x = (n : Fr)

/-- An extension field element: the first two components of an array of at least two. -/
def Ext (l : List ℕ) (x : QEV) : Prop := ∃ a b t, l = a :: b :: t ∧ Elt a x.1 ∧ Elt b x.2

/-- Openings. -/
structure Openings (raw : OpeningsRaw) (o : OpeningSet QEV) : Prop where
  constants : raw.constants.Forall₂ Ext o.constants
  plonkSigmas : raw.plonkSigmas.Forall₂ Ext o.plonkSigmas
  wires : raw.wires.Forall₂ Ext o.wires
  plonkZs : raw.plonkZs.Forall₂ Ext o.plonkZs
  plonkZsNext : raw.plonkZsNext.Forall₂ Ext o.plonkZsNext
  partialProducts : raw.partialProducts.Forall₂ Ext o.partialProducts
  quotientPolys : raw.quotientPolys.Forall₂ Ext o.quotientPolys

/-- Opened leaf. -/
structure EvalProof (raw : EvalProofRaw) (x : FriEvalProof Fr) : Prop where
  elements : raw.leafElements.Forall₂ Elt x.elements
  siblings : raw.hash.Forall₂ Hash x.siblings

/-- Reduction step. -/
structure Step (raw : StepRaw) (x : FriQueryStep QEV) : Prop where
  evals : raw.evals.Forall₂ Ext x.evals
  siblings : raw.siblings.Forall₂ Hash x.siblings

/-- Query round. -/
structure Round (raw : QueryRoundRaw) (x : FriQueryRound Fr QEV) : Prop where
  initial : raw.evalsProofs.Forall₂ EvalProof x.initial
  steps : raw.steps.Forall₂ Step x.steps

/-- FRI proof. -/
structure Fri (raw : FriProofRaw) (x : FriProof Fr QEV) : Prop where
  commitCaps : raw.commitPhaseMerkleCaps.Forall₂ (List.Forall₂ Hash) x.commitCaps
  rounds : raw.queryRoundProofs.Forall₂ Round x.rounds
  finalPoly : raw.finalPoly.Forall₂ Ext x.finalPoly
  powWitness : Elt raw.powWitness x.powWitness

/-- Proof with public inputs. -/
structure WithPublicInputs (raw : ProofWithPublicInputsRaw) (x : ProofWithPublicInputs Fr QEV) : Prop where
  wiresCap : raw.wiresCap.Forall₂ Hash x.proof.wiresCap
  plonkZsPartialProductsCap : raw.plonkZsPartialProductsCap.Forall₂ Hash x.proof.plonkZsPartialProductsCap
  quotientPolysCap : raw.quotientPolysCap.Forall₂ Hash x.proof.quotientPolysCap
  openings : Openings raw.openings x.proof.openings
  openingProof : Fri raw.openingProof x.proof.openingProof
  publicInputs : raw.publicInputs.Forall₂ Elt x.publicInputs

/-- Verifier data. -/
structure VerifierOnly (raw : VerifierOnlyCircuitDataRaw) (x : VerifierOnlyCircuitData) : Prop where
  constantSigmasCap : raw.constantsSigmasCap.Forall₂ Hash x.constantSigmasCap
  circuitDigest : Hash raw.circuitDigest x.circuitDigest

/-! ## The form plonky2's serialiser writes -/

/-- Hash in decimal. -/
def hashStr (h : Fr) : String := toString h.val

/-- Extension element as an array of two residues. -/
def extArr (x : QE) : List ℕ := [x.re.val, x.im.val]

/-- Serialised opened leaf. -/
def serEval (x : FriEvalProof Fp) : EvalProofRaw := ⟨x.elements.map ZMod.val, x.siblings.map hashStr⟩

/-- Serialised reduction step. -/
def serStep (x : FriQueryStep QE) : StepRaw := ⟨x.evals.map extArr, x.siblings.map hashStr⟩

/-- Serialised query round. -/
def serRound (x : FriQueryRound Fp QE) : QueryRoundRaw := ⟨x.initial.map serEval, x.steps.map serStep⟩

/-- Serialised proof. -/
def serialize (x : Proof Fp QE) (publicInputs : List Fp) : ProofWithPublicInputsRaw where
  wiresCap := x.wiresCap.map hashStr
  plonkZsPartialProductsCap := x.plonkZsPartialProductsCap.map hashStr
  quotientPolysCap := x.quotientPolysCap.map hashStr
  openings := ⟨x.openings.constants.map extArr, x.openings.plonkSigmas.map extArr, x.openings.wires.map extArr,
    x.openings.plonkZs.map extArr, x.openings.plonkZsNext.map extArr, x.openings.partialProducts.map extArr,
    x.openings.quotientPolys.map extArr⟩
  openingProof := ⟨x.openingProof.commitCaps.map fun l => l.map hashStr, x.openingProof.rounds.map serRound,
    x.openingProof.finalPoly.map extArr, x.openingProof.powWitness.val⟩
  publicInputs := publicInputs.map ZMod.val

/-- Serialised verifier data. -/
def serializeVerifierOnly (x : VerifierOnlyCircuitData) : VerifierOnlyCircuitDataRaw :=
  ⟨x.constantSigmasCap.map hashStr, hashStr x.circuitDigest⟩

end Verif.Spec.Deserialize
