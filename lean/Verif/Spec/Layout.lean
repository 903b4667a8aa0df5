import Verif.Model.Verifier

/-!
# What a circuit generator emits

The sequence of API calls with an effect: hints, constraints, range-check requests, or a panic.  Values do not occur in it.
-/

set_option autoImplicit false

namespace Verif.Spec.Layout

/-- An API call. -/
inductive Item
  | hint (outputs : ℕ)
  | constraint
  | check (bits : ℕ)
  | panic
deriving DecidableEq

/-- `Emits c l`: for some values of the hints, the calls are `l`. -/
def Emits {α : Type} : Circ α → List Item → Prop
  | .ret _, l => l = []
  | .hint n _ k, l => ∃ v l', l = .hint n :: l' ∧ Emits (k v) l'
  | .require _ k, l => ∃ l', l = .constraint :: l' ∧ Emits k l'
  | .check _ n k, l => ∃ l', l = .check n :: l' ∧ Emits k l'
  | .panic _, l => l = [.panic]

/-- Bit widths of the range-check requests, in order. -/
def widths (l : List Item) : List ℕ := l.filterMap fun x => match x with
  | .check n => some n
  | _ => none

/-- Lengths of the lists in a proof. -/
def sizes (x : Proof Fr QEV) :
    (ℕ × ℕ × ℕ) × (ℕ × ℕ × ℕ × ℕ × ℕ × ℕ × ℕ) × (List ℕ × List (List (ℕ × ℕ) × List (ℕ × ℕ)) × ℕ) :=
  ((x.wiresCap.length, x.plonkZsPartialProductsCap.length, x.quotientPolysCap.length),
    (x.openings.constants.length, x.openings.plonkSigmas.length, x.openings.wires.length, x.openings.plonkZs.length,
      x.openings.plonkZsNext.length, x.openings.partialProducts.length, x.openings.quotientPolys.length),
    (x.openingProof.commitCaps.map List.length,
      x.openingProof.rounds.map fun y =>
        (y.initial.map fun z => (z.elements.length, z.siblings.length),
          y.steps.map fun z => (z.evals.length, z.siblings.length)),
      x.openingProof.finalPoly.length))

end Verif.Spec.Layout
