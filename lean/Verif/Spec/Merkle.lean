import Mathlib.Data.List.Basic

/-!
# Specification: Merkle paths

`C` is the two-to-one compression. A path is a list of (direction bit, sibling), from the leaf upwards; bit `true`
means that the current node is the right child.
-/

set_option autoImplicit false

namespace Verif.Spec.Merkle

variable {α : Type}

/-- Arguments of the compression one level up. -/
def node (d : α) (bs : Bool × α) : α × α := if bs.1 then (bs.2, d) else (d, bs.2)

/-- Digest at the top of a path starting from digest `d`. -/
def root (C : α → α → α) (d : α) : List (Bool × α) → α
  | [] => d
  | bs :: l => root C (C (node d bs).1 (node d bs).2) l

/-- All arguments of the compression along a path, from the leaf upwards. -/
def inputs (C : α → α → α) (d : α) : List (Bool × α) → List (α × α)
  | [] => []
  | bs :: l => node d bs :: inputs C (C (node d bs).1 (node d bs).2) l

end Verif.Spec.Merkle
