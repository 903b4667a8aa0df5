import Verif.Spec.PoseidonBN
import Mathlib.Algebra.BigOperators.Fin

/-!
# Specification: packing and hashing of Goldilocks elements with the BN254 permutation
-/

set_option autoImplicit false

namespace Verif.Spec.BN

/-- Split a list into groups of three; the last one may be shorter. -/
def chunks3 {α : Type} : List α → List (List α)
  | [] => []
  | [a] => [[a]]
  | [a, b] => [[a, b]]
  | a :: b :: c :: l => [a, b, c] :: chunks3 l

/-- `Σ x_i 2^(64 i)`. -/
def pack (l : List Fr) : Fr := ∑ i : Fin l.length, l[i] * 2 ^ (64 * (i : ℕ))

/-- Field elements a list of Goldilocks elements is packed into. -/
def packed (l : List Fr) : List Fr := (chunks3 l).map pack

/-- Overwrite the rate part (positions 1, 2, 3) with up to three elements. -/
def overwrite (s : Fin 4 → Fr) (e : List Fr) : Fin 4 → Fr :=
  fun i => if i = 0 then s 0 else (e[(i : ℕ) - 1]?).getD (s i)

/-- Overwrite-mode sponge with permutation `P`: three elements per call, output position 0. -/
def sponge (P : (Fin 4 → Fr) → Fin 4 → Fr) (l : List Fr) : Fr :=
  (chunks3 l).foldl (fun s e => P (overwrite s e)) (fun _ => 0) 0

/-- Hash of a list of Goldilocks elements. -/
noncomputable def hash (l : List Fr) : Fr := sponge poseidon (packed l)

/-- Leaf digest: up to three elements are packed only. -/
noncomputable def leaf (l : List Fr) : Fr := if l.length ≤ 3 then pack l else hash l

/-- Compression of two digests. -/
noncomputable def compress (a b : Fr) : Fr := poseidon ![0, 0, a, b] 0

attribute [irreducible] hash leaf compress

end Verif.Spec.BN
