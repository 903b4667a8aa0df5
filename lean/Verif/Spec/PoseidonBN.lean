import Verif.Spec.PoseidonBNConsts
import Verif.Field
import Mathlib.Algebra.BigOperators.Fin

/-!
# Specification: textbook Poseidon over the BN254 scalar field, width 4

8 full and 56 partial rounds, S-box `x^5`; round constants and MDS matrix from the Grain LFSR as in the Poseidon
paper (reference implementation `generate_params_poseidon.sage 1 0 254 4 8 56 r`).
-/

set_option autoImplicit false

namespace Verif.Spec.BN

/-! ## Grain LFSR -/

/-- Next bit of the 80-bit register (`b_i` is bit `i`):
`b_62 + b_51 + b_38 + b_23 + b_13 + b_0`. -/
def newBit (s : ℕ) : ℕ :=
  (s ^^^ (s >>> 13) ^^^ (s >>> 23) ^^^ (s >>> 38) ^^^ (s >>> 51) ^^^ (s >>> 62)) % 2

/-- Shift the register by one. -/
def step (s : ℕ) : ℕ := s >>> 1 + 2 ^ 79 * newBit s

/-- `n` bits produced from register `s`. -/
def raw : ℕ → ℕ → List ℕ
  | 0, _ => []
  | n + 1, s => newBit s :: raw n (step s)

/-- Bits are taken in pairs; the second is output iff the first is 1. -/
def shrink : List ℕ → List ℕ
  | a :: b :: l => if a = 1 then b :: shrink l else shrink l
  | _ => []

/-- Big-endian value. -/
def value (l : List ℕ) : ℕ := l.foldl (fun v b => 2 * v + b) 0

/-- The `i`-th word of 254 bits. -/
def word (l : List ℕ) (i : ℕ) : ℕ := value ((l.drop (254 * i)).take 254)

/-- `w` bits of `v`, most significant first. -/
def bitsBE (w v : ℕ) : List ℕ := (List.range w).reverse.map fun i => v / 2 ^ i % 2

/-- Initial register: field type 1, S-box `x^alpha` 0, 254-bit field, width 4, 8 full and 56 partial rounds,
30 ones; first bit is `b_0`. -/
def initBits : List ℕ :=
  bitsBE 2 1 ++ bitsBE 4 0 ++ bitsBE 12 254 ++ bitsBE 12 4 ++ bitsBE 10 8 ++ bitsBE 10 56 ++
    List.replicate 30 1

def initRegister : ℕ := value initBits.reverse

/-- The register after the 160 discarded steps. -/
def warmRegister : ℕ := step^[160] initRegister

/-! ## Permutation -/

/-- `i`-th constant of round `k`. -/
def rc (k : ℕ) (i : Fin 4) : Fr := ((roundConstants.getD (4 * k + i) 0 : ℕ) : Fr)

/-- Cauchy MDS matrix. -/
noncomputable def mds (i j : Fin 4) : Fr := (((xs.getD i 0 : ℕ) : Fr) + ((ys.getD j 0 : ℕ) : Fr))⁻¹

noncomputable def mix (s : Fin 4 → Fr) : Fin 4 → Fr := fun i => ∑ j, mds i j * s j

noncomputable def fullRound (s : Fin 4 → Fr) (k : ℕ) : Fin 4 → Fr := mix fun i => (s i + rc k i) ^ 5

noncomputable def partialRound (s : Fin 4 → Fr) (k : ℕ) : Fin 4 → Fr :=
  mix fun i => if i = 0 then (s i + rc k i) ^ 5 else s i + rc k i

/-- Textbook permutation: rounds 0-3 full, 4-59 partial, 60-63 full. -/
noncomputable def poseidon (s : Fin 4 → Fr) : Fin 4 → Fr :=
  let s := (List.range' 0 4).foldl fullRound s
  let s := (List.range' 4 56).foldl partialRound s
  (List.range' 60 4).foldl fullRound s

theorem poseidon_def (s : Fin 4 → Fr) : poseidon s =
    (List.range' 60 4).foldl fullRound
      ((List.range' 4 56).foldl partialRound ((List.range' 0 4).foldl fullRound s)) := rfl

attribute [irreducible] poseidon

end Verif.Spec.BN
