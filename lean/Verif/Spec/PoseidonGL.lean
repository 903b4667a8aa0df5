import Verif.Model.PoseidonGLConsts
import Verif.Field
import Mathlib.LinearAlgebra.Matrix.Notation

/-!
# Specification: textbook Poseidon over any ring (used with GF(p) and its quadratic extension)

30 rounds (4 full, 22 partial, 4 full), width 12, S-box `x^7`, MDS matrix circulant + diagonal, one round = add
12 constants, S-box (all elements / first element), multiply by MDS.  Only the 360 round constants
are taken from the code's table (plonky2 derives them from ChaCha8); the MDS rows are restated.
-/

set_option autoImplicit false

namespace Verif.Spec

/-- First row of the circulant part of the MDS matrix. -/
def circ : Fin 12 → ℕ := ![17, 15, 41, 16, 2, 28, 13, 13, 39, 18, 34, 20]

/-- MDS matrix: circulant plus `8` in the top-left corner. -/
def mds (i j : Fin 12) : ℕ := circ (j - i) + if i = 0 ∧ j = 0 then 8 else 0

/-- `i`-th round constant of round `r`. -/
def rc (r : ℕ) (i : Fin 12) : ℕ := PoseidonGL.ALL_ROUND_CONSTANTS.getD (12 * r + i) 0

variable {R : Type} [CommRing R]

/-- Multiplication by the MDS matrix. -/
def mix (s : Fin 12 → R) : Fin 12 → R := fun i => ∑ j, (mds i j : R) * s j

def fullRound (s : Fin 12 → R) (r : ℕ) : Fin 12 → R := mix fun i => (s i + (rc r i : R)) ^ 7

def partialRound (s : Fin 12 → R) (r : ℕ) : Fin 12 → R :=
  mix fun i => if i = 0 then (s i + (rc r i : R)) ^ 7 else s i + (rc r i : R)

/-- Textbook Poseidon permutation. -/
def poseidon (s : Fin 12 → R) : Fin 12 → R :=
  let s := [0, 1, 2, 3].foldl fullRound s
  let s := (List.range' 4 22).foldl partialRound s
  [26, 27, 28, 29].foldl fullRound s

/-- Absorb a list in overwrite mode at rate 8, permuting after every (possibly short) chunk. -/
def absorb (perm : (Fin 12 → R) → Fin 12 → R) (s : Fin 12 → R) (chunks : List (List R)) :
    Fin 12 → R :=
  chunks.foldl (fun s c => perm fun j => (c[(j : ℕ)]?).getD (s j)) s

/-- `k`-th squeezed element: rate 8, permute every 8 outputs. -/
def squeeze (perm : (Fin 12 → R) → Fin 12 → R) (s : Fin 12 → R) (k : ℕ) : R :=
  perm^[k / 8] s (Fin.ofNat 12 (k % 8))

/-- Consecutive chunks of (at most) 8 elements. -/
def chunks {R : Type} (l : List R) : List (List R) :=
  (List.range ((l.length + 7) / 8)).map fun k => (l.drop (8 * k)).take 8

/-- Sponge: absorb from the zero state, squeeze `n` elements. -/
def hash (perm : (Fin 12 → R) → Fin 12 → R) (l : List R) (n : ℕ) : List R :=
  (List.range n).map (squeeze perm (absorb perm (fun _ => 0) (chunks l)))

end Verif.Spec
