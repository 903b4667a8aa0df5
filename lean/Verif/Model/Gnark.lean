import Verif.Model.Base
import Mathlib.Data.List.OfFn

/-!
# gnark bit-decomposition API (trusted semantics, see DESIGN.md section 2)
-/

set_option autoImplicit false

namespace Verif

open Circ

/-- Natural number denoted by little-endian bits (anything but `1` counts as `0`). -/
def natOfBits : List Fr → ℕ
  | [] => 0
  | b :: l => (if b = 1 then 1 else 0) + 2 * natOfBits l

/-- `api.FromBinary(b...)`: `Σ b_i 2^i`. -/
def fromBinary : List Fr → Fr
  | [] => 0
  | b :: l => b + 2 * fromBinary l

/-- Bits of `v`, little endian. -/
def bitsLE (n v : ℕ) : List Fr := (List.range n).map fun i => if v.testBit i then 1 else 0

/-- `api.AssertIsBoolean`. -/
def assertBool (b : Fr) : Circ Unit := .require (decide (b = 0 ∨ b = 1)) (.ret ())

/-- Constraints of `api.ToBinary(x, n)` on the hinted values: boolean, recomposing to `x`; at full field width
(254) gnark v0.9.1 additionally constrains the bits to denote a number below `r`. -/
def assertBits (n : ℕ) (x : Fr) (bits : List Fr) : Circ Unit := do
  bits.forM assertBool
  assertEq (fromBinary bits) x
  if 254 ≤ n then Circ.require (decide (natOfBits bits < r)) (.ret ()) else pure ()

/-- `api.ToBinary(x, n)`: `n` hinted values and their constraints. -/
def toBinary (n : ℕ) (x : Fr) : Circ (List Fr) := do
  let b ← newHint n (some fun i => if x.val.testBit i then 1 else 0)
  assertBits n x (List.ofFn b)
  pure (List.ofFn b)

/-- `api.Lookup2(b0, b1, i0, i1, i2, i3)`: constrains both selectors to be boolean, returns `i_(b0 + 2 b1)`. -/
def apiLookup2 (b0 b1 i0 i1 i2 i3 : Fr) : Circ Fr :=
  .require (decide (b0 = 0 ∨ b0 = 1)) <| .require (decide (b1 = 0 ∨ b1 = 1)) <| .ret
    (if b1 = 1 then (if b0 = 1 then i3 else i2) else (if b0 = 1 then i1 else i0))

/-- Slice or array indexing `l[i]` with Go's bounds check. -/
def idx {α : Type} (l : List α) (i : ℕ) : Circ α :=
  match l[i]? with
  | some x => pure x
  | none => goPanic "index out of range"

end Verif
