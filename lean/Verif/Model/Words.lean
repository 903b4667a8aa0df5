import Mathlib.Data.Nat.Notation
import Mathlib.Data.Int.Notation

/-!
# Go's 64-bit integers

`uint64` values are natural numbers below `2^64`, `int` values integers from `-2^63` to `2^63 - 1`.
-/

set_option autoImplicit false

namespace Verif

/-- The result of a `uint64` sum or product with exact value `n`. -/
def u64 (n : ℕ) : ℕ := n % 2 ^ 64

/-- The `int` with exact value `z` modulo `2^64`: results of `int` operations and conversions `int(x)` of `uint64` values. -/
def int64 (z : ℤ) : ℤ := (z + 2 ^ 63) % 2 ^ 64 - 2 ^ 63

end Verif
