import Verif.Model.Gates

/-!
# Model of `GateInstanceFromId` (`plonk/gates/gates.go:20-55`) and of the regular expressions of the gates

The regular expressions used by the code are sequences of literal characters, named groups `[0-9]+` and
`[0-9, ]+`, and a final `.*`.  Go's `FindStringSubmatch` returns the leftmost match, choosing among
matches at one position the one a backtracking greedy search finds first; this search is modelled.
Named groups are modelled by their position.  A `{` that does not start a repetition count is a literal.
-/

set_option autoImplicit false

namespace Verif.Gates

/-- Element of a regular expression. -/
inductive Tok
  /-- a literal character -/
  | chr (c : Char)
  /-- the named group `(?P<name>[0-9]+)` -/
  | digits
  /-- the named group `(?P<name>[0-9, ]+)` -/
  | digitList
  /-- `.*` -/
  | anyStar

/-- The character class `[0-9]`. -/
def isDigitC (c : Char) : Bool := c.isDigit

/-- The character class `[0-9, ]`. -/
def isListC (c : Char) : Bool := c.isDigit || c == ',' || c == ' '

/-- Greedy choice of a prefix of length `lo..hi`, longest first. -/
def tryLengths {α : Type} (f : ℕ → Option α) (lo : ℕ) : ℕ → Option α
  | 0 => if lo = 0 then f 0 else none
  | hi + 1 => if hi + 1 < lo then none else (f (hi + 1)).or (tryLengths f lo hi)

/-- Match at the start of the string; the result is the list of captured groups. -/
def matchHere : List Tok → List Char → Option (List (List Char))
  | [], _ => some []
  | .chr _ :: _, [] => none
  | .chr c :: t, x :: s => if x = c then matchHere t s else none
  | .digits :: t, s =>
    tryLengths (fun k => (matchHere t (s.drop k)).map (s.take k :: ·)) 1 (s.takeWhile isDigitC).length
  | .digitList :: t, s =>
    tryLengths (fun k => (matchHere t (s.drop k)).map (s.take k :: ·)) 1 (s.takeWhile isListC).length
  | .anyStar :: t, s =>
    tryLengths (fun k => matchHere t (s.drop k)) 0 (s.takeWhile (· ≠ '\n')).length

/-- `FindStringSubmatch`: leftmost match. -/
def findSubmatch (re : List Tok) (s : List Char) : Option (List (List Char)) := s.tails.findSome? (matchHere re)

/-- Literal part of a regular expression. -/
def lit (s : String) : List Tok := s.toList.map .chr

/-- `strconv.Atoi` on a string of digits (64-bit `int`). -/
def atoi (s : List Char) : Option ℕ :=
  if s ≠ [] ∧ s.all isDigitC ∧ Nat.ofDigitChars 10 s 0 < 2 ^ 63 then some (Nat.ofDigitChars 10 s 0) else none

/-- `strconv.ParseUint(·, 10, 64)`. -/
def parseUint (s : List Char) : Option ℕ :=
  if s ≠ [] ∧ s.all isDigitC ∧ Nat.ofDigitChars 10 s 0 < 2 ^ 64 then some (Nat.ofDigitChars 10 s 0) else none

/-- `strings.TrimSpace` on strings whose only white space is the space character. -/
def trimSpace (s : List Char) : List Char := ((s.dropWhile (· == ' ')).reverse.dropWhile (· == ' ')).reverse

/-- A pattern with its deserialisation function; `none` is a panic. -/
structure Handler where
  regex : List Tok
  make : List (List Char) → Option Gate

/-- `arithmeticGateRegex` and `deserializeArithmeticGate`, `plonk/gates/arithmetic_gate.go:12-28`. -/
def arithmeticHandler : Handler where
  regex := lit "ArithmeticGate { num_ops: " ++ .digits :: lit " }"
  make
    | [n] => do return .arithmetic (← atoi n)
    | _ => none

/-- `plonk/gates/arithmetic_extension_gate.go:12-27`. -/
def arithmeticExtensionHandler : Handler where
  regex := lit "ArithmeticExtensionGate { num_ops: " ++ .digits :: lit " }"
  make
    | [n] => do return .arithmeticExtension (← atoi n)
    | _ => none

/-- `plonk/gates/base_sum_gate.go:12-34`. -/
def baseSumHandler : Handler where
  regex := lit "BaseSumGate { num_limbs: " ++ .digits :: (lit " } + Base: " ++ [.digits])
  make
    | [n, b] => do return .baseSum (← atoi n) (← atoi b)
    | _ => none

/-- `plonk/gates/constant_gate.go:12-27`. -/
def constantHandler : Handler where
  regex := lit "ConstantGate { num_consts: " ++ .digits :: lit " }"
  make
    | [n] => do return .constant (← atoi n)
    | _ => none

/-- `plonk/gates/coset_interpolation_gate.go:14-51`; `SetUint64` reduces modulo `p`. -/
def cosetInterpolationHandler : Handler where
  regex := lit "CosetInterpolationGate { subgroup_bits: " ++ .digits :: (lit ", degree: " ++ .digits ::
    (lit ", barycentric_weights: [" ++ .digitList ::
      lit "], _phantom: PhantomData<plonky2_field::goldilocks_field::GoldilocksField> }<D=2>"))
  make
    | [b, d, w] => do
      let b ← parseUint b
      let d ← parseUint d
      if d < 2 then none
      else
        let ws ← (w.splitOn ',').mapM fun s => parseUint (trimSpace s)
        return .cosetInterpolation b d (ws.map (Nat.cast : ℕ → Fp))
    | _ => none

/-- `plonk/gates/exponentiation_gate.go:12-41`. -/
def exponentiationHandler : Handler where
  regex := lit "ExponentiationGate { num_power_bits: " ++ .digits ::
    (lit ", _phantom: PhantomData<plonky2_field::goldilocks_field::GoldilocksField> }<D=" ++ .digits :: lit ">")
  make
    | [n, base] => do
      let n ← atoi n
      let base ← atoi base
      if base ≠ 2 then none else return .exponentiation n
    | _ => none

/-- `plonk/gates/multiplication_extension_gate.go:12-27`. -/
def mulExtensionHandler : Handler where
  regex := lit "MulExtensionGate { num_ops: " ++ .digits :: lit " }"
  make
    | [n] => do return .mulExtension (← atoi n)
    | _ => none

/-- `plonk/gates/noop_gate.go:10-15`. -/
def noopHandler : Handler where
  regex := lit "NoopGate"
  make _ := some .noop

/-- `plonk/gates/poseidon_gate.go:11-16`. -/
def poseidonHandler : Handler where
  regex := lit "PoseidonGate" ++ [.anyStar]
  make _ := some .poseidon

/-- `plonk/gates/poseidon_mds_gate.go:11-16`. -/
def poseidonMdsHandler : Handler where
  regex := lit "PoseidonMdsGate" ++ [.anyStar]
  make _ := some .poseidonMds

/-- `plonk/gates/public_input_gate.go:10-15`. -/
def publicInputHandler : Handler where
  regex := lit "PublicInputGate"
  make _ := some .publicInput

/-- `plonk/gates/random_access_gate.go:12-54`. -/
def randomAccessHandler : Handler where
  regex := lit "RandomAccessGate { bits: " ++ .digits :: (lit ", num_copies: " ++ .digits ::
    (lit ", num_extra_constants: " ++ .digits ::
      (lit ", _phantom: PhantomData<plonky2_field::goldilocks_field::GoldilocksField> }<D=" ++ .digits :: lit ">")))
  make
    | [bits, copies, extra, base] => do
      let bits ← parseUint bits
      let copies ← parseUint copies
      let extra ← parseUint extra
      let base ← atoi base
      if base ≠ 2 then none else return .randomAccess bits copies extra
    | _ => none

/-- `plonk/gates/reducing_extension_gate.go:12-27`. -/
def reducingExtensionHandler : Handler where
  regex := lit "ReducingExtensionGate { num_coeffs: " ++ .digits :: lit " }"
  make
    | [n] => do return .reducingExtension (← atoi n)
    | _ => none

/-- `plonk/gates/reducing_gate.go:12-27`. -/
def reducingHandler : Handler where
  regex := lit "ReducingGate { num_coeffs: " ++ .digits :: lit " }"
  make
    | [n] => do return .reducing (← atoi n)
    | _ => none

/-- `gateRegexHandlers`, `plonk/gates/gates.go:20-35`; a Go map, see `gateInstanceFromId`. -/
def gateRegexHandlers : List Handler :=
  [arithmeticHandler, arithmeticExtensionHandler, baseSumHandler, constantHandler, cosetInterpolationHandler,
    exponentiationHandler, mulExtensionHandler, noopHandler, poseidonHandler, poseidonMdsHandler, publicInputHandler,
    randomAccessHandler, reducingExtensionHandler, reducingHandler]

/-- `GateInstanceFromId`, `plonk/gates/gates.go:37-55`.  Go iterates over a map in an unspecified order: `order` is any
permutation of `gateRegexHandlers`.  `none` is a panic. -/
def gateInstanceFromId : List Handler → List Char → Option Gate
  | [], _ => none
  | h :: order, id =>
    match findSubmatch h.regex id with
    | some captures => h.make captures
    | none => gateInstanceFromId order id

/-- Creation of the gates of a circuit, `plonk/plonk.go:29-32`; each call may see another iteration order. -/
def gateInstances : List (List Handler × List Char) → Option (List Gate) :=
  List.mapM fun oi => gateInstanceFromId oi.1 oi.2

end Verif.Gates
