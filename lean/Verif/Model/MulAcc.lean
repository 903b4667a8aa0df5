import Verif.Model.Base
import Verif.Model.PoseidonBN

/-!
# The functions that call `MulAcc`, with its side effect

A `frontend.Variable` of the R1CS builder is a reference to a linear expression.  gnark documents that
`MulAcc(a, b, c)` may store its result in the expression of `a`.  The other models use values and ignore
this; here the same code is written with references.  A store holds the value of every expression and, for each later call of
`MulAcc` on a reference, whether it overwrites its argument; the theorems are for all such choices.  `Add` and `Mul` return a new
expression.
-/

set_option autoImplicit false

namespace Verif.Mem

/-- A `frontend.Variable`: a constant or a reference. -/
inductive Var where
  | const (x : Fr)
  | ref (i : ℕ)
deriving DecidableEq

/-- The expressions, and for the calls of `MulAcc` to come whether they overwrite their first argument. -/
structure Store where
  cells : List Fr
  coins : List Bool

/-- Value of a variable. -/
def Store.val (s : Store) : Var → Fr
  | .const x => x
  | .ref i => s.cells.getD i 0

/-- Code that changes the store. -/
abbrev M := StateM Store

/-- A new expression. -/
def new (x : Fr) : M Var := fun s => (.ref s.cells.length, { s with cells := s.cells ++ [x] })

/-- `api.Add`. -/
def apiAdd (a b : Var) : M Var := fun s => new (s.val a + s.val b) s

/-- `api.Mul`. -/
def apiMul (a b : Var) : M Var := fun s => new (s.val a * s.val b) s

/-- `api.MulAcc`: `a + b * c`, in the expression of `a` or in a new one. -/
def apiMulAcc (a b c : Var) : M Var := fun s =>
  match a, s.coins with
  | .ref i, true :: coins => (.ref i, ⟨s.cells.set i (s.val a + s.val b * s.val c), coins⟩)
  | .ref _, _ :: coins => new (s.val a + s.val b * s.val c) ⟨s.cells, coins⟩
  | _, _ => new (s.val a + s.val b * s.val c) s

/-! ## `goldilocks/base.go` -/

/-- `MulAddNoReduce`, `goldilocks/base.go:217-220`. -/
def mulAddNoReduce (a b c : Var) : M Var := do
  let cLimbCopy ← apiMul c (.const 1)
  apiMulAcc cLimbCopy a b

/-- `MulAdd`, `goldilocks/base.go:196-213`. The operands of hints, assertions and range checks are read at the call. -/
def mulAdd (a b c : Var) : StateT Store Circ Var := do
  let s ← get
  let result ← StateT.lift (newHint 2 (mulAddHint (s.val a) (s.val b) (s.val c)))
  let quotient ← (fun s => pure (new (result 0) s) : StateT Store Circ Var)
  let remainder ← (fun s => pure (new (result 1) s) : StateT Store Circ Var)
  let cLimbCopy ← (fun s => pure (apiMul c (.const 1) s) : StateT Store Circ Var)
  let lhs ← (fun s => pure (apiMulAcc cLimbCopy a b s) : StateT Store Circ Var)
  let rhs ← (fun s => pure (apiMulAcc remainder (.const (p : Fr)) quotient s) : StateT Store Circ Var)
  let s ← get
  StateT.lift (assertEq (s.val lhs) (s.val rhs))
  StateT.lift (rangeCheck (s.val quotient))
  StateT.lift (rangeCheck (s.val remainder))
  pure remainder

/-! ## `poseidon/bn254.go` -/

/-- `BN254State`, `poseidon/bn254.go:28`. -/
abbrev State := Fin 4 → Var

/-- Loop over the entries of an array. -/
def loop4 (f : Fin 4 → M Var) : M State := do
  let a ← f 0
  let b ← f 1
  let c ← f 2
  let d ← f 3
  pure ![a, b, c, d]

/-- Repeated `acc = api.MulAcc(acc, b, c)`. -/
def mulAccs (acc : Var) (l : List (Var × Var)) : M Var := l.foldlM (fun acc bc => apiMulAcc acc bc.1 bc.2) acc

/-- `ark`, `poseidon/bn254.go:171-179`. -/
def ark (state : State) (it : ℕ) : M State := loop4 fun i => apiAdd (state i) (.const (PoseidonBN.cC (it + i)))

/-- `exp5`, `poseidon/bn254.go:181-185`. -/
def exp5 (x : Var) : M Var := do
  let x2 ← apiMul x x
  let x4 ← apiMul x2 x2
  apiMul x4 x

/-- `exp5state`, `poseidon/bn254.go:187-192`. -/
def exp5state (state : State) : M State := loop4 fun i => exp5 (state i)

/-- `mix`, `poseidon/bn254.go:194-208`. -/
def mix (state : State) (m : List (List ℕ)) : M State := loop4 fun i =>
  mulAccs (.const 0) ((List.finRange 4).map fun j : Fin 4 => (.const (((m.getD j []).getD i 0 : ℕ) : Fr), state j))

/-- Body of the loop of `fullRounds`, `poseidon/bn254.go:132-138`. -/
def fullRound (isFirst : Bool) (state : State) (i : ℕ) : M State := do
  let state ← exp5state state
  let state ← ark state (if isFirst then (i + 1) * 4 else (8 / 2 + 1) * 4 + 56 + i * 4)
  mix state PoseidonBN.mMatrix

/-- `fullRounds`, `poseidon/bn254.go:130-150`. -/
def fullRounds (state : State) (isFirst : Bool) : M State := do
  let state ← (List.range 3).foldlM (fullRound isFirst) state
  let state ← exp5state state
  if isFirst then do
    let state ← ark state (8 / 2 * 4)
    mix state PoseidonBN.pMatrix
  else mix state PoseidonBN.mMatrix

/-- Body of the loop of `partialRounds`, `poseidon/bn254.go:154-165`. -/
def partialRound (state : State) (i : ℕ) : M State := do
  let s0 ← exp5 (state 0)
  let s0 ← apiAdd s0 (.const (PoseidonBN.cC ((8 / 2 + 1) * 4 + i)))
  let state : State := Function.update state 0 s0
  let newState0 ← mulAccs (.const 0) ((List.finRange 4).map fun j : Fin 4 => (.const (PoseidonBN.sC ((4 * 2 - 1) * i + j)), state j))
  let s1 ← apiMulAcc (state 1) (state 0) (.const (PoseidonBN.sC ((4 * 2 - 1) * i + 4 + 1 - 1)))
  let s2 ← apiMulAcc (state 2) (state 0) (.const (PoseidonBN.sC ((4 * 2 - 1) * i + 4 + 2 - 1)))
  let s3 ← apiMulAcc (state 3) (state 0) (.const (PoseidonBN.sC ((4 * 2 - 1) * i + 4 + 3 - 1)))
  pure ![newState0, s1, s2, s3]

/-- `partialRounds`, `poseidon/bn254.go:152-169`. -/
def partialRounds (state : State) : M State := (List.range 56).foldlM partialRound state

/-- `Poseidon`, `poseidon/bn254.go:39-45`. -/
def poseidon (state : State) : M State := do
  let state ← ark state 0
  let state ← fullRounds state true
  let state ← partialRounds state
  fullRounds state false

/-- Packing of at most three inputs, `poseidon/bn254.go:65-68` and `:81-88`. -/
def pack (l : List Var) : M Var :=
  mulAccs (.const 0) (l.zipIdx.map fun xk => (xk.1, .const (((2 ^ 64) ^ xk.2 : ℕ) : Fr)))

/-- The loop filling the rate part of the state, `poseidon/bn254.go:61-71`. -/
def setRate (state : State) (chunk : List Var) : M State := do
  let s1 ← (if 0 < chunk.length then pack (chunk.take 3) else pure (state 1))
  let s2 ← (if 3 < chunk.length then pack ((chunk.drop 3).take 3) else pure (state 2))
  let s3 ← (if 6 < chunk.length then pack ((chunk.drop 6).take 3) else pure (state 3))
  pure ![state 0, s1, s2, s3]

/-- Body of the loop of `HashNoPad`, `poseidon/bn254.go:58-74`. -/
def absorb (input : List Var) (state : State) (i : ℕ) : M State := do
  let state ← setRate state ((input.drop (9 * i)).take 9)
  poseidon state

/-- `HashNoPad`, `poseidon/bn254.go:47-77`. -/
def hashNoPad (input : List Var) : M Var := do
  let state ← (List.range ((input.length + 8) / 9)).foldlM (absorb input) (fun _ => .const 0)
  pure (state 0)

/-- `HashOrNoop`, `poseidon/bn254.go:79-94`. -/
def hashOrNoop (input : List Var) : M Var := if input.length ≤ 3 then pack input else hashNoPad input

/-- `TwoToOne`, `poseidon/bn254.go:96-104`. -/
def twoToOne (left right : Var) : M Var := do
  let state ← poseidon ![.const 0, .const 0, left, right]
  pure (state 0)

end Verif.Mem
