import Verif.Model.Gnark
import Verif.Model.PoseidonBNConsts

/-!
# Model of `poseidon/bn254.go`

All operations of the permutation and of the hash functions are field operations of the circuit's own
field: no hints, so these are plain functions.  Only `ToVec` emits constraints.
-/

set_option autoImplicit false

namespace Verif.PoseidonBN

open Circ

/-- `BN254State`, `poseidon/bn254.go:28`. -/
abbrev State := Fin 4 → Fr

/-- `cConstants[i]`. -/
def cC (i : ℕ) : Fr := ((cConstants.getD i 0 : ℕ) : Fr)
/-- `sConstants[i]`. -/
def sC (i : ℕ) : Fr := ((sConstants.getD i 0 : ℕ) : Fr)

/-- `ark`, `poseidon/bn254.go:171-179`. -/
def ark (s : State) (it : ℕ) : State := fun i => s i + cC (it + i)

/-- `exp5`, `poseidon/bn254.go:181-185`. -/
def exp5 (x : Fr) : Fr :=
  let x2 := x * x
  let x4 := x2 * x2
  x4 * x

/-- `exp5state`, `poseidon/bn254.go:187-192`. -/
def exp5state (s : State) : State := fun i => exp5 (s i)

/-- `mix`, `poseidon/bn254.go:194-208`. -/
def mix (s : State) (m : List (List ℕ)) : State := fun i =>
  (List.finRange 4).foldl (fun acc (j : Fin 4) => acc + (((m.getD j []).getD i 0 : ℕ) : Fr) * s j) 0

/-- `fullRounds`, `poseidon/bn254.go:130-150`. -/
def fullRounds (s : State) (isFirst : Bool) : State :=
  let s := (List.range 3).foldl (fun s i =>
    let s := exp5state s
    let s := if isFirst then ark s ((i + 1) * 4) else ark s ((8 / 2 + 1) * 4 + 56 + i * 4)
    mix s mMatrix) s
  let s := exp5state s
  if isFirst then mix (ark s (8 / 2 * 4)) pMatrix else mix s mMatrix

/-- Body of the loop of `partialRounds`, `poseidon/bn254.go:154-165`. -/
def partialRound (s : State) (i : ℕ) : State :=
  let s0 := exp5 (s 0)
  let s0 := s0 + cC ((8 / 2 + 1) * 4 + i)
  let s : State := Function.update s 0 s0
  let newState0 := (List.finRange 4).foldl (fun acc (j : Fin 4) => acc + sC ((4 * 2 - 1) * i + j) * s j) 0
  fun k => if k = 0 then newState0 else s k + s 0 * sC ((4 * 2 - 1) * i + 4 + k - 1)

/-- `partialRounds`, `poseidon/bn254.go:152-169`. -/
def partialRounds (s : State) : State := (List.range 56).foldl partialRound s

/-- `Poseidon`, `poseidon/bn254.go:39-45`. -/
def poseidon (s : State) : State :=
  let s := ark s 0
  let s := fullRounds s true
  let s := partialRounds s
  fullRounds s false

/-! For running the model on test data the permutation is compiled to a version that keeps the state in a list, so that
entries are not computed again and again (`poseidon_eq_runPermutation`). -/

/-- Entries of a state. -/
def entries (s : State) : List Fr := [s 0, s 1, s 2, s 3]

/-- State with given entries. -/
def ofEntries (l : List Fr) : State := fun i => l.getD i 0

theorem ofEntries_entries (s : State) : ofEntries (entries s) = s := by
  funext i
  fin_cases i <;> rfl

/-- Steps of `fullRounds` on lists. -/
def runFullRounds (l : List Fr) (isFirst : Bool) : List Fr :=
  let l := (List.range 3).foldl (fun l i =>
    let l := entries (exp5state (ofEntries l))
    let l := entries (if isFirst then ark (ofEntries l) ((i + 1) * 4) else ark (ofEntries l) ((8 / 2 + 1) * 4 + 56 + i * 4))
    entries (mix (ofEntries l) mMatrix)) l
  let l := entries (exp5state (ofEntries l))
  if isFirst then entries (mix (ofEntries (entries (ark (ofEntries l) (8 / 2 * 4)))) pMatrix)
  else entries (mix (ofEntries l) mMatrix)

/-- The permutation on lists. -/
def runPermutation (s : State) : State :=
  let l := entries (ark s 0)
  let l := runFullRounds l true
  let l := (List.range 56).foldl (fun l i => entries (partialRound (ofEntries l) i)) l
  ofEntries (runFullRounds l false)

theorem foldl_entries {f : State → ℕ → State} {g : List Fr → ℕ → List Fr} (h : ∀ s i, g (entries s) i = entries (f s i))
    (l : List ℕ) (s : State) : l.foldl g (entries s) = entries (l.foldl f s) := by
  induction l generalizing s with
  | nil => rfl
  | cons i l ih => rw [List.foldl_cons, List.foldl_cons, h, ih]

theorem runFullRounds_entries (s : State) (b : Bool) : runFullRounds (entries s) b = entries (fullRounds s b) := by
  rw [runFullRounds, foldl_entries (f := fun s i => mix (if b then ark (exp5state s) ((i + 1) * 4)
    else ark (exp5state s) ((8 / 2 + 1) * 4 + 56 + i * 4)) mMatrix) (fun s i => by simp only [ofEntries_entries]), fullRounds]
  simp only [ofEntries_entries]
  split <;> rfl

@[csimp] theorem poseidon_eq_runPermutation : @poseidon = @runPermutation := by
  funext s
  rw [poseidon, runPermutation, runFullRounds_entries, foldl_entries (f := partialRound) (fun s i => by rw [ofEntries_entries]),
    runFullRounds_entries, ofEntries_entries, partialRounds]

/-- Inner packing loop, `poseidon/bn254.go:65-68` and `:81-88`: `Σ x_k (2^64)^k`. -/
def pack (l : List Fr) : Fr :=
  (l.zipIdx).foldl (fun acc xk => acc + xk.1 * (((2 ^ 64) ^ xk.2 : ℕ) : Fr)) 0

/-- The loop filling the rate part of the state from a chunk of at most nine inputs,
`poseidon/bn254.go:61-71`. -/
def setRate (s : State) (chunk : List Fr) : State := fun i =>
  if (i : ℕ) ≠ 0 ∧ 3 * ((i : ℕ) - 1) < chunk.length then pack ((chunk.drop (3 * (i - 1))).take 3) else s i

/-- Main loop of `HashNoPad`, `poseidon/bn254.go:58-74`: `i = 0, 9, 18, ...` while `i < len(input)`. -/
def absorbLoop (s : State) (input : List Fr) : State :=
  (List.range ((input.length + 8) / 9)).foldl
    (fun s i => poseidon (setRate s ((input.drop (9 * i)).take 9))) s

/-- `HashNoPad`, `poseidon/bn254.go:47-77`. -/
def hashNoPad (input : List Fr) : Fr := absorbLoop (fun _ => 0) input 0

/-- `HashOrNoop`, `poseidon/bn254.go:79-94`. -/
def hashOrNoop (input : List Fr) : Fr := if input.length ≤ 3 then pack input else hashNoPad input

/-- `TwoToOne`, `poseidon/bn254.go:96-104`. -/
def twoToOne (left right : Fr) : Fr := poseidon ![0, 0, left, right] 0

/-- `ToVec`, `poseidon/bn254.go:106-120` (`len(bits) = 254`, so the loop runs for `i = 0,56,112,168,224`). -/
def toVec (hash : Fr) : Circ (List Fr) := do
  let bits ← toBinary 254 hash
  pure (([0, 56, 112, 168, 224] : List ℕ).map fun i => fromBinary ((bits.drop i).take (min 254 (i + 56) - i)))

theorem poseidon_def (s : State) :
    poseidon s = fullRounds (partialRounds (fullRounds (ark s 0) true)) false := rfl

attribute [irreducible] poseidon hashNoPad hashOrNoop twoToOne

end Verif.PoseidonBN
