import Verif.Model.Fri
import Verif.Model.Challenger
import Verif.Model.Deserialize
import Verif.Model.EvaluateGates

/-!
# Go slices

The other models use lists for slices.  Here the code whose slices share memory is written with slices as in Go: a slice is a
window of an array; `append` writes into the array behind the window if its capacity suffices and otherwise allocates a new array,
with as much spare capacity as the runtime likes.  A heap holds the arrays and, for the allocations to come, the spare
capacity they get; the theorems are for all such choices.
-/

set_option autoImplicit false

namespace Verif.Go

open Circ

/-- A slice: `len` elements of the array `arr` from `off` on, with capacity `cap`. -/
structure Slice where
  arr : ℕ
  off : ℕ
  len : ℕ
  cap : ℕ

/-- The arrays, and the spare capacities of the allocations to come. -/
structure Heap (α : Type) where
  arrays : List (List α)
  grow : List ℕ

variable {α : Type}

/-- Contents of an array. -/
def Heap.get (h : Heap α) (a : ℕ) : List α := h.arrays.getD a []

/-- Elements of a slice. -/
def Heap.read (h : Heap α) (s : Slice) : List α := ((h.get s.arr).drop s.off).take s.len

/-- The nil slice, also `[]T{}` and `make([]T, 0)`. -/
def nil : Slice := ⟨0, 0, 0, 0⟩

/-- Copies `xs` into an array at position `i`. -/
def splice (l : List α) (i : ℕ) (xs : List α) : List α := l.take i ++ xs ++ l.drop (i + xs.length)

/-- `append(s, xs...)`. -/
def append [Zero α] (s : Slice) (xs : List α) : StateM (Heap α) Slice := fun h =>
  if s.len + xs.length ≤ s.cap then
    (⟨s.arr, s.off, s.len + xs.length, s.cap⟩,
      ⟨h.arrays.set s.arr (splice (h.get s.arr) (s.off + s.len) xs), h.grow⟩)
  else
    (⟨h.arrays.length, 0, s.len + xs.length, s.len + xs.length + h.grow.headD 0⟩,
      ⟨h.arrays ++ [h.read s ++ xs ++ List.replicate (h.grow.headD 0) 0], h.grow.tail⟩)

/-- `append(s, t...)` for a slice `t`. -/
def appendSlice [Zero α] (s t : Slice) : StateM (Heap α) Slice := fun h => append s (h.read t) h

/-- `var out []T; for ... { out = append(out, x) }`. -/
def build [Zero α] (l : List α) : StateM (Heap α) Slice := l.foldlM (fun out x => append out [x]) nil

/-- `OpeningSet`, `variables/circuit.go`, with its slices. -/
structure Openings where
  constants : Slice
  plonkSigmas : Slice
  wires : Slice
  plonkZs : Slice
  plonkZsNext : Slice
  partialProducts : Slice
  quotientPolys : Slice

/-- The openings as lists. -/
def Openings.read (h : Heap α) (c : Openings) : OpeningSet α :=
  ⟨h.read c.constants, h.read c.plonkSigmas, h.read c.wires, h.read c.plonkZs, h.read c.plonkZsNext,
    h.read c.partialProducts, h.read c.quotientPolys⟩

/-- `ToOpenings`, `fri/fri.go:63-73`: the slices of the two batches. -/
def toOpenings [Zero α] (c : Openings) : StateM (Heap α) (List Slice) := do
  let values := c.constants
  let values ← appendSlice values c.plonkSigmas
  let values ← appendSlice values c.wires
  let values ← appendSlice values c.plonkZs
  let values ← appendSlice values c.partialProducts
  let values ← appendSlice values c.quotientPolys
  pure [values, c.plonkZsNext]

/-- `DeserializeOpeningSet`, `variables/deserialize.go:33-52` with `Uint64ArrayToQuadraticExtensionArray`,
`goldilocks/utils.go:40-46`, on lists of elements (the conversion of the elements is in `Model/Deserialize.lean`). -/
def deserializeOpeningSet [Zero α] (raw : OpeningSet α) : StateM (Heap α) Openings := do
  let constants ← build raw.constants
  let plonkSigmas ← build raw.plonkSigmas
  let wires ← build raw.wires
  let plonkZs ← build raw.plonkZs
  let plonkZsNext ← build raw.plonkZsNext
  let partialProducts ← build raw.partialProducts
  let quotientPolys ← build raw.quotientPolys
  pure ⟨constants, plonkSigmas, wires, plonkZs, plonkZsNext, partialProducts, quotientPolys⟩

/-! ## `plonk/gates/evaluate_gates.go` -/

/-- `s[i] = x`. -/
def write (s : Slice) (i : ℕ) (x : α) (h : Heap α) : Heap α :=
  ⟨h.arrays.set s.arr ((h.get s.arr).set (s.off + i) x), h.grow⟩

/-- `for i := range s { s[i] = glApi.MulExtension(s[i], filter) }`, `plonk/gates/evaluate_gates.go:71-73`. -/
def scaleFrom (filter : QEV) (s : Slice) : ℕ → ℕ → Heap QEV → Circ (Heap QEV)
  | _, 0, h => pure h
  | i, n + 1, h => do
    let x ← idx (h.read s) i
    let y ← mulExt x filter
    scaleFrom filter s (i + 1) n (write s i y h)

/-- `evalFiltered`, `plonk/gates/evaluate_gates.go:57-75`: the constants and wires are slices; `EvalUnfiltered` of each gate
reads them and appends its constraints one by one to a new slice, which is then changed in place. -/
def evalFiltered (gate : Gates.Gate) (constants wires : Slice) (hash : Fin 4 → Fr) (row selectorIndex : ℕ)
    (groupRange : ℕ × ℕ) (numSelectors : ℕ) (h : Heap QEV) : Circ (Slice × Heap QEV) := do
  let s ← idx (h.read constants) selectorIndex
  let filter ← Gates.computeFilter row groupRange s (decide (numSelectors > 1))
  let vars ← (⟨h.read constants, h.read wires, hash⟩ : Gates.Vars).removePrefix numSelectors
  let cs ← gate.evalUnfiltered vars
  let r := build cs h
  let h ← scaleFrom filter r.1 0 r.1.len r.2
  pure (r.1, h)

/-! ## `challenger/challenger.go` -/

/-- `Chip`, `challenger/challenger.go:14-21`, with its slices. -/
structure Chip where
  spongeState : PoseidonGL.State
  inputBuffer : Slice
  outputBuffer : Slice

/-- A method of the chip. -/
abbrev ChipM := StateT (Chip × Heap Fr) Circ

/-- `NewChip`, `challenger/challenger.go:23-40`. -/
def newChip : Chip := ⟨fun _ => 0, nil, nil⟩

variable (perm : PoseidonGL.State → Circ PoseidonGL.State)

/-- `duplexing`, `challenger/challenger.go:146-166`. -/
def duplexing : ChipM Unit := fun c =>
  if c.1.inputBuffer.len > PoseidonGL.SPONGE_RATE then goPanic "something went wrong"
  else do
    let inp ← (c.2.read c.1.inputBuffer).mapM reduce
    let st ← perm (PoseidonGL.overwrite c.1.spongeState inp)
    let r := build ((List.ofFn st).take PoseidonGL.SPONGE_RATE) c.2
    pure ((), ⟨st, nil, r.1⟩, r.2)

/-- `ObserveElement`, `challenger/challenger.go:42-49`. -/
def observeElement (x : Fr) : ChipM Unit := fun c =>
  let r := append c.1.inputBuffer [x] c.2
  let c : Chip × Heap Fr := (⟨c.1.spongeState, r.1, nil⟩, r.2)
  if c.1.inputBuffer.len = PoseidonGL.SPONGE_RATE then duplexing perm c else pure ((), c)

/-- Loop of `ObserveElements`, `challenger/challenger.go:51-55`: element `i` is read when it is observed. -/
def observeFrom (elements : Slice) : ℕ → ℕ → ChipM Unit
  | _, 0 => pure ()
  | i, n + 1 => fun c => do
    let x ← idx (c.2.read elements) i
    let r ← observeElement perm x c
    observeFrom elements (i + 1) n r.2

/-- `ObserveElements`, `challenger/challenger.go:51-55`. -/
def observeElements (elements : Slice) : ChipM Unit := observeFrom perm elements 0 elements.len

/-- `GetChallenge`, `challenger/challenger.go:89-98`. -/
def getChallenge : ChipM Fr := fun c => do
  let c ← (if c.1.inputBuffer.len ≠ 0 ∨ c.1.outputBuffer.len = 0 then do
      let r ← duplexing perm c
      pure r.2
    else pure c)
  match (c.2.read c.1.outputBuffer)[c.1.outputBuffer.len - 1]? with
  | none => goPanic "index out of range"
  | some x => pure (x, ⟨c.1.spongeState, c.1.inputBuffer,
      ⟨c.1.outputBuffer.arr, c.1.outputBuffer.off, c.1.outputBuffer.len - 1, c.1.outputBuffer.cap⟩⟩, c.2)

end Verif.Go
