import Verif.Model.QuadExt
import Verif.Model.PoseidonGLConsts

/-!
# Model of `poseidon/goldilocks.go`

A `GoldilocksState` (Go array of 12 variables) is a function `Fin 12 → Fr`; a Go loop
`for i := 0; i < 12; i++ { state[i] = f(state[i]) }` is `tabM 12 (fun i => f (state i))`.  The guards
`if i < SPONGE_WIDTH` are always true.  Table reads are `getD`: all indices are within range
(table lengths are part of C23).

The permutation is parametrised by its S-box (`poseidonWith`); the code's permutation is
`poseidon = poseidonWith sBoxMonomial`.
-/

set_option autoImplicit false

namespace Verif.PoseidonGL

open Circ

/-- `GoldilocksState`, `poseidon/goldilocks.go:14`. -/
abbrev State := Fin 12 → Fr
/-- `GoldilocksStateExtension`, `poseidon/goldilocks.go:15`. -/
abbrev StateExt := Fin 12 → QEV

/-- `HALF_N_FULL_ROUNDS`, `poseidon/goldilocks.go:8`. -/
def HALF_N_FULL_ROUNDS : ℕ := 4
/-- `N_PARTIAL_ROUNDS`, `poseidon/goldilocks.go:9`. -/
def N_PARTIAL_ROUNDS : ℕ := 22
/-- `SPONGE_RATE`, `poseidon/goldilocks.go:11`. -/
def SPONGE_RATE : ℕ := 8

/-- `gl.NewVariable(TABLE[i])`. -/
def const1 (t : List ℕ) (i : ℕ) : Fr := ((t.getD i 0 : ℕ) : Fr)
/-- `gl.NewVariable(TABLE[i][j])`. -/
def const2 (t : List (List ℕ)) (i j : ℕ) : Fr := (((t.getD i []).getD j 0 : ℕ) : Fr)

/-- `constantLayer`, `poseidon/goldilocks.go:117-125`. -/
def constantLayer (state : State) (roundCounter : ℕ) : Circ State :=
  tabM 12 fun i => add (state i) (const1 ALL_ROUND_CONSTANTS (i + 12 * roundCounter))

/-- `ConstantLayerExtension`, `poseidon/goldilocks.go:127-136`. -/
def constantLayerExt (state : StateExt) (roundCounter : ℕ) : Circ StateExt :=
  tabM 12 fun i => addExt (state i) (const1 ALL_ROUND_CONSTANTS (i + 12 * roundCounter), 0)

/-- `sBoxMonomial`, `poseidon/goldilocks.go:138-145`. -/
def sBoxMonomial (x : Fr) : Circ Fr := do
  let x2 := mulNoReduce x x
  let x3 := mulNoReduce x x2
  let x3 ← reduceWithMaxBits x3 192
  let x6 := mulNoReduce x3 x3
  let x7 := mulNoReduce x x6
  reduceWithMaxBits x7 192

/-- `SBoxMonomialExtension`, `poseidon/goldilocks.go:147-152`. -/
def sBoxMonomialExt (x : QEV) : Circ QEV := do
  let x2 ← mulExt x x
  let x4 ← mulExt x2 x2
  let x3 ← mulExt x x2
  mulExt x4 x3

/-- `sBoxLayer`, `poseidon/goldilocks.go:154-161`. -/
def sBoxLayer (sbox : Fr → Circ Fr) (state : State) : Circ State := tabM 12 fun i => sbox (state i)

/-- `SBoxLayerExtension`, `poseidon/goldilocks.go:163-170`. -/
def sBoxLayerExt (state : StateExt) : Circ StateExt := tabM 12 fun i => sBoxMonomialExt (state i)

/-- `mdsRowShf`, `poseidon/goldilocks.go:172-183` (addition in `Fin 12` is `(i+r)%SPONGE_WIDTH`). -/
def mdsRowShf (r : Fin 12) (v : State) : Circ Fr := do
  let res := (List.finRange 12).foldl (fun res (i : Fin 12) =>
    mulAddNoReduce (v (i + r)) (const1 MDS_MATRIX_CIRC_VARS i) res) 0
  let res := mulAddNoReduce (v r) (const1 MDS_MATRIX_DIAG_VARS r) res
  reduce res

/-- `MdsRowShfExtension`, `poseidon/goldilocks.go:185-201`. -/
def mdsRowShfExt (r : Fin 12) (v : StateExt) : Circ QEV := do
  let res ← (List.finRange 12).foldlM (fun res (i : Fin 12) => do
    let res1 ← mulExt (v (i + r)) (const1 MDS_MATRIX_CIRC i, 0)
    addExt res res1) zeroExt
  let t ← mulExt (v r) (const1 MDS_MATRIX_DIAG r, 0)
  addExt res t

/-- `mdsLayer`, `poseidon/goldilocks.go:203-216`. -/
def mdsLayer (state : State) : Circ State := tabM 12 fun r => mdsRowShf r state

/-- `MdsLayerExtension`, `poseidon/goldilocks.go:218-229`. -/
def mdsLayerExt (state : StateExt) : Circ StateExt := tabM 12 fun r => mdsRowShfExt r state

/-- `partialFirstConstantLayer`, `poseidon/goldilocks.go:231-238`. -/
def partialFirstConstantLayer (state : State) : Circ State :=
  tabM 12 fun i => add (state i) (const1 FAST_PARTIAL_FIRST_ROUND_CONSTANT i)

/-- `PartialFirstConstantLayerExtension`, `poseidon/goldilocks.go:240-249`. -/
def partialFirstConstantLayerExt (state : StateExt) : Circ StateExt :=
  tabM 12 fun i => addExt (state i) (const1 FAST_PARTIAL_FIRST_ROUND_CONSTANT i, 0)

/-- `mdsPartialLayerInit`, `poseidon/goldilocks.go:251-275`.  The doubly nested accumulation is written
per output index `d` (each `result[d]` is updated only from itself, in the order of `r`);
Go's `state[r], r = 1..11` is `state r.succ, r : Fin 11`. -/
def mdsPartialLayerInit (state : State) : Circ State :=
  let result : State := Fin.cases (state 0) fun d : Fin 11 =>
    (List.finRange 11).foldl (fun acc (r : Fin 11) =>
      mulAddNoReduce (state r.succ) (const2 FAST_PARTIAL_ROUND_INITIAL_MATRIX r d) acc) 0
  tabM 12 fun i => reduce (result i)

/-- `MdsPartialLayerInitExtension`, `poseidon/goldilocks.go:277-298` (same reordering). -/
def mdsPartialLayerInitExt (state : StateExt) : Circ StateExt := do
  let rest ← tabM 11 fun d => (List.finRange 11).foldlM (fun acc (r : Fin 11) => do
    let t ← mulExt (state r.succ) (const2 FAST_PARTIAL_ROUND_INITIAL_MATRIX r d, 0)
    addExt acc t) zeroExt
  pure (Fin.cases (state 0) rest)

/-- `mdsPartialLayerFast`, `poseidon/goldilocks.go:300-331`. -/
def mdsPartialLayerFast (state : State) (r : ℕ) : Circ State := do
  let dSum := (List.finRange 11).foldl (fun acc (i : Fin 11) =>
    mulAddNoReduce (state i.succ) (const2 FAST_PARTIAL_ROUND_W_HATS_VARS r i) acc) 0
  let d := mulAddNoReduce (state 0) (MDS0TO0_VAR : Fr) dSum
  let d ← reduce d
  let result : State := Fin.cases d fun i : Fin 11 =>
    mulAddNoReduce (state 0) (const2 FAST_PARTIAL_ROUND_VS r i) (state i.succ)
  tabM 12 fun i => reduce (result i)

/-- `MdsPartialLayerFastExtension`, `poseidon/goldilocks.go:333-357`. -/
def mdsPartialLayerFastExt (state : StateExt) (r : ℕ) : Circ StateExt := do
  let d ← mulExt (state 0) ((MDS0TO0 : Fr), 0)
  let d ← (List.finRange 11).foldlM (fun d (i : Fin 11) => do
    let t ← mulExt (state i.succ) (const2 FAST_PARTIAL_ROUND_W_HATS r i, 0)
    addExt d t) d
  let rest ← tabM 11 fun i => do
    let t ← mulExt (state 0) (const2 FAST_PARTIAL_ROUND_VS r i, 0)
    addExt t (state i.succ)
  pure (Fin.cases d rest)

/-- `fullRounds`, `poseidon/goldilocks.go:92-100`, started with round counter `rc`. -/
def fullRounds (sbox : Fr → Circ Fr) (state : State) (rc : ℕ) : Circ State :=
  (List.range HALF_N_FULL_ROUNDS).foldlM (fun state i => do
    let state ← constantLayer state (rc + i)
    let state ← sBoxLayer sbox state
    mdsLayer state) state

/-- `partialRounds`, `poseidon/goldilocks.go:102-115`. -/
def partialRounds (sbox : Fr → Circ Fr) (state : State) : Circ State := do
  let state ← partialFirstConstantLayer state
  let state ← mdsPartialLayerInit state
  (List.range N_PARTIAL_ROUNDS).foldlM (fun state i => do
    let s0 ← sbox (state 0)
    let s0 ← add s0 (const1 FAST_PARTIAL_ROUND_CONSTANTS i)
    mdsPartialLayerFast (Function.update state 0 s0) i) state

/-- `Poseidon`, `poseidon/goldilocks.go:30-37`, for a given S-box. -/
def poseidonWith (sbox : Fr → Circ Fr) (input : State) : Circ State := do
  let state ← fullRounds sbox input 0
  let state ← partialRounds sbox state
  fullRounds sbox state (HALF_N_FULL_ROUNDS + N_PARTIAL_ROUNDS)

/-- `Poseidon`, `poseidon/goldilocks.go:30-37`. -/
def poseidon (input : State) : Circ State := poseidonWith sBoxMonomial input

/-- Overwrite the first `SPONGE_RATE` entries with a chunk of the input,
`poseidon/goldilocks.go:49-53`. -/
def overwrite {R : Type} (state : Fin 12 → R) (chunk : List R) : Fin 12 → R :=
  fun j => if h : (j : ℕ) < chunk.length ∧ (j : ℕ) < 8 then chunk[(j : ℕ)]'h.1 else state j

/-- The absorbing loop of `HashNToMNoPad`, `poseidon/goldilocks.go:48-55`. -/
def absorbLoop (perm : State → Circ State) (state : State) (input : List Fr) : Circ State :=
  match input with
  | [] => pure state
  | x :: xs => do
    let state ← perm (overwrite state ((x :: xs).take SPONGE_RATE))
    absorbLoop perm state ((x :: xs).drop SPONGE_RATE)
termination_by input.length
decreasing_by simp [SPONGE_RATE]

/-- The squeezing loop, `poseidon/goldilocks.go:59-67`, for a positive number `n` of outputs still
to be produced: outputs are appended one by one and the function returns as soon as `nbOutputs` are there.
(`nbOutputs = 0` makes the Go loop run forever; see `hashNToMNoPad`.) -/
def squeezeLoop (perm : State → Circ State) (state : State) (n : ℕ) : Circ (List Fr) :=
  if _h : n ≤ SPONGE_RATE then pure ((List.ofFn state).take n)
  else do
    let out := (List.ofFn state).take SPONGE_RATE
    let state ← perm state
    let rest ← squeezeLoop perm state (n - SPONGE_RATE)
    pure (out ++ rest)
termination_by n
decreasing_by simp [SPONGE_RATE] at *; omega

/-- `HashNToMNoPad`, `poseidon/goldilocks.go:41-68`.  With `nbOutputs = 0` the test
`len(outputs) == nbOutputs` never succeeds and the Go code does not terminate; this is represented by
a panic. -/
def hashNToMNoPadWith (perm : State → Circ State) (input : List Fr) (nbOutputs : ℕ) :
    Circ (List Fr) :=
  if nbOutputs = 0 then goPanic "HashNToMNoPad: does not terminate"
  else do
    let state ← absorbLoop perm (fun _ => 0) input
    squeezeLoop perm state nbOutputs

/-- `HashNoPad`, `poseidon/goldilocks.go:72-86`. -/
def hashNoPadWith (perm : State → Circ State) (input : List Fr) : Circ (Fin 4 → Fr) := do
  let inputVars ← input.mapM reduce
  let outputVars ← hashNToMNoPadWith perm inputVars 4
  pure fun i => outputVars.getD i 0

/-- `HashNToMNoPad` with the code's permutation. -/
def hashNToMNoPad (input : List Fr) (nbOutputs : ℕ) : Circ (List Fr) :=
  hashNToMNoPadWith poseidon input nbOutputs

/-- `HashNoPad` with the code's permutation. -/
def hashNoPad (input : List Fr) : Circ (Fin 4 → Fr) := hashNoPadWith poseidon input

end Verif.PoseidonGL
