import Verif.Model.PoseidonGL

/-!
# The loops of `HashNToMNoPad`, statement by statement

`Model/PoseidonGL.lean` has the loops in the form used by the other theorems: chunks of the input, and as many elements of the
states as are asked for.  Here they are as written, with the number of outputs a Go `int` and a bound on the iterations of the
endless loop.
-/

set_option autoImplicit false

namespace Verif.PoseidonGL

open Circ

/-- The inner loop `for j := 0; j < SPONGE_RATE; j++ { if i+j < len(input) { state[j] = input[i+j] } }`,
`poseidon/goldilocks.go:49-53`. -/
def setLoop (input : List Fr) (i : ℕ) (state : State) : State :=
  (List.finRange 8).foldl (fun state (j : Fin 8) =>
    if h : i + (j : ℕ) < input.length then Function.update state (j.castLE (by norm_num)) input[i + (j : ℕ)] else state) state

/-- `for i := 0; i < len(input); i += SPONGE_RATE { ... }`, `poseidon/goldilocks.go:48-55`, from index `i` on. -/
def absorbFrom (perm : State → Circ State) (input : List Fr) (i : ℕ) (state : State) : Circ State :=
  if i < input.length then do
    let state ← perm (setLoop input i state)
    absorbFrom perm input (i + SPONGE_RATE) state
  else pure state
termination_by input.length - i
decreasing_by simp only [SPONGE_RATE]; omega

/-- How the inner loop over the elements of a state ends. -/
inductive Flow where
  /-- `return outputs`. -/
  | returned (outputs : List Fr)
  /-- All elements are appended. -/
  | ended (outputs : List Fr)

/-- The inner loop `for i := 0; i < SPONGE_RATE; i++ { outputs = append(outputs, state[i]); if len(outputs) == nbOutputs {
return outputs } }`, `poseidon/goldilocks.go:60-65`; the first argument are the elements still to be appended. -/
def appendLoop (nbOutputs : ℤ) : List Fr → List Fr → Flow
  | [], outputs => .ended outputs
  | x :: xs, outputs =>
    let outputs := outputs ++ [x]
    if (outputs.length : ℤ) = nbOutputs then .returned outputs else appendLoop nbOutputs xs outputs

/-- The endless loop, `poseidon/goldilocks.go:59-67`, for at most `fuel` iterations; `none` if it is still running then. -/
def squeezeFrom (perm : State → Circ State) (nbOutputs : ℤ) : ℕ → State → List Fr → Circ (Option (List Fr))
  | 0, _, _ => pure none
  | fuel + 1, state, outputs =>
    match appendLoop nbOutputs ((List.ofFn state).take SPONGE_RATE) outputs with
    | .returned outputs => pure (some outputs)
    | .ended outputs => do
      let state ← perm state
      squeezeFrom perm nbOutputs fuel state outputs

/-- `HashNToMNoPad`, `poseidon/goldilocks.go:41-68`, with at most `fuel` iterations of the endless loop. -/
def hashLoops (perm : State → Circ State) (fuel : ℕ) (input : List Fr) (nbOutputs : ℤ) : Circ (Option (List Fr)) := do
  let state ← absorbFrom perm input 0 (fun _ => 0)
  squeezeFrom perm nbOutputs fuel state []

end Verif.PoseidonGL
