import Verif.Model.PoseidonGL
import Verif.Model.PoseidonBN
import Verif.Model.Types

/-!
# Model of `challenger/challenger.go`

The chip is a mutable record; methods are `StateT Chip Circ` actions.  Everything is parametrised by the Goldilocks
permutation `perm` (`c.poseidonChip.Poseidon`); the code's permutation is `PoseidonGL.poseidon`.
Slices are lists; `Model/Slices.lean` has the buffers as slices, with the same result (C82).
-/

set_option autoImplicit false

namespace Verif.Challenger

open Circ PoseidonGL

/-- `Chip`, `challenger/challenger.go:14-21`. -/
structure Chip where
  spongeState : State
  inputBuffer : List Fr
  outputBuffer : List Fr

/-- A method with a `*Chip` receiver. -/
abbrev ChipM := StateT Chip Circ

/-- `NewChip`, `challenger/challenger.go:23-40`. -/
def newChip : Chip := ⟨fun _ => 0, [], []⟩

variable (perm : State → Circ State)

/-- `duplexing`, `challenger/challenger.go:146-166`. -/
def duplexing : ChipM Unit := fun c =>
  if c.inputBuffer.length > SPONGE_RATE then goPanic "something went wrong"
  else do
    let inp ← c.inputBuffer.mapM reduce
    let st ← perm (overwrite c.spongeState inp)
    pure ((), ⟨st, [], (List.ofFn st).take SPONGE_RATE⟩)

/-- `ObserveElement`, `challenger/challenger.go:42-49`. -/
def observeElement (x : Fr) : ChipM Unit := fun c =>
  let c : Chip := ⟨c.spongeState, c.inputBuffer ++ [x], []⟩
  if c.inputBuffer.length = SPONGE_RATE then duplexing perm c else pure ((), c)

/-- `ObserveElements`, `challenger/challenger.go:51-55`. -/
def observeElements (l : List Fr) : ChipM Unit := l.forM (observeElement perm)

/-- `ObserveHash`, `challenger/challenger.go:57-60` (`ToVec`, `poseidon/goldilocks.go:88-90`, lists the array). -/
def observeHash (h : Fin 4 → Fr) : ChipM Unit := observeElements perm (List.ofFn h)

/-- `ObserveBN254Hash`, `challenger/challenger.go:62-65`. -/
def observeBN254Hash (h : Fr) : ChipM Unit := do
  let v ← StateT.lift (PoseidonBN.toVec h)
  observeElements perm v

/-- `ObserveCap`, `challenger/challenger.go:67-71`. -/
def observeCap (cap : List Fr) : ChipM Unit := cap.forM (observeBN254Hash perm)

/-- `ObserveExtensionElement`, `challenger/challenger.go:73-75`. -/
def observeExtensionElement (e : QEV) : ChipM Unit := observeElements perm [e.1, e.2]

/-- `ObserveExtensionElements`, `challenger/challenger.go:77-81`. -/
def observeExtensionElements (l : List QEV) : ChipM Unit := l.forM (observeExtensionElement perm)

/-- `ObserveOpenings`, `challenger/challenger.go:83-87`; the openings are given by the values of their batches. -/
def observeOpenings (o : List (List QEV)) : ChipM Unit := o.forM (observeExtensionElements perm)

/-- `GetChallenge`, `challenger/challenger.go:89-98`. -/
def getChallenge : ChipM Fr := fun c => do
  let c ← (if c.inputBuffer.length ≠ 0 ∨ c.outputBuffer.length = 0 then do
      let r ← duplexing perm c
      pure r.2
    else pure c)
  match c.outputBuffer.getLast? with
  | none => goPanic "index out of range"
  | some x => pure (x, ⟨c.spongeState, c.inputBuffer, c.outputBuffer.dropLast⟩)

/-- `GetNChallenges`, `challenger/challenger.go:100-106`. -/
def getNChallenges (n : ℕ) : ChipM (List Fr) := (List.range n).mapM fun _ => getChallenge perm

/-- `GetExtensionChallenge`, `challenger/challenger.go:108-111`. -/
def getExtensionChallenge : ChipM QEV := do
  let v ← getNChallenges perm 2
  match v with
  | [a, b] => pure (a, b)
  | _ => fun _ => goPanic "index out of range"

/-- `GetHash`, `challenger/challenger.go:113-115` (Go evaluates the four calls in order). -/
def getHash : ChipM (Fin 4 → Fr) := do
  let a ← getChallenge perm
  let b ← getChallenge perm
  let c ← getChallenge perm
  let d ← getChallenge perm
  pure ![a, b, c, d]

/-- One commit-phase cap and its challenge, `challenger/challenger.go:128-129`. -/
def capBeta (cap : List Fr) : ChipM QEV := do
  observeCap perm cap
  getExtensionChallenge perm

/-- `GetFriChallenges`, `challenger/challenger.go:117-144`. -/
def getFriChallenges (caps : List (List Fr)) (finalPoly : List QEV) (powWitness : Fr) (config : FriConfig) :
    ChipM (FriChallenges Fr QEV) := do
  let alpha ← getExtensionChallenge perm
  let betas ← caps.mapM (capBeta perm)
  observeExtensionElements perm finalPoly
  observeElement perm powWitness
  let pow ← getChallenge perm
  let idx ← getNChallenges perm config.numQueryRounds
  pure ⟨alpha, betas, pow, idx⟩

end Verif.Challenger
