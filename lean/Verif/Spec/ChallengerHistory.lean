import Verif.Model.Challenger
import Verif.Spec.Challenger

/-!
# Histories of calls of the challenger

`Op.exec` runs a call on the model; `Op.operands`, `Op.results` and `Op.events` say what it means for the sponge.
-/

set_option autoImplicit false

namespace Verif

open Circ PoseidonGL Spec Challenger

/-- A call of a public method of the challenger. -/
inductive Op
  | observeElement (x : Fr)
  | observeElements (l : List Fr)
  | observeHash (h : Fin 4 → Fr)
  | observeBN254Hash (x : Fr)
  | observeCap (cap : List Fr)
  | observeExtensionElement (e : QEV)
  | observeExtensionElements (l : List QEV)
  | observeOpenings (o : List (List QEV))
  | getChallenge
  | getNChallenges (n : ℕ)
  | getExtensionChallenge
  | getHash

/-- Execution of a call; the result lists the returned elements. -/
def Op.exec (perm : State → Circ State) : Op → ChipM (List Fr)
  | observeElement x => do Challenger.observeElement perm x; pure []
  | observeElements l => do Challenger.observeElements perm l; pure []
  | observeHash h => do Challenger.observeHash perm h; pure []
  | observeBN254Hash x => do Challenger.observeBN254Hash perm x; pure []
  | observeCap cap => do Challenger.observeCap perm cap; pure []
  | observeExtensionElement e => do Challenger.observeExtensionElement perm e; pure []
  | observeExtensionElements l => do Challenger.observeExtensionElements perm l; pure []
  | observeOpenings o => do Challenger.observeOpenings perm o; pure []
  | getChallenge => do let x ← Challenger.getChallenge perm; pure [x]
  | getNChallenges n => Challenger.getNChallenges perm n
  | getExtensionChallenge => do let e ← Challenger.getExtensionChallenge perm; pure [e.1, e.2]
  | getHash => do let h ← Challenger.getHash perm; pure [h 0, h 1, h 2, h 3]

/-- The elements observed by a call. -/
def Op.operands : Op → List Fr
  | observeElement x => [x]
  | observeElements l => l
  | observeHash h => [h 0, h 1, h 2, h 3]
  | observeBN254Hash x => limbs x
  | observeCap cap => cap.flatMap limbs
  | observeExtensionElement e => [e.1, e.2]
  | observeExtensionElements l => l.flatMap fun e => [e.1, e.2]
  | observeOpenings o => o.flatten.flatMap fun e => [e.1, e.2]
  | _ => []

/-- The number of elements returned by a call. -/
def Op.results : Op → ℕ
  | getChallenge => 1
  | getNChallenges n => n
  | getExtensionChallenge => 2
  | getHash => 4
  | _ => 0

/-- Sponge events of a call. -/
def Op.events (op : Op) : List Ev := absorbs op.operands ++ squeezes op.results

/-- Execution of a history. -/
def execAll (perm : State → Circ State) : List Op → ChipM (List Fr)
  | [] => pure []
  | op :: ops => do
    let l ← op.exec perm
    let l' ← execAll perm ops
    pure (l ++ l')

end Verif
