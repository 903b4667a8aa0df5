import Verif.Model.Tests
import Verif.Spec.TestVectors
import Verif.Spec.Testdata
import Verif.Proofs.EvaluateGates
import Verif.Proofs.PoseidonGLPerm
import Verif.Proofs.Gnark

/-!
# Values of the specifications on the repository's test vectors

Evaluated by the kernel.  The Poseidon permutation and the constraints of its gate are first brought into a form that keeps the
states in lists.
-/

set_option autoImplicit false

namespace Verif.TestVectors

open Spec Spec.Gates Spec.Gates.Poseidon

/-! ## Poseidon -/

/-- State with given entries. -/
def listState {R : Type} [Zero R] (l : List R) : Fin 12 → R := fun i => l.getD i 0

theorem listState_ofFn {R : Type} [Zero R] (s : Fin 12 → R) : listState (List.ofFn s) = s := by
  funext i
  rw [listState, List.getD_eq_getElem?_getD, List.getElem?_ofFn, dif_pos i.2]
  rfl

variable {R : Type} [CommRing R]

/-- Rounds on lists. -/
def runRounds (f : (Fin 12 → R) → ℕ → Fin 12 → R) (rs : List ℕ) (l : List R) : List R :=
  rs.foldl (fun l r => List.ofFn (f (listState l) r)) l

/-- The permutation on lists. -/
def runPoseidon (l : List R) : List R :=
  runRounds fullRound [26, 27, 28, 29] (runRounds partialRound (List.range' 4 22) (runRounds fullRound [0, 1, 2, 3] l))

theorem runRounds_ofFn (f : (Fin 12 → R) → ℕ → Fin 12 → R) (rs : List ℕ) (s : Fin 12 → R) :
    runRounds f rs (List.ofFn s) = List.ofFn (rs.foldl f s) := by
  induction rs generalizing s with
  | nil => rfl
  | cons a rs ih => rw [runRounds, List.foldl_cons, listState_ofFn, List.foldl_cons]; exact ih _

theorem runPoseidon_ofFn (s : Fin 12 → R) : runPoseidon (List.ofFn s) = List.ofFn (Spec.poseidon s) := by
  rw [runPoseidon, runRounds_ofFn, runRounds_ofFn, runRounds_ofFn, Spec.poseidon]

theorem poseidon_eq_of_run {s t : Fin 12 → R} (h : runPoseidon (List.ofFn s) = List.ofFn t) : Spec.poseidon s = t :=
  List.ofFn_injective ((runPoseidon_ofFn s).symm.trans h)

/-- Expected output for the zero state, `poseidon/goldilocks_test.go:48-53`. -/
def poseidonZero : Fin 12 → ℕ := ![4330397376401421145, 14124799381142128323, 8742572140681234676, 14345658006221440202,
  15524073338516903644, 5091405722150716653, 15002163819607624508, 2047012902665707362, 16106391063450633726,
  4680844749859802542, 15019775476387350140, 1698615465718385111]

set_option maxRecDepth 100000 in
theorem poseidon_zero : Spec.poseidon (fun _ => 0 : Fin 12 → Fp) = fun i => (poseidonZero i : Fp) :=
  poseidon_eq_of_run (by decide +kernel)

theorem hash_three (perm : (Fin 12 → R) → Fin 12 → R) (a b c : R) : Spec.hash perm [a, b, c] 4 =
    [perm (listState [a, b, c]) 0, perm (listState [a, b, c]) 1, perm (listState [a, b, c]) 2, perm (listState [a, b, c]) 3] := by
  have h : chunks [a, b, c] = [[a, b, c]] := by simp [chunks]
  have h1 : absorb perm (fun _ => 0) [[a, b, c]] = perm (listState [a, b, c]) := by
    simp only [absorb, List.foldl_cons, List.foldl_nil]
    congr 1
  rw [Spec.hash, h, h1]
  simp only [squeeze, List.range_succ, List.range_zero, List.nil_append, List.cons_append, List.map_cons, List.map_nil,
    Nat.reduceDiv, Nat.reduceMod, Function.iterate_zero, id]
  rfl

/-- Inputs and expected outputs, `poseidon/public_inputs_hash_test.go:53-54`. -/
def hashInput : List ℕ := [0, 1, 3736710860384812976]
def hashOutput : List ℕ := [8416658900775745054, 12574228347150446423, 9629056739760131473, 3119289788404190010]

set_option maxRecDepth 100000 in
theorem hash_input : Spec.hash Spec.poseidon (hashInput.map (Nat.cast : ℕ → Fp)) 4 = hashOutput.map (Nat.cast : ℕ → Fp) := by
  rw [hashInput, List.map_cons, List.map_cons, List.map_singleton, hash_three,
    ← listState_ofFn (Spec.poseidon _), ← runPoseidon_ofFn]
  decide +kernel

/-- Inputs and expected outputs, `poseidon/bn254_test.go:42-95`. -/
def poseidonBN : List ((Fin 4 → Fr) × (Fin 4 → Fr)) := [
  (![0, 0, 0, 0],
    ![5317387130258456662214331362918410991734007599705406860481038345552731150762,
      17768273200467269691696191901389126520069745877826494955630904743826040320364,
      19413739268543925182080121099097652227979760828059217876810647045303340666757,
      3717738800218482999400886888123026296874264026760636028937972004600663725187]),
  (![0, 1, 2, 3],
    ![6542985608222806190361240322586112750744169038454362455181422643027100751666,
      3478427836468552423396868478117894008061261013954248157992395910462939736589,
      1904980799580062506738911865015687096398867595589699208837816975692422464009,
      11971464497515232077059236682405357499403220967704831154657374522418385384151]),
  (![21888242871839275222246405745257275088548364400416034343698204186575808495616, 21888242871839275222246405745257275088548364400416034343698204186575808495616, 21888242871839275222246405745257275088548364400416034343698204186575808495616, 21888242871839275222246405745257275088548364400416034343698204186575808495616],
    ![13055670547682322550638362580666986963569035646873545133474324633020685301274,
      19087936485076376314486368416882351797015004625427655501762827988254486144933,
      10391468779200270580383536396630001155994223659670674913170907401637624483385,
      17202557688472898583549180366140168198092766974201433936205272956998081177816]),
  (![6542985608222806190361240322586112750744169038454362455181422643027100751666, 3478427836468552423396868478117894008061261013954248157992395910462939736589, 1904980799580062506738911865015687096398867595589699208837816975692422464009, 11971464497515232077059236682405357499403220967704831154657374522418385384151],
    ![21792249080447013894140672594027696524030291802493510986509431008224624594361,
      3536096706123550619294332177231935214243656967137545251021848527424156573335,
      14869351042206255711434675256184369368509719143073814271302931417334356905217,
      5027523131326906886284185656868809493297314443444919363729302983434650240523])]

theorem poseidonBN_of_entries {s t : Fin 4 → Fr} (h : PoseidonBN.entries (PoseidonBN.runPermutation s) = PoseidonBN.entries t) :
    PoseidonBN.poseidon s = t := by
  rw [PoseidonBN.poseidon_eq_runPermutation, ← PoseidonBN.ofEntries_entries (PoseidonBN.runPermutation s), h,
    PoseidonBN.ofEntries_entries]

set_option maxRecDepth 100000 in
theorem poseidonBN_eq1 : PoseidonBN.poseidon ![0, 0, 0, 0] = ![5317387130258456662214331362918410991734007599705406860481038345552731150762,
      17768273200467269691696191901389126520069745877826494955630904743826040320364,
      19413739268543925182080121099097652227979760828059217876810647045303340666757,
      3717738800218482999400886888123026296874264026760636028937972004600663725187] :=
  poseidonBN_of_entries (by decide +kernel)

set_option maxRecDepth 100000 in
theorem poseidonBN_eq2 : PoseidonBN.poseidon ![0, 1, 2, 3] = ![6542985608222806190361240322586112750744169038454362455181422643027100751666,
      3478427836468552423396868478117894008061261013954248157992395910462939736589,
      1904980799580062506738911865015687096398867595589699208837816975692422464009,
      11971464497515232077059236682405357499403220967704831154657374522418385384151] :=
  poseidonBN_of_entries (by decide +kernel)

set_option maxRecDepth 100000 in
theorem poseidonBN_eq3 : PoseidonBN.poseidon ![21888242871839275222246405745257275088548364400416034343698204186575808495616, 21888242871839275222246405745257275088548364400416034343698204186575808495616, 21888242871839275222246405745257275088548364400416034343698204186575808495616, 21888242871839275222246405745257275088548364400416034343698204186575808495616] = ![13055670547682322550638362580666986963569035646873545133474324633020685301274,
      19087936485076376314486368416882351797015004625427655501762827988254486144933,
      10391468779200270580383536396630001155994223659670674913170907401637624483385,
      17202557688472898583549180366140168198092766974201433936205272956998081177816] :=
  poseidonBN_of_entries (by decide +kernel)

set_option maxRecDepth 100000 in
theorem poseidonBN_eq4 : PoseidonBN.poseidon ![6542985608222806190361240322586112750744169038454362455181422643027100751666, 3478427836468552423396868478117894008061261013954248157992395910462939736589, 1904980799580062506738911865015687096398867595589699208837816975692422464009, 11971464497515232077059236682405357499403220967704831154657374522418385384151] = ![21792249080447013894140672594027696524030291802493510986509431008224624594361,
      3536096706123550619294332177231935214243656967137545251021848527424156573335,
      14869351042206255711434675256184369368509719143073814271302931417334356905217,
      5027523131326906886284185656868809493297314443444919363729302983434650240523] :=
  poseidonBN_of_entries (by decide +kernel)

theorem poseidonBN_eq : ∀ t ∈ poseidonBN, PoseidonBN.poseidon t.1 = t.2 := by
  simp only [poseidonBN, List.forall_mem_cons, List.not_mem_nil, false_imp_iff, implies_true, and_true]
  exact ⟨poseidonBN_eq1, poseidonBN_eq2, poseidonBN_eq3, poseidonBN_eq4⟩

/-! ## Gates -/

/-- The columns of `plonk/gates/gates_test.go:18-170`, without the selectors of the circuit in
`testdata/decode_block` (`:693-698`). -/
def vars : Gates.EvaluationVars Fp QE :=
  ⟨localConstants.drop Testdata.decodeBlock.selectorsInfo.groups.length, localWires, fun _ => 0⟩

/-- Gates and expected constraints, `plonk/gates/gates_test.go:727-760`. -/
def gateTests : List (Gates.Gate × List QE) := [
  (.publicInput, publicInput),
  (.baseSum 63 2, baseSum),
  (.arithmetic 20, arithmetic),
  (.randomAccess 4 4 2, randomAccess),
  (.poseidon, poseidon),
  (.arithmeticExtension 10, arithmeticExtension),
  (.mulExtension 13, mulExtension),
  (.reducingExtension 33, reducingExtension),
  (.reducing 44, reducing),
  (.cosetInterpolation 4 6 (weights.map (Nat.cast : ℕ → Fp)), cosetInterpolation),
  (.poseidonMds, poseidonMds)]

/-- One step of `Poseidon.wired` on lists. -/
def wiredStep (x : Row) (l : List QE) (r : ℕ) : List QE :=
  List.ofFn (Spec.mix fun i =>
    if r = 0 then (listState l i + (rc r i : QE)) ^ 7
    else if 4 ≤ r ∧ r < 26 ∧ i ≠ 0 then listState l i + (rc r i : QE)
    else x.w (sboxWire r i) ^ 7)

/-- `Poseidon.wired` on lists. -/
def wiredAt (x : Row) (n : ℕ) : List QE := (List.range n).foldl (wiredStep x) (List.ofFn (input x))

theorem wired_eq (x : Row) : wired x = fun n => listState (wiredAt x n) := by
  funext n
  induction n with
  | zero => exact (listState_ofFn _).symm
  | succ n ih =>
    rw [wired, ih, wiredAt, wiredAt, List.range_succ, List.foldl_append, List.foldl_cons, List.foldl_nil, wiredStep, listState_ofFn]

set_option maxRecDepth 100000 in
theorem poseidon_gate : constraints .poseidon vars.row = poseidon := by
  simp only [constraints, Spec.Gates.poseidon, diff, wired_eq]
  decide +kernel

theorem subgroupGen_four : subgroupGen 4 = (17293822564807737345 : Fp) := by
  have h : primitiveRootOfUnity 4 = some 17293822564807737345 := by decide +kernel
  exact Option.some.inj ((Gates.subgroupGen_eq (by norm_num)).symm.trans h)

set_option maxRecDepth 100000 in
theorem coset_gate :
    constraints (.cosetInterpolation 4 6 (weights.map (Nat.cast : ℕ → Fp))) vars.row = cosetInterpolation := by
  rw [constraints, subgroupGen_four]
  decide +kernel

set_option maxRecDepth 100000 in
theorem constraints_eq : ∀ t ∈ gateTests, constraints t.1 vars.row = t.2 := by
  simp only [gateTests, List.forall_mem_cons, List.not_mem_nil, false_imp_iff, implies_true, and_true]
  refine ⟨?_, ?_, ?_, ?_, poseidon_gate, ?_, ?_, ?_, ?_, coset_gate, ?_⟩ <;> decide +kernel

theorem fits : ∀ t ∈ gateTests, Fits vars.localConstants.length vars.localWires.length t.1 := by
  simp only [gateTests, List.forall_mem_cons, List.not_mem_nil, false_imp_iff, implies_true, and_true, Fits]
  decide +kernel

end Verif.TestVectors
