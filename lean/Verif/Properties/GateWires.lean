import Verif.Proofs.GateWires
import Verif.Proofs.EvaluateGates

/-!
# Property C78: the inputs of a gate determine its other wires

`Spec/GateWires.lean` says which wires of a gate are inputs and what is asked of them.  The constraints that the code
evaluates are then the graph of a function: they can be met for all admissible inputs, and in one way only.  So no
two wires with different roles share an index, no constraint is missing, and none is contradictory.
-/

set_option autoImplicit false

namespace Verif

open Circ Spec.Gates
open Gates (EvaluationVars Gate)

/-- Every constraint returned by the circuit code for the gate is zero. -/
def GateHolds (g : Gate) (v : EvaluationVars Fp QE) : Prop :=
  ∃ y, Computes (g.evalUnfiltered v.enc) y ∧ ∀ q ∈ y, q = (0, 0)

theorem gateHolds_iff {g : Gate} {v : EvaluationVars Fp QE} (h : Fits v.localConstants.length v.localWires.length g) :
    GateHolds g v ↔ Vanish (constraints g v.row) := by
  have hc := (den_eq_pure_iff _ _).1 (Gates.den_evalUnfiltered h)
  have hz : (∀ q ∈ (constraints g v.row).map embQ, q = (0, 0)) ↔ Vanish (constraints g v.row) := by
    rw [List.forall_mem_map]
    refine forall₂_congr fun q _ => ?_
    rw [show ((0, 0) : QEV) = embQ 0 by simp [embQ], embQ_inj]
  rw [← hz]
  constructor
  · rintro ⟨y, hy, h0⟩
    obtain rfl : y = (constraints g v.row).map embQ := Option.some_injective _ (hy.2.symm.trans hc.2)
    exact h0
  · exact fun h0 => ⟨_, hc, h0⟩

/-- **C78** Given the constants, the public-input hash and the wires of a row with admissible inputs of the gate, there
is exactly one way of changing the other wires of the gate so that the constraints computed by the circuit are zero. -/
theorem C78_functional {g : Gate} {v : EvaluationVars Fp QE} (hg : Fits v.localConstants.length v.localWires.length g)
    (hx : Admissible g v.row) :
    ∃! ws : List QE, ws.length = v.localWires.length ∧
      (∀ i, Input g i ∨ width g ≤ i → ws.getD i 0 = v.localWires.getD i 0) ∧ GateHolds g { v with localWires := ws } := by
  have hwidth : width g ≤ v.localWires.length := by
    cases g <;> simp only [Fits, width] at hg ⊢ <;> omega
  have key : ∀ ws : List QE, ws.length = v.localWires.length → (GateHolds g { v with localWires := ws } ↔
      Vanish (constraints g { v.row with w := fun i => ws.getD i 0 })) := fun ws h => by
    rw [gateHolds_iff (by rw [h]; exact hg)]; rfl
  obtain ⟨w, ⟨h1, h2⟩, h3⟩ := functional hg hx
  have hw : ∀ i, (List.ofFn fun i : Fin v.localWires.length => w i).getD i 0 = w i := fun i => by
    by_cases hi : i < v.localWires.length
    · rw [List.getD_eq_getElem _ _ (by rwa [List.length_ofFn]), List.getElem_ofFn]
    · rw [List.getD_eq_default _ _ (by rw [List.length_ofFn]; omega), h1 i (.inr (by omega))]
      exact (List.getD_eq_default _ _ (by omega)).symm
  refine ⟨List.ofFn fun i : Fin v.localWires.length => w i, ⟨List.length_ofFn, fun i hi => ?_, ?_⟩, ?_⟩
  · rw [hw, h1 i hi]; rfl
  · rw [key _ List.length_ofFn, funext hw]
    exact h2
  · rintro ws ⟨hl, hin, hh⟩
    have := h3 (fun i => ws.getD i 0) ⟨fun i hi => hin i hi, (key ws hl).1 hh⟩
    refine List.ext_getElem (by rw [hl, List.length_ofFn]) fun i h4 h5 => ?_
    rw [List.getElem_ofFn, ← List.getD_eq_getElem _ 0 h4]
    exact congrFun this i

/-- **C78** The conditions on sums, indices and swap flags are necessary: the constraints imply them. -/
theorem C78_necessary {g : Gate} {v : EvaluationVars Fp QE} (hg : Fits v.localConstants.length v.localWires.length g)
    (h : GateHolds g v) (hb : ∀ n B, g = .baseSum n B → B ^ n ≤ p)
    (hc : ∀ b d wt, g = .cosetInterpolation b d wt → v.row.w 0 ≠ 0)
    (hr : g ≠ .reducing 0 ∧ g ≠ .reducingExtension 0) : Admissible g v.row := by
  rw [gateHolds_iff hg] at h
  cases g with
  | baseSum n B =>
    refine ⟨hb n B rfl, ?_⟩
    rw [constraints, vanish_baseSum] at h
    have h2 : ∀ i, ∃ k : ℕ, i < n → k < B ∧ v.row.w (1 + i) = (k : QE) := fun i => by
      by_cases hi : i < n
      · obtain ⟨k, hk⟩ := h.2 i hi
        exact ⟨k, fun _ => hk⟩
      · exact ⟨0, fun h => absurd h hi⟩
    choose k hk using h2
    refine ⟨_, sum_lt n fun i hi => (hk i hi).1, ?_⟩
    rw [h.1, Nat.cast_sum]
    refine Finset.sum_congr rfl fun i hi => ?_
    rw [(hk i (Finset.mem_range.1 hi)).2, Nat.cast_mul, Nat.cast_pow]
  | cosetInterpolation b d wt => exact hc b d wt rfl
  | poseidon => exact (Poseidon.vanish_iff.1 h).1
  | randomAccess b c e =>
    intro k hk
    obtain ⟨m, hm, e, -⟩ := (vanish_randomAccess.1 h).1 k hk
    exact ⟨m, hm, e⟩
  | reducing n => exact fun hn => hr.1 (by rw [hn])
  | reducingExtension n => exact fun hn => hr.2 (by rw [hn])
  | _ => trivial

/-- **C78** When the base sum can wrap around, the digits are not determined by the sum: with 64 bits, zero is also the sum
of the bits of `p`. -/
theorem C78_ambiguous : ∃ ws ws' : List QE, ws.length = 65 ∧ ws'.length = 65 ∧ ws.getD 0 0 = ws'.getD 0 0 ∧ ws ≠ ws' ∧
    ∀ u ∈ [ws, ws'], GateHolds (.baseSum 64 2) ⟨[], u, fun _ => 0⟩ := by
  refine ⟨List.replicate 65 0, 0 :: (List.range 64).map fun i => if p.testBit i then 1 else 0, by decide, by decide, rfl,
    fun h => absurd (congrArg (fun l => l.getD 1 0) h) (by decide +kernel), fun u hu => ?_⟩
  have hl : u.length = 65 := by
    rw [List.mem_pair] at hu
    rcases hu with rfl | rfl <;> decide
  have hf : Fits ([] : List QE).length u.length (.baseSum 64 2) := ⟨by norm_num [p], by rw [hl]⟩
  rw [gateHolds_iff hf, constraints, vanish_baseSum]
  rw [List.mem_pair] at hu
  constructor
  · rcases hu with rfl | rfl <;> decide +kernel
  · have h : ∀ i < 64, u.getD (1 + i) 0 = ((0 : ℕ) : QE) ∨ u.getD (1 + i) 0 = ((1 : ℕ) : QE) := by
      rcases hu with rfl | rfl <;> decide +kernel
    intro i hi
    rcases h i hi with h | h
    · exact ⟨0, by norm_num, h⟩
    · exact ⟨1, by norm_num, h⟩

/-- The conditions are met for any wires of an arithmetic gate, and the completion is the one with the right output. -/
example : Fits 2 4 (.arithmetic 1) ∧ Admissible (.arithmetic 1) (EvaluationVars.row ⟨[1, 1], [2, 3, 4, 0], fun _ => 0⟩) ∧
    GateHolds (.arithmetic 1) ⟨[1, 1], [2, 3, 4, 10], fun _ => 0⟩ := by
  refine ⟨⟨le_rfl, le_rfl⟩, trivial, ?_⟩
  have hf : Fits ([1, 1] : List QE).length ([2, 3, 4, 10] : List QE).length (.arithmetic 1) := ⟨le_rfl, le_rfl⟩
  rw [gateHolds_iff hf, constraints, vanish_arithmetic]
  intro i hi
  obtain rfl : i = 0 := by omega
  norm_num [EvaluationVars.row]

/-- A random access with index 2 among four items, and a Poseidon gate with a swap, have admissible inputs. -/
example : Fits 0 10 (.randomAccess 2 1 0) ∧
    Admissible (.randomAccess 2 1 0) (EvaluationVars.row ⟨[], [2, 0, 5, 6, 7, 8, 0, 0, 0, 0], fun _ => 0⟩) ∧
    Fits 0 135 .poseidon ∧
    Admissible .poseidon (EvaluationVars.row ⟨[], List.replicate 24 5 ++ 1 :: List.replicate 110 0, fun _ => 0⟩) := by
  refine ⟨by norm_num [Fits], fun k hk => ⟨2, by norm_num, ?_⟩, le_rfl, .inr (by decide +kernel)⟩
  obtain rfl : k = 0 := by omega
  rfl

end Verif
