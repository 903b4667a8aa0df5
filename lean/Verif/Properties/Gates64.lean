import Verif.Proofs.Gates64All

/-!
# C84: 64-bit gate parameters and wire numbers

Go computes wire numbers in `uint64`, where sums and products wrap around.  `maxLen` is the length beyond which `make` panics,
at most `2^58` for slices of extension elements of 32 bytes; no slice is longer.
-/

set_option autoImplicit false

namespace Verif

open Circ Gates Spec.Gates

/-- **C84** For all parameters, a gate evaluates without panic exactly when there are enough constants and wires for its
exact (not wrapped around) parameters and the parameters are possible. -/
theorem C84_gate {maxLen : ℕ} (hL : maxLen ≤ 2 ^ 58) (g : Gates64.Gate) {v : Vars}
    (hc : v.localConstants.length ≤ maxLen) (hw : v.localWires.length ≤ maxLen) :
    Generates (g.evalUnfiltered maxLen v) (Runs v.localConstants.length v.localWires.length g.toNat) := by
  have h := GateSizes.generates g.toNat v
  rcases Gates64.Gate.agree g hc hw hL with e | ⟨h1, h2⟩
  · rw [e]; exact h
  · exact ⟨fun hr => absurd h2 (h.1 hr).not_panics, fun _ => h1⟩

/-- **C84** When it evaluates, it is the same program, reading the same wires, as with unbounded integers. -/
theorem C84_same {maxLen : ℕ} (hL : maxLen ≤ 2 ^ 58) (g : Gates64.Gate) {v : Vars}
    (hc : v.localConstants.length ≤ maxLen) (hw : v.localWires.length ≤ maxLen)
    (h : Runs v.localConstants.length v.localWires.length g.toNat) :
    g.evalUnfiltered maxLen v = g.toNat.evalUnfiltered v :=
  (Gates64.Gate.agree g hc hw hL).resolve_right fun hp => ((GateSizes.generates g.toNat v).1 h).not_panics hp.2

/-- **C84** All gates of a circuit: exactly when they are evaluated without panic. -/
theorem C84_all {maxLen : ℕ} (hL : maxLen ≤ 2 ^ 58) (gates : List Gates64.Gate) (m : ℕ) (si : SelectorsInfo) {v : Vars}
    (hc : v.localConstants.length ≤ maxLen) (hw : v.localWires.length ≤ maxLen) :
    Generates (Gates64.evaluateGateConstraints maxLen gates m si v)
      (∀ gi ∈ gates.zipIdx, GateRuns si v.localConstants.length v.localWires.length m gi.1.toNat gi.2) := by
  have h := GateSizes.generates_all (gates.map Gates64.Gate.toNat) m si v
  have hq : (∀ gi ∈ (gates.map Gates64.Gate.toNat).zipIdx,
      GateRuns si v.localConstants.length v.localWires.length m gi.1 gi.2) ↔
      ∀ gi ∈ gates.zipIdx, GateRuns si v.localConstants.length v.localWires.length m gi.1.toNat gi.2 := by
    rw [Gates64.zipIdx_map]
    simp only [List.mem_map, forall_exists_index, and_imp, forall_apply_eq_imp_iff₂]
  rw [hq] at h
  rcases Gates64.evaluateGateConstraints_agree gates m si hc hw hL with e | ⟨h1, h2⟩
  · rw [e]; exact h
  · exact ⟨fun hr => absurd h2 (h.1 hr).not_panics, fun _ => h1⟩

/-- **C84** All gates of a circuit: the same program as with unbounded integers, or both panic. -/
theorem C84_all_same {maxLen : ℕ} (hL : maxLen ≤ 2 ^ 58) (gates : List Gates64.Gate) (m : ℕ) (si : SelectorsInfo)
    {v : Vars} (hc : v.localConstants.length ≤ maxLen) (hw : v.localWires.length ≤ maxLen) :
    Gates64.evaluateGateConstraints maxLen gates m si v =
        Gates.evaluateGateConstraints (gates.map Gates64.Gate.toNat) m si v ∨
      Panics (Gates64.evaluateGateConstraints maxLen gates m si v) ∧
        Panics (Gates.evaluateGateConstraints (gates.map Gates64.Gate.toNat) m si v) :=
  Gates64.evaluateGateConstraints_agree gates m si hc hw hL

/-- **C84** Every gate read from an identifier, whatever the string and the iteration order, has 64-bit parameters. -/
theorem C84_read {order : List Handler} (ho : order.Perm gateRegexHandlers) {id : List Char} {g : Gate}
    (h : gateInstanceFromId order id = some g) : ∃ u : Gates64.Gate, u.toNat = g :=
  Gates64.instance_u64 ho.subset h

/-! ## Cases -/

/-- Openings with `nc` constants and `nw` wires. -/
private def vars (nc nw : ℕ) : Vars := ⟨List.replicate nc (0, 0), List.replicate nw (0, 0), fun _ => 0⟩

private theorem vars_constants (nc nw : ℕ) : (vars nc nw).localConstants.length = nc := by simp [vars]

private theorem vars_wires (nc nw : ℕ) : (vars nc nw).localWires.length = nw := by simp [vars]

/-- An interpolation gate on 16 points, of degree 6. -/
private def coset : Gates64.Gate := .cosetInterpolation ⟨4, 6, List.replicate 16 1⟩

/-- It runs on the 47 wires it needs. -/
example : NoPanic (coset.evalUnfiltered 100 (vars 0 47)) :=
  (C84_gate (by norm_num) _ (by simp [vars_constants]) (by simp [vars_wires])).1 (by
    rw [vars_constants, vars_wires]
    exact ⟨by decide, by decide, by decide, by decide, by decide⟩)

/-- With one wire less it panics. -/
example : Panics (coset.evalUnfiltered 100 (vars 0 46)) :=
  (C84_gate (by norm_num) _ (by simp [vars_constants]) (by simp [vars_wires])).2 (by
    rw [vars_constants, vars_wires]
    exact fun h => absurd h.2.2.2.2 (by decide))

/-- A gate whose number of wires `4 * 2^62` is 0 in 64 bits. -/
private def wide : Gates64.Gate := .arithmetic 4611686018427387904

private theorem wide_toNat : wide.toNat = .arithmetic 4611686018427387904 := by
  simp only [wide, Gates64.Gate.toNat]; rfl

attribute [local irreducible] wide

/-- It does not pass. -/
example : Panics (wide.evalUnfiltered 100 (vars 2 100)) :=
  (C84_gate (by norm_num) wide (by simp [vars_constants]) (by simp [vars_wires])).2 (by
    rw [vars_constants, vars_wires, wide_toNat]
    simp only [Runs]
    norm_num)

/-- Two gates, two selector groups. -/
example : NoPanic (Gates64.evaluateGateConstraints 100 [.noop, coset] 12 ⟨[0, 1], [(0, 1), (1, 2)]⟩ (vars 2 47)) :=
  (C84_all (by norm_num) _ _ _ (by simp [vars_constants]) (by simp [vars_wires])).1 (by
    rw [vars_constants, vars_wires]
    intro gi h
    simp only [List.zipIdx_cons, List.zipIdx_nil, List.mem_cons, List.not_mem_nil, or_false] at h
    rcases h with rfl | rfl
    · exact ⟨by decide, by decide, by decide, trivial, fun x => by rw [length_constraints]; decide⟩
    · exact ⟨by decide, by decide, by decide, ⟨by decide, by decide, by decide, by decide, by decide⟩,
        fun x => by rw [length_constraints]; decide⟩)

/-- Reading two wires by a range of words: other widths panic; a range whose end has not passed `2^64` gives its two wires, or
panics where they do not exist; with an end that has passed `2^64` nothing is read and the result is zero. -/
theorem C84_range (v : Vars) (r : Gates64.Range) :
    (r.stop - r.start ≠ 2 → Panics (Gates64.getLocalExtAlgebra v r)) ∧
    (r.stop - r.start = 2 → r.start.toNat + 2 < 2 ^ 64 → Gates64.getLocalExtAlgebra v r = do
      let a ← idx v.localWires r.start.toNat
      let b ← idx v.localWires (r.start.toNat + 1)
      pure (a, b)) ∧
    (r.stop - r.start = 2 → 2 ^ 64 ≤ r.start.toNat + 2 → Gates64.getLocalExtAlgebra v r = pure zeroAlg) := by
  have e : r.stop - r.start = 2 → r.stop.toNat = (r.start.toNat + 2) % 2 ^ 64 := fun h => by
    rw [show r.stop = r.start + 2 by rw [← h, UInt64.add_comm, UInt64.sub_add_cancel], UInt64.toNat_add]; rfl
  have hs := r.start.toNat_lt
  refine ⟨fun h => ?_, fun h hr => ?_, fun h hr => ?_⟩
  · rw [Gates64.getLocalExtAlgebra, if_pos h]
    trivial
  · have h1 : r.start < r.stop := UInt64.lt_iff_toNat_lt.2 (by rw [e h]; omega)
    rw [Gates64.getLocalExtAlgebra, if_neg (not_not.2 h), if_pos h1]
    have h2 : (r.start + 1).toNat = r.start.toNat + 1 := by
      rw [UInt64.toNat_add, show (1 : UInt64).toNat = 1 from rfl]; omega
    simp only [Gates64.at_, h2]
  · have h1 : ¬ r.start < r.stop := fun h' => by
      have := UInt64.lt_iff_toNat_lt.1 h'
      rw [e h] at this
      omega
    rw [Gates64.getLocalExtAlgebra, if_neg (not_not.2 h), if_neg h1]

example : Panics (Gates64.getLocalExtAlgebra (vars 2 100) ⟨3, 4⟩) := (C84_range _ _).1 (by decide)

example : Gates64.getLocalExtAlgebra (vars 2 100) ⟨18446744073709551615, 1⟩ = pure zeroAlg :=
  (C84_range _ _).2.2 (by decide) (by decide)

end Verif
