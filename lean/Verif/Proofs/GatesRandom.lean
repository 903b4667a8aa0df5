import Verif.Proofs.Gates

/-!
# RandomAccessGate
-/

set_option autoImplicit false

namespace Verif

open Circ

namespace Spec.Gates

variable {R : Type} [CommRing R]

theorem sum_range_two_mul (f : ℕ → R) (n : ℕ) :
    ∑ j ∈ Finset.range (2 * n), f j = ∑ k ∈ Finset.range n, (f (2 * k) + f (2 * k + 1)) := by
  induction n with
  | zero => simp
  | succ n ih =>
    rw [show 2 * (n + 1) = 2 * n + 1 + 1 by ring, Finset.sum_range_succ, Finset.sum_range_succ, ih,
      Finset.sum_range_succ]
    ring

theorem multilinear_succ (b : ℕ) (v β : ℕ → R) :
    multilinear (b + 1) v β =
      multilinear b (fun j => v (2 * j) + β 0 * (v (2 * j + 1) - v (2 * j))) (fun i => β (i + 1)) := by
  rw [multilinear, pow_succ, mul_comm, sum_range_two_mul, multilinear]
  refine Finset.sum_congr rfl fun k _ => ?_
  rw [Finset.prod_range_succ', Finset.prod_range_succ']
  have h0 : (2 * k).testBit 0 = false := by simp [Nat.testBit_zero]
  have h1 : (2 * k + 1).testBit 0 = true := by simp [Nat.testBit_zero]
  have h2 : ∀ i, (2 * k).testBit (i + 1) = k.testBit i := fun i => by
    rw [Nat.testBit_add_one, show 2 * k / 2 = k by omega]
  have h3 : ∀ i, (2 * k + 1).testBit (i + 1) = k.testBit i := fun i => by
    rw [Nat.testBit_add_one, show (2 * k + 1) / 2 = k by omega]
  simp only [h0, h1, h2, h3, if_true, Bool.false_eq_true, if_false]
  ring

/-- At a boolean point the multilinear extension is the table entry. -/
theorem multilinear_bits (b : ℕ) (v β : ℕ → R) (n : ℕ) (hn : n < 2 ^ b)
    (h : ∀ i < b, β i = if n.testBit i then 1 else 0) : multilinear b v β = v n := by
  rw [multilinear, Finset.sum_eq_single n]
  · rw [Finset.prod_eq_one, mul_one]
    intro i hi
    rw [h i (Finset.mem_range.1 hi)]
    cases n.testBit i <;> simp
  · intro j hj hne
    rw [Finset.mem_range] at hj
    obtain ⟨i, hi⟩ : ∃ i, j.testBit i ≠ n.testBit i := by
      by_contra hc
      push Not at hc
      exact hne (Nat.eq_of_testBit_eq hc)
    have hib : i < b := by
      by_contra hc
      have hp : 2 ^ b ≤ 2 ^ i := Nat.pow_le_pow_right (by norm_num) (by omega)
      rw [Nat.testBit_lt_two_pow (by omega), Nat.testBit_lt_two_pow (by omega)] at hi
      exact hi rfl
    rw [Finset.prod_eq_zero (Finset.mem_range.2 hib), mul_zero]
    rw [h i hib]
    revert hi
    cases j.testBit i <;> cases n.testBit i <;> simp
  · intro hc
    exact (hc (Finset.mem_range.2 hn)).elim

end Spec.Gates

namespace Gates

open Spec.Gates (Row coords multilinear raBit)

theorem den_foldPairs (b : QE) (f : ℕ → QE) (m : ℕ) :
    den (foldPairs (embQ b) (((List.range (2 * m)).map f).map embQ)) =
      pure (((List.range m).map fun j => f (2 * j) + b * (f (2 * j + 1) - f (2 * j))).map embQ) := by
  induction m generalizing f with
  | zero => exact den_pure _
  | succ m ih =>
    have h1 : (List.range (2 * (m + 1))).map f = f 0 :: f 1 :: (List.range (2 * m)).map fun j => f (j + 2) := by
      rw [show 2 * (m + 1) = 2 * m + 1 + 1 by ring, List.range_succ_eq_map, List.range_succ_eq_map]
      simp [Function.comp_def]
    rw [h1, List.map_cons, List.map_cons, foldPairs]
    simp only [den_bind, den_subExt, den_mulExt, den_addExt, pure_bind, ih, den_pure]
    rw [List.range_succ_eq_map (n := m), List.map_cons, List.map_cons, List.map_map, List.map_map, List.map_map]
    rfl

theorem den_foldBits (b : ℕ) (β v : ℕ → QE) :
    den ((((List.range b).map β).map embQ).foldlM (fun l b => foldPairs b l)
      (((List.range (2 ^ b)).map v).map embQ)) = pure [embQ (multilinear b v β)] := by
  induction b generalizing β v with
  | zero => simp [multilinear]
  | succ b ih =>
    rw [List.range_succ_eq_map, List.map_cons, List.map_cons, List.foldlM_cons, den_bind, pow_succ, mul_comm,
      den_foldPairs, pure_bind, List.map_map (l := List.range b), ih, Spec.Gates.multilinear_succ]
    rfl

variable {v : EvaluationVars Fp QE}

theorem shl1_of_lt {b : ℕ} (h : b < 64) : shl1 b = 2 ^ b := if_pos h

theorem den_randomAccessCopy {b copies extra k : ℕ} (hb : b < 64) (hk : k < copies)
    (hw : (2 + 2 ^ b) * copies + extra + copies * b ≤ v.localWires.length) :
    den (randomAccessCopy b copies extra v.enc k) = pure ((
      (List.range b).map (fun i => v.row.w (raBit b copies extra k i) ^ 2 - v.row.w (raBit b copies extra k i)) ++
      [∑ i ∈ Finset.range b, v.row.w (raBit b copies extra k i) * 2 ^ i - v.row.w ((2 + 2 ^ b) * k),
       multilinear b (fun j => v.row.w ((2 + 2 ^ b) * k + 2 + j)) (fun i => v.row.w (raBit b copies extra k i))
         - v.row.w ((2 + 2 ^ b) * k + 1)]).map embQ) := by
  have hk1 : (2 + 2 ^ b) * k + (2 + 2 ^ b) ≤ (2 + 2 ^ b) * copies := by
    rw [← Nat.mul_succ]; exact Nat.mul_le_mul_left _ hk
  have hk2 : k * b + b ≤ copies * b := by rw [← Nat.succ_mul]; exact Nat.mul_le_mul_right _ hk
  have h2 : (((2 : ℕ) : Fr), (0 : Fr)) = embQ 2 := natExt (n := 2) (by norm_num [p])
  rw [randomAccessCopy, shl1_of_lt hb, raStartExtra, shl1_of_lt hb]
  generalize hN : (2 + 2 ^ b) * copies = N at hw hk1 ⊢
  generalize hK : (2 + 2 ^ b) * k = K at hk1 ⊢
  have hpos : 0 < 2 ^ b := Nat.two_pow_pos b
  have hbit : ∀ i, N + extra + k * b + i = raBit b copies extra k i := fun i => by rw [raBit, hN]
  simp only [den_bind]
  rw [den_wire (by omega), pure_bind, den_mapRange (g := fun i => v.row.w (K + 2 + i))
    (fun i hi => den_wire (by omega)), pure_bind, den_wire (by omega), pure_bind,
    den_mapRange (g := fun i => v.row.w (raBit b copies extra k i)) (fun i hi => by rw [← hbit i]; exact den_wire (by omega)),
    pure_bind, den_mapM, List.map_map, List.mapM_map, Den.mapM_pure_of (g := fun i =>
      embQ (v.row.w (raBit b copies extra k i) ^ 2 - v.row.w (raBit b copies extra k i)))
      (fun i _ => by
        simp only [Function.comp_def, den_bind, den_mulExt, pure_bind, den_subExt, pow_two]), pure_bind, h2,
    ← List.map_map, den_powers, pure_bind, den_subExt, pure_bind, den_foldBits, pure_bind, den_bind, den_subExt,
    pure_bind, den_pure]
  simp
  rfl

theorem den_randomAccess {b copies extra : ℕ} (hb : b < 64) (hc : extra ≤ v.localConstants.length)
    (hw : (2 + 2 ^ b) * copies + extra + copies * b ≤ v.localWires.length) :
    den (randomAccess b copies extra v.enc) = pure ((Spec.Gates.randomAccess b copies extra v.row).map embQ) := by
  rw [randomAccess, den_bind, den_collect (fun k hk => den_randomAccessCopy hb hk hw), pure_bind, den_bind,
    den_mapRange (g := fun i => v.row.c i - v.row.w ((2 + 2 ^ b) * copies + i)), pure_bind, den_pure,
    ← List.map_append]
  · rfl
  · intro i hi
    rw [raStartExtra, shl1_of_lt hb]
    generalize (2 + 2 ^ b) * copies = N at hw ⊢
    simp (disch := omega) only [den_bind, den_const, den_wire, den_subExt, pure_bind]

theorem sat_mapM_mem {σ β : Type} {f : σ → Circ β} {l : List σ} {ys : List β} (h : Sat (l.mapM f) ys) {x : σ}
    (hx : x ∈ l) : ∃ y, Sat (f x) y := by
  induction l generalizing ys with
  | nil => simp at hx
  | cons a l ih =>
    rw [List.mapM_cons, sat_bind] at h
    obtain ⟨y, h1, h2⟩ := h
    rcases List.mem_cons.1 hx with rfl | hx
    · exact ⟨y, h1⟩
    · rw [sat_bind] at h2
      obtain ⟨ys', h3, _⟩ := h2
      exact ih h3 hx

theorem foldPairs_nil (l : List QEV) (ys : List QEV)
    (h : Sat (l.foldlM (fun l b => foldPairs b l) ([] : List QEV)) ys) : ys = [] := by
  induction l with
  | nil => exact (sat_pure _ _).1 h
  | cons a l ih =>
    rw [List.foldlM_cons, foldPairs, pure_bind] at h
    exact ih h

/-- `2^bits` does not fit in `uint64`: compilation aborts as soon as there is a copy. -/
theorem randomAccess_too_wide {b copies extra : ℕ} (hb : 64 ≤ b) (hc : copies ≠ 0) (v : Vars) :
    Unsat (randomAccess b copies extra v) := by
  intro y h
  rw [randomAccess, sat_bind] at h
  obtain ⟨cs, h, _⟩ := h
  rw [collect, sat_bind] at h
  obtain ⟨cs', h, _⟩ := h
  obtain ⟨y, h⟩ := sat_mapM_mem h (List.mem_range.2 (Nat.pos_of_ne_zero hc))
  have h0 : shl1 b = 0 := if_neg (by omega)
  rw [randomAccessCopy, h0] at h
  simp only [List.range_zero, List.mapM_nil, pure_bind, sat_bind] at h
  obtain ⟨_, _, _, _, _, _, _, _, _, _, _, _, l, h1, h2⟩ := h
  rw [foldPairs_nil _ _ h1] at h2
  exact Panics.not_sat (c := goPanic "listItems(len) != 1") trivial _ h2

end Gates

end Verif
