import Verif.Model.Fri
import Verif.Spec.Fri
import Verif.Proofs.Assert
import Verif.Proofs.Merkle
import Verif.Proofs.Roots
import Verif.Proofs.QuadExt

/-!
# FRI: query point, final polynomial, batched quotient
-/

set_option autoImplicit false

namespace Verif

open Circ

theorem bitF_eq (b : Bool) : bitF b = emb (if b then 1 else 0) := by cases b <;> simp [bitF]

theorem den_orPanic_some {α : Type} (m : String) (a : α) : den (orPanic m (some a)) = pure a := den_pure a

theorem den_orPanic_none {α : Type} (m : String) : den (orPanic m (none : Option α)) = Den.fail := den_panic _

namespace Fri

open Spec.Fri

theorem basePowMinusOne_eq {b : Fp} (hb : b ≠ 0) : basePowMinusOne b = emb (b - 1) := by
  have h1 : 1 ≤ b.val := Nat.one_le_iff_ne_zero.2 (by rw [Ne, ZMod.val_eq_zero]; exact hb)
  have h2 : b.val < p := ZMod.val_lt b
  have hp : p < 2 ^ 64 := by norm_num [p]
  have h3 : (1 : Fp).val = 1 := by
    have : ((1 : ℕ) : Fp).val = 1 := ZMod.val_natCast_of_lt (by norm_num [p])
    simpa using this
  have h4 : (b - 1).val = b.val - 1 := by rw [ZMod.val_sub (by rw [h3]; exact h1), h3]
  rw [basePowMinusOne, emb_eq, h4]
  refine congrArg Nat.cast ?_
  omega

/-- The exponents of `base` do not wrap, or do not matter. -/
def NoWrap (base : Fp) (n : ℕ) : Prop := n ≤ 63 ∨ base ^ 2 ^ 32 = 1

theorem basePow_eq (b : Fp) {i : ℕ} (h : NoWrap b (i + 1)) : basePow b i = b ^ 2 ^ i := by
  rw [basePow]
  split_ifs with h1 h2
  · rfl
  · subst h2
    have h := h.resolve_left (by omega)
    rw [show 2 ^ 63 = 2 ^ 32 * 2 ^ 31 by norm_num, pow_mul, pow_mul, inv_pow, h, inv_one]
  · have h0 := h.resolve_left (by omega)
    obtain ⟨k, rfl⟩ : ∃ k, i = 32 + k := ⟨i - 32, by omega⟩
    rw [pow_add 2, pow_mul, h0, one_pow, pow_zero]

theorem NoWrap.mono {b : Fp} {m n : ℕ} (h : NoWrap b n) (hm : m ≤ n) : NoWrap b m := h.imp (fun h => hm.trans h) id

theorem den_exp_loop {base : Fp} (hb : base ≠ 0) (bits : List Bool) (k : ℕ) (a : Fp) (hk : NoWrap base (k + bits.length)) :
    (((bits.map bitF).zipIdx k).foldlM (fun product bi => den (do
      let m ← mul (basePowMinusOne (basePow base bi.2)) product
      let m ← mul m bi.1
      add m product)) (emb a)) = pure (emb (a * base ^ (2 ^ k * bitsVal bits))) := by
  induction bits generalizing k a with
  | nil => simp [bitsVal]
  | cons b bits ih =>
    rw [List.length_cons] at hk
    have hk' : NoWrap base (k + 1) := hk.mono (by omega)
    rw [List.map_cons, List.zipIdx_cons, List.foldlM_cons, den_bind,
      basePowMinusOne_eq (by rw [basePow_eq base hk']; exact pow_ne_zero _ hb), den_mul, pure_bind, den_bind,
      bitF_eq, den_mul, pure_bind, den_add, pure_bind, ih (k + 1) _ (hk.mono (by omega)), basePow_eq base hk']
    refine congrArg pure (congrArg emb ?_)
    rw [bitsVal, mul_add, pow_add base, show 2 ^ k * (2 * bitsVal bits) = 2 ^ (k + 1) * bitsVal bits by
      rw [pow_succ, mul_assoc]]
    cases b
    · simp
    · simp only [if_true, Bool.toNat_true, mul_one]; ring

theorem den_expFromBits' {base : Fp} (hb : base ≠ 0) (bits : List Bool) (hl : NoWrap base bits.length) :
    den (expFromBitsConstBase base (bits.map bitF)) = pure (emb (base ^ bitsVal bits)) := by
  have h := den_exp_loop hb bits 0 1 (by rwa [Nat.zero_add])
  rw [emb_one, pow_zero, one_mul, one_mul] at h
  rw [expFromBitsConstBase, den_foldlM]
  exact h

theorem den_expFromBits {base : Fp} (hb : base ≠ 0) (bits : List Bool) (hl : bits.length ≤ 63) :
    den (expFromBitsConstBase base (bits.map bitF)) = pure (emb (base ^ bitsVal bits)) :=
  den_expFromBits' hb bits (Or.inl hl)

theorem primitiveRoot_eq {n : ℕ} (h : n ≤ 32) : primitiveRootOfUnity n = some (omega n) := by
  rw [primitiveRootOfUnity, if_neg (by simp [TWO_ADICITY]; omega), squareTimes_eq]
  rfl

theorem primitiveRoot_none {n : ℕ} (h : 32 < n) : primitiveRootOfUnity n = none := by
  rw [primitiveRootOfUnity, if_pos (by simpa [TWO_ADICITY] using h)]

theorem orderOf_omega {n : ℕ} (h : n ≤ 32) : orderOf (omega n) = 2 ^ n := by
  obtain ⟨g, h1, h2⟩ := primitiveRoot_order h
  rw [primitiveRoot_eq h, Option.some.injEq] at h1
  rw [h1, h2]

theorem omega_ne_zero (n : ℕ) : omega n ≠ 0 := by
  apply pow_ne_zero
  have := orderOf_generator
  intro h
  rw [show POWER_OF_TWO_GENERATOR = (0 : Fp) from h, orderOf_zero] at this
  norm_num at this

theorem omega_noWrap {n : ℕ} (h : n ≤ 32) (m : ℕ) : NoWrap (omega n) m := by
  right
  have h1 : 2 ^ 32 = 2 ^ n * 2 ^ (32 - n) := by rw [← pow_add]; congr 1; omega
  rw [h1, pow_mul, ← orderOf_omega h, pow_orderOf_eq_one, one_pow]

theorem den_calculateSubgroupX (bits : List Bool) {n : ℕ} (hn : n ≤ 32) :
    den (calculateSubgroupX (bits.map bitF) n) = pure (emb (queryPoint n bits)) := by
  rw [calculateSubgroupX, den_bind, primitiveRoot_eq hn, den_orPanic_some, pure_bind, den_bind, ← List.map_reverse,
    den_expFromBits' (omega_ne_zero n) _ (omega_noWrap hn _), pure_bind, den_mul]
  rfl

theorem queryPoint_ne_zero (n : ℕ) (bits : List Bool) : queryPoint n bits ≠ 0 :=
  mul_ne_zero (by decide +kernel) (pow_ne_zero _ (omega_ne_zero n))

theorem den_finalPolyEval (coeffs : List QE) (x : QE) :
    den (finalPolyEval (coeffs.map embQ) (embQ x)) = pure (embQ (evalPoly coeffs x)) := by
  have h := den_reduceWithPowers coeffs x
  rw [reduceWithPowers] at h
  rw [finalPolyEval]
  exact h

/-! ## Batched quotient -/

theorem den_combineBatch (initial : List (FriEvalProof Fp)) (α x s : QE) (b : BatchInfo QE) (y : QE)
    (hp : ∀ q ∈ b.polynomials, ∃ e, initial[q.oracleIndex]? = some e ∧ q.polynomialInfo < e.elements.length) :
    den (combineBatch (initial.map FriEvalProof.enc) (embQ α) (embQ x) (embQ s) (b.enc, embQ y)) =
      if x = b.point then Den.fail else pure (embQ (α ^ b.polynomials.length * s +
        (evalPoly (b.polynomials.map (opened initial)) α - y) / (x - b.point))) := by
  have h1 : (b.polynomials.mapM fun polynomial => den (do
      let ep ← idx (initial.map FriEvalProof.enc) polynomial.oracleIndex
      let e ← idx ep.elements polynomial.polynomialInfo
      pure ((e, 0) : QEV))) = pure ((b.polynomials.map (opened initial)).map embQ) := by
    rw [List.map_map]
    apply Den.mapM_pure_of
    intro q hq
    obtain ⟨e, he, hl⟩ := hp q hq
    rw [den_bind, den_idx_some (x := e.enc) (by rw [List.getElem?_map, he]; rfl), pure_bind, den_bind,
      den_idx_some (x := emb e.elements[q.polynomialInfo])
        (by simp only [FriEvalProof.enc]; rw [List.getElem?_map, List.getElem?_eq_getElem hl]; rfl),
      pure_bind, den_pure, emb_pair_zero]
    refine congrArg pure (congrArg embQ ?_)
    simp only [opened]
    rw [List.getD_eq_getElem?_getD (l := initial), he, Option.getD_some, List.getD_eq_getElem _ _ hl]
  rw [combineBatch, den_bind]
  simp only [den_mapM, BatchInfo.enc]
  rw [h1, pure_bind, den_bind, den_reduceWithPowers, pure_bind, den_bind, den_subExt, pure_bind, den_bind,
    den_expExt, pure_bind, den_bind, den_mulExt, pure_bind, den_bind, den_inverseExt]
  by_cases hx : x = b.point
  · rw [if_pos hx, if_pos (by rw [hx, sub_self]), Den.fail_bind]
  · rw [if_neg hx, if_neg (sub_ne_zero.2 hx), pure_bind, den_bind, den_assertEq, Den.guard_true rfl, pure_bind,
      den_mulAddExt_subNoReduce]
    refine congrArg pure (congrArg embQ ?_)
    simp only [evalPoly, div_eq_mul_inv, List.length_map]
    rw [add_comm]

theorem den_combineLoop (initial : List (FriEvalProof Fp)) (α x : QE) (l : List (BatchInfo QE × QE)) (s : QE)
    (hp : ∀ b ∈ l, ∀ q ∈ b.1.polynomials,
      ∃ e, initial[q.oracleIndex]? = some e ∧ q.polynomialInfo < e.elements.length) :
    den ((l.map fun b => (b.1.enc, embQ b.2)).foldlM
      (combineBatch (initial.map FriEvalProof.enc) (embQ α) (embQ x)) (embQ s)) =
      Den.assert (∀ b ∈ l, x ≠ b.1.point) >>= fun _ => pure (embQ (α ^ (l.map fun b => b.1.polynomials.length).sum * s +
        combine α x (l.map fun b => ⟨b.1.point, b.1.polynomials.map (opened initial), b.2⟩))) := by
  induction l generalizing s with
  | nil => rw [Den.assert_true (by simp)]; simp [combine]
  | cons b l ih =>
    rw [List.map_cons, List.foldlM_cons, den_bind, den_combineBatch initial α x s b.1 b.2 (hp b (by simp))]
    by_cases hx : x = b.1.point
    · rw [if_pos hx, Den.fail_bind, Den.assert_false (by simp [hx]), Den.fail_bind]
    · rw [if_neg hx, pure_bind, ih _ (fun b hb => hp b (by simp [hb])),
        Den.assert_congr (Q := ∀ b' ∈ b :: l, x ≠ b'.1.point) (by simp [hx])]
      refine congrArg _ (funext fun _ => congrArg pure (congrArg embQ ?_))
      simp only [List.map_cons, combine, List.map_map, Function.comp_def, List.length_map, List.sum_cons, pow_add]
      ring

theorem den_friCombineInitial (inst : InstanceInfo QE) (initial : List (FriEvalProof Fp)) (α x : QE) (y : List QE)
    (hl : inst.batches.length = y.length)
    (hp : ∀ b ∈ inst.batches, ∀ q ∈ b.polynomials,
      ∃ e, initial[q.oracleIndex]? = some e ∧ q.polynomialInfo < e.elements.length) :
    den (friCombineInitial inst.enc (initial.map FriEvalProof.enc) (embQ α) (embQ x) (y.map embQ)) =
      Den.assert (∀ b ∈ inst.batches, x ≠ b.point) >>= fun _ =>
        pure (embQ (combine α x (roundBatches inst initial y))) := by
  rw [friCombineInitial, if_neg (by simpa [InstanceInfo.enc] using hl), InstanceInfo.enc]
  have hz : (inst.batches.map BatchInfo.enc).zip (y.map embQ) =
      (inst.batches.zip y).map fun b => (b.1.enc, embQ b.2) := by
    rw [List.zip_map]; rfl
  simp only
  rw [hz, zeroExt_eq, den_combineLoop initial α x _ 0 fun b hb => hp b.1 (List.of_mem_zip hb).1]
  have hg : (∀ b ∈ inst.batches.zip y, x ≠ b.1.point) ↔ ∀ b ∈ inst.batches, x ≠ b.point := by
    constructor
    · intro h b hb
      have hm : inst.batches = (inst.batches.zip y).map Prod.fst := by rw [List.map_fst_zip hl.le]
      rw [hm, List.mem_map] at hb
      obtain ⟨c, hc, rfl⟩ := hb
      exact h c hc
    · intro h b hb
      exact h b.1 (List.of_mem_zip hb).1
  rw [Den.assert_congr hg]
  simp only [mul_zero, zero_add]
  rfl

end Fri
end Verif
