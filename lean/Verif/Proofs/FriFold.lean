import Verif.Proofs.FriPoint

/-!
# FRI: `interpolate` and `computeEvaluation`
-/

set_option autoImplicit false

namespace Verif.Fri

open Circ Spec.Fri

/-! ## Bits -/

theorem bitsVal_lt (l : List Bool) : bitsVal l < 2 ^ l.length := by
  induction l with
  | nil => simp [bitsVal]
  | cons b l ih => rw [bitsVal, List.length_cons, pow_succ]; cases b <;> simp <;> omega

theorem lowBits_succ (n v : ℕ) : lowBits (n + 1) v = v.testBit 0 :: lowBits n (v / 2) := by
  rw [lowBits, List.range_succ_eq_map, List.map_cons, List.map_map, lowBits]
  refine congrArg _ (List.map_congr_left fun i _ => ?_)
  rw [Function.comp, Nat.succ_eq_add_one, Nat.testBit_succ]

theorem bitsVal_lowBits (n v : ℕ) : bitsVal (lowBits n v) = v % 2 ^ n := by
  induction n generalizing v with
  | zero => simp [lowBits, bitsVal, Nat.mod_one]
  | succ n ih =>
    rw [lowBits_succ, bitsVal, ih, Nat.testBit_zero, pow_succ, mul_comm (2 ^ n), Nat.mod_mul]
    have : v % 2 < 2 := Nat.mod_lt _ (by norm_num)
    interval_cases h : v % 2 <;> simp

theorem lowBits_length (n v : ℕ) : (lowBits n v).length = n := by simp [lowBits]

theorem lowBits_bitsVal (l : List Bool) : lowBits l.length (bitsVal l) = l := by
  induction l with
  | nil => rfl
  | cons b l ih =>
    rw [List.length_cons, lowBits_succ, bitsVal, Nat.testBit_zero]
    have h1 : (b.toNat + 2 * bitsVal l) / 2 = bitsVal l := by cases b <;> simp <;> omega
    have h2 : (b.toNat + 2 * bitsVal l) % 2 = b.toNat := by cases b <;> simp
    rw [h1, h2, ih]
    cases b <;> rfl

theorem bitRev_lt (n v : ℕ) : bitRev n v < 2 ^ n := by
  have := bitsVal_lt (lowBits n v).reverse
  rwa [List.length_reverse, lowBits_length] at this

theorem bitRev_bitRev {n v : ℕ} (h : v < 2 ^ n) : bitRev n (bitRev n v) = v := by
  have h1 := lowBits_bitsVal (lowBits n v).reverse
  rw [List.length_reverse, lowBits_length] at h1
  rw [bitRev, bitRev, h1, List.reverse_reverse, bitsVal_lowBits, Nat.mod_eq_of_lt h]

/-! ## Interpolation -/

theorem foldl_prod (n : ℕ) (f : ℕ → QE) (a : QE) :
    (List.range n).foldl (fun a i => f i * a) a = (∏ i ∈ Finset.range n, f i) * a := by
  induction n with
  | zero => simp
  | succ n ih => rw [List.range_succ, List.foldl_append, ih, Finset.prod_range_succ, List.foldl_cons, List.foldl_nil]; ring

theorem foldl_sum (n : ℕ) (f : ℕ → QE) (a : QE) :
    (List.range n).foldl (fun a i => f i + a) a = (∑ i ∈ Finset.range n, f i) + a := by
  induction n with
  | zero => simp
  | succ n ih => rw [List.range_succ, List.foldl_append, ih, Finset.sum_range_succ, List.foldl_cons, List.foldl_nil]; ring

theorem den_sumLoop (β : QE) (v y w : ℕ → QE) (L : List ℕ) (s : QE) :
    den ((L.map fun i => (embQ (v i), embQ (y i), embQ (w i))).foldlM (fun (st : QEV × Fr) xyw => do
      let d ← subExt (embQ β) xyw.1
      let q ← divExt xyw.2.2 d
      let lookupFromPoints := q.2 * st.2
      let m ← mulExt xyw.2.1 q.1
      let sum ← addExt m st.1
      pure (sum, lookupFromPoints)) (embQ s, 1)) =
    Den.assert (∀ i ∈ L, β ≠ v i) >>= fun _ =>
      pure (embQ (L.foldl (fun a i => y i * (w i / (β - v i)) + a) s), 1) := by
  induction L generalizing s with
  | nil => rw [Den.assert_true (by simp)]; simp
  | cons i L ih =>
    classical
    rw [List.map_cons, List.foldlM_cons, den_bind, den_bind, den_subExt, pure_bind, den_bind]
    by_cases h : β = v i
    · rw [h, sub_self, den_divExt_zero, Den.fail_bind, Den.fail_bind, Den.assert_false (by simp), Den.fail_bind]
    · rw [den_divExt_of_ne _ (sub_ne_zero.2 h), pure_bind]
      simp only [den_bind, den_mulExt, pure_bind, den_addExt, den_pure, mul_one]
      rw [ih, Den.assert_congr (Q := ∀ j ∈ i :: L, β ≠ v j) (by simp [h]), List.foldl_cons]

theorem den_lookupLoop (β : QE) (v y : ℕ → QE) (L : List ℕ) (h : ∀ i ∈ L, β ≠ v i) (s : QEV) :
    den ((L.map fun i => (embQ (v i), embQ (y i))).foldlM (fun (lookupVal : QEV) xy => do
      let d ← subExt (embQ β) xy.1
      lookup (isZeroExt d) lookupVal xy.2) s) = pure s := by
  induction L with
  | nil => simp
  | cons i L ih =>
    rw [List.map_cons, List.foldlM_cons, den_bind, den_bind, den_subExt, pure_bind, isZeroExt_emb,
      if_neg (sub_ne_zero.2 (h i (by simp))), den_lookup_zero, pure_bind, ih fun j hj => h j (by simp [hj])]

theorem den_interpolate (β : QE) (v y w : ℕ → QE) (n : ℕ) :
    den (interpolate (embQ β) ((List.range n).map fun i => embQ (v i)) ((List.range n).map fun i => embQ (y i))
      ((List.range n).map fun i => embQ (w i))) =
    Den.assert (∀ i < n, β ≠ v i) >>= fun _ => pure (embQ ((∏ i ∈ Finset.range n, (β - v i)) *
      ∑ i ∈ Finset.range n, y i * (w i / (β - v i)))) := by
  classical
  rw [interpolate, if_neg (by simp), den_bind]
  have h1 : den (((List.range n).map fun i => embQ (v i)).foldlM (fun lX xi => subMulExt (embQ β) xi lX) oneExt) =
      pure (embQ (∏ i ∈ Finset.range n, (β - v i))) := by
    rw [den_foldlM, List.foldlM_map, oneExt_eq,
      Den.foldlM_enc embQ (g := fun a i => (β - v i) * a) (fun s i _ => den_subMulExt _ _ _), foldl_prod, mul_one]
  rw [h1, pure_bind, den_bind, List.zip_map', List.zip_map', zeroExt_eq, den_sumLoop]
  by_cases hb : ∀ i < n, β ≠ v i
  · have hb' : ∀ i ∈ List.range n, β ≠ v i := fun i hi => hb i (List.mem_range.1 hi)
    rw [Den.assert_true hb', Den.assert_true hb, pure_bind, pure_bind, pure_bind, den_bind, den_mulExt, pure_bind,
      den_bind, List.zip_map', den_lookupLoop β v y _ hb', pure_bind, den_lookup_one,
      foldl_sum n fun i => y i * (w i / (β - v i)), add_zero]
  · have hb' : ¬ ∀ i ∈ List.range n, β ≠ v i := fun h => hb fun i hi => h i (List.mem_range.2 hi)
    rw [Den.assert_false hb', Den.assert_false hb, Den.fail_bind, Den.fail_bind, Den.fail_bind]

/-! ## The permutation loop -/

theorem permuteLoop_map {E F : Type} (f : E → F) (l : List E) (a fuel i : ℕ) (acc : List E) :
    permuteLoop (l.map f) a fuel i (acc.map f) = (permuteLoop l a fuel i acc).map (List.map f) := by
  induction fuel generalizing i acc with
  | zero => rfl
  | succ fuel ih =>
    rw [permuteLoop, permuteLoop, List.length_map]
    by_cases h : i ≤ (l.length - 1) % 256
    · rw [if_pos h, if_pos h, ← ih, List.getElem?_map]
      cases l[i]? with
      | none => rfl
      | some e => simp only [Option.map_some, List.map_set]
    · rw [if_neg h, if_neg h]; rfl

theorem permuteLoop_range : ∀ a ≤ 7, permuteLoop (List.range (2 ^ a)) a 1000 0
    ((List.range (2 ^ a)).map fun _ => 2 ^ a) = some ((List.range (2 ^ a)).map (bitRev a)) := by
  decide +kernel

theorem list_eq_range_getD {E : Type} (l : List E) (d : E) : l = (List.range l.length).map fun i => l.getD i d := by
  apply List.ext_getElem
  · simp
  · intro i h1 h2
    rw [List.getElem_map, List.getElem_range, List.getD_eq_getElem _ _ h1]

theorem permuteLoop_eq (evals : List QE) {a : ℕ} (ha : a ≤ 7) (hl : evals.length = 2 ^ a) :
    permuteLoop (evals.map embQ) a 1000 0 ((evals.map embQ).map fun _ => (0, 0)) =
      some ((List.range (2 ^ a)).map fun i => embQ (evals.getD (bitRev a i) 0)) := by
  have h1 : evals.map embQ = (List.range (2 ^ a)).map fun i => embQ (evals.getD i 0) := by
    conv_lhs => rw [list_eq_range_getD evals 0]
    rw [List.map_map, hl]; rfl
  have h2 : (evals.map embQ).map (fun _ => ((0, 0) : QEV)) =
      ((List.range (2 ^ a)).map fun _ => 2 ^ a).map fun i => embQ (evals.getD i 0) := by
    rw [h1, List.map_map, List.map_map]
    refine List.map_congr_left fun i _ => ?_
    simp only [Function.comp]
    rw [List.getD_eq_default _ _ hl.le]
    simp [embQ]
  rw [h2, h1, permuteLoop_map, permuteLoop_range a ha, Option.map_some, List.map_map]
  rfl

/-! ## Coset points and weights -/

theorem ofBase_mul (a b : Fp) : ofBase (a * b) = ofBase a * ofBase b := QuadraticAlgebra.C_mul a b

theorem ofBase_pow (a : Fp) (n : ℕ) : ofBase (a ^ n) = ofBase a ^ n := QuadraticAlgebra.C_pow n a

theorem den_xPoints (c g : QE) (n : ℕ) (hn : 0 < n) :
    den ((List.range (n - 1)).foldlM (fun (pts : List QEV) _ => do
      let next ← mulExt (pts.getLastD (0, 0)) (embQ g)
      pure (pts ++ [next])) [embQ c]) = pure ((List.range n).map fun i => embQ (c * g ^ i)) := by
  obtain ⟨m, rfl⟩ : ∃ m, n = m + 1 := ⟨n - 1, by omega⟩
  rw [Nat.add_sub_cancel, den_foldlM]
  clear hn
  induction m with
  | zero => simp
  | succ m ih =>
    rw [List.range_succ, List.foldlM_append, ih, pure_bind, List.foldlM_cons, List.range_succ (n := m + 1),
      List.map_append]
    have : ((List.range (m + 1)).map fun i => embQ (c * g ^ i)).getLastD (0, 0) = embQ (c * g ^ m) := by
      rw [List.range_succ, List.map_append, List.map_singleton, List.getLastD_concat]
    rw [this, den_bind, den_mulExt, pure_bind, den_pure, pure_bind, List.foldlM_nil, mul_assoc, ← pow_succ]
    rfl

theorem den_weightLoop (v : ℕ → QE) (n i : ℕ) :
    den (weightLoop ((List.range n).map fun j => embQ (v j)) (embQ (v i)) i) =
      pure (embQ (∏ j ∈ (Finset.range n).erase i, (v i - v j))) := by
  rw [weightLoop, List.zipIdx_map, den_foldlM, List.foldlM_map]
  have hz : (List.range n).zipIdx = (List.range n).map fun j => (j, j) := by
    apply List.ext_getElem
    · simp
    · intro k h1 h2; simp
  rw [hz, List.foldlM_map, oneExt_eq, Den.foldlM_enc embQ (g := fun a j => if i ≠ j then (v i - v j) * a else a)]
  · refine congrArg pure (congrArg embQ ?_)
    have : (List.range n).foldl (fun a j => if i ≠ j then (v i - v j) * a else a) 1 =
        (List.range n).foldl (fun a j => (if i ≠ j then v i - v j else 1) * a) 1 := by
      congr 1; funext a j; split <;> simp
    rw [this, foldl_prod, mul_one, Finset.prod_ite, Finset.prod_const_one, mul_one]
    refine Finset.prod_congr ?_ fun _ _ => rfl
    ext j
    simp only [Finset.mem_filter, Finset.mem_erase]
    tauto
  · intro s j _
    show (if i ≠ j then subMulExt (embQ (v i)) (embQ (v j)) (embQ s) else pure (embQ s)).den = _
    by_cases h : i ≠ j
    · rw [if_pos h, if_pos h]; exact den_subMulExt _ _ _
    · rw [if_neg h, if_neg h]; exact den_pure _

theorem den_weights (v : ℕ → QE) (n : ℕ) (hv : Set.InjOn v (Finset.range n)) :
    den (((List.range n).map fun i => embQ (v i)).zipIdx.mapM fun xi => do
      let w ← weightLoop ((List.range n).map fun i => embQ (v i)) xi.1 xi.2
      let inv ← inverseExt w
      assertEq inv.2 1
      pure inv.1) = pure ((List.range n).map fun i => embQ (Lagrange.nodalWeight (Finset.range n) v i)) := by
  have hz : ((List.range n).map fun i => embQ (v i)).zipIdx = (List.range n).map fun j => (embQ (v j), j) := by
    apply List.ext_getElem
    · simp
    · intro k h1 h2; simp
  rw [hz, den_mapM]
  have key : ∀ j ∈ List.range n, (den (do
      let w ← weightLoop ((List.range n).map fun i => embQ (v i)) (embQ (v j)) j
      let inv ← inverseExt w
      assertEq inv.2 1
      pure inv.1)) = pure (embQ (Lagrange.nodalWeight (Finset.range n) v j)) := by
    intro j hj
    have hj' : j ∈ Finset.range n := by simpa using hj
    have hne : (∏ k ∈ (Finset.range n).erase j, (v j - v k)) ≠ 0 := by
      rw [Finset.prod_ne_zero_iff]
      intro k hk
      rw [Finset.mem_erase] at hk
      rw [sub_ne_zero]
      intro h
      exact hk.1 (hv hj' hk.2 h).symm
    rw [den_bind, den_weightLoop, pure_bind, den_bind, den_inverseExt_of_ne hne, pure_bind, den_bind, den_assertEq,
      Den.guard_true rfl, pure_bind, den_pure, Lagrange.nodalWeight, Finset.prod_inv_distrib]
  have h2 := Den.mapM_pure_of (l := List.range n) key
  rw [← h2, List.mapM_map]
  rfl

/-! ## `computeEvaluation` -/

theorem goShl1_eq {a : ℕ} (h : a < 63) : goShl1 a = ((2 ^ a : ℕ) : ℤ) := by
  rw [goShl1, if_pos h]; push_cast; rfl

theorem points_injOn {a : ℕ} (ha : a ≤ 32) {c : Fp} (hc : c ≠ 0) :
    Set.InjOn (fun i => ofBase (c * omega a ^ i)) (Finset.range (2 ^ a)) := by
  intro i hi j hj h
  simp only [Finset.coe_range, Set.mem_Iio] at hi hj
  have h1 : c * omega a ^ i = c * omega a ^ j := by
    exact congrArg QuadraticAlgebra.re h
  have h2 := mul_left_cancel₀ hc h1
  have ho := orderOf_omega ha
  exact pow_injOn_Iio_orderOf (by simpa [ho] using hi) (by simpa [ho] using hj) h2

theorem omega_pow_card {a : ℕ} (ha : a ≤ 32) : omega a ^ 2 ^ a = 1 := by
  rw [← orderOf_omega ha, pow_orderOf_eq_one]

theorem omega_pow_pred {a : ℕ} (ha : a ≤ 32) : omega a ^ (2 ^ a - 1) = (omega a)⁻¹ := by
  apply eq_inv_of_mul_eq_one_left
  rw [← pow_succ, Nat.sub_add_cancel Nat.one_le_two_pow, omega_pow_card ha]

theorem omega_inv_noWrap {a : ℕ} (ha : a ≤ 32) (m : ℕ) : NoWrap (omega a)⁻¹ m := by
  rcases omega_noWrap ha 64 with h | h
  · omega
  · right; rw [inv_pow, h, inv_one]

/-- First point of the coset in natural order. -/
def cosetStart (a : ℕ) (x : Fp) (bits : List Bool) : Fp := (omega a)⁻¹ ^ bitsVal bits.reverse * x

theorem cosetPoint_eq (a : ℕ) (x : Fp) (bits : List Bool) (i : ℕ) :
    cosetPoint a x bits i = ofBase (cosetStart a x bits * omega a ^ bitRev a i) := by
  rw [cosetPoint, cosetStart, inv_pow]
  refine congrArg _ ?_
  rw [div_eq_mul_inv]; ring

theorem cosetPoint_injOn {a : ℕ} (ha : a ≤ 32) {x : Fp} (hx : x ≠ 0) (bits : List Bool) :
    Set.InjOn (cosetPoint a x bits) (Finset.range (2 ^ a)) := by
  intro i hi j hj h
  rw [cosetPoint_eq, cosetPoint_eq] at h
  have hc : cosetStart a x bits ≠ 0 := mul_ne_zero (pow_ne_zero _ (inv_ne_zero (omega_ne_zero a))) hx
  have h1 := points_injOn ha hc (by simpa using bitRev_lt a i) (by simpa using bitRev_lt a j) h
  simp only [Finset.coe_range, Set.mem_Iio] at hi hj
  rw [← bitRev_bitRev hi, h1, bitRev_bitRev hj]

theorem fold_eq {a : ℕ} (ha : a ≤ 32) {x : Fp} (hx : x ≠ 0) (bits : List Bool) (evals : List QE) (β : QE)
    (hβ : ∀ i < 2 ^ a, β ≠ cosetPoint a x bits i) :
    fold a x bits evals β = (∏ i ∈ Finset.range (2 ^ a), (β - ofBase (cosetStart a x bits * omega a ^ i))) *
      ∑ i ∈ Finset.range (2 ^ a), evals.getD (bitRev a i) 0 *
        (Lagrange.nodalWeight (Finset.range (2 ^ a)) (fun i => ofBase (cosetStart a x bits * omega a ^ i)) i /
          (β - ofBase (cosetStart a x bits * omega a ^ i))) := by
  have hc : cosetStart a x bits ≠ 0 := mul_ne_zero (pow_ne_zero _ (inv_ne_zero (omega_ne_zero a))) hx
  set s := Finset.range (2 ^ a) with hs
  set v : ℕ → QE := fun i => ofBase (cosetStart a x bits * omega a ^ i) with hv
  have hinj : Set.InjOn v s := points_injOn ha hc
  have hinj' := cosetPoint_injOn ha hx bits
  have hcp : ∀ i, cosetPoint a x bits i = v (bitRev a i) := cosetPoint_eq a x bits
  have hβ' : ∀ i ∈ s, β ≠ v i := by
    intro i hi
    have hi' : i < 2 ^ a := by simpa [hs] using hi
    have := hβ (bitRev a i) (bitRev_lt a i)
    rwa [hcp, bitRev_bitRev hi'] at this
  have h1 : Lagrange.interpolate s (cosetPoint a x bits) (fun i => evals.getD i 0) =
      Lagrange.interpolate s v (fun i => evals.getD (bitRev a i) 0) := by
    apply Lagrange.eq_interpolate_of_eval_eq _ hinj (Lagrange.degree_interpolate_lt _ hinj')
    intro i hi
    have hi' : i < 2 ^ a := by simpa [hs] using hi
    have := Lagrange.eval_interpolate_at_node (fun i => evals.getD i 0) hinj'
      (i := bitRev a i) (by simpa using bitRev_lt a i)
    rwa [hcp, bitRev_bitRev hi'] at this
  rw [fold, h1, Lagrange.eval_interpolate_not_at_node _ hβ', Lagrange.eval_nodal]
  refine congrArg _ (Finset.sum_congr rfl fun i _ => ?_)
  rw [div_eq_mul_inv]; ring

theorem den_computeEvaluation {a : ℕ} (ha : a ≤ 7) {x : Fp} (hx : x ≠ 0) (bits : List Bool)
    (evals : List QE) (hl : evals.length = 2 ^ a) (β : QE) :
    den (computeEvaluation (emb x) (bits.map bitF) a (evals.map embQ) (embQ β)) =
      Den.assert (∀ i < 2 ^ a, β ≠ cosetPoint a x bits i) >>= fun _ => pure (embQ (fold a x bits evals β)) := by
  classical
  have hc : cosetStart a x bits ≠ 0 := mul_ne_zero (pow_ne_zero _ (inv_ne_zero (omega_ne_zero a))) hx
  rw [computeEvaluation, if_neg (by rw [goShl1_eq (by omega), List.length_map, hl]; simp), if_neg (by omega),
    den_bind, primitiveRoot_eq (by omega), den_orPanic_some, pure_bind, den_bind, permuteLoop_eq evals ha hl,
    den_orPanic_some, pure_bind, den_bind, List.length_map, hl, omega_pow_pred (by omega), ← List.map_reverse,
    den_expFromBits' (inv_ne_zero (omega_ne_zero a)) _ (omega_inv_noWrap (by omega) _), pure_bind, den_bind, den_mul, pure_bind,
    den_bind, toQE_emb, emb_pair_zero, den_xPoints _ _ _ (by positivity), pure_bind, den_bind]
  have hpt : (fun i => embQ (ofBase ((omega a)⁻¹ ^ bitsVal bits.reverse * x) * ofBase (omega a) ^ i)) =
      fun i => embQ (ofBase (cosetStart a x bits * omega a ^ i)) := by
    funext i
    rw [cosetStart, ofBase_mul, ofBase_mul, ofBase_mul, ofBase_pow (omega a)]
  rw [hpt, den_weights _ _ (points_injOn (by omega) hc), pure_bind,
    den_interpolate β (fun i => ofBase (cosetStart a x bits * omega a ^ i)) (fun i => evals.getD (bitRev a i) 0)]
  have hg : (∀ i < 2 ^ a, β ≠ ofBase (cosetStart a x bits * omega a ^ i)) ↔
      ∀ i < 2 ^ a, β ≠ cosetPoint a x bits i := by
    constructor
    · intro h i hi
      rw [cosetPoint_eq]
      exact h _ (bitRev_lt a i)
    · intro h i hi
      have := h (bitRev a i) (bitRev_lt a i)
      rwa [cosetPoint_eq, bitRev_bitRev hi] at this
  by_cases h : ∀ i < 2 ^ a, β ≠ cosetPoint a x bits i
  · rw [Den.assert_true h, Den.assert_true (hg.2 h), pure_bind, pure_bind, fold_eq (by omega) hx bits evals β h]
  · rw [Den.assert_false h, Den.assert_false fun h' => h (hg.1 h'), Den.fail_bind, Den.fail_bind]

end Verif.Fri
