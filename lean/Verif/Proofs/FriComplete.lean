import Verif.Spec.FriProver
import Verif.Proofs.FriLaw

/-!
# FRI: the honest prover is accepted
-/

set_option autoImplicit false

namespace Verif.Spec.Merkle

variable {α : Type} (C : α → α → α)

/-- One level up. -/
def up (leaf : ℕ → α) (j : ℕ) : α := C (leaf (2 * j)) (leaf (2 * j + 1))

theorem treeNode_up (leaf : ℕ → α) (h j : ℕ) : treeNode C leaf (h + 1) j = treeNode C (up C leaf) h j := by
  induction h generalizing j with
  | zero => rfl
  | succ h ih => rw [treeNode, ih, ih, treeNode]

theorem treePath_up (leaf : ℕ → α) (h v : ℕ) :
    treePath C leaf (h + 1) v = leaf (sibling v) :: treePath C (up C leaf) h (v / 2) := by
  rw [treePath, List.range_succ_eq_map, List.map_cons, List.map_map, treePath]
  refine congrArg₂ _ (by rw [pow_zero, Nat.div_one, treeNode]) (List.map_congr_left fun i _ => ?_)
  rw [Function.comp, Nat.succ_eq_add_one, treeNode_up, pow_succ', Nat.div_div_eq_div_mul]

theorem root_treePath (leaf : ℕ → α) (h k v : ℕ) (hk : h ≤ k) :
    root C (leaf v) ((Fri.lowBits k v).zip (treePath C leaf h v)) = treeNode C leaf h (v / 2 ^ h) := by
  induction h generalizing leaf k v with
  | zero => simp [treePath, root, treeNode]
  | succ h ih =>
    obtain ⟨k, rfl⟩ : ∃ k', k = k' + 1 := ⟨k - 1, by omega⟩
    rw [Verif.Fri.lowBits_succ, treePath_up, List.zip_cons_cons, root]
    have hn : C (node (leaf v) (v.testBit 0, leaf (sibling v))).1 (node (leaf v) (v.testBit 0, leaf (sibling v))).2 =
        up C leaf (v / 2) := by
      rw [node, up, sibling, Nat.testBit_zero]
      rcases Nat.mod_two_eq_zero_or_one v with h0 | h0
      · simp only [h0, Nat.zero_ne_one, decide_false, if_false, Bool.false_eq_true]
        rw [show 2 * (v / 2) = v by omega]
      · simp only [h0, decide_true, if_true]
        rw [show 2 * (v / 2) = v - 1 by omega, show v - 1 + 1 = v by omega]
    rw [hn, ih _ _ _ (by omega), treeNode_up, pow_succ', Nat.div_div_eq_div_mul]

theorem treePath_length (leaf : ℕ → α) (h v : ℕ) : (treePath C leaf h v).length = h := by simp [treePath]

theorem treeCap_length (leaf : ℕ → α) (h k : ℕ) : (treeCap C leaf h k).length = 2 ^ k := by simp [treeCap]

theorem treeCap_getD (leaf : ℕ → α) (h k j : ℕ) (d : α) (hj : j < 2 ^ k) :
    (treeCap C leaf h k).getD j d = treeNode C leaf h j := by
  rw [treeCap, List.getD_eq_getElem _ _ (by simpa using hj), List.getElem_map, List.getElem_range]

end Verif.Spec.Merkle

namespace Verif.Fri

open Spec.Fri Spec.Fri.Prover Spec.Merkle Polynomial

/-! ## Bits and points -/

theorem lowBits_add (j k v : ℕ) : lowBits (j + k) v = lowBits j v ++ lowBits k (v / 2 ^ j) := by
  induction j generalizing v with
  | zero => simp [lowBits]
  | succ j ih =>
    rw [show j + 1 + k = j + k + 1 by omega, lowBits_succ, ih, lowBits_succ, List.cons_append, pow_succ',
      Nat.div_div_eq_div_mul]

theorem lowBits_take {j n : ℕ} (h : j ≤ n) (v : ℕ) : (lowBits n v).take j = lowBits j v := by
  obtain ⟨k, rfl⟩ := Nat.exists_eq_add_of_le h
  rw [lowBits_add, List.take_left' (lowBits_length _ _)]

theorem lowBits_drop {j n : ℕ} (h : j ≤ n) (v : ℕ) : (lowBits n v).drop j = lowBits (n - j) (v / 2 ^ j) := by
  obtain ⟨k, rfl⟩ := Nat.exists_eq_add_of_le h
  rw [lowBits_add, List.drop_left' (lowBits_length _ _), Nat.add_sub_cancel_left]

theorem bitsVal_append (l l' : List Bool) : bitsVal (l ++ l') = bitsVal l + 2 ^ l.length * bitsVal l' := by
  induction l with
  | nil => simp [bitsVal]
  | cons b l ih => rw [List.cons_append, bitsVal, ih, bitsVal, List.length_cons, pow_succ']; ring

theorem bitRev_add (k v : ℕ) : bitRev (k + 4) v = bitRev k (v / 16) + 2 ^ k * bitRev 4 v := by
  rw [bitRev, Nat.add_comm k 4, lowBits_add, List.reverse_append, bitsVal_append, List.length_reverse, lowBits_length]
  rfl

theorem lowBits_mod {n v : ℕ} : lowBits n (v % 2 ^ n) = lowBits n v := by
  refine List.map_congr_left fun i hi => ?_
  rw [Nat.testBit_mod_two_pow]
  simp [List.mem_range.1 hi]

theorem bitRev_add_mul (w i : ℕ) : bitRev 4 (16 * w + i) = bitRev 4 i := by
  rw [bitRev, ← lowBits_mod, show (16 * w + i) % 2 ^ 4 = i % 2 ^ 4 by omega, lowBits_mod, bitRev]

theorem omega_pow_sixteen {k : ℕ} (hk : k + 4 ≤ 32) : omega (k + 4) ^ 16 = omega k := by
  rw [omega, omega, ← pow_mul, show (16 : ℕ) = 2 ^ 4 by norm_num, ← pow_add, show 32 - (k + 4) + 4 = 32 - k by omega]

theorem omega_pow_top {k : ℕ} (hk : k + 4 ≤ 32) : omega (k + 4) ^ 2 ^ k = omega 4 := by
  rw [omega, omega, ← pow_mul, ← pow_add, show 32 - (k + 4) + k = 32 - 4 by omega]

theorem domain_eq {k : ℕ} (hk : k + 4 ≤ 32) (s : Fp) (v : ℕ) :
    domain s (k + 4) v = s * omega (k + 4) ^ bitRev k (v / 16) * omega 4 ^ bitRev 4 v := by
  rw [domain, bitRev_add, pow_add, pow_mul (omega (k + 4)) (2 ^ k), omega_pow_top hk]; ring

theorem domain_pow {k : ℕ} (hk : k + 4 ≤ 32) (s : Fp) (v : ℕ) :
    domain s (k + 4) v ^ 16 = domain (s ^ 16) k (v / 16) := by
  rw [domain_eq hk, domain, mul_pow, mul_pow, ← pow_mul, ← pow_mul, mul_comm (bitRev k _), pow_mul,
    omega_pow_sixteen hk, mul_comm (bitRev 4 v), pow_mul (omega 4), show omega 4 ^ 16 = 1 from omega_pow_card (a := 4) (by norm_num),
    one_pow, mul_one]

theorem domain_ne_zero {s : Fp} (hs : s ≠ 0) (m v : ℕ) : domain s m v ≠ 0 :=
  mul_ne_zero hs (pow_ne_zero _ (omega_ne_zero _))

theorem cosetPoint_domain {k : ℕ} (hk : k + 4 ≤ 32) (s : Fp) (v : ℕ) {i : ℕ} (hi : i < 16) :
    cosetPoint 4 (domain s (k + 4) v) (lowBits 4 v) i = ofBase (domain s (k + 4) (16 * (v / 16) + i)) := by
  rw [cosetPoint, domain_eq hk, domain_eq hk s (16 * (v / 16) + i), show (16 * (v / 16) + i) / 16 = v / 16 by omega,
    bitRev_add_mul]
  refine congrArg _ ?_
  change _ / omega 4 ^ bitRev 4 v = _
  rw [div_eq_iff (pow_ne_zero _ (omega_ne_zero _))]
  ring

/-! ## Folding -/

theorem sum_range_sixteen (M : ℕ) (f : ℕ → QE) :
    ∑ k ∈ Finset.range (16 * M), f k = ∑ j ∈ Finset.range 16, ∑ t ∈ Finset.range M, f (16 * t + j) := by
  rw [Finset.sum_comm]
  induction M with
  | zero => simp
  | succ M ih => rw [Nat.mul_succ, Finset.sum_range_add, ih, Finset.sum_range_succ _ M]

theorem value_split (M : ℕ) (c : ℕ → QE) (y : QE) :
    value (16 * M) c y = ∑ j ∈ Finset.range 16, y ^ j * value M (fun t => c (16 * t + j)) (y ^ 16) := by
  rw [value, sum_range_sixteen]
  refine Finset.sum_congr rfl fun j _ => ?_
  rw [value, Finset.mul_sum]
  refine Finset.sum_congr rfl fun t _ => ?_
  rw [pow_add, pow_mul]; ring

theorem value_fold (M : ℕ) (c : ℕ → QE) (β y : QE) :
    value M (foldCoeffs β c) y = ∑ j ∈ Finset.range 16, β ^ j * value M (fun t => c (16 * t + j)) y := by
  simp only [value, foldCoeffs, Finset.mul_sum, Finset.sum_mul]
  rw [Finset.sum_comm]
  exact Finset.sum_congr rfl fun j _ => Finset.sum_congr rfl fun t _ => by ring

/-- The polynomial with given coefficients. -/
noncomputable def polyOf (M : ℕ) (c : ℕ → QE) : QE[X] := ∑ t ∈ Finset.range M, C (c t) * X ^ t

theorem polyOf_eval (M : ℕ) (c : ℕ → QE) (y : QE) : (polyOf M c).eval y = value M c y := by
  simp [polyOf, eval_finsetSum, value]

theorem layer_getD (s : Fp) (m N : ℕ) (c : ℕ → QE) (w : ℕ) {i : ℕ} (hi : i < 16) :
    (layer s m N c w).getD i 0 = value N c (ofBase (domain s m (16 * w + i))) := by
  rw [layer, List.getD_eq_getElem _ _ (by simpa using hi), List.getElem_map, List.getElem_range]

theorem fold_layer {k : ℕ} (hk : k + 4 ≤ 32) {s : Fp} (hs : s ≠ 0) (M : ℕ) (c : ℕ → QE) (v : ℕ) (β : QE) :
    fold 4 (domain s (k + 4) v) (lowBits 4 v) (layer s (k + 4) (16 * M) c (v / 16)) β =
      value M (foldCoeffs β c) (ofBase (domain (s ^ 16) k (v / 16))) := by
  rw [fold_split (by norm_num) (domain_ne_zero hs _ _) _ _ _ (fun j => polyOf M fun t => c (16 * t + j)), value_fold]
  · refine Finset.sum_congr rfl fun j _ => ?_
    rw [polyOf_eval, ← ofBase_pow]
    exact congrArg (fun z => β ^ j * value M (fun t => c (16 * t + j)) (ofBase z)) (domain_pow hk s v)
  · intro i hi
    rw [layer_getD _ _ _ _ _ hi, cosetPoint_domain hk s v hi, value_split]
    exact Finset.sum_congr rfl fun j _ => by rw [polyOf_eval]; rfl

/-! ## The chain of layers -/

theorem final_length (betas : List QE) (N : ℕ) (c : ℕ → QE) : (final betas N c).length = N / 16 ^ betas.length := by
  induction betas generalizing N c with
  | nil => simp [final]
  | cons β l ih => rw [final, ih, List.length_cons, pow_succ', Nat.div_div_eq_div_mul]

theorem commits_length (betas : List QE) (s : Fp) (m N : ℕ) (c : ℕ → QE) :
    (commits betas s m N c).length = betas.length := by
  induction betas generalizing s m N c with
  | nil => rfl
  | cons β l ih => rw [commits, List.length_cons, ih, List.length_cons]

theorem commits_caps (betas : List QE) (s : Fp) (m N : ℕ) (c : ℕ → QE) :
    ∀ cap ∈ commits betas s m N c, cap.length = 16 := by
  induction betas generalizing s m N c with
  | nil => simp [commits]
  | cons β l ih =>
    rw [commits]
    intro cap h
    rcases List.mem_cons.1 h with rfl | h
    · rw [treeCap_length]; norm_num
    · exact ih _ _ _ _ cap h

theorem steps_length (betas : List QE) (s : Fp) (m N : ℕ) (c : ℕ → QE) (v : ℕ) :
    (steps betas s m N c v).length = betas.length := by
  induction betas generalizing s m N c v with
  | nil => rfl
  | cons β l ih => rw [steps, List.length_cons, ih, List.length_cons]

theorem steps_sizes (betas : List QE) (s : Fp) (m N : ℕ) (c : ℕ → QE) (v : ℕ) (i : ℕ) (t : FriQueryStep QE)
    (h : (steps betas s m N c v)[i]? = some t) : t.evals.length = 16 ∧ t.siblings.length = m - 4 * i - 8 := by
  induction betas generalizing s m N c v i with
  | nil => simp [steps] at h
  | cons β l ih =>
    rw [steps] at h
    cases i with
    | zero =>
      rw [List.getElem?_cons_zero, Option.some.injEq] at h
      subst h
      exact ⟨by simp [layer], treePath_length _ _ _ _⟩
    | succ i =>
      rw [List.getElem?_cons_succ] at h
      obtain ⟨h1, h2⟩ := ih _ _ _ _ _ _ h
      exact ⟨h1, by omega⟩

theorem chain_honest (capIndex : ℕ) (betas : List QE) (hβ : ∀ β ∈ betas, ∀ z : Fp, β ≠ ofBase z) (s : Fp) (hs : s ≠ 0)
    (m M : ℕ) (hm : m ≤ 32) (hl : 4 * betas.length + 4 ≤ m) (c : ℕ → QE) (v : ℕ) (hv : v < 2 ^ m)
    (hcap : capIndex = v / 2 ^ (m - 4)) :
    Chain capIndex (final betas (16 ^ betas.length * M) c)
      (((steps betas s m (16 ^ betas.length * M) c v).zip
        (betas.zip (commits betas s m (16 ^ betas.length * M) c))).map fun t => ⟨t.1, t.2.1, t.2.2⟩)
      (lowBits m v) (domain s m v) (value (16 ^ betas.length * M) c (ofBase (domain s m v))) := by
  induction betas generalizing s m c v with
  | nil =>
    simp only [steps, List.zip_nil_left, List.map_nil, Chain, final, evalPoly, value, List.length_map,
      List.length_range]
    refine Finset.sum_congr rfl fun i hi => ?_
    rw [List.getD_eq_getElem _ _ (by simpa using hi), List.getElem_map, List.getElem_range]
  | cons β l ih =>
    rw [List.length_cons] at hl
    obtain ⟨k, rfl⟩ : ∃ k, m = k + 4 := ⟨m - 4, by omega⟩
    have hN : 16 ^ (β :: l).length * M = 16 * (16 ^ l.length * M) := by rw [List.length_cons, pow_succ']; ring
    have hd : 16 * (16 ^ l.length * M) / 16 = 16 ^ l.length * M := Nat.mul_div_cancel_left _ (by norm_num)
    have hv' : v / 16 < 2 ^ k := by
      rw [Nat.div_lt_iff_lt_mul (by norm_num)]; rw [pow_add] at hv; exact hv
    have hc : capIndex = v / 16 / 2 ^ (k - 4) := by
      rw [hcap, Nat.div_div_eq_div_mul, Nat.add_sub_cancel, show k = k - 4 + 4 by omega, pow_add, mul_comm]
      simp
    rw [hN, steps, commits, final, hd, List.zip_cons_cons, List.zip_cons_cons, List.map_cons, Chain,
      lowBits_take (by omega), lowBits_drop (by omega), Nat.add_sub_cancel]
    refine ⟨?_, fun i _ => hβ β (by simp) _, ?_, ?_⟩
    · show (layer s (k + 4) (16 * (16 ^ l.length * M)) c (v / 16)).getD _ _ = _
      rw [bitsVal_lowBits, show (2 : ℕ) ^ 4 = 16 by norm_num, layer_getD _ _ _ _ _ (Nat.mod_lt v (by norm_num)),
        show 16 * (v / 16) + v % 16 = v by omega]
    · rw [Opens]
      show root _ (layerDigest s (k + 4) (16 * (16 ^ l.length * M)) c (v / 16)) ((lowBits k (v / 16)).zip
        (treePath _ (layerDigest s (k + 4) (16 * (16 ^ l.length * M)) c) (k + 4 - 8) (v / 16))) =
        (treeCap _ (layerDigest s (k + 4) (16 * (16 ^ l.length * M)) c) (k + 4 - 8) 4).getD _ _
      rw [show k + 4 - 8 = k - 4 by omega, root_treePath _ _ _ _ _ (by omega), treeCap_getD, hc]
      rw [hc, Nat.div_lt_iff_lt_mul (by positivity), ← pow_add, show 4 + (k - 4) = k by omega]
      exact hv'
    · rw [domain_pow (by omega), fold_layer (by omega) hs]
      exact ih (fun β h => hβ β (by simp [h])) (s ^ 16) (pow_ne_zero _ hs) k (by omega) (by omega) _ _ hv' hc

/-! ## The batched quotient -/

theorem base_apply (a : Fp) : base a = ofBase a := rfl

theorem eval₂_base (f : Fp[X]) (x : Fp) : f.eval₂ base (ofBase x) = ofBase (f.eval x) := by
  rw [← base_apply, eval₂_at_apply, base_apply]

theorem batchPoly_eval (α x : QE) (fs : List Fp[X]) :
    (batchPoly α fs).eval x = evalPoly (fs.map fun f => f.eval₂ base x) α := by
  rw [batchPoly, eval_finsetSum, evalPoly, List.length_map]
  refine Finset.sum_congr rfl fun i hi => ?_
  rw [eval_mul, eval_C, eval_map, mul_comm, List.getD_eq_getElem _ _ (by simpa using hi),
    List.getD_eq_getElem _ _ (by simpa using hi), List.getElem_map]

theorem deep_eval (z x : QE) (g : QE[X]) (hx : x ≠ z) : (deep z g).eval x = (g.eval x - g.eval z) / (x - z) := by
  rw [eq_div_iff (sub_ne_zero.2 hx)]
  have h : (X - C z) * deep z g = g - C (g.eval z) :=
    mul_divByMonic_eq_iff_isRoot.2 (by simp [IsRoot])
  have h1 := congrArg (eval x) h
  rw [eval_mul, eval_sub, eval_X, eval_C, eval_sub, eval_C] at h1
  rw [mul_comm, h1]

theorem quotient_eval (α x : QE) (os : List Oracle) (bs : List (BatchInfo QE)) (hx : ∀ b ∈ bs, x ≠ b.point) :
    (quotient α os bs).eval x = combine α x (bs.map fun b => ⟨b.point,
      b.polynomials.map fun f => (poly os f).eval₂ base x,
      evalPoly (b.polynomials.map fun f => (poly os f).eval₂ base b.point) α⟩) := by
  induction bs with
  | nil => simp [quotient, combine]
  | cons b l ih =>
    rw [quotient, List.map_cons, combine, eval_add, ih fun b' h => hx b' (by simp [h]), eval_mul, eval_C,
      deep_eval _ _ _ (hx b (by simp)), batchPoly_eval, batchPoly_eval, List.map_map, List.map_map, List.map_map]
    simp only [Function.comp_def, List.length_map]

theorem degree_C_mul_le' (a : QE) (f : QE[X]) : (C a * f).degree ≤ f.degree := by
  rw [← smul_eq_C_mul]; exact degree_smul_le _ _

theorem quotient_degree (α : QE) (os : List Oracle) (bs : List (BatchInfo QE)) (d : ℕ)
    (h : ∀ o ∈ os, ∀ f ∈ o.polys, f.natDegree ≤ d) : (quotient α os bs).degree < d := by
  have hpoly : ∀ f, (poly os f).degree < ((d + 1 : ℕ) : WithBot ℕ) := by
    intro f
    rw [poly]
    by_cases h1 : f.oracleIndex < os.length
    · rw [List.getD_eq_getElem _ _ h1]
      by_cases h2 : f.polynomialInfo < os[f.oracleIndex].polys.length
      · rw [List.getD_eq_getElem _ _ h2]
        exact lt_of_le_of_lt degree_le_natDegree
          (by exact_mod_cast Nat.lt_succ_of_le (h _ (List.getElem_mem _) _ (List.getElem_mem _)))
      · rw [List.getD_eq_default _ _ (by omega), degree_zero]; exact WithBot.bot_lt_coe _
    · rw [List.getD_eq_default os _ (by omega), List.getD_nil, degree_zero]; exact WithBot.bot_lt_coe _
  have hb : ∀ fs : List Fp[X], (∀ f ∈ fs, f.degree < ((d + 1 : ℕ) : WithBot ℕ)) → batchPoly α fs ∈ degreeLT QE (d + 1) := by
    intro fs hfs
    refine Submodule.sum_mem _ fun i hi => ?_
    rw [mem_degreeLT]
    refine lt_of_le_of_lt (degree_C_mul_le' _ _) (lt_of_le_of_lt degree_map_le (hfs _ ?_))
    rw [List.getD_eq_getElem _ _ (by simpa using hi)]
    exact List.getElem_mem _
  rw [← mem_degreeLT]
  induction bs with
  | nil => exact Submodule.zero_mem _
  | cons b l ih =>
    rw [quotient]
    refine Submodule.add_mem _ ?_ ih
    rw [mem_degreeLT]
    refine lt_of_le_of_lt (degree_C_mul_le' _ _) ?_
    have hg : ∀ g : QE[X], g ∈ degreeLT QE (d + 1) → (g /ₘ (X - C b.point)).degree < d := by
      intro g hg
      by_cases h0 : g = 0
      · rw [h0, zero_divByMonic, degree_zero]; exact WithBot.bot_lt_coe _
      · have h1 := degree_divByMonic_lt g (X - C b.point) h0 (by rw [degree_X_sub_C]; norm_num)
        rw [mem_degreeLT] at hg
        by_cases h2 : g /ₘ (X - C b.point) = 0
        · rw [h2, degree_zero]; exact WithBot.bot_lt_coe _
        · rw [degree_eq_natDegree h2, degree_eq_natDegree h0] at h1
          rw [degree_eq_natDegree h0] at hg
          rw [degree_eq_natDegree h2]
          norm_cast at h1 hg ⊢
          omega
    refine hg _ (Submodule.sub_mem _ (hb _ ?_) ?_)
    · intro f hf
      obtain ⟨g, _, rfl⟩ := List.mem_map.1 hf
      exact hpoly g
    · rw [mem_degreeLT]
      exact lt_of_le_of_lt degree_C_le (by exact_mod_cast Nat.succ_pos d)

theorem value_coeff {d : ℕ} (hd : 0 < d) {f : QE[X]} (h : f.degree < d) (x : QE) : value d f.coeff x = f.eval x := by
  rw [value, eval_eq_sum_range' (n := d)]
  by_cases h0 : f = 0
  · simpa [h0] using hd
  · exact (natDegree_lt_iff_degree_lt h0).2 h

/-! ## Acceptance -/

theorem opened_honest (q : FriParams) (inst : InstanceInfo QE) (os : List Oracle) (hc : Commits q inst os) (n v : ℕ)
    (f : PolynomialInfo) (hf : ∃ o, inst.oracles[f.oracleIndex]? = some o ∧ f.polynomialInfo < o.numPolys) :
    opened (os.map fun o => o.answer n v) f = (poly os f).eval₂ base (ofBase (domain 7 n v)) := by
  obtain ⟨info, h1, h2⟩ := hf
  have hi : f.oracleIndex < os.length := by
    rw [hc.count]; exact (List.getElem?_eq_some_iff.1 h1).1
  obtain ⟨h3, -⟩ := hc.sizes f.oracleIndex os[f.oracleIndex] info (List.getElem?_eq_getElem hi) h1
  rw [eval₂_base, opened, poly, List.getD_eq_getElem (os.map _) _ (by simpa using hi), List.getElem_map,
    List.getD_eq_getElem _ _ hi]
  refine congrArg _ ?_
  rw [Oracle.answer, Oracle.leaf, List.getD_append _ _ _ _ (by rw [List.length_map, h3]; exact h2),
    List.getD_eq_getElem _ _ (by rw [List.length_map, h3]; exact h2), List.getElem_map,
    List.getD_eq_getElem _ _ (by rw [h3]; exact h2)]

theorem seven_ne_zero : (7 : Fp) ≠ 0 := by decide +kernel

theorem accepts_honest (q : FriParams) (inst : InstanceInfo QE) (os : List Oracle) (ch : FriChallenges Fp QE) (w : Fp)
    (hp : Supported q inst (openings os inst) (caps q os)) (hc : Commits q inst os)
    (hsum : q.reductionArityBits.sum ≤ q.degreeBits)
    (hfit : q.reductionArityBits.sum + 4 ≤ q.degreeBits + q.config.rateBits)
    (hbetas : ch.betas.length = q.reductionArityBits.length)
    (hβ : ∀ β ∈ ch.betas, ∀ z : Fp, β ≠ ofBase z)
    (hz : ∀ b ∈ inst.batches, ∀ u < 2 ^ (q.degreeBits + q.config.rateBits),
      ofBase (7 * omega (q.degreeBits + q.config.rateBits) ^ u) ≠ b.point)
    (hpow : ch.powResponse.val < 2 ^ (64 - q.config.proofOfWorkBits))
    (hq : ch.queryIndices.length = q.config.numQueryRounds) :
    Accepts q inst (openings os inst) ch (caps q os) (proof q inst os ch w) := by
  obtain ⟨hn4, hn, -, hcap⟩ := hp.domain
  have har : ∀ l : List ℕ, (∀ a ∈ l, a = 4) → l.sum = 4 * l.length := by
    intro l hl
    rw [List.eq_replicate_of_mem hl]; simp [mul_comm]
  have hsum4 := har _ hp.arities
  set n := q.degreeBits + q.config.rateBits with hnn
  set F := quotient ch.alpha os inst.batches with hF
  have hFd : F.degree < (2 ^ q.degreeBits : ℕ) := by
    exact quotient_degree _ _ _ _ hc.degree
  have hN : 2 ^ q.degreeBits = 16 ^ ch.betas.length * 2 ^ (q.degreeBits - q.reductionArityBits.sum) := by
    rw [hbetas, show (16 : ℕ) = 2 ^ 4 by norm_num, ← pow_mul, ← hsum4, ← pow_add]
    congr 1; omega
  refine ⟨⟨?_, ?_, hsum, ?_⟩, hpow, ⟨?_, ?_⟩, Or.inr ⟨hbetas.ge, ?_⟩, ?_⟩
  · intro cap h
    rw [hcap]
    exact commits_caps _ _ _ _ _ cap h
  · intro r hr
    obtain ⟨v, -, rfl⟩ := List.mem_map.1 hr
    refine ⟨⟨by rw [← hc.count]; exact List.length_map _, ?_⟩, ⟨(steps_length _ _ _ _ _ _).trans hbetas, ?_⟩⟩
    · intro i e info he hi
      simp only [Prover.round, List.getElem?_map, Option.map_eq_some_iff] at he
      obtain ⟨o, ho, rfl⟩ := he
      obtain ⟨h1, h2⟩ := hc.sizes i o info ho hi
      refine ⟨?_, ?_⟩
      · simp only [Oracle.answer, Oracle.leaf, List.length_append, List.length_map, h1, h2]
      · simp only [Oracle.answer, treePath_length]
        rw [hcap]; omega
    · intro i t a ht ha
      obtain ⟨h1, h2⟩ := steps_sizes _ _ _ _ _ _ _ _ ht
      have ha4 := hp.arities a (List.mem_of_getElem? ha)
      obtain ⟨hi, -⟩ := List.getElem?_eq_some_iff.1 ha
      have hs := har (q.reductionArityBits.take (i + 1)) fun a h => hp.arities a (List.mem_of_mem_take h)
      rw [List.length_take, min_eq_left (by omega)] at hs
      rw [hs, h2, ha4, hcap]
      exact ⟨h1, by omega⟩
  · show (final ch.betas (2 ^ q.degreeBits) F.coeff).length = _
    rw [final_length, hN]
    exact Nat.mul_div_cancel_left _ (by positivity)
  · show q.config.numQueryRounds = (ch.queryIndices.map _).length
    rw [List.length_map, hq]
  · show ch.queryIndices.length = (ch.queryIndices.map _).length
    rw [List.length_map]
  · show _ ≤ (commits _ _ _ _ _).length
    rw [commits_length, hbetas]
  · intro i v r hv hr
    have hr' : r = Prover.round q os ch.betas F.coeff v.val := by
      have : (proof q inst os ch w).rounds[i]? = (ch.queryIndices[i]?).map fun v =>
          Prover.round q os ch.betas F.coeff v.val := List.getElem?_map
      rw [this, hv] at hr
      exact (Option.some.inj hr).symm
    subst hr'
    set u := v.val % 2 ^ n with hu
    have hu' : u < 2 ^ n := Nat.mod_lt _ (by positivity)
    have hbits : lowBits n v.val = lowBits n u := lowBits_mod.symm
    have hx : queryPoint n (lowBits n u) = domain 7 n u := rfl
    have hci : bitsVal ((lowBits n u).drop (n - q.config.capHeight)) = u / 2 ^ (n - 4) := by
      rw [hcap, lowBits_drop (by omega), bitsVal_lowBits, show n - (n - 4) = 4 by omega]
      refine Nat.mod_eq_of_lt ?_
      rw [Nat.div_lt_iff_lt_mul (by positivity), ← pow_add, show 4 + (n - 4) = n by omega]
      exact hu'
    have hpt : ∀ b ∈ inst.batches, ofBase (domain 7 n u) ≠ b.point := fun b hb => hz b hb _ (bitRev_lt n u)
    rw [RoundOk]
    simp only [← hnn]
    rw [hbits, hci, hx]
    refine ⟨?_, hpt, ?_⟩
    · intro ec hec
      have : (Prover.round q os ch.betas F.coeff v.val).initial.zip (caps q os) =
          os.map fun o => (o.answer n u, o.cap n) := by
        rw [Prover.round, caps, List.zip_map', ← hnn]
      rw [this] at hec
      obtain ⟨o, -, rfl⟩ := List.mem_map.1 hec
      rw [Opens]
      show root _ (o.digest n u) ((lowBits n u).zip (treePath _ (o.digest n) (n - 4) u)) = (o.cap n).getD _ _
      rw [root_treePath _ _ _ _ _ (by omega), Oracle.cap, treeCap_getD]
      rw [Nat.div_lt_iff_lt_mul (by positivity), ← pow_add, show 4 + (n - 4) = n by omega]
      exact hu'
    · have hcomb : combine ch.alpha (ofBase (domain 7 n u)) (roundBatches inst
          (Prover.round q os ch.betas F.coeff v.val).initial ((openings os inst).map fun l => evalPoly l ch.alpha)) =
          value (2 ^ q.degreeBits) F.coeff (ofBase (domain 7 n u)) := by
        rw [value_coeff (by positivity) hFd, hF, quotient_eval _ _ _ _ hpt]
        refine congrArg _ ?_
        rw [roundBatches, openings, List.map_map]
        have hz : inst.batches.zip (inst.batches.map ((fun l => evalPoly l ch.alpha) ∘ fun b =>
            b.polynomials.map fun f => (poly os f).eval₂ base b.point)) = inst.batches.map fun b => (b,
              evalPoly (b.polynomials.map fun f => (poly os f).eval₂ base b.point) ch.alpha) := by
          rw [List.zip_map_right, ← List.map_id inst.batches, List.zip_map', List.map_map, List.map_map]
          rfl
        rw [hz, List.map_map]
        refine List.map_congr_left fun b hb => ?_
        simp only [Function.comp]
        congr 1
        exact List.map_congr_left fun f hf => opened_honest q inst os hc n u f (hp.batches b hb f hf)
      rw [hcomb]
      have := chain_honest (u / 2 ^ (n - 4)) ch.betas hβ 7 seven_ne_zero n
        (2 ^ (q.degreeBits - q.reductionArityBits.sum)) hn (by omega) F.coeff u hu' rfl
      rw [← hN] at this
      exact this

end Verif.Fri
