import Verif.Proofs.EvaluateGates
import Verif.Proofs.GatesInterp
import Mathlib.LinearAlgebra.Lagrange

/-!
# The PLONK vanishing argument
-/

set_option autoImplicit false

namespace Verif

namespace Plonk

open Circ Gates
open Spec.Plonk (n acc partialProduct numerator denominator L0 row terms vanishing quotient Identity Shape)

variable {c : CommonCircuitData}

/-! ## First Lagrange polynomial -/

theorem degree_eq (h : c.degreeBits < 63) : degree c = ((n c : ℕ) : Fr) := by
  rw [degree, Fri.goShl1_eq h, Int.cast_natCast]; rfl

theorem n_lt (h : c.degreeBits < 63) : n c < p := by
  have : n c ≤ 2 ^ 62 := Nat.pow_le_pow_right (by norm_num) (by omega)
  have : 2 ^ 62 < p := by norm_num [p]
  omega

theorem two_ne_zero_Fp : (2 : Fp) ≠ 0 := by decide +kernel

theorem n_ne_zero_Fp (c : CommonCircuitData) : ((n c : ℕ) : Fp) ≠ 0 := by
  rw [n, Nat.cast_pow]
  exact pow_ne_zero _ (by exact_mod_cast two_ne_zero_Fp)

theorem natCast_QE (k : ℕ) : (k : QE) = ofBase (k : Fp) := (map_natCast (algebraMap Fp QE) k).symm

theorem n_ne_zero (c : CommonCircuitData) : ((n c : ℕ) : QE) ≠ 0 := by
  rw [natCast_QE]
  intro h
  exact n_ne_zero_Fp c (by simpa [ofBase] using congrArg QuadraticAlgebra.re h)

theorem den_expPowerOf2 (x : QE) : den (expPowerOf2Extension c (embQ x)) = pure (embQ (x ^ n c)) := by
  rw [expPowerOf2Extension, den_foldlM, Den.foldlM_enc embQ (g := fun x _ => x * x) (fun s _ _ => den_mulExt s s)]
  refine congrArg pure (congrArg embQ ?_)
  rw [n]
  induction c.degreeBits with
  | zero => simp
  | succ k ih => rw [List.range_succ, List.foldl_append, ih, pow_succ, pow_mul, List.foldl_cons, List.foldl_nil, sq]

theorem evalL0_den (x : QE) :
    x * ofBase ((n c : ℕ) : Fp) - ((n c : ℕ) : QE) = (n c : QE) * (x - 1) := by
  rw [← natCast_QE]; ring

theorem den_evalL0_aux (h : c.degreeBits < 63) (x y : QE) :
    den (evalL0 c (embQ x) (embQ y)) = (do
      let q ← den (divExt (embQ (y - 1)) (embQ ((n c : QE) * (x - 1))))
      let _ ← Den.guard (q.2 = 1)
      pure q.1) := by
  have hd : degree c = emb ((n c : ℕ) : Fp) := by rw [degree_eq h, emb_natCast_of_lt (n_lt h)]
  have hd' : (degree c, (0 : Fr)) = embQ ((n c : ℕ) : QE) := by rw [degree_eq h, natExt (n_lt h)]
  rw [evalL0, oneExt_eq]
  simp only [den_bind, den_assertEq, den_pure]
  rw [den_subExt, pure_bind, hd', hd, den_scalarMulExt, pure_bind, den_subExt, pure_bind, evalL0_den]

theorem den_evalL0 (h : c.degreeBits < 63) {x : QE} (hx : x ≠ 1) :
    den (evalL0 c (embQ x) (embQ (x ^ n c))) = pure (embQ (L0 c x)) := by
  rw [den_evalL0_aux h, den_divExt_of_ne _ (mul_ne_zero (n_ne_zero c) (sub_ne_zero.2 hx)), pure_bind,
    Den.guard_true rfl, pure_bind]
  rfl

theorem den_evalL0_one (h : c.degreeBits < 63) (y : QE) : den (evalL0 c (embQ 1) (embQ y)) = Den.fail := by
  rw [den_evalL0_aux h, sub_self, mul_zero, den_divExt_zero, Den.fail_bind]

/-- The first Lagrange basis polynomial of a group of `n` roots of unity. -/
theorem lagrange_basis_zero {ω : QE} (hω : orderOf ω = n c) {x : QE} (hx : x ≠ 1) :
    (Lagrange.basis (Finset.range (n c)) (fun i => ω ^ i) 0).eval x = L0 c x := by
  have hn := n_ne_zero c
  have hpos : 0 < n c := Nat.pos_of_ne_zero fun h => hn (by rw [h, Nat.cast_zero])
  have hinj : Set.InjOn (fun i : ℕ => ω ^ i) (Finset.range (n c)) := by
    intro i hi j hj h
    rw [Finset.coe_range, Set.mem_Iio, ← hω] at hi hj
    exact pow_injOn_Iio_orderOf hi hj h
  have hP : Lagrange.basis (Finset.range (n c)) (fun i => ω ^ i) 0 =
      Polynomial.C ((n c : QE)⁻¹) * ∑ i ∈ Finset.range (n c), Polynomial.X ^ i := by
    refine Polynomial.eq_of_degrees_lt_of_eval_index_eq (Finset.range (n c)) hinj ?_ ?_ fun j hj => ?_
    · rw [Lagrange.degree_basis hinj (Finset.mem_range.2 hpos), Finset.card_range]
      exact_mod_cast Nat.sub_lt hpos one_pos
    · rw [Finset.card_range]
      refine lt_of_le_of_lt (Polynomial.degree_mul_le _ _) ?_
      refine lt_of_le_of_lt (add_le_add_left Polynomial.degree_C_le _) ?_
      rw [zero_add]
      refine lt_of_le_of_lt (Polynomial.degree_sum_le _ _) ?_
      rw [Finset.sup_lt_iff (by exact_mod_cast WithBot.bot_lt_coe (n c))]
      intro i hi
      rw [Polynomial.degree_X_pow]
      exact_mod_cast Finset.mem_range.1 hi
    · rw [Polynomial.eval_mul, Polynomial.eval_C, Polynomial.eval_finsetSum]
      simp only [Polynomial.eval_pow, Polynomial.eval_X]
      by_cases h0 : j = 0
      · subst h0
        rw [Lagrange.eval_basis_self hinj hj]
        simp [hn]
      · rw [Lagrange.eval_basis_of_ne (Ne.symm h0) hj]
        have h1 : ω ^ j ≠ 1 := fun h => by
          have := orderOf_dvd_of_pow_eq_one h
          rw [hω] at this
          exact absurd (Nat.le_of_dvd (Nat.pos_of_ne_zero h0) this) (not_le.2 (Finset.mem_range.1 hj))
        have h2 := geom_sum_mul (ω ^ j) (n c)
        rw [← pow_mul, mul_comm j, pow_mul, ← hω, pow_orderOf_eq_one, one_pow, sub_self] at h2
        rcases mul_eq_zero.1 h2 with h | h
        · rw [← hω, h, mul_zero]
        · exact absurd (sub_eq_zero.1 h) h1
  rw [hP, Polynomial.eval_mul, Polynomial.eval_C, Polynomial.eval_finsetSum]
  simp only [Polynomial.eval_pow, Polynomial.eval_X]
  rw [L0, ← geom_sum_mul x (n c)]
  have := sub_ne_zero.2 hx
  field_simp

/-! ## Partial products -/

theorem foldl_prod_range' (f : ℕ → QE) (a : QE) (st k : ℕ) :
    (List.range' st k).foldl (fun a i => a * f i) a = a * ∏ j ∈ Finset.range k, f (st + j) := by
  induction k with
  | zero => simp
  | succ k ih =>
    rw [List.range'_concat, List.foldl_append, ih, Finset.prod_range_succ, List.foldl_cons, List.foldl_nil]
    ring_nf

theorem den_chunkProduct {f : ℕ → QE} {N start q : ℕ} (hq : q ≠ 0) (h : start + q ≤ N) :
    den (chunkProduct (((List.range N).map f).map embQ) start q) =
      pure (embQ (∏ j ∈ Finset.range q, f (start + j))) := by
  obtain ⟨q, rfl⟩ := Nat.exists_eq_succ_of_ne_zero hq
  rw [chunkProduct, den_bind, den_idx_rangeMap (by omega), pure_bind, den_foldlM,
    Den.foldlM_enc embQ (g := fun a j => a * f (start + j))]
  · rw [foldl_prod_range' (fun j => f (start + j)), Finset.prod_range_succ']
    refine congrArg pure (congrArg embQ ?_)
    simp only [Nat.succ_eq_add_one, Nat.add_sub_cancel, Nat.add_zero]
    rw [mul_comm]
    refine congrArg (· * _) (Finset.prod_congr rfl fun j _ => ?_)
    rw [Nat.add_comm 1 j]
  · intro a j hj
    rw [List.mem_range'_1] at hj
    rw [den_bind, den_idx_rangeMap (by omega), pure_bind, den_mulExt]

theorem den_slice {α β : Type} {f : α → β} {l : List α} {a e : ℕ} (h1 : a ≤ e) (h2 : e ≤ l.length) (d : α) :
    den (slice (l.map f) a e) = pure (((List.range (e - a)).map fun k => l.getD (a + k) d).map f) := by
  rw [slice, if_pos ⟨h1, by simpa using h2⟩, den_pure, ← List.map_take, ← List.map_drop]
  refine congrArg pure (congrArg (List.map f) ?_)
  apply List.ext_getElem
  · simp; omega
  · intro i hi1 hi2
    simp only [List.length_map, List.length_range] at hi2
    rw [List.getElem_drop, List.getElem_take, List.getElem_map, List.getElem_range, List.getD_eq_getElem]

theorem getD_accs {o : OpeningSet QE} {i k : ℕ} (hk : k ≤ c.numPartialProducts + 1) :
    (o.plonkZs.getD i 0 :: (((List.range c.numPartialProducts).map fun k =>
      o.partialProducts.getD (i * c.numPartialProducts + k) 0) ++ [o.plonkZsNext.getD i 0])).getD k 0 = acc c o i k := by
  rw [acc]
  cases k with
  | zero => rfl
  | succ k =>
    rw [if_neg (by omega), List.getD_cons_succ, Nat.add_sub_cancel]
    by_cases h : k + 1 ≤ c.numPartialProducts
    · rw [if_pos h, List.getD_append _ _ _ _ (by simpa using h), List.getD_eq_getElem _ _ (by simpa using h),
        List.getElem_map, List.getElem_range]
    · have : k = c.numPartialProducts := by omega
      rw [if_neg h, List.getD_append_right _ _ _ _ (by simp [this])]
      simp [this]

theorem den_checkPartialProducts {o : OpeningSet QE} {nu de : ℕ → QE} {N M i : ℕ} (hq : c.quotientDegreeFactor ≠ 0)
    (hN : (c.numPartialProducts + 1) * c.quotientDegreeFactor ≤ N)
    (hM : (c.numPartialProducts + 1) * c.quotientDegreeFactor ≤ M) (hz : i < o.plonkZs.length)
    (hzn : i < o.plonkZsNext.length) (hpp : (i + 1) * c.numPartialProducts ≤ o.partialProducts.length) :
    den (checkPartialProducts c (((List.range N).map nu).map embQ) (((List.range M).map de).map embQ) i o.enc) =
      pure (((List.range (c.numPartialProducts + 1)).map fun k => partialProduct c o nu de i k).map embQ) := by
  have e1 : o.enc.plonkZs = o.plonkZs.map embQ := rfl
  have e2 : o.enc.plonkZsNext = o.plonkZsNext.map embQ := rfl
  have e3 : o.enc.partialProducts = o.partialProducts.map embQ := rfl
  have hlen : (i + 1) * c.numPartialProducts - i * c.numPartialProducts = c.numPartialProducts := by
    rw [Nat.add_mul, Nat.one_mul]; omega
  rw [checkPartialProducts, e1, e2, e3]
  simp only [den_bind]
  rw [den_idx_map hz 0, pure_bind, den_slice (Nat.mul_le_mul_right _ (Nat.le_succ i)) hpp 0, pure_bind,
    den_idx_map hzn 0, pure_bind, hlen]
  refine den_mapRange fun k hk => ?_
  have hk' : k * c.quotientDegreeFactor + c.quotientDegreeFactor ≤ N := by
    have := Nat.mul_le_mul_right c.quotientDegreeFactor (Nat.succ_le_of_lt hk)
    rw [Nat.succ_mul] at this; omega
  have hk'' : k * c.quotientDegreeFactor + c.quotientDegreeFactor ≤ M := by
    have := Nat.mul_le_mul_right c.quotientDegreeFactor (Nat.succ_le_of_lt hk)
    rw [Nat.succ_mul] at this; omega
  have hacc : ∀ m ≤ c.numPartialProducts + 1, den (idx (embQ (o.plonkZs.getD i 0) ::
      (((List.range c.numPartialProducts).map fun k => o.partialProducts.getD (i * c.numPartialProducts + k) 0).map embQ
        ++ [embQ (o.plonkZsNext.getD i 0)])) m) = pure (embQ (acc c o i m)) := by
    intro m hm
    rw [← getD_accs hm, ← den_idx_map (f := embQ) (by simp; omega) 0]
    simp only [List.map_cons, List.map_append, List.map_nil]
  simp only [den_bind]
  rw [den_chunkProduct hq hk', pure_bind, den_chunkProduct hq hk'', pure_bind, hacc k (by omega), pure_bind,
    den_mulExt, pure_bind, hacc (k + 1) (by omega), pure_bind, den_mulExt, pure_bind, den_subExt]
  rfl

/-- Too few numerators: the code runs out of range. -/
theorem checkPartialProducts_short {nu de : List QEV} {i : ℕ} {o : OpeningSet QEV} (hq : c.quotientDegreeFactor ≠ 0)
    (hN : nu.length < (c.numPartialProducts + 1) * c.quotientDegreeFactor ∨
      de.length < (c.numPartialProducts + 1) * c.quotientDegreeFactor) :
    Unsat (checkPartialProducts c nu de i o) := by
  have hchunk : ∀ (l : List QEV) (s : ℕ) (y : QEV), Sat (chunkProduct l s c.quotientDegreeFactor) y →
      s + c.quotientDegreeFactor ≤ l.length := by
    intro l s y h
    rw [chunkProduct, sat_bind] at h
    obtain ⟨f, h1, h2⟩ := h
    have h1 := (List.getElem?_eq_some_iff.1 (sat_idx h1)).1
    by_cases hq1 : c.quotientDegreeFactor = 1
    · omega
    · obtain ⟨s', _, y', h3⟩ := sat_foldlM_mem (fun _ => True) (fun _ _ _ _ _ => trivial) trivial h2
        (x := c.quotientDegreeFactor - 1) (by rw [List.mem_range'_1]; omega)
      rw [sat_bind] at h3
      obtain ⟨_, h3, _⟩ := h3
      have := (List.getElem?_eq_some_iff.1 (sat_idx h3)).1
      omega
  intro y h
  simp only [checkPartialProducts, sat_bind] at h
  obtain ⟨z, _, pp, _, zn, _, h⟩ := h
  obtain ⟨w, h⟩ := sat_mapM_mem h (List.mem_range.2 (Nat.lt_succ_self c.numPartialProducts))
  rw [sat_bind] at h
  obtain ⟨a, ha, h⟩ := h
  rw [sat_bind] at h
  obtain ⟨b, hb, _⟩ := h
  have ha := hchunk _ _ _ ha
  have hb := hchunk _ _ _ hb
  rw [Nat.add_mul, Nat.one_mul] at hN
  omega

/-- Telescoping of vanishing partial products. -/
theorem partialProduct_telescope {o : OpeningSet QE} {nu de : ℕ → QE} {i : ℕ}
    (h : ∀ k ≤ c.numPartialProducts, partialProduct c o nu de i k = 0) :
    o.plonkZs.getD i 0 * ∏ j ∈ Finset.range ((c.numPartialProducts + 1) * c.quotientDegreeFactor), nu j =
      o.plonkZsNext.getD i 0 * ∏ j ∈ Finset.range ((c.numPartialProducts + 1) * c.quotientDegreeFactor), de j := by
  have hsplit : ∀ (f : ℕ → QE) (m : ℕ), ∏ j ∈ Finset.range ((m + 1) * c.quotientDegreeFactor), f j =
      (∏ j ∈ Finset.range (m * c.quotientDegreeFactor), f j) *
        ∏ j ∈ Finset.range c.quotientDegreeFactor, f (m * c.quotientDegreeFactor + j) := by
    intro f m
    rw [Nat.add_mul, Nat.one_mul, Finset.prod_range_add]
  have key : ∀ m ≤ c.numPartialProducts + 1,
      acc c o i 0 * ∏ j ∈ Finset.range (m * c.quotientDegreeFactor), nu j =
        acc c o i m * ∏ j ∈ Finset.range (m * c.quotientDegreeFactor), de j := by
    intro m
    induction m with
    | zero => intro _; simp
    | succ m ih =>
      intro hm
      have h1 := sub_eq_zero.1 (h m (by omega))
      rw [hsplit, hsplit, ← mul_assoc, ih (by omega), mul_right_comm, h1]
      ring
  have := key (c.numPartialProducts + 1) le_rfl
  have h0 : acc c o i 0 = o.plonkZs.getD i 0 := rfl
  have h1 : acc c o i (c.numPartialProducts + 1) = o.plonkZsNext.getD i 0 := by
    rw [acc, if_neg (by omega), if_neg (by omega)]
  rwa [h0, h1] at this

/-! ## Terms -/

section Terms

variable {ch : ProofChallenges Fp QE} {o : OpeningSet QE}

theorem den_sIDs (hk : c.config.numRoutedWires ≤ c.kIs.length) (hlt : ∀ k ∈ c.kIs, k < p) (z : QE) :
    den ((List.range c.config.numRoutedWires).mapM fun i => do
      let k ← idx c.kIs i
      scalarMulExt (embQ z) (k : Fr)) =
    pure (((List.range c.config.numRoutedWires).map fun j => z * (c.kIs.getD j 0 : QE)).map embQ) := by
  refine den_mapRange fun i hi => ?_
  have hi' : i < c.kIs.length := by omega
  have hm : c.kIs.getD i 0 ∈ c.kIs := by rw [List.getD_eq_getElem _ _ hi']; exact List.getElem_mem hi'
  rw [den_bind, den_idx hi' 0, pure_bind, ← emb_natCast_of_lt (hlt _ hm), den_scalarMulExt, ← natCast_QE]

theorem den_permutationTerm {i j N : ℕ} {s : ℕ → QE} (hj : j < N) (hw : j < o.wires.length)
    (hs : j < o.plonkSigmas.length) (hsj : s j = ch.plonkZeta * (c.kIs.getD j 0 : QE)) :
    den (permutationTerm (emb (ch.plonkBetas.getD i 0)) (emb (ch.plonkGammas.getD i 0)) o.enc
      (((List.range N).map s).map embQ) j) =
    pure (embQ (numerator c ch o i j), embQ (denominator ch o i j)) := by
  have e1 : o.enc.wires = o.wires.map embQ := rfl
  have e2 : o.enc.plonkSigmas = o.plonkSigmas.map embQ := rfl
  rw [permutationTerm, e1, e2, emb_pair_zero, emb_pair_zero]
  simp only [den_bind]
  rw [den_idx_map hw 0, pure_bind, den_addExt, pure_bind, den_idx_rangeMap hj, pure_bind, den_mulExt, pure_bind,
    den_addExt, pure_bind, den_idx_map hs 0, pure_bind, den_mulExt, pure_bind, den_addExt, pure_bind, den_pure, hsj]
  rfl

theorem den_challengeTerms {gates : List Gate} (h : Shape c gates ch o) {l0 : QE} {i : ℕ}
    (hi : i < c.config.numChallenges) :
    den (challengeTerms c ch.enc o.enc (((List.range c.config.numRoutedWires).map fun j =>
      ch.plonkZeta * (c.kIs.getD j 0 : QE)).map embQ) (embQ l0) i) =
    pure (embQ (l0 * (o.plonkZs.getD i 0 - 1)), ((List.range (c.numPartialProducts + 1)).map fun k =>
      partialProduct c o (numerator c ch o i) (denominator ch o i) i k).map embQ) := by
  have e1 : o.enc.plonkZs = o.plonkZs.map embQ := rfl
  have e2 : ch.enc.plonkGammas = ch.plonkGammas.map emb := rfl
  have e3 : ch.enc.plonkBetas = ch.plonkBetas.map emb := rfl
  rw [challengeTerms, e1, e2, e3, oneExt_eq]
  simp only [den_bind]
  rw [den_idx_map (hi.trans_le h.zs) 0, pure_bind, den_subExt, pure_bind, den_mulExt, pure_bind, den_mapM,
    Den.mapM_pure_of (g := fun j => (embQ (numerator c ch o i j), embQ (denominator ch o i j)))]
  · have hpp : (i + 1) * c.numPartialProducts ≤ o.partialProducts.length :=
      (Nat.mul_le_mul_right _ (Nat.succ_le_of_lt hi)).trans h.partialProducts
    have m1 : ((List.range c.config.numRoutedWires).map fun j => (embQ (numerator c ch o i j), embQ (denominator ch o i j))).map
        Prod.fst = ((List.range c.config.numRoutedWires).map (numerator c ch o i)).map embQ := by
      rw [List.map_map, List.map_map]; rfl
    have m2 : ((List.range c.config.numRoutedWires).map fun j => (embQ (numerator c ch o i j), embQ (denominator ch o i j))).map
        Prod.snd = ((List.range c.config.numRoutedWires).map (denominator ch o i)).map embQ := by
      rw [List.map_map, List.map_map]; rfl
    rw [pure_bind, m1, m2, den_checkPartialProducts h.factor h.chunks h.chunks (hi.trans_le h.zs) (hi.trans_le h.zsNext) hpp,
      pure_bind, den_pure]
  · intro j hj
    rw [List.mem_range] at hj
    simp only [den_bind]
    rw [den_idx_map (hi.trans_le h.gammas) 0, pure_bind, den_idx_map (hi.trans_le h.betas) 0, pure_bind]
    exact den_permutationTerm hj (hj.trans_le h.wires) (hj.trans_le h.sigmas) rfl

/-! ## Random linear combination -/

theorem den_reduceStep (ha : c.config.numChallenges ≤ ch.plonkAlphas.length) (f : ℕ → QE) (t : QE) :
    den (reduceStep c ch.enc.plonkAlphas (((List.range c.config.numChallenges).map f).map embQ) (embQ t)) =
      pure (((List.range c.config.numChallenges).map fun j =>
        f j * ofBase (ch.plonkAlphas.getD j 0) + t).map embQ) := by
  have e : ch.enc.plonkAlphas = ch.plonkAlphas.map emb := rfl
  rw [reduceStep, e]
  refine den_mapRange fun j hj => ?_
  simp only [den_bind]
  rw [den_idx_rangeMap hj, pure_bind, den_idx_map (hj.trans_le ha) 0, pure_bind, den_scalarMulExt, pure_bind,
    den_addExt, add_comm]

theorem den_reduceSteps (ha : c.config.numChallenges ≤ ch.plonkAlphas.length) (l : List QE) (f : ℕ → QE) :
    den ((l.map embQ).foldlM (reduceStep c ch.enc.plonkAlphas) (((List.range c.config.numChallenges).map f).map embQ)) =
      pure (((List.range c.config.numChallenges).map fun j =>
        l.foldl (fun a t => a * ofBase (ch.plonkAlphas.getD j 0) + t) (f j)).map embQ) := by
  induction l generalizing f with
  | nil => simp
  | cons t l ih =>
    rw [List.map_cons, List.foldlM_cons, den_bind, den_reduceStep ha, pure_bind, ih]
    rfl

theorem den_reduce (ha : c.config.numChallenges ≤ ch.plonkAlphas.length) (l : List QE) :
    den ((l.map embQ).reverse.foldlM (reduceStep c ch.enc.plonkAlphas) (List.replicate c.config.numChallenges zeroExt)) =
      pure (((List.range c.config.numChallenges).map fun j =>
        ∑ i ∈ Finset.range l.length, l.getD i 0 * ofBase (ch.plonkAlphas.getD j 0) ^ i).map embQ) := by
  rw [replicate_zero, ← List.map_reverse, den_reduceSteps ha]
  refine congrArg pure (congrArg _ (List.map_congr_left fun j _ => ?_))
  rw [List.foldl_reverse, horner_eq_sum]

/-! ## The whole check -/

variable {gates : List Gate} {hsh : Fin 4 → Fp}

theorem den_evalVanishingPoly_aux (h : Shape c gates ch o) {l0 : QE} (hl0 : den (evalL0 c (embQ ch.plonkZeta)
    (embQ (ch.plonkZeta ^ n c))) = pure (embQ l0)) (hL : l0 = L0 c ch.plonkZeta) :
    den (evalVanishingPoly c gates ⟨o.enc.constants, o.enc.wires, fun i => emb (hsh i)⟩ ch.enc o.enc
      (embQ (ch.plonkZeta ^ n c))) =
    pure (((List.range c.config.numChallenges).map (vanishing c gates ch o hsh)).map embQ) := by
  have ev : (⟨o.enc.constants, o.enc.wires, fun i => emb (hsh i)⟩ : Vars) =
      (⟨o.constants, o.wires, hsh⟩ : EvaluationVars Fp QE).enc := rfl
  have ez : ch.enc.plonkZeta = embQ ch.plonkZeta := rfl
  rw [evalVanishingPoly, ev, ez]
  simp only [den_bind]
  rw [den_evaluateGateConstraints (v := ⟨o.constants, o.wires, hsh⟩) h.gatesOk (fun gi hgi => h.counts gi hgi _),
    pure_bind]
  have hs := den_sIDs (c := c) h.kIs h.kIsLt ch.plonkZeta
  simp only [den_mapM, den_bind] at hs ⊢
  rw [hs, pure_bind, hl0, pure_bind, Den.mapM_pure_of (g := fun i => (embQ (l0 * (o.plonkZs.getD i 0 - 1)),
    ((List.range (c.numPartialProducts + 1)).map fun k =>
      partialProduct c o (numerator c ch o i) (denominator ch o i) i k).map embQ))
    (fun i hi => den_challengeTerms h (List.mem_range.1 hi)), pure_bind]
  have e : ∀ g1 : List QE, ((List.range c.config.numChallenges).map fun i => (embQ (l0 * (o.plonkZs.getD i 0 - 1)),
      ((List.range (c.numPartialProducts + 1)).map fun k =>
        partialProduct c o (numerator c ch o i) (denominator ch o i) i k).map embQ)).map Prod.fst ++
      ((List.range c.config.numChallenges).map fun i => (embQ (l0 * (o.plonkZs.getD i 0 - 1)),
      ((List.range (c.numPartialProducts + 1)).map fun k =>
        partialProduct c o (numerator c ch o i) (denominator ch o i) i k).map embQ)).flatMap Prod.snd ++ g1.map embQ =
      ((List.range c.config.numChallenges).map (fun i => l0 * (o.plonkZs.getD i 0 - 1)) ++
      (List.range c.config.numChallenges).flatMap (fun i => (List.range (c.numPartialProducts + 1)).map fun k =>
        partialProduct c o (numerator c ch o i) (denominator ch o i) i k) ++ g1).map embQ := by
    intro g1
    rw [List.map_append, List.map_append, List.map_map, List.map_map, List.flatMap_map, List.map_flatMap]
    rfl
  rw [e, den_reduce h.alphas, hL]
  rfl

theorem den_quotientCheck (h : Shape c gates ch o) {i : ℕ} (hi : i < c.config.numChallenges) (a y : QE) :
    den (quotientCheck c o.enc (embQ y) (embQ (ch.plonkZeta ^ n c)) (embQ a, i)) =
      Den.assert (a = y * quotient c ch o i) := by
  have e : o.enc.quotientPolys = o.quotientPolys.map embQ := rfl
  have hlen : i * c.quotientDegreeFactor + c.quotientDegreeFactor ≤ o.quotientPolys.length := by
    have := Nat.mul_le_mul_right c.quotientDegreeFactor (Nat.succ_le_of_lt hi)
    rw [Nat.succ_mul] at this
    exact this.trans h.quotients
  rw [quotientCheck, e]
  simp only [den_bind]
  rw [den_slice (by omega) hlen 0, pure_bind, den_reduceWithPowers, pure_bind, den_mulExt, pure_bind,
    den_assertIsEqualExt, Den.guard_eq_assert, Nat.add_sub_cancel_left]
  refine Den.assert_congr ?_
  rw [embQ_inj, quotient, List.length_map, List.length_range]
  have : ∀ k ∈ Finset.range c.quotientDegreeFactor, (List.map (fun k => o.quotientPolys.getD (i * c.quotientDegreeFactor + k) 0)
      (List.range c.quotientDegreeFactor)).getD k 0 * (ch.plonkZeta ^ n c) ^ k =
      o.quotientPolys.getD (i * c.quotientDegreeFactor + k) 0 * (ch.plonkZeta ^ n c) ^ k := by
    intro k hk
    rw [List.getD_eq_getElem _ _ (by simpa using hk), List.getElem_map, List.getElem_range]
  rw [Finset.sum_congr rfl this]

theorem den_verify (h : Shape c gates ch o) :
    den (verify c gates ch.enc o.enc (fun i => emb (hsh i))) =
      Den.assert (ch.plonkZeta ≠ 1 ∧ Identity c gates ch o hsh) := by
  have ez : ch.enc.plonkZeta = embQ ch.plonkZeta := rfl
  rw [verify, ez]
  simp only [den_bind]
  rw [den_expPowerOf2, pure_bind]
  by_cases hz : ch.plonkZeta = 1
  · rw [Den.assert_false (by simp [hz])]
    have : den (evalVanishingPoly c gates ⟨o.enc.constants, o.enc.wires, fun i => emb (hsh i)⟩ ch.enc o.enc
      (embQ (ch.plonkZeta ^ n c))) = Den.fail := by
      rw [evalVanishingPoly, ez, hz]
      simp only [den_bind]
      rw [den_evalL0_one h.degree]
      simp only [Den.fail_bind, Den.bind_fail]
    rw [this, Den.fail_bind]
  · rw [den_evalVanishingPoly_aux h (den_evalL0 h.degree hz) rfl, pure_bind, oneExt_eq, den_subExt, pure_bind, den_forM,
      Den.forM_assert (P := fun vi => ∃ i, vi.2 = i ∧ vanishing c gates ch o hsh i =
        (ch.plonkZeta ^ n c - 1) * quotient c ch o i)]
    · refine Den.assert_congr ⟨fun hh => ⟨hz, fun i hi => ?_⟩, fun hh vi hvi => ⟨vi.2, rfl, hh.2 _ ?_⟩⟩
      · obtain ⟨j, hj, he⟩ := hh (embQ (vanishing c gates ch o hsh i), i) (by
          rw [List.mem_zipIdx_iff_getElem?]
          simp [hi])
        simp only at hj
        rw [hj]; exact he
      · have := List.mem_zipIdx_iff_getElem?.1 hvi
        have := (List.getElem?_eq_some_iff.1 this).1
        simpa using this
    · intro vi hvi
      have h1 := List.mem_zipIdx_iff_getElem?.1 hvi
      obtain ⟨hlt, h2⟩ := List.getElem?_eq_some_iff.1 h1
      simp only [List.length_map, List.length_range] at hlt
      rw [List.getElem_map, List.getElem_map, List.getElem_range] at h2
      obtain ⟨a, i⟩ := vi
      simp only at h2 hlt
      rw [← h2, den_quotientCheck h hlt]
      exact Den.assert_congr (by simp)

end Terms

theorem sat_mapM_length {σ β : Type} {f : σ → Circ β} {l : List σ} {ys : List β} (h : Sat (l.mapM f) ys) :
    ys.length = l.length := by
  induction l generalizing ys with
  | nil => rw [List.mapM_nil, sat_pure] at h; rw [h]; rfl
  | cons a l ih =>
    rw [List.mapM_cons, sat_bind] at h
    obtain ⟨y, _, h⟩ := h
    rw [sat_bind] at h
    obtain ⟨ys', h1, h2⟩ := h
    rw [sat_pure] at h2
    rw [h2, List.length_cons, List.length_cons, ih h1]

/-- Fewer routed wires than chunks times chunk size: the verifier runs out of range. -/
theorem verify_short {gates : List Gate} {ch : ProofChallenges Fr QEV} {o : OpeningSet QEV} {hsh : Fin 4 → Fr}
    (hq : c.quotientDegreeFactor ≠ 0) (hc : c.config.numChallenges ≠ 0)
    (hN : c.config.numRoutedWires < (c.numPartialProducts + 1) * c.quotientDegreeFactor) :
    Unsat (verify c gates ch o hsh) := by
  intro y h
  simp only [verify, evalVanishingPoly, sat_bind] at h
  obtain ⟨_, _, _, ⟨_, _, _, _, _, _, terms, h, _⟩, _⟩ := h
  obtain ⟨_, h⟩ := sat_mapM_mem h (List.mem_range.2 (Nat.pos_of_ne_zero hc))
  simp only [challengeTerms, sat_bind] at h
  obtain ⟨_, _, _, _, _, _, values, hv, pp, hpp, _⟩ := h
  have hl := sat_mapM_length hv
  rw [List.length_range] at hl
  exact checkPartialProducts_short hq (Or.inl (by rw [List.length_map, hl]; exact hN)) _ hpp

end Plonk

end Verif
