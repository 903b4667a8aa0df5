import Verif.Model.Verifier64
import Verif.Proofs.Gates64All
import Verif.Proofs.Panics
import Verif.Spec.Words

/-!
# PLONK on 64-bit words

`Bounds` says that no sum or product of parameters wraps around (at least where it is used).  Both programs panic unless
it holds, and they are equal if it does.
-/

set_option autoImplicit false

namespace Verif

theorem u64_of_lt {n : ℕ} (h : n < 2 ^ 64) : u64 n = n := Nat.mod_eq_of_lt h

theorem int64_of {z : ℤ} (h : -2 ^ 63 ≤ z) (h' : z < 2 ^ 63) : int64 z = z := by
  rw [int64]; omega

/-- A non-negative `int(x)` is exact. -/
theorem int64_nonneg {n : ℕ} (h : n < 2 ^ 64) (h0 : 0 ≤ int64 n) : int64 n = n ∧ n < 2 ^ 63 := by
  rw [int64] at h0 ⊢; omega

namespace Circ

theorem Post.makeCap (maxLen n : ℕ) : Post (fun _ => n ≤ maxLen) (makeCap maxLen n) := by
  rw [Verif.makeCap]
  split
  · next h => exact Post.pure h
  · trivial

theorem Post.sliceInt {α : Type} (l : List α) (a b : ℤ) : Post (fun _ => 0 ≤ a ∧ a ≤ b ∧ b ≤ l.length)
    (Verif.sliceInt l a b) := by
  rw [Verif.sliceInt]
  split
  · next h => exact Post.pure h
  · trivial

/-- Continuations that agree on the possible results. -/
theorem Post.bind_congr {α β : Type} {Q : α → Prop} {c : Circ α} {f g : α → Circ β} (h : Post Q c)
    (hfg : ∀ a, Q a → f a = g a) : c >>= f = c >>= g := by
  rw [bind_eq, bind_eq]
  induction c with
  | ret a => exact hfg a h
  | hint n hh k ih => exact congrArg (Circ.hint n hh) (funext fun v => ih v (h v))
  | require b k ih => exact congrArg (Circ.require b) (ih h)
  | check v n k ih => exact congrArg (Circ.check v n) (ih h)
  | panic m => rfl

theorem forM_congr' {σ : Type} {f g : σ → Circ Unit} {l : List σ} (h : ∀ x ∈ l, f x = g x) : l.forM f = l.forM g := by
  induction l with
  | nil => rfl
  | cons a l ih => rw [List.forM, List.forM, h a (by simp), ih fun x hx => h x (by simp [hx])]

end Circ

theorem makeCap_eq {maxLen n : ℕ} (h : n ≤ maxLen) : makeCap maxLen n = pure () := by rw [makeCap, if_pos h]

theorem sliceInt_eq {α : Type} {l : List α} {a b : ℕ} : sliceInt l a b = Gates.slice l a b := by
  rw [sliceInt, Gates.slice]
  simp

open Circ Gates

attribute [local irreducible] Verif.mulExt Verif.addExt Verif.subExt Verif.scalarMulExt Verif.reduceWithPowers
  Gates.slice Verif.idx Verif.orPanic Verif.rangeCheck Verif.divExt Verif.reduce Verif.makeCap Verif.sliceInt

namespace Plonk64

/-- Sizes read by `plonk.Verify`, without wrap-around. -/
structure Bounds (c : CommonCircuitData) (gates : List Gate) (o : OpeningSet QEV) : Prop where
  runs : ∀ gi ∈ gates.zipIdx, Spec.Gates.GateRuns c.selectorsInfo o.constants.length o.wires.length
    c.numGateConstraints gi.1 gi.2
  kIs : c.config.numRoutedWires ≤ c.kIs.length
  zs : c.config.numChallenges ≤ o.plonkZs.length
  products : c.config.numChallenges * c.numPartialProducts ≤ o.partialProducts.length
  chunks : c.config.numChallenges ≠ 0 → c.quotientDegreeFactor ≠ 0 →
    (c.numPartialProducts + 1) * c.quotientDegreeFactor ≤ c.config.numRoutedWires
  quotients : c.config.numChallenges * c.quotientDegreeFactor ≤ o.quotientPolys.length

/-! ## Products that are in bounds at every step do not wrap around -/

theorem chunk_steps {n q N : ℕ} (hN : N ≤ 2 ^ 58) (h : ∀ i ∈ List.range (n + 1), u64 (i * q) + q ≤ N) :
    (n + 1) * q ≤ N := by
  have key : ∀ i ≤ n, i * q + q ≤ N := by
    intro i
    induction i with
    | zero => intro hi; have := h 0 (by simp); simpa [u64] using this
    | succ i ih =>
      intro hi
      have h1 := ih (by omega)
      have h2 := h (i + 1) (by simp; omega)
      rw [Nat.succ_mul, u64_of_lt (by omega)] at h2
      rw [Nat.succ_mul]; exact h2
  rw [Nat.succ_mul]; exact key n le_rfl

theorem slice_steps {n q N : ℕ} (hn : n ≤ 2 ^ 58) (hN : N ≤ 2 ^ 58) (hq : q < 2 ^ 64)
    (h : ∀ i ∈ List.range n, u64 (u64 (i + 1) * q) ≤ N) : n * q ≤ N := by
  have key : ∀ i < n, (i + 1) * q ≤ N := by
    intro i
    induction i with
    | zero => intro hi; have := h 0 (by simpa); rwa [u64_of_lt (by norm_num : 0 + 1 < 2 ^ 64), u64_of_lt (by omega)] at this
    | succ i ih =>
      intro hi
      have h1 := ih (by omega)
      have hq' : q ≤ N := le_trans (Nat.le_mul_of_pos_left q (by omega)) h1
      have h2 := h (i + 1) (by simpa)
      rw [u64_of_lt (by omega : i + 1 + 1 < 2 ^ 64), Nat.succ_mul, u64_of_lt (by omega)] at h2
      rw [Nat.succ_mul]; exact h2
  cases n with
  | zero => simp
  | succ n => exact key n (by omega)

theorem quotient_steps {n q N : ℕ} (hN : N ≤ 2 ^ 58) (hq : q < 2 ^ 64)
    (h : ∀ i < n, 0 ≤ int64 (i * int64 q) ∧ int64 (i * int64 q) ≤ int64 (int64 (i * int64 q) + int64 q) ∧
      int64 (int64 (i * int64 q) + int64 q) ≤ N) : n * q ≤ N := by
  cases n with
  | zero => simp
  | succ n =>
    have h0 := h 0 (by omega)
    have hi0 : int64 0 = 0 := rfl
    have hr : -2 ^ 63 ≤ int64 q ∧ int64 q < 2 ^ 63 := by rw [int64]; omega
    simp only [Nat.cast_zero, zero_mul, hi0, zero_add, int64_of hr.1 hr.2] at h0
    obtain ⟨hq1, hq2⟩ := int64_nonneg hq h0.2.1
    rw [hq1] at h h0
    have key : ∀ i < n + 1, i * q + q ≤ N := by
      intro i
      induction i with
      | zero => intro _; omega
      | succ i ih =>
        intro hi
        have h1 := ih (by omega)
        have h2 := (h (i + 1) hi).2.2
        have e : ((i + 1 : ℕ) : ℤ) * (q : ℤ) = ((i * q + q : ℕ) : ℤ) := by push_cast; ring
        rw [e, int64_of (z := ((i * q + q : ℕ) : ℤ)) (by omega) (by omega), int64_of (by omega) (by omega)] at h2
        rw [Nat.succ_mul]; omega
    rw [Nat.succ_mul]; exact key n (by omega)

/-! ## Bounds from a run without panic -/

theorem post_chunkProduct {q s : ℕ} {l : List QEV} (hl : l.length ≤ 2 ^ 58) :
    Post (fun _ => s + q ≤ l.length) (chunkProduct l s q) := by
  rw [chunkProduct]
  refine (Post.idx l s).bind fun _ h0 => ?_
  refine (Post.foldlM (P := fun j => u64 (s + j) < l.length) (fun _ => True) _ (fun b j _ _ => ?_) _ trivial).mono
    fun _ h => ?_
  · exact (Post.idx l _).bind fun _ h => Post.const ⟨trivial, h⟩ _
  · by_contra hlt
    have := h.2 (l.length - s) (by rw [List.mem_range'_1]; omega)
    rw [u64_of_lt (by omega)] at this
    omega

theorem post_checkPartialProducts {maxLen : ℕ} {c : CommonCircuitData} {nu de : List QEV} {i : ℕ} {o : OpeningSet QEV}
    (hl : nu.length ≤ 2 ^ 58) :
    Post (fun _ => u64 (u64 (i + 1) * c.numPartialProducts) ≤ o.partialProducts.length ∧
      (c.quotientDegreeFactor ≠ 0 → (c.numPartialProducts + 1) * c.quotientDegreeFactor ≤ nu.length))
      (checkPartialProducts maxLen c nu de i o) := by
  rw [checkPartialProducts]
  refine .skip fun _ => .skip fun _ => Post.slice.bind fun _ h2 => .skip fun _ => .skip fun _ => ?_
  by_cases hq : c.quotientDegreeFactor = 0
  · exact Post.const ⟨h2, fun h => absurd hq h⟩ _
  refine (Post.mapM (P := fun (k : ℕ) => u64 (k * c.quotientDegreeFactor) + c.quotientDegreeFactor ≤ nu.length) _
    fun k _ => ?_).mono fun r hr => ⟨h2, fun _ => chunk_steps hl hr.2⟩
  rw [partialProductCheck]
  exact Post.stop (post_chunkProduct hl)

end Plonk64

namespace Plonk

theorem post_checkPartialProducts' {c : CommonCircuitData} {nu de : List QEV} {i : ℕ} {o : OpeningSet QEV} :
    Post (fun _ => (i + 1) * c.numPartialProducts ≤ o.partialProducts.length ∧
      (c.quotientDegreeFactor ≠ 0 → (c.numPartialProducts + 1) * c.quotientDegreeFactor ≤ nu.length))
      (checkPartialProducts c nu de i o) := by
  by_cases hq : c.quotientDegreeFactor = 0
  · rw [checkPartialProducts]
    exact .skip fun _ => Post.slice.bind fun _ h2 => Post.const ⟨h2, fun h => absurd hq h⟩ _
  · exact (post_checkPartialProducts hq).mono fun _ h => ⟨h.1.2.1, fun _ => h.2.1⟩

end Plonk

namespace Plonk64

theorem post_vanishing {maxLen : ℕ} (hL : maxLen ≤ 2 ^ 58) {c : CommonCircuitData} {gates : List Gates64.Gate}
    {v : Vars} {ch : ProofChallenges Fr QEV} {o : OpeningSet QEV} {zn : QEV}
    (hc : v.localConstants.length ≤ maxLen) (hw : v.localWires.length ≤ maxLen)
    (hp : o.partialProducts.length ≤ maxLen) (hnp : c.numPartialProducts < 2 ^ 64) :
    Post (fun r => r.length = c.config.numChallenges ∧
      (∀ gi ∈ (gates.map Gates64.Gate.toNat).zipIdx, Spec.Gates.GateRuns c.selectorsInfo v.localConstants.length
        v.localWires.length c.numGateConstraints gi.1 gi.2) ∧ c.config.numRoutedWires ≤ c.kIs.length ∧
      c.config.numChallenges ≤ o.plonkZs.length ∧
      c.config.numChallenges * c.numPartialProducts ≤ o.partialProducts.length ∧
      (c.config.numChallenges ≠ 0 → c.quotientDegreeFactor ≠ 0 →
        (c.numPartialProducts + 1) * c.quotientDegreeFactor ≤ c.config.numRoutedWires))
      (evalVanishingPoly maxLen c gates v ch o zn) := by
  rw [evalVanishingPoly]
  by_cases hg : ∀ gi ∈ (gates.map Gates64.Gate.toNat).zipIdx, Spec.Gates.GateRuns c.selectorsInfo
    v.localConstants.length v.localWires.length c.numGateConstraints gi.1 gi.2
  swap
  · refine Panics.post (.bind ?_ _)
    rcases Gates64.evaluateGateConstraints_agree gates c.numGateConstraints c.selectorsInfo hc hw hL with e | ⟨h, _⟩
    · rw [e]; exact (GateSizes.generates_all _ _ _ _).2 hg
    · exact h
  refine .skip fun _ => (Post.makeCap _ _).bind fun _ hr => ?_
  refine (Post.mapM (P := fun i => i < c.kIs.length) _ fun i _ => ?_).bind fun sids hsids => .skip fun l0 =>
    (Post.makeCap _ _).bind fun _ hn => .skip fun _ => ?_
  · exact (Post.idx _ _).bind fun _ h => Post.const h _
  refine (Post.mapM (P := fun i => i < o.plonkZs.length ∧
      u64 (u64 (i + 1) * c.numPartialProducts) ≤ o.partialProducts.length ∧
      (c.quotientDegreeFactor ≠ 0 → (c.numPartialProducts + 1) * c.quotientDegreeFactor ≤ c.config.numRoutedWires)) _
    fun i _ => ?_).bind fun terms hterms => ?_
  · rw [challengeTerms]
    refine (Post.idx _ _).bind fun _ h1 => .skip fun _ => .skip fun _ => .skip fun _ => ?_
    refine (Post.mapM (P := fun _ => True) _ fun j _ => Post.top _).bind fun vals hvals => ?_
    have hlen : (vals.map Prod.fst).length = c.config.numRoutedWires := by
      rw [List.length_map, hvals.1, List.length_range]
    refine Post.stop ((post_checkPartialProducts (by omega)).mono fun _ h => ⟨h1, h.1, ?_⟩)
    rw [hlen] at h
    exact h.2
  · refine ((Post.foldlM (P := fun _ => True) (fun r => r.length = c.config.numChallenges) _ (fun b x _ _ => ?_) _
      (by simp)).mono fun r hr => ⟨hr.1, hg, range_all hsids.2, range_all fun i hi => (hterms.2 i hi).1,
        slice_steps (by omega) (by omega) hnp fun i hi => (hterms.2 i hi).2.1, fun h0 => ?_⟩)
    · exact (Post.mapM (P := fun _ => True) _ fun _ _ => Post.top _).mono fun _ h => ⟨by simpa using h.1, trivial⟩
    · exact (hterms.2 0 (List.mem_range.2 (Nat.pos_of_ne_zero h0))).2.2

theorem post_verify {maxLen : ℕ} (hL : maxLen ≤ 2 ^ 58) {c : CommonCircuitData} {gates : List Gates64.Gate}
    {ch : ProofChallenges Fr QEV} {o : OpeningSet QEV} {h : Fin 4 → Fr}
    (hc : o.constants.length ≤ maxLen) (hw : o.wires.length ≤ maxLen)
    (hp : o.partialProducts.length ≤ maxLen) (hqp : o.quotientPolys.length ≤ maxLen)
    (hnp : c.numPartialProducts < 2 ^ 64) (hqd : c.quotientDegreeFactor < 2 ^ 64) :
    Post (fun _ => Bounds c (gates.map Gates64.Gate.toNat) o) (verify maxLen c gates ch o h) := by
  rw [verify]
  refine .skip fun zn => (post_vanishing hL hc hw hp hnp).bind fun vs hvs => .skip fun zh => ?_
  obtain ⟨hlen, h1, h2, h3, h4, h5⟩ := hvs
  refine (Post.forM (P := fun (vi : QEV × ℕ) => 0 ≤ int64 (vi.2 * int64 c.quotientDegreeFactor) ∧
    int64 (vi.2 * int64 c.quotientDegreeFactor) ≤
      int64 (int64 (vi.2 * int64 c.quotientDegreeFactor) + int64 c.quotientDegreeFactor) ∧
    int64 (int64 (vi.2 * int64 c.quotientDegreeFactor) + int64 c.quotientDegreeFactor) ≤ o.quotientPolys.length) _
      fun vi _ => ?_).mono fun _ hquot => ⟨h1, h2, h3, h4, h5, quotient_steps (by omega) hqd fun i hi => ?_⟩
  · rw [quotientCheck]
    exact (Post.sliceInt _ _ _).bind fun _ h => Post.const h _
  · exact hquot (vs[i]'(by omega), i) (List.mem_zipIdx_iff_getElem?.2 (List.getElem?_eq_getElem _))

/-- The same for the program on natural numbers. -/
theorem post_verifyNat {c : CommonCircuitData} {gates : List Gate}
    {ch : ProofChallenges Fr QEV} {o : OpeningSet QEV} {h : Fin 4 → Fr} :
    Post (fun _ => Bounds c gates o) (Plonk.verify c gates ch o h) := by
  rw [Plonk.verify]
  refine .skip fun zn => ?_
  refine Post.bind (Q := fun r => r.length = c.config.numChallenges ∧
      (∀ gi ∈ gates.zipIdx, Spec.Gates.GateRuns c.selectorsInfo o.constants.length
        o.wires.length c.numGateConstraints gi.1 gi.2) ∧ c.config.numRoutedWires ≤ c.kIs.length ∧
      c.config.numChallenges ≤ o.plonkZs.length ∧
      c.config.numChallenges * c.numPartialProducts ≤ o.partialProducts.length ∧
      (c.config.numChallenges ≠ 0 → c.quotientDegreeFactor ≠ 0 →
        (c.numPartialProducts + 1) * c.quotientDegreeFactor ≤ c.config.numRoutedWires)) ?_
    fun vs hvs => .skip fun zh => ?_
  · rw [Plonk.evalVanishingPoly]
    by_cases hg : ∀ gi ∈ gates.zipIdx, Spec.Gates.GateRuns c.selectorsInfo
      o.constants.length o.wires.length c.numGateConstraints gi.1 gi.2
    swap
    · exact Panics.post (.bind ((GateSizes.generates_all _ _ _ _).2 hg) _)
    refine .skip fun _ => ?_
    refine (Post.mapM (P := fun i => i < c.kIs.length) _ fun i _ => ?_).bind fun sids hsids => .skip fun l0 => ?_
    · exact (Post.idx _ _).bind fun _ h => Post.const h _
    refine (Post.mapM (P := fun i => i < o.plonkZs.length ∧
        (i + 1) * c.numPartialProducts ≤ o.partialProducts.length ∧
        (c.quotientDegreeFactor ≠ 0 → (c.numPartialProducts + 1) * c.quotientDegreeFactor ≤ c.config.numRoutedWires)) _
      fun i _ => ?_).bind fun terms hterms => ?_
    · rw [Plonk.challengeTerms]
      refine (Post.idx _ _).bind fun _ h1 => .skip fun _ => .skip fun _ => ?_
      refine (Post.mapM (P := fun _ => True) _ fun j _ => Post.top _).bind fun vals hvals => ?_
      have hlen : (vals.map Prod.fst).length = c.config.numRoutedWires := by
        rw [List.length_map, hvals.1, List.length_range]
      refine Post.stop (Plonk.post_checkPartialProducts'.mono fun _ h => ⟨h1, h.1, ?_⟩)
      rw [hlen] at h
      exact h.2
    · refine ((Post.foldlM (P := fun _ => True) (fun r => r.length = c.config.numChallenges) _ (fun b x _ _ => ?_) _
        (by simp)).mono fun r hr => ⟨hr.1, hg, range_all hsids.2, range_all fun i hi => (hterms.2 i hi).1,
          ?_, fun h0 => ?_⟩)
      · exact (Post.mapM (P := fun _ => True) _ fun _ _ => Post.top _).mono fun _ h => ⟨by simpa using h.1, trivial⟩
      · by_cases h0 : c.config.numChallenges = 0
        · simp [h0]
        · obtain ⟨m, hm⟩ := Nat.exists_eq_succ_of_ne_zero h0
          rw [hm]
          exact (hterms.2 m (by simp [hm])).2.1
      · exact (hterms.2 0 (List.mem_range.2 (Nat.pos_of_ne_zero h0))).2.2
  · obtain ⟨hlen, h1, h2, h3, h4, h5⟩ := hvs
    refine (Post.forM (P := fun vi => vi.2 * c.quotientDegreeFactor + c.quotientDegreeFactor ≤ o.quotientPolys.length) _
      fun vi _ => ?_).mono fun _ hquot => ⟨h1, h2, h3, h4, h5, ?_⟩
    · rw [Plonk.quotientCheck]
      exact Post.slice.bind fun _ h => Post.const h _
    · by_cases h0 : c.config.numChallenges = 0
      · simp [h0]
      · obtain ⟨m, hm⟩ := Nat.exists_eq_succ_of_ne_zero h0
        rw [hm, Nat.succ_mul]
        exact hquot (vs[m]'(by omega), m) (List.mem_zipIdx_iff_getElem?.2 (List.getElem?_eq_getElem _))

/-! ## Equality within bounds -/

theorem chunkProduct_eq {l : List QEV} {s q N : ℕ} (hN : N ≤ 2 ^ 58) (h : s + q ≤ N) :
    chunkProduct l (u64 s) q = Plonk.chunkProduct l s q := by
  rw [chunkProduct, Plonk.chunkProduct, u64_of_lt (by omega)]
  congr 1
  funext a
  refine foldlM_congr' (fun b j hj => ?_) _
  rw [List.mem_range'_1] at hj
  rw [u64_of_lt (by omega)]

theorem checkPartialProducts_eq {maxLen : ℕ} (hL : maxLen ≤ 2 ^ 58) {c : CommonCircuitData} {nu de : List QEV} {i : ℕ}
    {o : OpeningSet QEV} (hi : i < c.config.numChallenges) (hz : c.config.numChallenges ≤ maxLen)
    (hp : o.partialProducts.length + 2 ≤ maxLen) (hr : c.config.numRoutedWires ≤ maxLen)
    (h1 : c.config.numChallenges * c.numPartialProducts ≤ o.partialProducts.length)
    (h2 : c.quotientDegreeFactor ≠ 0 → (c.numPartialProducts + 1) * c.quotientDegreeFactor ≤ c.config.numRoutedWires) :
    checkPartialProducts maxLen c nu de i o = Plonk.checkPartialProducts c nu de i o := by
  have hnp : c.numPartialProducts ≤ o.partialProducts.length := le_trans (Nat.le_mul_of_pos_left _ (by omega)) h1
  have hi1 : (i + 1) * c.numPartialProducts ≤ o.partialProducts.length := le_trans (Nat.mul_le_mul_right _ hi) h1
  have hi0 : i * c.numPartialProducts ≤ o.partialProducts.length := le_trans (Nat.mul_le_mul_right _ (by omega)) hi1
  rw [checkPartialProducts, Plonk.checkPartialProducts, u64_of_lt (by omega : c.numPartialProducts + 2 < 2 ^ 64),
    makeCap_eq (by omega), makeCap_eq (by omega), u64_of_lt (by omega : i + 1 < 2 ^ 64),
    u64_of_lt (by omega : i * _ < 2 ^ 64), u64_of_lt (by omega : (i + 1) * _ < 2 ^ 64)]
  simp only [pure_bind]
  congr 1; funext z; congr 1; funext pp; congr 1; funext zn
  refine mapM_congr' fun k hk => ?_
  rw [List.mem_range] at hk
  have hk' : k * c.quotientDegreeFactor + c.quotientDegreeFactor ≤ maxLen := by
    by_cases hq : c.quotientDegreeFactor = 0
    · simp [hq]
    · refine le_trans ?_ (le_trans (h2 hq) hr)
      rw [← Nat.succ_mul]
      exact Nat.mul_le_mul_right _ hk
  rw [partialProductCheck, chunkProduct_eq hL hk', chunkProduct_eq hL hk', u64_of_lt (by omega)]

theorem quotientCheck_eq {c : CommonCircuitData} {o : OpeningSet QEV} {zh zn : QEV} {vi : QEV × ℕ}
    (hq : o.quotientPolys.length ≤ 2 ^ 58) (hi : vi.2 < c.config.numChallenges)
    (h : c.config.numChallenges * c.quotientDegreeFactor ≤ o.quotientPolys.length) :
    quotientCheck c o zh zn vi = Plonk.quotientCheck c o zh zn vi := by
  have hqd : c.quotientDegreeFactor ≤ o.quotientPolys.length := le_trans (Nat.le_mul_of_pos_left _ (by omega)) h
  have hi1 : vi.2 * c.quotientDegreeFactor + c.quotientDegreeFactor ≤ o.quotientPolys.length := by
    rw [← Nat.succ_mul]; exact le_trans (Nat.mul_le_mul_right _ hi) h
  rw [quotientCheck, Plonk.quotientCheck, int64_of (z := (c.quotientDegreeFactor : ℤ)) (by omega) (by omega), ← Nat.cast_mul,
    int64_of (z := ((vi.2 * c.quotientDegreeFactor : ℕ) : ℤ)) (by omega) (by omega), ← Nat.cast_add,
    int64_of (by omega) (by omega), sliceInt_eq]

theorem verify_eq {maxLen : ℕ} (hL : maxLen ≤ 2 ^ 58) {c : CommonCircuitData} {gates : List Gates64.Gate}
    {ch : ProofChallenges Fr QEV} {o : OpeningSet QEV} {h : Fin 4 → Fr}
    (hc : o.constants.length ≤ maxLen) (hw : o.wires.length ≤ maxLen) (hz : o.plonkZs.length ≤ maxLen)
    (hp : o.partialProducts.length + 2 ≤ maxLen) (hqp : o.quotientPolys.length ≤ maxLen) (hk : c.kIs.length ≤ maxLen)
    (hb : Bounds c (gates.map Gates64.Gate.toNat) o) :
    verify maxLen c gates ch o h = Plonk.verify c (gates.map Gates64.Gate.toNat) ch o h := by
  have hg : Gates64.evaluateGateConstraints maxLen gates c.numGateConstraints c.selectorsInfo
      ⟨o.constants, o.wires, h⟩ = Gates.evaluateGateConstraints (gates.map Gates64.Gate.toNat) c.numGateConstraints
      c.selectorsInfo ⟨o.constants, o.wires, h⟩ :=
    (Gates64.evaluateGateConstraints_agree gates _ _ (v := ⟨o.constants, o.wires, h⟩) hc hw hL).resolve_right
      fun hp => ((GateSizes.generates_all _ _ _ ⟨o.constants, o.wires, h⟩).1 hb.runs).not_panics hp.2
  have hz' := hb.zs
  have hk' := hb.kIs
  have hp' := hb.products
  have hct : ∀ sids l0, ∀ i ∈ List.range c.config.numChallenges,
      challengeTerms maxLen c ch o sids l0 i = Plonk.challengeTerms c ch o sids l0 i := by
    intro sids l0 i hi
    rw [challengeTerms, Plonk.challengeTerms, makeCap_eq (by omega)]
    simp only [pure_bind]
    congr 1; funext z; congr 1; funext t; congr 1; funext z1; congr 1; funext vals
    rw [checkPartialProducts_eq hL (List.mem_range.1 hi) (by omega) hp (by omega) hp'
      (hb.chunks (by have := List.mem_range.1 hi; omega))]
  have hv : ∀ zn, evalVanishingPoly maxLen c gates ⟨o.constants, o.wires, h⟩ ch o zn =
      Plonk.evalVanishingPoly c (gates.map Gates64.Gate.toNat) ⟨o.constants, o.wires, h⟩ ch o zn := by
    intro zn
    rw [evalVanishingPoly, Plonk.evalVanishingPoly, hg, makeCap_eq (by omega), makeCap_eq (by omega),
      u64_of_lt (by omega), makeCap_eq (by omega)]
    simp only [pure_bind]
    congr 1; funext ct; congr 1; funext sids; congr 1; funext l0
    rw [mapM_congr' (hct sids l0)]
  have hpost : ∀ zn, Post (fun r => r.length = c.config.numChallenges)
      (Plonk.evalVanishingPoly c (gates.map Gates64.Gate.toNat) ⟨o.constants, o.wires, h⟩ ch o zn) := by
    intro zn
    rw [Plonk.evalVanishingPoly]
    refine .skip fun _ => .skip fun _ => .skip fun _ => .skip fun terms => ?_
    refine (Post.foldlM (P := fun _ => True) (fun r => r.length = c.config.numChallenges) _ (fun b x _ _ => ?_) _
      (by simp)).mono fun r hr => hr.1
    exact (Post.mapM (P := fun _ => True) _ fun _ _ => Post.top _).mono fun _ h => ⟨by simpa using h.1, trivial⟩
  rw [verify, Plonk.verify]
  congr 1; funext zn
  simp only [hv]
  refine Post.bind_congr (hpost zn) fun vs hvs => ?_
  congr 1; funext zh
  refine forM_congr' fun vi hvi => quotientCheck_eq (by omega) ?_ hb.quotients
  rw [← hvs]
  exact NoPanic.zipIdx_lt hvi

end Plonk64

end Verif
