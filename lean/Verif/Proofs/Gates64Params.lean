import Verif.Proofs.Gates64

/-!
# The Poseidon, random access and coset interpolation gates on 64-bit words
-/

set_option autoImplicit false

namespace Verif

open Circ Gates

variable {v : Vars}

namespace Gates64

section

open PoseidonGL

attribute [local irreducible] mulExt addExt subExt idx at_ constantLayerExt sBoxLayerExt mdsLayerExt
  partialFirstConstantLayerExt mdsPartialLayerInitExt mdsPartialLayerFastExt sBoxMonomialExt const1

theorem wireDelta_eq (i : Fin 4) : (Poseidon.wireDelta (UInt64.ofNat i) >>= at_ v.localWires) =
    idx v.localWires (25 + i) := by
  rw [Poseidon.wireDelta, if_neg (not_ge (n := 4) (by simp)), pure_bind, at_eq]
  rw [Poseidon.START_DELTA]
  u64

theorem sBoxInputs_eq {w : UInt64 → Circ UInt64} {k : Fin 12 → ℕ}
    (h : ∀ i : Fin 12, (w (UInt64.ofNat i) >>= at_ v.localWires) = idx v.localWires (k i)) (st : StateExt) :
    Poseidon.sBoxInputs v w st = Gates.sBoxInputs v k st := by
  rw [Poseidon.sBoxInputs, Gates.sBoxInputs]
  congr 1
  refine tabM_congr' fun i => ?_
  rw [← h i, bind_assoc]

theorem full0_eq (r : ℕ) (hr : r < 4) (st : List QEV × StateExt) : Poseidon.full0 v st r = poseidonFull0 v st r := by
  rw [Poseidon.full0, poseidonFull0]
  refine bind_congr fun s => ?_
  by_cases h0 : r = 0
  · subst h0; rfl
  · simp only [if_pos (show r ≠ 0 from h0)]
    congr 1
    refine sBoxInputs_eq (fun i => ?_) _
    have h1 : UInt64.ofNat r ≠ 0 := by
      intro e
      have := congrArg UInt64.toNat e
      rw [toNat_ofNat_of (by omega)] at this
      exact h0 this
    rw [Poseidon.wireFullSBox0, if_neg h1, if_neg (not_ge (n := 4) (by simpa using hr)),
      if_neg (not_ge (n := 12) (by simp)), pure_bind, at_eq]
    have := i.2
    rw [Poseidon.START_FULL_0, Poseidon.START_DELTA]
    u64

theorem partial_eq (r : ℕ) (hr : r < 22) (st : List QEV × StateExt) :
    Poseidon.partial_ v st r = poseidonPartial v st r := by
  rw [Poseidon.partial_, poseidonPartial, Poseidon.wirePartialSBox, if_neg (not_ge (n := 22) (by simpa using hr)),
    pure_bind, at_eq]
  rw [Poseidon.START_PARTIAL, Poseidon.START_FULL_0, Poseidon.START_DELTA]
  u64

theorem full1_eq (r : ℕ) (hr : r < 4) (st : List QEV × StateExt) : Poseidon.full1 v st r = poseidonFull1 v st r := by
  rw [Poseidon.full1, poseidonFull1]
  refine bind_congr fun s => ?_
  congr 1
  refine sBoxInputs_eq (fun i => ?_) _
  rw [Poseidon.wireFullSBox1, if_neg (not_ge (n := 4) (by simpa using hr)),
    if_neg (not_ge (n := 12) (by simp)), pure_bind, at_eq]
  have := i.2
  rw [Poseidon.START_FULL_1, Poseidon.START_PARTIAL, Poseidon.START_FULL_0, Poseidon.START_DELTA]
  u64

theorem input_eq : Poseidon.input v = poseidonInput v := by
  rw [Poseidon.input, poseidonInput]
  refine congrArg₂ _ (tabM_congr' fun i => ?_) (funext fun sw => congrArg₂ _ (tabM_congr' fun i => ?_) rfl)
  · have := i.2
    rw [← wireDelta_eq i, bind_assoc, at_eq (i := Poseidon.wireInput (UInt64.ofNat i)) (k := i)
      (by rw [Poseidon.wireInput]; u64), at_eq (i := Poseidon.wireInput (UInt64.ofNat i + 4)) (k := i + 4)
      (by rw [Poseidon.wireInput]; u64)]
  · have := i.2
    exact at_eq (by rw [Poseidon.wireInput]; u64)

theorem poseidon_eq : Poseidon.eval v = Gates.poseidon v := by
  rw [Poseidon.eval, Gates.poseidon, at_eq (i := Poseidon.wireSwap) (k := 24) rfl, input_eq]
  refine bind_congr fun swap => bind_congr fun _ => bind_congr fun c0 => ?_
  refine congrArg₂ _ (tabM_congr' fun i => ?_) (funext fun ds => bind_congr fun st => ?_)
  · have := i.2
    rw [at_eq (i := Poseidon.wireInput (UInt64.ofNat i)) (k := i) (by rw [Poseidon.wireInput]; u64),
      at_eq (i := Poseidon.wireInput (UInt64.ofNat i + 4)) (k := i + 4) (by rw [Poseidon.wireInput]; u64)]
    refine bind_congr fun _ => bind_congr fun _ => ?_
    rw [← wireDelta_eq i, bind_assoc]
  · rw [foldlM_congr' (l := [0, 1, 2, 3]) (f := Poseidon.full0 v) (g := poseidonFull0 v)
      fun b x hx => full0_eq x (by fin_cases hx <;> omega) b]
    refine bind_congr fun _ => bind_congr fun _ => bind_congr fun _ => ?_
    rw [foldlM_congr' (l := List.range 22) (f := Poseidon.partial_ v) (g := poseidonPartial v)
      fun b x hx => partial_eq x (List.mem_range.1 hx) b]
    refine bind_congr fun _ => ?_
    rw [foldlM_congr' (l := [0, 1, 2, 3]) (f := Poseidon.full1 v) (g := poseidonFull1 v)
      fun b x hx => full1_eq x (by fin_cases hx <;> omega) b]
    refine bind_congr fun st => congrArg₂ _ (tabM_congr' fun i => ?_) rfl
    have := i.2
    rw [at_eq (k := 12 + i) (by rw [Poseidon.wireOutput]; u64)]

end

/-! ## Random access -/

theorem shl1_toNat (n : UInt64) : (shl1 n).toNat = Gates.shl1 n.toNat := by
  rw [shl1, Gates.shl1]
  by_cases h : n < 64
  · have h' : n.toNat < 64 := UInt64.lt_iff_toNat_lt.1 h
    rw [if_pos h, if_pos h', UInt64.toNat_shiftLeft]
    have h1 : (1 : UInt64).toNat = 1 := rfl
    rw [h1, Nat.mod_eq_of_lt h', Nat.one_shiftLeft]
    exact Nat.mod_eq_of_lt (Nat.pow_lt_pow_right (by norm_num) h')
  · have h' : ¬ n.toNat < 64 := fun e => h (UInt64.lt_iff_toNat_lt.2 e)
    rw [if_neg h, if_neg h']
    rfl

theorem mul_toNat {a b : UInt64} {x y : ℕ} (ha : a.toNat = x) (hb : b.toNat = y) (h : x * y < 2 ^ 64) :
    (a * b).toNat = x * y := by
  rw [UInt64.toNat_mul, ha, hb, Nat.mod_eq_of_lt h]

theorem add_toNat {a b : UInt64} {x y : ℕ} (ha : a.toNat = x) (hb : b.toNat = y) (h : x + y < 2 ^ 64) :
    (a + b).toNat = x + y := by
  rw [UInt64.toNat_add, ha, hb, Nat.mod_eq_of_lt h]

attribute [local irreducible] mulExt addExt subExt mulAlg addAlg subAlg scalarMulAlg scalarMulExt reduceWithPowers
  EvaluationVars.getLocalExtAlgebra Gates64.getLocalExtAlgebra Gates.slice partialInterpolate idx orPanic at_ foldPairs

namespace RandomAccess

variable (g : RandomAccess)

theorem stride_toNat {V : ℕ} (hV : g.vecSize.toNat = V) (h : V ≤ L) : (2 + g.vecSize).toNat = 2 + V := by
  rw [L] at h
  exact add_toNat rfl hV (by omega)

theorem accessIndex_eq {V k : ℕ} (hV : g.vecSize.toNat = V) (h : V ≤ L) (hk : k < g.numCopies.toNat)
    (hs : (2 + V) * k < 2 ^ 64) :
    g.wireAccessIndex (UInt64.ofNat k) = pure ((2 + g.vecSize) * UInt64.ofNat k) ∧
    ((2 + g.vecSize) * UInt64.ofNat k).toNat = (2 + V) * k :=
  ⟨if_neg (not_ge hk), mul_toNat (g.stride_toNat hV h) (toNat_ofNat_of (hk.trans g.numCopies.toNat_lt)) hs⟩

theorem evalCopy_eq {V k : ℕ} (hV : g.vecSize.toNat = V) (h : V ≤ L) (hk : k < g.numCopies.toNat)
    (hS : (2 + V) * g.numCopies.toNat ≤ 4 * L) (he : g.numExtraConstants.toNat ≤ L) (hb : g.bits.toNat < 64) :
    g.evalCopy v (UInt64.ofNat k) =
      randomAccessCopy g.bits.toNat g.numCopies.toNat g.numExtraConstants.toNat v k := by
  have hV' : Gates.shl1 g.bits.toNat = V := by rw [← hV, vecSize, shl1_toNat]
  have hVp : V = 2 ^ g.bits.toNat := by rw [← hV', Gates.shl1, if_pos hb]
  have hbV : g.bits.toNat < V := hVp ▸ Nat.lt_two_pow_self
  have h1 : (2 + V) * k + (2 + V) ≤ (2 + V) * g.numCopies.toNat := by
    rw [← Nat.mul_succ]; exact Nat.mul_le_mul_left _ hk
  have h2 : k * g.bits.toNat ≤ (2 + V) * k := by
    rw [mul_comm]; exact Nat.mul_le_mul_right _ (by omega)
  have hst := g.stride_toNat hV h
  obtain ⟨hai, hat⟩ := g.accessIndex_eq (k := k) hV h hk (by rw [L] at hS; omega)
  have hkn : (UInt64.ofNat k).toNat = k := toNat_ofNat_of (hk.trans g.numCopies.toNat_lt)
  have hsx : g.startExtraConstants.toNat = (2 + V) * g.numCopies.toNat :=
    mul_toNat hst rfl (by rw [L] at hS; omega)
  have hnr : g.numRoutedWires.toNat = (2 + V) * g.numCopies.toNat + g.numExtraConstants.toNat :=
    add_toNat hsx rfl (by rw [L] at hS he; omega)
  have hkb : (UInt64.ofNat k * g.bits).toNat = k * g.bits.toNat := mul_toNat hkn rfl (by rw [L] at hS; omega)
  rw [L] at hS he h
  rw [evalCopy, randomAccessCopy, raStartExtra, hV', hai, pure_bind, at_eq hat]
  refine bind_congr fun _ => ?_
  rw [loop_eq (n := g.vecSize) (g := fun i => idx v.localWires ((2 + V) * k + 2 + i)) ?_, hV]
  · refine bind_congr fun _ => ?_
    rw [wireClaimedElement, if_neg (not_ge hk), pure_bind, at_eq (add_toNat (y := 1) hat rfl (by omega))]
    refine bind_congr fun _ => ?_
    rw [loop_eq (n := g.bits) (g := fun i => idx v.localWires ((2 + V) * g.numCopies.toNat +
      g.numExtraConstants.toNat + k * g.bits.toNat + i)) ?_]
    · rfl
    · intro i hi
      rw [wireBit, if_neg (not_ge hi), if_neg (not_ge hk), pure_bind, at_eq]
      exact add_toNat (add_toNat hnr hkb (by omega)) (toNat_ofNat_of (by omega)) (by omega)
  · intro i hi
    rw [hV] at hi
    rw [wireListItem, if_neg (not_ge (by rw [hV]; exact hi)), if_neg (not_ge hk), pure_bind, at_eq]
    exact add_toNat (add_toNat hat rfl (by omega)) (toNat_ofNat_of (by omega)) (by omega)

theorem panics_wide (hb : 64 ≤ g.bits.toNat) (hc : g.numCopies.toNat ≠ 0) : Panics (g.eval v) := by
  refine Post.panics (P := False) ?_ id
  rw [eval]
  refine Post.stop ?_
  rw [loopFlat]
  refine Post.stop ((Post.mapM (P := fun _ => False) _ fun i _ => ?_).mono fun _ h =>
    h.2 0 (List.mem_range.2 (Nat.pos_of_ne_zero hc)))
  have h0 : g.vecSize = 0 := by
    apply UInt64.toNat.inj
    rw [vecSize, shl1_toNat, Gates.shl1, if_neg (by omega)]
    rfl
  have hl : ∀ f : UInt64 → Circ QEV, loop 0 f = pure [] := fun _ => rfl
  rw [evalCopy, h0, hl]
  simp only [pure_bind]
  refine .skip fun _ => .skip fun _ => .skip fun _ => .skip fun _ => .skip fun bs => .skip fun _ => .skip fun _ => .skip fun _ =>
    (post_foldPairs_nil bs).bind fun r hr => ?_
  subst hr
  trivial

theorem agree (hc : v.localConstants.length ≤ L) (hw : v.localWires.length ≤ L) :
    Agree (g.eval v) (Gates.randomAccess g.bits.toNat g.numCopies.toNat g.numExtraConstants.toNat v) := by
  have hex : ∀ i < g.numExtraConstants.toNat, (UInt64.ofNat i).toNat = i := fun i hi =>
    toNat_ofNat_of (hi.trans g.numExtraConstants.toNat_lt)
  by_cases he : g.numExtraConstants.toNat ≤ L
  swap
  · right
    constructor
    · refine .bind_all fun _ => Panics.bind (panics_loop (k := L) (by omega) ?_) _
      rw [at_eq (hex L (by omega))]
      exact Panics.bind (Panics.idx hc) _
    · exact .bind_all fun _ => Panics.bind (panics_range (k := L) (by omega) (Panics.bind (Panics.idx hc) _)) _
  by_cases h0 : g.numCopies.toNat = 0
  · left
    have h0' : g.numCopies = 0 := UInt64.toNat.inj h0
    have hse : g.startExtraConstants = 0 := by
      apply UInt64.toNat.inj
      rw [startExtraConstants, UInt64.toNat_mul, h0]
      simp
    rw [eval, Gates.randomAccess]
    refine congrArg₂ _ (loopFlat_eq fun i hi => absurd hi (by omega)) (funext fun cs => congrArg₂ _ ?_ rfl)
    refine loop_eq fun i hi => ?_
    rw [at_eq (hex i hi), raStartExtra, h0]
    refine bind_congr fun _ => ?_
    rw [wireExtraConstant, if_neg (not_ge hi), pure_bind, hse, at_eq]
    rw [L] at he
    simp only [mul_zero]
    u64
  by_cases hb : g.bits.toNat < 64
  swap
  · exact Or.inr ⟨g.panics_wide (by omega) h0, panics_randomAccess_wide (by omega) h0 v⟩
  obtain ⟨V, hV⟩ : ∃ V, g.vecSize.toNat = V := ⟨_, rfl⟩
  have hV' : Gates.shl1 g.bits.toNat = V := by rw [← hV, vecSize, shl1_toNat]
  by_cases hVL : V ≤ L
  swap
  · right
    constructor
    · refine Panics.bind (panics_loopFlat (k := 0) (by omega) ?_) _
      refine .bind_all fun _ => .bind_all fun _ => Panics.bind (panics_loop (k := L) (by omega) ?_) _
      rw [wireListItem, if_neg (not_ge (by omega)), if_neg (not_ge (by omega)), pure_bind,
        at_eq (k := 2 + L) (by
          have : (2 + g.vecSize) * UInt64.ofNat 0 = 0 := by simp
          rw [this, L]; u64)]
      exact Panics.idx (by omega)
    · refine Panics.bind (panics_collect (k := 0) (by omega) ?_) _
      rw [randomAccessCopy, hV']
      exact .bind_all fun _ => Panics.bind (panics_range (n := V) (k := L)
        (g := fun i => idx v.localWires ((2 + V) * 0 + 2 + i)) (by omega) (Panics.idx (by omega))) _
  by_cases hS : (2 + V) * g.numCopies.toNat ≤ 4 * L
  · left
    rw [eval, Gates.randomAccess]
    refine congrArg₂ _ (loopFlat_eq fun i hi => g.evalCopy_eq hV hVL hi hS he hb) (funext fun cs => congrArg₂ _ ?_ rfl)
    refine loop_eq fun i hi => ?_
    rw [at_eq (hex i hi), raStartExtra, hV']
    refine bind_congr fun _ => ?_
    rw [wireExtraConstant, if_neg (not_ge hi), pure_bind, at_eq]
    rw [L] at he hS
    exact add_toNat (mul_toNat (g.stride_toNat hV hVL) rfl (by omega)) (hex i hi) (by omega)
  · right
    have hV2 : 0 < 2 + V := by omega
    obtain ⟨k, hk⟩ : ∃ k, k = L / (2 + V) + 1 := ⟨_, rfl⟩
    have hk1 : L < (2 + V) * k := by
      rw [hk, mul_comm]
      exact Nat.lt_mul_of_div_lt (Nat.lt_succ_self _) hV2
    have hk2 : (2 + V) * k ≤ L + (2 + V) := by
      rw [hk, Nat.mul_succ]
      exact Nat.add_le_add_right (Nat.mul_div_le _ _) _
    have hkc : k < g.numCopies.toNat := by
      by_contra hn
      have : (2 + V) * g.numCopies.toNat ≤ (2 + V) * k := Nat.mul_le_mul_left _ (by omega)
      have : 2 ≤ L := by rw [L]; omega
      omega
    obtain ⟨hai, hat⟩ := g.accessIndex_eq (k := k) hV hVL hkc (by rw [L] at hk2 hVL; omega)
    constructor
    · refine Panics.bind (panics_loopFlat (k := k) hkc ?_) _
      rw [evalCopy, hai, pure_bind, at_eq hat]
      exact Panics.bind (Panics.idx (by omega)) _
    · refine Panics.bind (panics_collect (k := k) hkc ?_) _
      rw [randomAccessCopy, hV']
      exact Panics.bind (Panics.idx (by omega)) _

end RandomAccess

/-! ## Coset interpolation -/

namespace Coset

variable (g : Coset)

theorem numPoints_toNat : g.numPoints.toNat = Gates.shl1 g.subgroupBits.toNat := shl1_toNat _

theorem numIntermediates_one (h : g.degree.toNat = 1) : Panics g.numIntermediates := by
  have : g.degree - 1 = 0 := by
    rw [show g.degree = 1 from UInt64.toNat.inj h]
    rfl
  rw [numIntermediates, if_pos this]
  trivial

theorem panics_tail {n : ℕ} {d : List Fp} (hd : n = 0 ∨ d.length < n) {vals : List QAV} {w : List Fp}
    {pt e0 p0 : QAV} {β : Type} {k : QAV × QAV → Circ β} :
    Panics (do
      let d ← slice d 0 n
      let v ← slice vals 0 n
      let w ← slice w 0 n
      let st ← partialInterpolate d v w pt e0 p0
      k st) := by
  rcases hd with hd | hd
  · have hs : ∀ {α : Type} (l : List α), slice l 0 n = pure [] := by
      intro α l
      rw [hd, slice, if_pos (by simp)]
      simp
    rw [hs, hs, hs]
    simp only [pure_bind]
    refine Panics.bind ?_ _
    rw [partialInterpolate]
    trivial
  · refine Panics.bind ?_ _
    rw [slice, if_neg (by omega)]
    trivial

theorem agree : Agree (g.eval v) (Gates.cosetInterpolation g.subgroupBits.toNat g.degree.toNat g.weights v) := by
  by_cases h1 : g.degree.toNat = 1
  · right
    constructor
    · refine .bind_all fun _ => .bind_all fun _ => Panics.bind ?_ _
      exact Panics.bind (g.numIntermediates_one h1) _
    · rw [Gates.cosetInterpolation, if_pos h1]
      trivial
  by_cases hb : g.subgroupBits.toNat ≤ 32
  swap
  · have hn : twoAdicSubgroup g.subgroupBits.toNat = none := by
      simp [twoAdicSubgroup, TWO_ADICITY, show 32 < g.subgroupBits.toNat by omega]
    right
    constructor
    · exact .bind_all fun _ => .bind_all fun _ => .bind_all fun _ => .bind_all fun _ => .bind_all fun _ =>
        .bind_all fun _ => .bind_all fun _ => Panics.bind (Panics.orPanic hn) _
    · rw [Gates.cosetInterpolation, if_neg h1]
      exact .bind_all fun _ => .bind_all fun _ => .bind_all fun _ => .bind_all fun _ => .bind_all fun _ =>
        .bind_all fun _ => Panics.bind (Panics.orPanic hn) _
  obtain ⟨gen, _, _, hdom⟩ := twoAdicSubgroup_eq hb
  obtain ⟨N, hN⟩ : ∃ N, 2 ^ g.subgroupBits.toNat = N := ⟨_, rfl⟩
  have hNle : N ≤ 2 ^ 32 := hN ▸ Nat.pow_le_pow_right (by norm_num) hb
  have hshl : Gates.shl1 g.subgroupBits.toNat = N := by rw [Gates.shl1, if_pos (by omega), hN]
  have hP : g.numPoints.toNat = N := by rw [numPoints_toNat, hshl]
  rw [hN] at hdom
  obtain ⟨dom, hdl, hdom⟩ : ∃ dom : List Fp, dom.length = N ∧ twoAdicSubgroup g.subgroupBits.toNat = some dom :=
    ⟨_, by simp, hdom⟩
  have hor : orPanic "n_log > TWO_ADICITY" (twoAdicSubgroup g.subgroupBits.toNat) = pure dom := by
    rw [hdom, orPanic]
  by_cases hd : g.degree.toNat = 0 ∨ N < g.degree.toNat
  · right
    constructor
    · rw [eval, hor]
      refine .bind_all fun _ => .bind_all fun _ => .bind_all fun _ => .bind_all fun _ => .bind_all fun _ =>
        .bind_all fun _ => .bind_all fun _ => ?_
      rw [pure_bind]
      exact .bind_all fun _ => panics_tail (by omega)
    · rw [Gates.cosetInterpolation, if_neg h1, hor]
      refine .bind_all fun _ => .bind_all fun _ => .bind_all fun _ => .bind_all fun _ => .bind_all fun _ =>
        .bind_all fun _ => ?_
      rw [pure_bind]
      exact .bind_all fun _ => panics_tail (by omega)
  left
  obtain ⟨d, hdd⟩ : ∃ d, g.degree.toNat = d := ⟨_, rfl⟩
  obtain ⟨M, hM⟩ : ∃ M, (N - 2) / (d - 1) = M := ⟨_, rfl⟩
  have hd2 : 2 ≤ d := by omega
  have hdN : d ≤ N := by omega
  have hMN : M ≤ N := by rw [← hM]; exact (Nat.div_le_self _ _).trans (by omega)
  have hmul : (d - 1) * M ≤ N - 2 := by rw [← hM]; exact Nat.mul_div_le _ _
  have hdm : (g.degree - 1).toNat = d - 1 := by
    rw [UInt64.toNat_sub_of_le _ _ (UInt64.le_iff_toNat_le.2 (by rw [hdd]; exact le_trans (by decide) hd2)), hdd]
    rfl
  have hd0 : g.degree - 1 ≠ 0 := by
    intro e
    have := congrArg UInt64.toNat e
    rw [hdm] at this
    have h0 : (0 : UInt64).toNat = 0 := rfl
    omega
  obtain ⟨m, hm⟩ : ∃ m, m = (g.numPoints - 2) / (g.degree - 1) := ⟨_, rfl⟩
  have hmt : m.toNat = M := by
    rw [hm, UInt64.toNat_div, hdm, UInt64.toNat_sub_of_le _ _ (UInt64.le_iff_toNat_le.2 (by
      rw [hP]; exact le_trans (by decide) (hd2.trans hdN))), hP, ← hM]
    rfl
  have hni : g.numIntermediates = pure m := by rw [numIntermediates, if_neg hd0, hm]
  have hniG : Gates.numIntermediates g.subgroupBits.toNat d = M := by
    have : (N + (2 ^ 64 - 2)) % 2 ^ 64 = N - 2 := by omega
    rw [Gates.numIntermediates, hshl, ← hM, this]
  have hstP : g.startEvaluationPoint.toNat = 1 + N * 2 := add_toNat rfl (mul_toNat hP rfl (by omega)) (by omega)
  have hstV : g.startEvaluationValue.toNat = 1 + N * 2 + 2 := add_toNat hstP rfl (by omega)
  have hstI : g.startIntermediates.toNat = 1 + N * 2 + 2 + 2 := add_toNat hstV rfl (by omega)
  have hstG : Gates.startIntermediates g.subgroupBits.toNat = 1 + N * 2 + 2 + 2 := by
    rw [Gates.startIntermediates, hshl]
  rw [eval, Gates.cosetInterpolation, if_neg h1, hor]
  simp only [pure_bind, hdd, hshl, hniG, hstG]
  rw [at_eq (i := wireShift) (k := 0) rfl]
  refine bind_congr fun shift => ?_
  rw [alg_eq (r := g.wiresEvaluationPoint) (a := 1 + N * 2) (b := 1 + N * 2 + 2) hstP (add_toNat hstP rfl (by omega)) rfl]
  refine bind_congr fun pt => ?_
  rw [wiresShiftedEvaluationPoint, hni]
  simp only [pure_bind]
  have hsh : (g.startIntermediates + 2 * 2 * m).toNat = 1 + N * 2 + 2 + 2 + 2 * 2 * M :=
    add_toNat hstI (mul_toNat rfl hmt (by omega)) (by omega)
  rw [alg_eq (a := 1 + N * 2 + 2 + 2 + 2 * 2 * M) (b := 1 + N * 2 + 2 + 2 + 2 * 2 * M + 2) hsh
    (add_toNat (y := 2) hsh rfl (by omega)) rfl]
  refine bind_congr fun sp => bind_congr fun _ => bind_congr fun _ => bind_congr fun _ => ?_
  rw [loop_eq (n := g.numPoints) (g := fun i => v.getLocalExtAlgebra ⟨1 + i * 2, 1 + i * 2 + 2⟩) ?_, hP]
  swap
  · intro i hi
    rw [wiresValue, if_neg (not_ge hi), pure_bind]
    have : (startValues + UInt64.ofNat i * 2).toNat = 1 + i * 2 :=
      add_toNat rfl (mul_toNat (toNat_ofNat_of (by omega)) rfl (by omega)) (by omega)
    exact alg_eq this (add_toNat this rfl (by omega)) rfl
  refine bind_congr fun vals => bind_congr fun _ => bind_congr fun _ => bind_congr fun _ => bind_congr fun st => ?_
  rw [hmt, alg_eq (r := g.wiresEvaluationValue) (a := 1 + N * 2 + 2) (b := 1 + N * 2 + 2 + 2) hstV
    (add_toNat hstV rfl (by omega)) rfl]
  congr 1
  refine foldlM_congr' (fun st i hi => ?_) _
  have hi' := List.mem_range.1 hi
  have hix : (UInt64.ofNat i).toNat = i := toNat_ofNat_of (by omega)
  have hx2 : (d - 1) * (i + 1) ≤ N - 2 := (Nat.mul_le_mul_left _ hi').trans hmul
  have hI1 : (g.startIntermediates + 2 * UInt64.ofNat i).toNat = 1 + N * 2 + 2 + 2 + 2 * i :=
    add_toNat hstI (mul_toNat rfl hix (by omega)) (by omega)
  have hI2 : (g.startIntermediates + 2 * (m + UInt64.ofNat i)).toNat = 1 + N * 2 + 2 + 2 + 2 * (M + i) :=
    add_toNat hstI (mul_toNat rfl (add_toNat hmt hix (by omega)) (by omega)) (by omega)
  have hs1 : (1 + (g.degree - 1) * (UInt64.ofNat i + 1)).toNat = 1 + (d - 1) * (i + 1) :=
    add_toNat rfl (mul_toNat hdm (add_toNat hix rfl (by omega)) (by omega)) (by omega)
  have hs2 : (1 + (g.degree - 1) * (UInt64.ofNat i + 1) + g.degree - 1).toNat = 1 + (d - 1) * (i + 1) + d - 1 := by
    have h := add_toNat hs1 hdd (by omega)
    rw [UInt64.toNat_sub_of_le _ _ (UInt64.le_iff_toNat_le.2 (by
      rw [h]; have : (1 : UInt64).toNat = 1 := rfl
      omega)), h]
    rfl
  have hs3 : (if 1 + (g.degree - 1) * (UInt64.ofNat i + 1) + g.degree - 1 > g.numPoints then g.numPoints
      else 1 + (g.degree - 1) * (UInt64.ofNat i + 1) + g.degree - 1).toNat =
      if 1 + (d - 1) * (i + 1) + d - 1 > N then N else 1 + (d - 1) * (i + 1) + d - 1 := by
    have hc : 1 + (g.degree - 1) * (UInt64.ofNat i + 1) + g.degree - 1 > g.numPoints ↔
        1 + (d - 1) * (i + 1) + d - 1 > N := by
      rw [gt_iff_lt, UInt64.lt_iff_toNat_lt, hs2, hP]
    by_cases hgt : 1 + (d - 1) * (i + 1) + d - 1 > N
    · rw [if_pos (hc.2 hgt), if_pos hgt, hP]
    · rw [if_neg (fun e => hgt (hc.1 e)), if_neg hgt, hs2]
  have hge : ¬ UInt64.ofNat i ≥ m := not_ge (by rw [hmt]; exact hi')
  rw [step, cosetStep, wiresIntermediateEval, wiresIntermediateProd, hni]
  simp only [pure_bind, if_neg hge, hniG, hstG, hshl, hs1, hs3]
  rw [alg_eq (a := 1 + N * 2 + 2 + 2 + 2 * i) (b := 1 + N * 2 + 2 + 2 + 2 * i + 2) hI1
    (add_toNat (y := 2) hI1 rfl (by omega)) rfl]
  rw [alg_eq (a := 1 + N * 2 + 2 + 2 + 2 * (M + i)) (b := 1 + N * 2 + 2 + 2 + 2 * (M + i) + 2) hI2
    (add_toNat (y := 2) hI2 rfl (by omega)) rfl]

end Coset

/-! ## All gates -/

theorem Gate.agree {maxLen : ℕ} (g : Gate) (hc : v.localConstants.length ≤ maxLen) (hw : v.localWires.length ≤ maxLen)
    (hL : maxLen ≤ L) : Agree (g.evalUnfiltered maxLen v) (g.toNat.evalUnfiltered v) := by
  have hc' := hc.trans hL
  have hw' := hw.trans hL
  cases g with
  | arithmetic n => exact arithmetic_agree n hw'
  | arithmeticExtension n => exact arithmeticExtension_agree n hw'
  | baseSum n b => exact baseSum_agree n b hw hL
  | constant n => exact Or.inl (constant_eq n)
  | cosetInterpolation g => exact g.agree
  | exponentiation n => exact exponentiation_agree n hw'
  | mulExtension n => exact mulExtension_agree n hw'
  | noop => exact Or.inl rfl
  | poseidon => exact Or.inl poseidon_eq
  | poseidonMds => exact Or.inl poseidonMds_eq
  | publicInput => exact Or.inl publicInput_eq
  | randomAccess g => exact g.agree hc' hw'
  | reducing n => exact reducing_agree n hw'
  | reducingExtension n => exact reducingExtension_agree n hw'

end Gates64

end Verif
