import Verif.Spec.Freedom
import Verif.Proofs.ChallengerRuns
import Verif.Proofs.Verifier

/-!
# The exact semantics of the circuit in terms of S-box relations
-/

set_option autoImplicit false

namespace Verif.Freedom

open Circ PoseidonGL
open Challenger (embS)
open Spec.Free (St FullRound PartialRound Rounds Perm Absorb Hash Conf Step Run)

/-! ## The permutation -/

theorem embS_inj {s t : St} (h : embS s = embS t) : s = t := funext fun i => emb_inj.1 (congrFun h i)

/-- The S-box circuit admits exactly the values related by `S`. -/
def RelSbox (sbox : Fr → Circ Fr) (S : Fp → Fp → Prop) : Prop :=
  ∀ a y, Sat (sbox (emb a)) y ↔ ∃ b, y = emb b ∧ S a b

/-- The permutation circuit admits exactly the states related by `R`. -/
def RelPerm (perm : State → Circ State) (R : St → St → Prop) : Prop :=
  ∀ s y, Sat (perm (embS s)) y ↔ ∃ t, y = embS t ∧ R s t

variable {sbox : Fr → Circ Fr} {S : Fp → Fp → Prop}

theorem sat_foldlM_rel {f : State → ℕ → Circ State} {round : ℕ → St → St → Prop} {l : List ℕ}
    (h : ∀ s, ∀ i ∈ l, ∀ y, Sat (f (embS s) i) y ↔ ∃ t, y = embS t ∧ round i s t) (s : St) (y : State) :
    Sat (l.foldlM f (embS s)) y ↔ ∃ t, y = embS t ∧ Rounds round l s t := by
  induction l generalizing s with
  | nil =>
    rw [List.foldlM_nil, sat_pure]
    exact ⟨fun e => ⟨s, e, rfl⟩, by rintro ⟨t, rfl, rfl⟩; rfl⟩
  | cons i l ih =>
    rw [List.foldlM_cons, sat_bind]
    constructor
    · rintro ⟨m, h1, h2⟩
      obtain ⟨m, rfl, h1'⟩ := (h s i (by simp) m).1 h1
      obtain ⟨t, e, h2⟩ := (ih (fun s j hj => h s j (by simp [hj])) m).1 h2
      exact ⟨t, e, m, h1', h2⟩
    · rintro ⟨t, e, m, h1, h2⟩
      exact ⟨embS m, (h s i (by simp) _).2 ⟨m, rfl, h1⟩, (ih (fun s j hj => h s j (by simp [hj])) m).2 ⟨t, e, h2⟩⟩

theorem sat_fullRound (hs : RelSbox sbox S) (s : St) (i : ℕ) (y : State) :
    Sat (do
      let state ← constantLayer (embS s) i
      let state ← sBoxLayer sbox state
      mdsLayer state) y ↔ ∃ t, y = embS t ∧ FullRound S i s t := by
  have h1 := sat_of_den_pure (den_constantLayer s i)
  rw [sat_bind]
  constructor
  · rintro ⟨a, ha, hy⟩
    obtain rfl := (h1 a).1 ha
    rw [sat_bind] at hy
    obtain ⟨b, hb, hy⟩ := hy
    have hb := (sat_tabM b).1 hb
    have hb' : ∀ j, ∃ u, b j = emb u ∧ S (s j + (Spec.rc i j : Fp)) u := fun j => (hs _ _).1 (hb j)
    choose u hu using hb'
    obtain rfl : b = embS u := funext fun j => (hu j).1
    have := (sat_of_den_pure (den_mdsLayer u) y).1 hy
    exact ⟨Spec.mix u, this, u, fun j => (hu j).2, rfl⟩
  · rintro ⟨t, rfl, u, hu, rfl⟩
    refine ⟨_, (h1 _).2 rfl, ?_⟩
    rw [sat_bind]
    refine ⟨embS u, (sat_tabM _).2 fun j => (hs _ _).2 ⟨u j, rfl, hu j⟩, ?_⟩
    exact (sat_of_den_pure (den_mdsLayer u) _).2 rfl

theorem sat_fullRounds (hs : RelSbox sbox S) (s : St) (n : ℕ) (y : State) :
    Sat (fullRounds sbox (embS s) n) y ↔ ∃ t, y = embS t ∧ Rounds (FullRound S) (List.range' n 4) s t := by
  have e : fullRounds sbox (embS s) n = (List.range' n 4).foldlM (fun state i => do
      let state ← constantLayer state i
      let state ← sBoxLayer sbox state
      mdsLayer state) (embS s) := by
    rw [fullRounds, List.range'_eq_map_range, List.foldlM_map]; rfl
  rw [e]
  exact sat_foldlM_rel (fun s i _ y => sat_fullRound hs s i y) s y

/-- A fast partial round with an arbitrary result `u` of the S-box. -/
def fastWith (i : ℕ) (s : St) (u : Fp) : St :=
  (matR (fEnt i)).mulVec (Function.update s 0 u + Pi.single 0 (fcEnt i : Fp))

theorem update_fastOf (i : ℕ) (hi : i < 22) (v : St) (u : Fp) :
    Function.update ((matR (pEnt i)).mulVec v + vecR (dEnt i)) 0 u =
      (matR (pEnt i)).mulVec (Function.update v 0 u) + vecR (dEnt i) := by
  have hd : vecR (R := Fp) (dEnt i) 0 = 0 := by simp [vecR, check_d0 i hi]
  ext r
  by_cases hr : r = 0
  · subst hr
    simp only [Function.update_self, Pi.add_apply, p_row0 i (by omega : i < 23), hd, add_zero]
  · rw [Function.update_of_ne hr, Pi.add_apply, Pi.add_apply]
    congr 1
    simp only [Matrix.mulVec, dotProduct]
    refine Finset.sum_congr rfl fun k _ => ?_
    by_cases hk : k = 0
    · subst hk
      have := (check_block i (by omega) r).2
      simp [matR, this, hr]
    · rw [Function.update_of_ne hk]

theorem fastOf_zero (i : ℕ) (hi : i < 22) (x : St) : fastOf i x 0 = x 0 + (Spec.rc (4 + i) 0 : Fp) := by
  have hd : vecR (R := Fp) (dEnt i) 0 = 0 := by simp [vecR, check_d0 i hi]
  rw [fastOf, Pi.add_apply, p_row0 i (by omega), hd, add_zero, Pi.add_apply]
  simp [vecR, cEnt, hi]

theorem fastWith_fastOf (i : ℕ) (hi : i < 22) (x : St) (u : Fp) :
    fastWith i (fastOf i x) u =
      fastOf (i + 1) (Spec.mix fun j => if j = 0 then u else x j + (Spec.rc (4 + i) j : Fp)) := by
  have e : (fun j : Fin 12 => if j = 0 then u else x j + (Spec.rc (4 + i) j : Fp)) =
      Function.update (x + vecR (cEnt i)) 0 u := by
    funext j
    by_cases hj : j = 0
    · subst hj; simp
    · simp [hj, vecR, cEnt, hi]
  rw [e, fastWith, fastOf, update_fastOf i hi, add_assoc, Matrix.mulVec_add, f_offset i hi, Matrix.mulVec_mulVec,
    fp_mul i hi, fastOf, Matrix.mulVec_add, mix_eq, ← Matrix.mulVec_mulVec]
  abel

theorem sat_fastRound (hs : RelSbox sbox S) (s : St) (i : ℕ) (y : State) :
    Sat (do
      let s0 ← sbox (embS s 0)
      let s0 ← add s0 (const1 FAST_PARTIAL_ROUND_CONSTANTS i)
      mdsPartialLayerFast (Function.update (embS s) 0 s0) i) y ↔
    ∃ u, S (s 0) u ∧ y = embS (fastWith i s u) := by
  have hv : ∀ u : Fp, Function.update s 0 (u + ((FAST_PARTIAL_ROUND_CONSTANTS.getD i 0 : ℕ) : Fp)) =
      Function.update s 0 u + Pi.single 0 (fcEnt i : Fp) := by
    intro u
    funext j
    by_cases hj : j = 0
    · subst hj; simp [fcEnt]
    · simp [hj]
  have key : ∀ u : Fp, Sat (do
      let s0 ← add (emb u) (const1 FAST_PARTIAL_ROUND_CONSTANTS i)
      mdsPartialLayerFast (Function.update (embS s) 0 s0) i) y ↔ y = embS (fastWith i s u) := by
    intro u
    refine sat_of_den_pure ?_ y
    rw [den_bind, const1_emb fc_lt, den_add, pure_bind]
    rw [show Function.update (embS s) 0 (emb (u + ((FAST_PARTIAL_ROUND_CONSTANTS.getD i 0 : ℕ) : Fp))) = _ from
      update_emb s _, den_mdsPartialLayerFast, hv]
    rfl
  rw [sat_bind]
  constructor
  · rintro ⟨a, ha, hy⟩
    obtain ⟨u, rfl, hu⟩ := (hs _ _).1 ha
    exact ⟨u, hu, (key u).1 hy⟩
  · rintro ⟨u, hu, hy⟩
    exact ⟨emb u, (hs _ _).2 ⟨u, rfl, hu⟩, (key u).2 hy⟩

theorem sat_fastRounds (hs : RelSbox sbox S) (n m : ℕ) (hn : n + m ≤ 22) (x : St) (y : State) :
    Sat ((List.range' n m).foldlM (fun state i => do
      let s0 ← sbox (state 0)
      let s0 ← add s0 (const1 FAST_PARTIAL_ROUND_CONSTANTS i)
      mdsPartialLayerFast (Function.update state 0 s0) i) (embS (fastOf n x))) y ↔
    ∃ t, y = embS (fastOf (n + m) t) ∧ Rounds (PartialRound S) (List.range' (4 + n) m) x t := by
  induction m generalizing n x with
  | zero =>
    rw [List.range'_zero, List.foldlM_nil, sat_pure]
    exact ⟨fun e => ⟨x, e, rfl⟩, by rintro ⟨t, rfl, rfl⟩; rfl⟩
  | succ m ih =>
    rw [List.range'_succ, List.range'_succ, List.foldlM_cons, sat_bind]
    have e1 : n + (m + 1) = (n + 1) + m := by omega
    constructor
    · rintro ⟨a, ha, hy⟩
      obtain ⟨u, hu, rfl⟩ := (sat_fastRound hs _ n a).1 ha
      rw [fastOf_zero n (by omega)] at hu
      rw [fastWith_fastOf n (by omega)] at hy
      obtain ⟨t, e, ht⟩ := (ih (n + 1) (by omega) _).1 hy
      exact ⟨t, by rw [e, e1], _, ⟨u, hu, rfl⟩, ht⟩
    · rintro ⟨t, rfl, m', ⟨u, hu, rfl⟩, ht⟩
      rw [← fastOf_zero n (by omega)] at hu
      refine ⟨_, (sat_fastRound hs _ n _).2 ⟨u, hu, rfl⟩, ?_⟩
      rw [fastWith_fastOf n (by omega)]
      exact (ih (n + 1) (by omega) _).2 ⟨t, by rw [e1], ht⟩

theorem sat_partialRounds (hs : RelSbox sbox S) (s : St) (y : State) :
    Sat (partialRounds sbox (embS s)) y ↔ ∃ t, y = embS t ∧ Rounds (PartialRound S) (List.range' 4 22) s t := by
  have h1 := sat_of_den_pure (den_partialFirstConstantLayer s)
  have h2 := sat_of_den_pure (den_mdsPartialLayerInit (s + vecR firstEnt))
  have h3 := sat_fastRounds hs 0 22 (by norm_num) s y
  rw [← fastInit_fastOf, ← List.range_eq_range'] at h3
  rw [partialRounds, sat_bind]
  constructor
  · rintro ⟨a, ha, hy⟩
    obtain rfl := (h1 a).1 ha
    rw [sat_bind] at hy
    obtain ⟨b, hb, hy⟩ := hy
    obtain rfl := (h2 b).1 hb
    obtain ⟨t, e, ht⟩ := h3.1 hy
    exact ⟨t, by rw [e, fastOf_last], ht⟩
  · rintro ⟨t, rfl, ht⟩
    refine ⟨_, (h1 _).2 rfl, ?_⟩
    rw [sat_bind]
    exact ⟨_, (h2 _).2 rfl, h3.2 ⟨t, by rw [fastOf_last], ht⟩⟩

attribute [local irreducible] FullRound PartialRound fullRounds partialRounds in
theorem sat_poseidonWith (hs : RelSbox sbox S) : RelPerm (poseidonWith sbox) (Perm S) := by
  intro s y
  have e1 : List.range' 0 4 = [0, 1, 2, 3] := rfl
  have e2 : List.range' (HALF_N_FULL_ROUNDS + N_PARTIAL_ROUNDS) 4 = [26, 27, 28, 29] := rfl
  rw [poseidonWith, sat_bind]
  constructor
  · rintro ⟨a, ha, hy⟩
    obtain ⟨a, rfl, ha'⟩ := (sat_fullRounds hs s 0 a).1 ha
    rw [sat_bind] at hy
    obtain ⟨b, hb, hy⟩ := hy
    obtain ⟨b, rfl, hb'⟩ := (sat_partialRounds hs a b).1 hb
    obtain ⟨t, e, ht⟩ := (sat_fullRounds hs b _ y).1 hy
    rw [e1] at ha'
    rw [e2] at ht
    exact ⟨t, e, a, b, ha', hb', ht⟩
  · rintro ⟨t, e, a, b, ha, hb, ht⟩
    rw [← e1] at ha
    rw [← e2] at ht
    refine ⟨_, (sat_fullRounds hs s 0 _).2 ⟨a, rfl, ha⟩, ?_⟩
    rw [sat_bind]
    exact ⟨_, (sat_partialRounds hs a _).2 ⟨b, rfl, hb⟩, (sat_fullRounds hs b _ y).2 ⟨t, e, ht⟩⟩

theorem quot_iff (a t k : ℕ) (ha : a < p) (ht : t < p) : (a * t ^ 2 + k * r) / p < 2 ^ 192 ↔ k ≤ 5 := by
  rw [Nat.div_lt_iff_lt_mul (by norm_num [p])]
  have h1 : a * t ^ 2 ≤ (p - 1) * (p - 1) ^ 2 :=
    Nat.mul_le_mul (by omega) (Nat.pow_le_pow_left (by omega) 2)
  have h2 : (p - 1) * (p - 1) ^ 2 + 5 * r < 2 ^ 192 * p := by norm_num [p, r]
  have h3 : 2 ^ 192 * p ≤ 6 * r := by norm_num [p, r]
  constructor
  · intro h
    by_contra hk
    have : 6 * r ≤ k * r := Nat.mul_le_mul_right _ (by omega)
    omega
  · intro hk
    have : k * r ≤ 5 * r := Nat.mul_le_mul_right _ hk
    omega

theorem sbox_rel : RelSbox sBoxMonomial Spec.Free.SBox := by
  intro a y
  have hc : ∀ k, (a.val ^ 3 + k * r) / p < 2 ^ 192 ↔ k ≤ 5 := fun k => by
    rw [show a.val ^ 3 = a.val * a.val ^ 2 by ring]
    exact quot_iff _ _ k (ZMod.val_lt a) (ZMod.val_lt a)
  have hd : ∀ (t : Fp) k, (a.val * t.val ^ 2 + k * r) / p < 2 ^ 192 ↔ k ≤ 5 := fun t k =>
    quot_iff _ _ k (ZMod.val_lt a) (ZMod.val_lt t)
  rw [sat_sBoxMonomial]
  constructor
  · rintro ⟨t, k, k', h1, rfl, h3, rfl⟩
    exact ⟨_, rfl, k, k', (hc k).1 h1, (hd _ k').1 h3, rfl⟩
  · rintro ⟨b, rfl, k, k', h1, h3, rfl⟩
    exact ⟨_, k, k', (hc k).2 h1, rfl, (hd _ k').2 h3, rfl⟩

end Verif.Freedom
