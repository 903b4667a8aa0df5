import Verif.Proofs.PoseidonGL

/-! # The whole Poseidon-Goldilocks permutation and sponge -/

set_option autoImplicit false

namespace Verif.PoseidonGL

open Circ

/-- An S-box without freedom for the prover. -/
def ExactSbox (sbox : Fr → Circ Fr) : Prop := ∀ a : Fp, den (sbox (emb a)) = pure (emb (a ^ 7))

theorem den_fullRounds {sbox : Fr → Circ Fr} (hs : ExactSbox sbox) (s : Fin 12 → Fp) (rc : ℕ) :
    den (fullRounds sbox (fun i => emb (s i)) rc) =
      pure fun i => emb (((List.range' rc 4).foldl Spec.fullRound s) i) := by
  have h : ∀ (s : Fin 12 → Fp) (j : ℕ),
      den (do
        let state ← constantLayer (fun i => emb (s i)) (rc + j)
        let state ← sBoxLayer sbox state
        mdsLayer state) = pure fun i => emb (Spec.fullRound s (rc + j) i) := by
    intro s j
    rw [den_bind, den_constantLayer, pure_bind, den_bind,
      show den (sBoxLayer sbox _) = _ from den_tabM fun i => hs _, pure_bind, den_mdsLayer]
    simp only [Spec.fullRound]
  rw [fullRounds, den_foldlM]
  rw [Den.foldlM_enc (fun (s : Fin 12 → Fp) i => emb (s i))
    (g := fun s j => Spec.fullRound s (rc + j)) (fun s j _ => h s j)]
  rw [List.range'_eq_map_range, List.foldl_map, HALF_N_FULL_ROUNDS]

theorem update_emb (s : Fin 12 → Fp) (x : Fp) :
    Function.update (fun i => emb (s i)) 0 (emb x) = fun i => emb (Function.update s 0 x i) := by
  funext i
  by_cases hi : i = 0
  · subst hi; simp
  · simp [hi]

theorem den_partialRounds {sbox : Fr → Circ Fr} (hs : ExactSbox sbox) (s : Fin 12 → Fp) :
    den (partialRounds sbox (fun i => emb (s i))) =
      pure fun i => emb (((List.range' 4 22).foldl Spec.partialRound s) i) := by
  have h : ∀ (s : Fin 12 → Fp) (j : ℕ),
      den (do
        let s0 ← sbox (emb (s 0))
        let s0 ← add s0 (const1 FAST_PARTIAL_ROUND_CONSTANTS j)
        mdsPartialLayerFast (Function.update (fun i => emb (s i)) 0 s0) j) =
      pure fun i => emb (fastRound s j i) := by
    intro s j
    rw [den_bind, hs, pure_bind, den_bind, const1_emb fc_lt, den_add, pure_bind, update_emb,
      den_mdsPartialLayerFast]
    have hv : Function.update s 0 (s 0 ^ 7 + ((FAST_PARTIAL_ROUND_CONSTANTS.getD j 0 : ℕ) : Fp)) =
        sb0 s + Pi.single 0 (fcEnt j : Fp) := by
      funext i
      by_cases hi : i = 0
      · subst hi; simp [sb0, fcEnt]
      · simp [hi, sb0]
    rw [hv]
    simp only [fastRound]
  rw [partialRounds, den_bind, den_partialFirstConstantLayer, pure_bind, den_bind,
    den_mdsPartialLayerInit, pure_bind, den_foldlM]
  rw [Den.foldlM_enc (fun (s : Fin 12 → Fp) i => emb (s i)) (g := fastRound) (fun s j _ => h s j)]
  rw [← fast_eq_textbook s, fastInit, N_PARTIAL_ROUNDS]

theorem poseidon_spec_eq {R : Type} [CommRing R] (s : Fin 12 → R) : Spec.poseidon s =
    (List.range' (HALF_N_FULL_ROUNDS + N_PARTIAL_ROUNDS) 4).foldl Spec.fullRound
      ((List.range' 4 22).foldl Spec.partialRound ((List.range' 0 4).foldl Spec.fullRound s)) := by
  unfold Spec.poseidon
  have h1 : List.range' 0 4 = [0, 1, 2, 3] := rfl
  have h2 : List.range' (HALF_N_FULL_ROUNDS + N_PARTIAL_ROUNDS) 4 = [26, 27, 28, 29] := rfl
  rw [h1, h2]

theorem den_poseidonWith {sbox : Fr → Circ Fr} (hs : ExactSbox sbox) (s : Fin 12 → Fp) :
    den (poseidonWith sbox (fun i => emb (s i))) = pure fun i => emb (Spec.poseidon s i) := by
  rw [poseidonWith, den_bind, den_fullRounds hs, pure_bind, den_bind, den_partialRounds hs, pure_bind,
    den_fullRounds hs, poseidon_spec_eq]

/-- The code's S-box with the prover's freedom removed on canonical inputs. -/
def cleanSbox (x : Fr) : Circ Fr :=
  if x.val < p then pure (emb ((x.val : Fp) ^ 7)) else sBoxMonomial x

theorem cleanSbox_exact : ExactSbox cleanSbox := by
  intro a
  rw [cleanSbox, if_pos (emb_lt a), den_pure, emb_val, cast_val_fp]

theorem cleanSbox_ref (x : Fr) : Ref (cleanSbox x) (sBoxMonomial x) := by
  rw [cleanSbox]
  split
  · next h =>
    obtain ⟨a, rfl⟩ := exists_emb h
    rw [emb_val, cast_val_fp]
    refine ⟨fun y hy => ?_, ?_⟩
    · rw [sat_pure] at hy; subst hy; exact sat_of_honest (honest_sBoxMonomial a)
    · rw [honest_sBoxMonomial, honest_pure]
  · exact Ref.refl _

theorem Ref.fullRounds {sb sb' : Fr → Circ Fr} (h : ∀ x, Ref (sb x) (sb' x)) (s : State) (rc : ℕ) :
    Ref (fullRounds sb s rc) (fullRounds sb' s rc) :=
  Ref.foldlM (fun _ _ => Ref.bind (Ref.refl _) fun _ => Ref.bind (Ref.tabM fun _ => h _) fun _ =>
    Ref.refl _) _ _

theorem Ref.partialRounds {sb sb' : Fr → Circ Fr} (h : ∀ x, Ref (sb x) (sb' x)) (s : State) :
    Ref (partialRounds sb s) (partialRounds sb' s) :=
  Ref.bind (Ref.refl _) fun _ => Ref.bind (Ref.refl _) fun _ =>
    Ref.foldlM (fun _ _ => Ref.bind (h _) fun _ => Ref.refl _) _ _

theorem Ref.poseidonWith {sb sb' : Fr → Circ Fr} (h : ∀ x, Ref (sb x) (sb' x)) (s : State) :
    Ref (poseidonWith sb s) (poseidonWith sb' s) :=
  Ref.bind (Ref.fullRounds h _ _) fun _ => Ref.bind (Ref.partialRounds h _) fun _ =>
    Ref.fullRounds h _ _

theorem honest_poseidon (s : Fin 12 → Fp) :
    honest (poseidon fun i => emb (s i)) = some fun i => emb (Spec.poseidon s i) :=
  (Ref.poseidonWith cleanSbox_ref _).honest_of_den_pure (den_poseidonWith cleanSbox_exact s)

attribute [local irreducible] Spec.rc Spec.mds constantLayer mdsLayer sBoxLayer in
theorem sat_round_wrong (s : Fin 12 → Fp) (j : ℕ) {k : ℕ} (hk : k ≤ 4) :
    Sat (do
      let state ← constantLayer (fun i => emb (s i)) j
      let state ← sBoxLayer sBoxMonomial state
      mdsLayer state)
    fun i => emb (Spec.fullRound s j i + (Spec.mds i 0 : Fp) * (k * (r : Fp))) := by
  rw [sat_bind]
  refine ⟨fun i => emb (s i + (Spec.rc j i : Fp)),
    (sat_of_den_pure (den_constantLayer s j) _).2 rfl, ?_⟩
  rw [sat_bind]
  refine ⟨fun i => emb ((s i + (Spec.rc j i : Fp)) ^ 7 +
    (((if i = 0 then k else 0 : ℕ)) : Fp) * (r : Fp)), ?_, ?_⟩
  · unfold sBoxLayer
    rw [sat_tabM]
    intro i
    exact sat_sBoxMonomial_wrong _ (by split <;> omega)
  · rw [sat_of_den_pure (den_mdsLayer _)]
    funext i
    rw [emb_inj, Spec.fullRound, Spec.mix, Spec.mix]
    simp only [mul_add, Finset.sum_add_distrib]
    refine congrArg (_ + ·) ?_
    rw [Finset.sum_eq_single 0]
    · rw [if_pos rfl]
    · intro b _ hb; rw [if_neg hb, Nat.cast_zero, zero_mul, mul_zero]
    · intro h; exact absurd (Finset.mem_univ _) h

theorem sat_round_right (s : Fin 12 → Fp) (j : ℕ) :
    Sat (do
      let state ← constantLayer (fun i => emb (s i)) j
      let state ← sBoxLayer sBoxMonomial state
      mdsLayer state)
    fun i => emb (Spec.fullRound s j i) := by
  have := sat_round_wrong s j (k := 0) (by norm_num)
  simp only [Nat.cast_zero, zero_mul, mul_zero, add_zero] at this
  exact this

attribute [local irreducible] Spec.rc Spec.mds Spec.fullRound constantLayer mdsLayer sBoxLayer in
theorem sat_fullRounds_wrong (s : Fin 12 → Fp) (rc : ℕ) {k : ℕ} (hk : k ≤ 4) :
    Sat (fullRounds sBoxMonomial (fun i => emb (s i)) rc) fun i =>
      emb ((List.range' rc 4).foldl Spec.fullRound s i + (Spec.mds i 0 : Fp) * (k * (r : Fp))) := by
  rw [List.range'_eq_map_range, List.foldl_map, fullRounds, HALF_N_FULL_ROUNDS,
    show List.range 4 = [0, 1, 2, 3] from rfl]
  simp only [List.foldlM_cons, List.foldl_cons, List.foldlM_nil, List.foldl_nil]
  rw [sat_bind]; refine ⟨_, sat_round_right _ _, ?_⟩
  rw [sat_bind]; refine ⟨_, sat_round_right _ _, ?_⟩
  rw [sat_bind]; refine ⟨_, sat_round_right _ _, ?_⟩
  rw [sat_bind]; refine ⟨_, sat_round_wrong _ _ hk, ?_⟩
  rw [sat_pure]

theorem sat_fullRounds_right (s : Fin 12 → Fp) (rc : ℕ) :
    Sat (fullRounds sBoxMonomial (fun i => emb (s i)) rc) fun i =>
      emb ((List.range' rc 4).foldl Spec.fullRound s i) :=
  Circ.Ref.sat_of_den_pure (Ref.fullRounds cleanSbox_ref (fun i => emb (s i)) rc)
      (den_fullRounds cleanSbox_exact s rc)

theorem sat_partialRounds_right (s : Fin 12 → Fp) :
    Sat (partialRounds sBoxMonomial (fun i => emb (s i))) fun i =>
      emb ((List.range' 4 22).foldl Spec.partialRound s i) :=
  Circ.Ref.sat_of_den_pure (Ref.partialRounds cleanSbox_ref (fun i => emb (s i)))
      (den_partialRounds cleanSbox_exact s)

attribute [local irreducible] Spec.mds Spec.fullRound Spec.partialRound fullRounds
  partialRounds in
/-- For every input a wrong output is accepted: every `k ≤ 4` gives one. -/
theorem sat_poseidon_wrong (s : Fin 12 → Fp) {k : ℕ} (hk : k ≤ 4) :
    Sat (poseidon fun i => emb (s i)) fun i =>
      emb (Spec.poseidon s i + (Spec.mds i 0 : Fp) * (k * (r : Fp))) := by
  rw [poseidon_spec_eq, poseidon, poseidonWith, sat_bind]
  refine ⟨_, sat_fullRounds_right _ _, ?_⟩
  rw [sat_bind]
  exact ⟨_, sat_partialRounds_right _, sat_fullRounds_wrong _ _ hk⟩

end Verif.PoseidonGL
