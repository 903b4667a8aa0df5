import Verif.Proofs.PoseidonBNChecks
import Mathlib.Data.Matrix.Mul
import Mathlib.Tactic.Abel

/-! # The optimised BN254 Poseidon equals the textbook one -/

set_option autoImplicit false

namespace Verif.PoseidonBN

open Matrix

/-! ## Lifting -/

theorem cast_eq_of_mod {a b : ℕ} (h : a % r = b % r) : (a : Fr) = (b : Fr) :=
  (ZMod.natCast_eq_natCast_iff' a b r).2 h

def matF (t : Fin 4 → Fin 4 → ℕ) : Matrix (Fin 4) (Fin 4) Fr := fun i j => (t i j : Fr)
def vecF (t : Fin 4 → ℕ) : Fin 4 → Fr := fun i => (t i : Fr)

theorem mds_eq (i j : Fin 4) : Spec.BN.mds i j = (mEnt i j : Fr) := by
  have h := cast_eq_of_mod (check_cauchy i j)
  push_cast at h
  have hu : IsUnit (((Spec.BN.xs.getD i 0 : ℕ) : Fr) + ((Spec.BN.ys.getD j 0 : ℕ) : Fr)) :=
    IsUnit.of_mul_eq_one_right _ h
  rw [Spec.BN.mds]
  have h2 := ZMod.mul_inv_of_unit _ hu
  calc _ = ((mEnt i j : Fr) * (((Spec.BN.xs.getD i 0 : ℕ) : Fr) + ((Spec.BN.ys.getD j 0 : ℕ) : Fr))) *
        (((Spec.BN.xs.getD i 0 : ℕ) : Fr) + ((Spec.BN.ys.getD j 0 : ℕ) : Fr))⁻¹ := by rw [h, one_mul]
    _ = _ := by rw [mul_assoc, h2, mul_one]

theorem spec_mix (s : Fin 4 → Fr) : Spec.BN.mix s = matF mEnt *ᵥ s := by
  ext i; simp only [Spec.BN.mix, Matrix.mulVec, dotProduct, matF, mds_eq]

theorem foldl_sum4 (c : Fin 4 → Fr) (s : Fin 4 → Fr) :
    (List.finRange 4).foldl (fun acc (j : Fin 4) => acc + c j * s j) 0 = ∑ j, c j * s j := by
  rw [Fin.sum_univ_four, show List.finRange 4 = [0, 1, 2, 3] from rfl]
  simp only [List.foldl_cons, List.foldl_nil, zero_add]

theorem mix_m (s : State) : mix s mMatrix = matF mEnt *ᵥ s := by
  ext i
  simp only [mix, foldl_sum4, Matrix.mulVec, dotProduct, matF]
  refine Finset.sum_congr rfl fun j _ => ?_
  rw [← check_m]; rfl

theorem mix_p (s : State) : mix s pMatrix = matF ppEnt *ᵥ s := by
  ext i
  simp only [mix, foldl_sum4, Matrix.mulVec, dotProduct, matF]
  rfl

theorem ark_eq (s : State) (k : ℕ) : ark s k = s + vecF (cEnt k) := rfl

theorem exp5_eq (x : Fr) : exp5 x = x ^ 5 := by simp only [exp5]; ring

/-- S-box layer. -/
def sbAll (s : State) : State := fun i => s i ^ 5
/-- S-box on the first element. -/
def sb0 (s : State) : State := fun i => if i = 0 then s i ^ 5 else s i

theorem exp5state_eq (s : State) : exp5state s = sbAll s := by
  funext i; exact exp5_eq _

theorem spec_full (s : State) (k : ℕ) :
    Spec.BN.fullRound s k = matF mEnt *ᵥ sbAll (s + vecF (rcEnt k)) := by
  rw [Spec.BN.fullRound, spec_mix]; rfl

theorem spec_partial (s : State) (k : ℕ) :
    Spec.BN.partialRound s k = matF mEnt *ᵥ sb0 (s + vecF (rcEnt k)) := by
  rw [Spec.BN.partialRound, spec_mix]; rfl

attribute [local irreducible] mEnt mmEnt ppEnt qEnt dEnt rcEnt cEnt fcEnt fEnt

theorem m_rc_first (k : ℕ) (hk : k < 3) :
    matF mEnt *ᵥ vecF (cEnt (4 * (k + 1))) = vecF (rcEnt (k + 1)) := by
  ext i
  have := cast_eq_of_mod (check_rc_first k hk i)
  rw [sum4_eq] at this
  push_cast at this
  exact this

theorem m_rc_last (k : ℕ) (hk : k < 3) :
    matF mEnt *ᵥ vecF (cEnt (76 + 4 * k)) = vecF (rcEnt (61 + k)) := by
  ext i
  have := cast_eq_of_mod (check_rc_last k hk i)
  rw [sum4_eq] at this
  push_cast at this
  exact this

/-- Relation between textbook state `x` and optimised state before partial round `k`. -/
def fastOf (k : ℕ) (x : State) : State :=
  matF (qEnt k) *ᵥ (x + vecF (rcEnt (4 + k))) + vecF (dEnt k)

theorem p_mul : matF (qEnt 0) * matF mEnt = matF ppEnt := by
  ext i j
  have := cast_eq_of_mod (check_p i j)
  rw [sum4_eq] at this
  push_cast at this
  exact this

theorem p_off : matF ppEnt *ᵥ vecF (cEnt 16) = vecF (dEnt 0) + matF (qEnt 0) *ᵥ vecF (rcEnt 4) := by
  ext i
  have := cast_eq_of_mod (check_p_off i)
  simp only [sum4_eq] at this
  push_cast at this
  exact this

theorem f_mul (k : ℕ) (hk : k < 56) :
    matF (fEnt k) * matF (qEnt k) = matF (qEnt (k + 1)) * matF mEnt := by
  ext i j
  have := cast_eq_of_mod (check_mul k hk i j)
  simp only [sum4_eq] at this
  push_cast at this
  exact this

theorem f_offset (k : ℕ) (hk : k < 56) :
    matF (fEnt k) *ᵥ (vecF (dEnt k) + Pi.single 0 (fcEnt k : Fr)) =
      vecF (dEnt (k + 1)) + matF (qEnt (k + 1)) *ᵥ vecF (rcEnt (5 + k)) := by
  ext i
  have := cast_eq_of_mod (check_offset k hk i)
  simp only [sum4_eq] at this
  push_cast at this
  simp only [Matrix.mulVec, dotProduct, Pi.add_apply, matF, vecF, Pi.single_apply]
  exact this

theorem q_row0 (k : ℕ) (hk : k < 57) (v : State) : (matF (qEnt k) *ᵥ v) 0 = v 0 := by
  have h := fun i => (check_block k hk i).1
  simp [Matrix.mulVec, dotProduct, matF, h]

theorem q_sb0 (k : ℕ) (hk : k < 56) (v : State) :
    sb0 (matF (qEnt k) *ᵥ v + vecF (dEnt k)) = matF (qEnt k) *ᵥ sb0 v + vecF (dEnt k) := by
  have hd : vecF (dEnt k) 0 = 0 := by simp [vecF, check_d0 k hk]
  ext i
  by_cases hi : i = 0
  · subst hi
    simp only [sb0, if_true, Pi.add_apply, q_row0 k (by omega), hd, add_zero]
  · simp only [sb0, hi, if_false, Pi.add_apply]
    congr 1
    simp only [Matrix.mulVec, dotProduct]
    refine Finset.sum_congr rfl fun j _ => ?_
    by_cases hj : j = 0
    · subst hj
      have := (check_block k (by omega) i).2
      simp [matF, this, hi]
    · show _ = _ * (if j = 0 then _ else _)
      rw [if_neg hj]

theorem partialRound_eq (s : State) (k : ℕ) :
    partialRound s k = matF (fEnt k) *ᵥ (sb0 s + Pi.single 0 (fcEnt k : Fr)) := by
  have hs : Function.update s 0 (exp5 (s 0) + cC ((8 / 2 + 1) * 4 + k)) =
      sb0 s + Pi.single 0 (fcEnt k : Fr) := by
    funext i
    by_cases hi : i = 0
    · subst hi; simp [sb0, exp5_eq, fcEnt, cC]
    · simp [hi, sb0]
  simp only [partialRound]
  rw [hs]
  generalize sb0 s + Pi.single 0 (fcEnt k : Fr) = t
  funext i
  rw [foldl_sum4]
  by_cases hi : i = 0
  · subst hi
    simp only [if_true, Matrix.mulVec, dotProduct, matF, fEnt, sC]
  · simp only [hi, if_false, Matrix.mulVec, dotProduct, matF, fEnt, sC]
    rw [Fin.sum_univ_succ]
    simp only [if_true, Fin.succ_ne_zero, if_false]
    obtain ⟨j, rfl⟩ := Fin.exists_succ_eq_of_ne_zero hi
    simp [Fin.succ_inj]
    ring

theorem fast_step (k : ℕ) (hk : k < 56) (x : State) :
    partialRound (fastOf k x) k = fastOf (k + 1) (Spec.BN.partialRound x (4 + k)) := by
  rw [partialRound_eq, fastOf, q_sb0 k hk, add_assoc, Matrix.mulVec_add, f_offset k hk,
    Matrix.mulVec_mulVec, f_mul k hk, spec_partial, fastOf, Matrix.mulVec_add, ← Matrix.mulVec_mulVec]
  have : 4 + (k + 1) = 5 + k := by omega
  rw [this]
  abel

theorem fast_rounds (n : ℕ) (hn : n ≤ 56) (x : State) :
    (List.range n).foldl partialRound (fastOf 0 x) =
      fastOf n ((List.range n).foldl (fun s i => Spec.BN.partialRound s (4 + i)) x) := by
  induction n with
  | zero => simp
  | succ n ih =>
    rw [List.range_succ, List.foldl_append, List.foldl_append, ih (by omega)]
    simp only [List.foldl_cons, List.foldl_nil]
    exact fast_step n (by omega) _

theorem fastOf_last (x : State) : fastOf 56 x = x + vecF (rcEnt 60) := by
  have h1 : matF (qEnt 56) = 1 := by
    ext i j; simp [matF, (check_last i).2 j, Matrix.one_apply]
  have h2 : vecF (dEnt 56) = 0 := by ext i; simp [vecF, (check_last i).1]
  rw [fastOf, h1, h2]; simp

theorem partialRounds_eq (x : State) : partialRounds (fastOf 0 x) =
    (List.range' 4 56).foldl Spec.BN.partialRound x + vecF (rcEnt 60) := by
  rw [partialRounds, fast_rounds 56 le_rfl, fastOf_last, List.range'_eq_map_range, List.foldl_map]

/-- Two loops whose states differ by `v n` before step `n`. -/
theorem foldl_shift (f g : State → ℕ → State) (v : ℕ → State) (N : ℕ)
    (h : ∀ n < N, ∀ x, f (x + v n) n = g x n + v (n + 1)) (x : State) :
    ∀ n ≤ N, (List.range n).foldl f (x + v 0) = (List.range n).foldl g x + v n := by
  intro n
  induction n with
  | zero => intro _; rfl
  | succ n ih =>
    intro hn
    rw [List.range_succ, List.foldl_append, List.foldl_append, ih (by omega)]
    simp only [List.foldl_cons, List.foldl_nil]
    exact h n (by omega) _

theorem first_step (n : ℕ) (hn : n < 3) (x : State) :
    mix (ark (exp5state (x + vecF (rcEnt n))) ((n + 1) * 4)) mMatrix =
      Spec.BN.fullRound x n + vecF (rcEnt (n + 1)) := by
  rw [exp5state_eq, ark_eq, mix_m, Matrix.mulVec_add, mul_comm (n + 1) 4, m_rc_first n hn, spec_full]

theorem first_loop (x : State) :
    (List.range 3).foldl (fun s i => mix (ark (exp5state s) ((i + 1) * 4)) mMatrix)
      (x + vecF (rcEnt 0)) =
    (List.range 3).foldl Spec.BN.fullRound x + vecF (rcEnt 3) :=
  foldl_shift (fun s i => mix (ark (exp5state s) ((i + 1) * 4)) mMatrix) Spec.BN.fullRound
    (fun n => vecF (rcEnt n)) 3 first_step x 3 le_rfl

theorem foldl_range4 (g : State → ℕ → State) (x : State) :
    (List.range' 0 4).foldl g x = g ((List.range 3).foldl g x) 3 := rfl

theorem foldl_range60 (g : State → ℕ → State) (x : State) :
    (List.range' 60 4).foldl g x = g ((List.range 3).foldl (fun s i => g s (60 + i)) x) 63 := rfl

theorem fullRounds_true (x : State) : fullRounds x true =
    mix (ark (exp5state ((List.range 3).foldl
      (fun s i => mix (ark (exp5state s) ((i + 1) * 4)) mMatrix) x)) (8 / 2 * 4)) pMatrix := by
  simp only [fullRounds, if_true]

theorem fullRounds_false (x : State) : fullRounds x false =
    mix (exp5state ((List.range 3).foldl
      (fun s i => mix (ark (exp5state s) ((8 / 2 + 1) * 4 + 56 + i * 4)) mMatrix) x)) mMatrix := by
  simp only [fullRounds, Bool.false_eq_true, if_false]

theorem ark_zero (x : State) : ark x 0 = x + vecF (rcEnt 0) := by
  rw [ark_eq]
  refine congrArg (x + ·) (funext fun i => ?_)
  simp only [vecF, check_rc0]

theorem first_last_step (y : State) :
    mix (ark (exp5state (y + vecF (rcEnt 3))) 16) pMatrix = fastOf 0 (Spec.BN.fullRound y 3) := by
  rw [exp5state_eq, ark_eq, mix_p, Matrix.mulVec_add, p_off, ← p_mul, ← Matrix.mulVec_mulVec, fastOf,
    Matrix.mulVec_add, spec_full, add_comm (vecF (dEnt 0)), add_assoc]

theorem fullRounds_first (x : State) : fullRounds (ark x 0) true =
    fastOf 0 ((List.range' 0 4).foldl Spec.BN.fullRound x) := by
  rw [fullRounds_true, ark_zero, first_loop, foldl_range4]
  exact first_last_step _

theorem last_step (n : ℕ) (hn : n < 3) (x : State) :
    mix (ark (exp5state (x + vecF (rcEnt (60 + n)))) ((8 / 2 + 1) * 4 + 56 + n * 4)) mMatrix =
      Spec.BN.fullRound x (60 + n) + vecF (rcEnt (60 + (n + 1))) := by
  have h1 : (8 / 2 + 1) * 4 + 56 + n * 4 = 76 + 4 * n := by omega
  have h2 : 60 + (n + 1) = 61 + n := by omega
  rw [exp5state_eq, ark_eq, mix_m, Matrix.mulVec_add, h1, m_rc_last n hn, spec_full, h2]

theorem last_loop (x : State) :
    (List.range 3).foldl (fun s i => mix (ark (exp5state s) ((8 / 2 + 1) * 4 + 56 + i * 4)) mMatrix)
      (x + vecF (rcEnt 60)) =
    (List.range 3).foldl (fun s i => Spec.BN.fullRound s (60 + i)) x + vecF (rcEnt 63) :=
  foldl_shift (fun s i => mix (ark (exp5state s) ((8 / 2 + 1) * 4 + 56 + i * 4)) mMatrix)
    (fun s i => Spec.BN.fullRound s (60 + i)) (fun n => vecF (rcEnt (60 + n))) 3 last_step x 3 le_rfl

theorem last_last_step (y : State) :
    mix (exp5state (y + vecF (rcEnt 63))) mMatrix = Spec.BN.fullRound y 63 := by
  rw [exp5state_eq, mix_m, spec_full]

theorem fullRounds_last (x : State) : fullRounds (x + vecF (rcEnt 60)) false =
    (List.range' 60 4).foldl Spec.BN.fullRound x := by
  rw [fullRounds_false, last_loop, foldl_range60]
  exact last_last_step _

/-- The optimised permutation is the textbook permutation. -/
theorem poseidon_eq (x : State) : poseidon x = Spec.BN.poseidon x := by
  rw [poseidon_def, Spec.BN.poseidon_def, fullRounds_first, partialRounds_eq, fullRounds_last]

end Verif.PoseidonBN
