import Verif.Spec.SpongeBN
import Verif.Proofs.PoseidonBN
import Verif.Proofs.Gnark

/-!
# Packing, hashing and splitting of digests
-/

set_option autoImplicit false

namespace Verif.PoseidonBN

open Circ

theorem pack_eq (l : List Fr) : pack l = Spec.BN.pack l := by
  have h : ∀ (l : List Fr) (k : ℕ) (a : Fr),
      (l.zipIdx k).foldl (fun acc xk => acc + xk.1 * (((2 ^ 64) ^ xk.2 : ℕ) : Fr)) a =
        a + ∑ i : Fin l.length, l[i] * 2 ^ (64 * (k + (i : ℕ))) := by
    intro l
    induction l with
    | nil => intro k a; simp
    | cons x l ih =>
      intro k a
      rw [List.zipIdx_cons, List.foldl_cons, ih]
      simp only [List.length_cons]
      rw [Fin.sum_univ_succ]
      simp only [Fin.getElem_fin, Fin.val_zero, List.getElem_cons_zero, Fin.val_succ,
        List.getElem_cons_succ, add_zero]
      rw [add_assoc]
      have e1 : (((2 ^ 64) ^ k : ℕ) : Fr) = 2 ^ (64 * k) := by rw [pow_mul]; push_cast; rfl
      rw [e1]
      refine congrArg (a + ·) (congrArg (x * 2 ^ (64 * k) + ·) (Finset.sum_congr rfl fun i _ => ?_))
      rw [Nat.add_right_comm, Nat.add_assoc]
  rw [pack, h]
  simp [Spec.BN.pack]

theorem chunks3_getElem {α : Type} (l : List α) (j : ℕ) :
    (Spec.BN.chunks3 l)[j]? = if 3 * j < l.length then some ((l.drop (3 * j)).take 3) else none := by
  fun_induction Spec.BN.chunks3 l generalizing j with
  | case1 => simp
  | case2 a => cases j <;> simp
  | case3 a b => cases j <;> simp; omega
  | case4 a b c l ih =>
    cases j with
    | zero => simp
    | succ j =>
      have e : 3 * (j + 1) = 3 * j + 1 + 1 + 1 := by omega
      rw [List.getElem?_cons_succ, ih, e]
      simp

theorem chunks3_chunks3 {α β : Type} (f : List α → β) (x : α) (l : List α) :
    Spec.BN.chunks3 ((Spec.BN.chunks3 (x :: l)).map f) =
      (Spec.BN.chunks3 ((x :: l).take 9)).map f ::
        Spec.BN.chunks3 ((Spec.BN.chunks3 ((x :: l).drop 9)).map f) := by
  match l with
  | [] => rfl
  | [_] => rfl
  | [_, _] => rfl
  | [_, _, _] => rfl
  | [_, _, _, _] => rfl
  | [_, _, _, _, _] => rfl
  | [_, _, _, _, _, _] => rfl
  | [_, _, _, _, _, _, _] => rfl
  | a1 :: a2 :: a3 :: a4 :: a5 :: a6 :: a7 :: a8 :: l => rfl

theorem setRate_eq (s : State) (c : List Fr) :
    setRate s c = Spec.BN.overwrite s ((Spec.BN.chunks3 c).map Spec.BN.pack) := by
  funext i
  rw [setRate, Spec.BN.overwrite]
  by_cases hi : i = 0
  · subst hi; simp
  · have hi' : (i : ℕ) ≠ 0 := fun h => hi (Fin.ext h)
    rw [if_neg hi, List.getElem?_map, chunks3_getElem]
    by_cases h : 3 * ((i : ℕ) - 1) < c.length
    · rw [if_pos ⟨hi', h⟩, if_pos h, pack_eq]; rfl
    · rw [if_neg (fun g => h g.2), if_neg h]; rfl

attribute [local irreducible] Spec.BN.pack pack

theorem foldl_chunks9 {σ : Type} (f : σ → List Fr → σ) (s : σ) (x : Fr) (l : List Fr) :
    (List.range (((x :: l).length + 8) / 9)).foldl (fun s i => f s (((x :: l).drop (9 * i)).take 9)) s =
      (List.range ((((x :: l).drop 9).length + 8) / 9)).foldl
        (fun s i => f s ((((x :: l).drop 9).drop (9 * i)).take 9)) (f s ((x :: l).take 9)) := by
  have e : ((x :: l).length + 8) / 9 = (((x :: l).drop 9).length + 8) / 9 + 1 := by
    simp only [List.length_drop, List.length_cons]; omega
  rw [e, List.range_succ_eq_map, List.foldl_cons, List.foldl_map]
  simp only [List.drop_drop, Nat.mul_zero, List.drop_zero, Nat.succ_eq_add_one, Nat.mul_add, Nat.mul_one,
    Nat.add_comm 9]

theorem absorbLoop_cons (s : State) (x : Fr) (l : List Fr) : absorbLoop s (x :: l) =
    absorbLoop (poseidon (setRate s ((x :: l).take 9))) ((x :: l).drop 9) :=
  foldl_chunks9 (fun s c => poseidon (setRate s c)) s x l

theorem absorbLoop_eq (n : ℕ) : ∀ (l : List Fr), l.length = n → ∀ s : State, absorbLoop s l =
    (Spec.BN.chunks3 (Spec.BN.packed l)).foldl (fun s e => Spec.BN.poseidon (Spec.BN.overwrite s e)) s := by
  induction n using Nat.strong_induction_on with
  | _ n ih =>
    intro l hl s
    cases l with
    | nil => rfl
    | cons x l =>
      rw [absorbLoop_cons, Spec.BN.packed, chunks3_chunks3, List.foldl_cons, setRate_eq, poseidon_eq]
      exact ih _ (by rw [← hl]; simp) _ rfl _

theorem hashNoPad_eq (l : List Fr) : hashNoPad l = Spec.BN.hash l := by
  rw [hashNoPad, absorbLoop_eq _ l rfl, Spec.BN.hash, Spec.BN.sponge]

theorem hashOrNoop_eq (l : List Fr) : hashOrNoop l = Spec.BN.leaf l := by
  rw [hashOrNoop, Spec.BN.leaf, pack_eq, hashNoPad_eq]

theorem twoToOne_eq (a b : Fr) : twoToOne a b = Spec.BN.compress a b := by
  rw [twoToOne, poseidon_eq, Spec.BN.compress]

/-! ## Injectivity of the packing -/

/-- Every element is below `2^64`. -/
def Small (l : List Fr) : Prop := ∀ x ∈ l, x.val < 2 ^ 64

theorem pack_cons (x : Fr) (l : List Fr) : Spec.BN.pack (x :: l) = x + 2 ^ 64 * Spec.BN.pack l := by
  simp only [Spec.BN.pack, List.length_cons]
  rw [Fin.sum_univ_succ, Finset.mul_sum]
  simp only [Fin.getElem_fin, Fin.val_zero, List.getElem_cons_zero, Fin.val_succ, List.getElem_cons_succ,
    mul_zero, pow_zero, mul_one]
  refine congrArg (x + ·) (Finset.sum_congr rfl fun i _ => ?_)
  rw [mul_add, mul_one, pow_add, ← mul_assoc, mul_comm]

/-- The packed value as a number: no wrap-around. -/
theorem pack_val (l : List Fr) (hs : Small l) (hl : l.length ≤ 3) :
    (Spec.BN.pack l).val = Nat.ofDigits (2 ^ 64) (l.map ZMod.val) ∧
      Nat.ofDigits (2 ^ 64) (l.map ZMod.val) < 2 ^ (64 * l.length) := by
  induction l with
  | nil => simp [Spec.BN.pack]
  | cons x l ih =>
    have hx := hs x (by simp)
    obtain ⟨h1, h2⟩ := ih (fun y hy => hs y (by simp [hy])) (by simp at hl; omega)
    rw [List.length_cons] at hl
    have hle : (2 : ℕ) ^ (64 * (l.length + 1)) ≤ 2 ^ 192 := Nat.pow_le_pow_right (by norm_num) (by omega)
    have hlt : x.val + 2 ^ 64 * Nat.ofDigits (2 ^ 64) (l.map ZMod.val) < 2 ^ (64 * (l.length + 1)) := by
      rw [Nat.mul_add, pow_add, mul_one]
      generalize 2 ^ (64 * l.length) = T at *
      norm_num at *
      omega
    have hr : (2 : ℕ) ^ 192 < r := by norm_num [r]
    rw [List.map_cons, Nat.ofDigits_cons, List.length_cons]
    refine ⟨?_, hlt⟩
    have e : Spec.BN.pack (x :: l) = ((x.val + 2 ^ 64 * Nat.ofDigits (2 ^ 64) (l.map ZMod.val) : ℕ) : Fr) := by
      rw [pack_cons, ← h1, Nat.cast_add, Nat.cast_mul, Nat.cast_pow, ZMod.natCast_zmod_val,
        ZMod.natCast_zmod_val, Nat.cast_ofNat]
    rw [e, ZMod.val_natCast, Nat.mod_eq_of_lt (by omega)]

theorem pack_inj (l l' : List Fr) (hl : l.length = l'.length) (h3 : l.length ≤ 3) (hs : Small l)
    (hs' : Small l') (h : Spec.BN.pack l = Spec.BN.pack l') : l = l' := by
  have h1 := (pack_val l hs h3).1
  have h2 := (pack_val l' hs' (hl ▸ h3)).1
  rw [h, h2] at h1
  have := Nat.ofDigits_inj_of_len_eq (b := 2 ^ 64) (by norm_num) (by simp [hl])
    (fun d hd => by
      obtain ⟨x, hx, rfl⟩ := List.mem_map.1 hd
      exact hs' x hx)
    (fun d hd => by
      obtain ⟨x, hx, rfl⟩ := List.mem_map.1 hd
      exact hs x hx) h1
  exact (List.map_injective_iff.2 (ZMod.val_injective r) this).symm

theorem packed_inj (l : List Fr) : ∀ l' : List Fr, l.length = l'.length → Small l → Small l' →
    Spec.BN.packed l = Spec.BN.packed l' → l = l' := by
  unfold Spec.BN.packed
  fun_induction Spec.BN.chunks3 l with
  | case1 => intro l' h _ _ _; exact (List.length_eq_zero_iff.1 h.symm).symm
  | case2 a =>
    intro l' h hs hs' e
    match l', h with
    | [a'], _ =>
      simp only [Spec.BN.chunks3, List.map_cons, List.map_nil, List.cons.injEq, and_true] at e
      exact pack_inj _ _ rfl (by simp) hs hs' e
  | case3 a b =>
    intro l' h hs hs' e
    match l', h with
    | [a', b'], _ =>
      simp only [Spec.BN.chunks3, List.map_cons, List.map_nil, List.cons.injEq, and_true] at e
      exact pack_inj _ _ rfl (by simp) hs hs' e
  | case4 a b c l ih =>
    intro l' h hs hs' e
    match l', h with
    | a' :: b' :: c' :: l', h =>
      simp only [Spec.BN.chunks3, List.map_cons, List.cons.injEq] at e
      have h1 := pack_inj [a, b, c] [a', b', c'] rfl (by simp) (fun x hx => hs x (List.mem_append_left l hx))
        (fun x hx => hs' x (List.mem_append_left l' hx)) e.1
      have h2 := ih l' (by simpa using h) (fun x hx => hs x (by simp [hx]))
        (fun x hx => hs' x (by simp [hx])) e.2
      rw [h2]
      simp only [List.cons.injEq, and_true] at h1
      rw [h1.1, h1.2.1, h1.2.2]

/-! ## `ToVec` -/

theorem den_toVec (h : Fr) : den (toVec h) = pure
    ([0, 56, 112, 168, 224].map fun i => ((h.val / 2 ^ i % 2 ^ 56 : ℕ) : Fr)) := by
  have hlt : h.val < 2 ^ 254 := (ZMod.val_lt h).trans r_lt_two_pow
  rw [toVec, den_bind, den_toBinary, if_pos hlt, pure_bind, den_pure]
  refine congrArg pure ?_
  have e : h.val / 2 ^ 224 % 2 ^ 56 = h.val / 2 ^ 224 % 2 ^ 30 := by
    rw [Nat.mod_eq_of_lt, Nat.mod_eq_of_lt] <;> omega
  simp only [List.map_cons, List.map_nil, bitsLE_drop, bitsLE_take, fromBinary_bitsLE, e]
  norm_num

end Verif.PoseidonBN
