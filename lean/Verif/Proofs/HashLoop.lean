import Verif.Model.HashLoop

/-!
# The loops of `HashNToMNoPad`
-/

set_option autoImplicit false

namespace Verif.PoseidonGL

open Circ

/-- One iteration of `setLoop`. -/
def setStep (input : List Fr) (i : ℕ) (state : State) (j : Fin 8) : State :=
  if h : i + (j : ℕ) < input.length then Function.update state (j.castLE (by norm_num)) input[i + (j : ℕ)] else state

theorem setStep_self (input : List Fr) (i : ℕ) (state : State) (j : Fin 8) :
    setStep input i state j (j.castLE (by norm_num)) = (input[i + (j : ℕ)]?).getD (state (j.castLE (by norm_num))) := by
  rw [setStep]
  split_ifs with h
  · rw [Function.update_self, List.getElem?_eq_getElem h, Option.getD_some]
  · rw [List.getElem?_eq_none (by omega), Option.getD_none]

theorem setStep_ne (input : List Fr) (i : ℕ) (state : State) (j : Fin 8) (k : Fin 12) (hk : (k : ℕ) ≠ j) :
    setStep input i state j k = state k := by
  rw [setStep]
  split_ifs with h
  · exact Function.update_of_ne (fun e => hk (by rw [e]; rfl)) _ _
  · rfl

theorem foldl_ne (input : List Fr) (i : ℕ) (l : List (Fin 8)) (state : State) (k : Fin 12) (hk : ∀ j ∈ l, (k : ℕ) ≠ j) :
    l.foldl (setStep input i) state k = state k := by
  induction l generalizing state with
  | nil => rfl
  | cons a l ih =>
    rw [List.foldl_cons, ih _ fun j hj => hk j (List.mem_cons_of_mem _ hj), setStep_ne _ _ _ _ _ (hk a List.mem_cons_self)]

theorem foldl_self (input : List Fr) (i : ℕ) (l : List (Fin 8)) (hl : l.Nodup) (state : State) (j : Fin 8) (hj : j ∈ l) :
    l.foldl (setStep input i) state (j.castLE (by norm_num)) =
      (input[i + (j : ℕ)]?).getD (state (j.castLE (by norm_num))) := by
  induction l generalizing state with
  | nil => simp at hj
  | cons a l ih =>
    obtain ⟨ha, hl⟩ := List.nodup_cons.1 hl
    rw [List.foldl_cons]
    by_cases e : j = a
    · subst e
      rw [foldl_ne _ _ _ _ _ (fun k hk e => ha (by rwa [Fin.ext (show (j : ℕ) = k from e)])), setStep_self]
    · rw [ih hl _ ((List.mem_cons.1 hj).resolve_left e), setStep_ne _ _ _ _ _ fun h => e (Fin.ext h)]

theorem setLoop_eq (input : List Fr) (i : ℕ) (state : State) :
    setLoop input i state = overwrite state ((input.drop i).take SPONGE_RATE) := by
  funext k
  have hs : setLoop input i state = (List.finRange 8).foldl (setStep input i) state := rfl
  rw [hs, overwrite]
  by_cases hk : (k : ℕ) < 8
  · have := foldl_self input i _ (List.nodup_finRange 8) state ⟨k, hk⟩ (List.mem_finRange _)
    rw [show (⟨k, hk⟩ : Fin 8).castLE (by norm_num) = k from rfl] at this
    rw [this]
    split_ifs with h
    · have h' := h.1
      simp only [List.length_take, List.length_drop, SPONGE_RATE] at h'
      have h2 : i + (k : ℕ) < input.length := by omega
      rw [show i + ((⟨k, hk⟩ : Fin 8) : ℕ) = i + k from rfl, List.getElem?_eq_getElem h2, Option.getD_some,
        List.getElem_take, List.getElem_drop]
    · rw [List.getElem?_eq_none, Option.getD_none]
      simp only [List.length_take, List.length_drop, SPONGE_RATE] at h
      show input.length ≤ i + k
      omega
  · rw [foldl_ne _ _ _ _ _ fun j _ e => hk (by rw [e]; exact j.2), dif_neg fun h => hk h.2]

theorem absorbFrom_eq (perm : State → Circ State) (input : List Fr) (i : ℕ) (state : State) :
    absorbFrom perm input i state = absorbLoop perm state (input.drop i) := by
  induction hn : input.length - i using Nat.strong_induction_on generalizing i state with
  | _ n ih =>
    rw [absorbFrom]
    split_ifs with h
    · obtain ⟨x, xs, hx⟩ : ∃ x xs, input.drop i = x :: xs := by
        cases hd : input.drop i with
        | nil => rw [List.drop_eq_nil_iff] at hd; omega
        | cons x xs => exact ⟨x, xs, rfl⟩
      rw [hx, absorbLoop, ← hx, setLoop_eq]
      refine congrArg _ (funext fun s => ?_)
      rw [ih _ (by simp only [SPONGE_RATE]; omega) (i + SPONGE_RATE) s rfl, List.drop_drop]
    · rw [List.drop_eq_nil_of_le (by omega), absorbLoop]

/-- The inner loop returns if the length is reached, and only then. -/
theorem appendLoop_eq (nb : ℤ) (xs outputs : List Fr) : appendLoop nb xs outputs =
    if (outputs.length : ℤ) < nb ∧ nb ≤ outputs.length + xs.length then
      .returned (outputs ++ xs.take (nb - outputs.length).toNat) else .ended (outputs ++ xs) := by
  induction xs generalizing outputs with
  | nil => rw [appendLoop, if_neg (by simp), List.append_nil]
  | cons x xs ih =>
    rw [appendLoop]
    simp only [List.length_append, List.length_cons, List.length_nil, Nat.cast_add, Nat.cast_one, zero_add]
    split_ifs with h1 h2 h2
    · rw [show (nb - outputs.length).toNat = 1 by omega]; rfl
    · omega
    · rw [ih, if_pos (by simp only [List.length_append, List.length_singleton, Nat.cast_add, Nat.cast_one]; omega)]
      obtain ⟨m, hm⟩ : ∃ m : ℕ, (nb - outputs.length).toNat = m + 1 := ⟨(nb - outputs.length).toNat - 1, by omega⟩
      rw [hm, List.take_succ_cons, List.append_assoc, List.singleton_append]
      rw [show (nb - ((outputs ++ [x]).length : ℕ)).toNat = m by simp; omega]
    · rw [ih, if_neg (by simp only [List.length_append, List.length_singleton, Nat.cast_add, Nat.cast_one]; omega),
        List.append_assoc, List.singleton_append]

theorem take_length (state : State) : ((List.ofFn state).take SPONGE_RATE).length = 8 := by
  simp [SPONGE_RATE]

theorem squeezeFrom_eq (perm : State → Circ State) (n fuel : ℕ) (hn : 0 < n) (hf : n ≤ 8 * fuel) (state : State)
    (outputs : List Fr) :
    squeezeFrom perm (outputs.length + n : ℕ) fuel state outputs =
      (fun l => some (outputs ++ l)) <$> squeezeLoop perm state n := by
  induction fuel generalizing n state outputs with
  | zero => omega
  | succ fuel ih =>
    rw [squeezeFrom, appendLoop_eq, take_length, squeezeLoop]
    by_cases h : n ≤ SPONGE_RATE
    · rw [dif_pos h, if_pos (by simp only [SPONGE_RATE] at h; push_cast; omega)]
      simp only [map_pure]
      rw [List.take_take, show (((outputs.length + n : ℕ) : ℤ) - outputs.length).toNat = n by omega, min_eq_left h]
    · rw [dif_neg h, if_neg (by simp only [SPONGE_RATE] at h; push_cast; omega)]
      simp only [map_bind, map_pure]
      refine congrArg _ (funext fun s => ?_)
      have h8 : 8 < n := by simpa [SPONGE_RATE] using h
      have := ih (n - 8) (by omega) (by omega) s (outputs ++ (List.ofFn state).take SPONGE_RATE)
      rw [List.length_append, take_length, show outputs.length + 8 + (n - 8) = outputs.length + n by omega] at this
      rw [this, show n - SPONGE_RATE = n - 8 from rfl, map_eq_pure_bind]
      simp only [List.append_assoc]

/-- With a length that is never reached, the loop goes on. -/
theorem squeezeFrom_running (perm : State → Circ State) (nb : ℤ) (fuel : ℕ) (state : State) (outputs : List Fr)
    (h : nb ≤ outputs.length ∨ (outputs.length + 8 * fuel : ℤ) < nb) (y : Option (List Fr))
    (hy : Sat (squeezeFrom perm nb fuel state outputs) y) : y = none := by
  induction fuel generalizing state outputs with
  | zero => exact (sat_pure _ _).1 hy
  | succ fuel ih =>
    rw [squeezeFrom, appendLoop_eq, take_length, if_neg (by push_cast at h ⊢; omega)] at hy
    obtain ⟨s, -, hy⟩ := (sat_bind _ _ _).1 hy
    refine ih s _ ?_ hy
    rw [List.length_append, take_length]
    push_cast at h ⊢
    omega

/-- Only lists of the length asked for are returned. -/
theorem squeezeFrom_length (perm : State → Circ State) (nb : ℤ) (fuel : ℕ) (state : State) (outputs l : List Fr)
    (hy : Sat (squeezeFrom perm nb fuel state outputs) (some l)) : (l.length : ℤ) = nb := by
  induction fuel generalizing state outputs with
  | zero => cases (sat_pure _ _).1 hy
  | succ fuel ih =>
    rw [squeezeFrom, appendLoop_eq, take_length] at hy
    split_ifs at hy with h
    · obtain rfl := Option.some.inj ((sat_pure _ _).1 hy)
      rw [List.length_append, List.length_take, take_length]
      omega
    · obtain ⟨s, -, hy⟩ := (sat_bind _ _ _).1 hy
      exact ih s _ hy

end Verif.PoseidonGL
