import Verif.Proofs.HashLoop

/-!
# C103: the loops of `HashNToMNoPad` as written
-/

set_option autoImplicit false

namespace Verif

open Circ PoseidonGL

/-- For a positive number of outputs and enough iterations of the endless loop, the loops as written are the circuit that the
other theorems are about: the same constraints and the same result. -/
theorem C103_returns (perm : State → Circ State) (fuel : ℕ) (input : List Fr) (n : ℕ) (hn : 0 < n) (hf : n ≤ 8 * fuel) :
    hashLoops perm fuel input n = some <$> hashNToMNoPadWith perm input n := by
  rw [hashLoops, hashNToMNoPadWith, if_neg hn.ne', absorbFrom_eq, List.drop_zero, map_bind]
  refine congrArg _ (funext fun s => ?_)
  have := squeezeFrom_eq perm n fuel hn hf s []
  rw [List.length_nil, zero_add] at this
  rw [this]
  rfl

/-- One iteration gives up to eight outputs: with fewer iterations than needed the loop is still running, so the number of
permutations after the absorbing phase is the least possible. -/
theorem C103_least (perm : State → Circ State) (fuel : ℕ) (input : List Fr) (n : ℕ) (hf : 8 * fuel < n)
    (y : Option (List Fr)) (hy : Sat (hashLoops perm fuel input n) y) : y = none := by
  obtain ⟨s, -, hy⟩ := (sat_bind _ _ _).1 hy
  refine squeezeFrom_running perm n fuel s [] (Or.inr ?_) y hy
  rw [List.length_nil]
  push_cast
  omega

/-- For no outputs, or a negative number, the loop never returns. -/
theorem C103_endless (perm : State → Circ State) (fuel : ℕ) (input : List Fr) (nbOutputs : ℤ) (hn : nbOutputs ≤ 0)
    (y : Option (List Fr)) (hy : Sat (hashLoops perm fuel input nbOutputs) y) : y = none := by
  obtain ⟨s, -, hy⟩ := (sat_bind _ _ _).1 hy
  exact squeezeFrom_running perm nbOutputs fuel s [] (Or.inl hn) y hy

/-- What is returned has the number of elements asked for: the length that `HashNoPad` relies on when it copies the outputs. -/
theorem C103_length (perm : State → Circ State) (fuel : ℕ) (input : List Fr) (nbOutputs : ℤ) (l : List Fr)
    (hy : Sat (hashLoops perm fuel input nbOutputs) (some l)) : (l.length : ℤ) = nbOutputs := by
  obtain ⟨s, -, hy⟩ := (sat_bind _ _ _).1 hy
  exact squeezeFrom_length perm nbOutputs fuel s [] l hy

/-- The absorbing phase as written is the one the other theorems are about, from every index. -/
theorem C103_absorb (perm : State → Circ State) (input : List Fr) (i : ℕ) (state : State) :
    absorbFrom perm input i state = absorbLoop perm state (input.drop i) := absorbFrom_eq perm input i state

/-- The last chunk leaves the rest of the state as it is: the input is overwritten, not padded. -/
theorem C103_overwrite (input : List Fr) (i : ℕ) (state : State) (j : Fin 12) :
    setLoop input i state j = if (j : ℕ) < 8 then (input[i + (j : ℕ)]?).getD (state j) else state j := by
  have hs : setLoop input i state = (List.finRange 8).foldl (setStep input i) state := rfl
  rw [hs]
  split_ifs with hj
  · exact foldl_self input i _ (List.nodup_finRange 8) state ⟨j, hj⟩ (List.mem_finRange _)
  · exact foldl_ne _ _ _ _ _ fun k _ e => hj (by rw [e]; exact k.2)

/-- A permutation for the examples: it turns the state around. -/
private def turn (s : State) : Circ State := pure fun j => s j.rev

example : hashLoops turn 1 [1, 2, 3] 4 = some <$> hashNToMNoPadWith turn [1, 2, 3] 4 :=
  C103_returns turn 1 _ 4 (by norm_num) (by norm_num)

/-- Nine elements are two chunks; three elements, turned around, are at the end of the state. -/
example : hashLoops turn 2 [1, 2, 3] 9 = pure (some [0, 0, 0, 0, 0, 0, 0, 0, 1]) := by
  have h := absorbFrom_eq turn [1, 2, 3] 0 (fun _ => 0)
  rw [hashLoops, h]
  simp [absorbLoop, turn, overwrite, SPONGE_RATE, squeezeFrom, appendLoop, List.ofFn_succ, Fin.rev]

example : ∃ y, Sat (hashLoops turn 5 [1, 2, 3] 0) y := by
  rw [hashLoops, absorbFrom_eq]
  refine ⟨none, ?_⟩
  simp [absorbLoop, turn, overwrite, SPONGE_RATE, squeezeFrom, appendLoop, List.ofFn_succ]
  exact (sat_pure _ _).2 rfl

example (y : Option (List Fr)) (hy : Sat (hashLoops turn 5 [1, 2, 3] (-1)) y) : y = none :=
  C103_endless turn 5 _ (-1) (by norm_num) y hy

example (y : Option (List Fr)) (hy : Sat (hashLoops turn 1 [1, 2, 3] 9) y) : y = none :=
  C103_least turn 1 [1, 2, 3] 9 (by norm_num) y hy

example (l : List Fr) (hy : Sat (hashLoops turn 2 [1, 2, 3] 9) (some l)) : (l.length : ℤ) = 9 :=
  C103_length turn 2 _ 9 l hy

example : absorbFrom turn [1, 2, 3] 8 (fun _ => 7) = pure fun _ => 7 := by
  rw [C103_absorb]
  simp [absorbLoop]

example : setLoop [1, 2, 3] 0 (fun _ => 7) 2 = 3 ∧ setLoop [1, 2, 3] 0 (fun _ => 7) 3 = 7 := by
  rw [C103_overwrite, C103_overwrite]
  simp

end Verif
