import Verif.Model.Challenger
import Verif.Spec.Challenger
import Verif.Proofs.PoseidonGLSponge
import Verif.Proofs.SpongeBN

/-!
# The challenger refines the duplex sponge
-/

set_option autoImplicit false

namespace Verif.Challenger

open Circ PoseidonGL
open Spec (Sponge Ev residue chunks)

/-- Small enough to be reduced with a unique result. -/
def Small (x : Fr) : Prop := x.val < 2 ^ 144 * p

theorem small_emb (a : Fp) : Small (emb a) := by
  have := emb_lt a
  unfold Small
  calc _ < p := this
    _ ≤ 2 ^ 144 * p := by norm_num [p]

theorem residue_emb (a : Fp) : residue (emb a) = a := by
  rw [residue, emb_val, cast_val_fp]

theorem den_mapM_reduce_small (l : List Fr) (hl : ∀ x ∈ l, Small x) :
    den (l.mapM reduce) = pure ((l.map residue).map emb) := by
  have h := den_mapM_reduce (l.map ZMod.val) (by
    intro n hn; obtain ⟨x, hx, rfl⟩ := List.mem_map.1 hn; exact hl x hx)
  have e : (l.map ZMod.val).map (fun n : ℕ => (n : Fr)) = l := by
    rw [List.map_map]
    conv_rhs => rw [← List.map_id l]
    exact List.map_congr_left fun x _ => natCast_val_fr x
  have e2 : (l.map ZMod.val).map (fun n : ℕ => (n : Fp)) = l.map residue := by
    rw [List.map_map]; rfl
  rw [e, e2] at h
  exact h

/-- The permutation state as a chip state. -/
def embS (s : Fin 12 → Fp) : State := fun i => emb (s i)

/-- Overwrite the first positions. -/
def over (s : Fin 12 → Fp) (l : List Fp) : Fin 12 → Fp := fun j => (l[(j : ℕ)]?).getD (s j)

theorem overwrite_emb' (s : Fin 12 → Fp) (l : List Fp) (hl : l.length ≤ 8) :
    overwrite (embS s) (l.map emb) = embS (over s l) := by
  have h := overwrite_emb s l
  rw [List.take_of_length_le (by simpa using hl), List.take_of_length_le hl] at h
  exact h

variable {perm : State → Circ State} {P : (Fin 12 → Fp) → Fin 12 → Fp}

theorem den_duplexing (h : ExactPerm perm P) (s : Fin 12 → Fp) (inp out : List Fr) (hi : ∀ x ∈ inp, Small x)
    (hl : inp.length ≤ 8) :
    den (duplexing perm ⟨embS s, inp, out⟩) =
      pure ((), ⟨embS (P (over s (inp.map residue))), [],
        (List.ofFn (embS (P (over s (inp.map residue))))).take 8⟩) := by
  have hl' : ¬ inp.length > SPONGE_RATE := by rw [SPONGE_RATE]; omega
  unfold duplexing
  simp only
  rw [if_neg hl', den_bind, den_mapM_reduce_small _ hi, pure_bind, overwrite_emb' _ _ (by simpa using hl),
    den_bind]
  have e : den (perm (embS (over s (inp.map residue)))) = pure (embS (P (over s (inp.map residue)))) :=
    h (over s (inp.map residue))
  rw [e, pure_bind, den_pure]
  rfl

/-! ## Chunks -/

theorem chunks_nil {R : Type} : chunks ([] : List R) = [] := by simp [chunks]

theorem chunks_short {R : Type} (l : List R) (h : l ≠ []) (h8 : l.length ≤ 8) : chunks l = [l] := by
  rw [chunks_cons l h, List.take_of_length_le h8, List.drop_eq_nil_of_le h8, chunks_nil]

theorem chunks_append {R : Type} (a b : List R) (ha : 8 ∣ a.length) : chunks (a ++ b) = chunks a ++ chunks b := by
  induction hn : a.length using Nat.strong_induction_on generalizing a with
  | _ n ih =>
    by_cases h0 : a = []
    · subst h0; rw [List.nil_append, chunks_nil, List.nil_append]
    · have hpos : 0 < a.length := List.length_pos_iff.2 h0
      have h8 : 8 ≤ a.length := Nat.le_of_dvd hpos ha
      rw [chunks_cons (a ++ b) (by simp [h0]), chunks_cons a h0, List.take_append_of_le_length h8,
        List.drop_append_of_le_length h8, ih _ (by rw [List.length_drop]; omega) (a.drop 8) _ rfl,
        List.cons_append]
      rw [List.length_drop]; omega

/-- Full blocks of the pending elements. -/
def fullPart (l : List Fr) : List Fr := l.take (8 * (l.length / 8))
/-- Elements in the buffer. -/
def restPart (l : List Fr) : List Fr := l.drop (8 * (l.length / 8))

theorem full_append_rest (l : List Fr) : fullPart l ++ restPart l = l := List.take_append_drop _ _

theorem length_fullPart (l : List Fr) : (fullPart l).length = 8 * (l.length / 8) := by
  rw [fullPart, List.length_take]; omega

theorem length_restPart (l : List Fr) : (restPart l).length = l.length % 8 := by
  rw [restPart, List.length_drop]; omega

/-- State after the full blocks. -/
def flushed (P : (Fin 12 → Fp) → Fin 12 → Fp) (s : Sponge) : Fin 12 → Fp :=
  Spec.absorb P s.base (chunks ((fullPart s.pending).map residue))

theorem chunks_pending (l : List Fr) : chunks (l.map residue) =
    chunks ((fullPart l).map residue) ++ chunks ((restPart l).map residue) := by
  conv_lhs => rw [← full_append_rest l, List.map_append]
  exact chunks_append _ _ ⟨l.length / 8, by rw [List.length_map, length_fullPart]⟩

theorem absorb_append (s : Fin 12 → Fp) (a b : List (List Fp)) :
    Spec.absorb P s (a ++ b) = Spec.absorb P (Spec.absorb P s a) b := List.foldl_append

theorem absorb_one (s : Fin 12 → Fp) (a : List Fp) : Spec.absorb P s [a] = P (over s a) := rfl

/-- What the first squeeze finds, when some elements are still in the buffer or nothing has been absorbed. -/
theorem soaked_flush (s : Sponge) (h : s.pending = [] ∨ s.pending.length % 8 ≠ 0) :
    s.soaked P = P (over (flushed P s) ((restPart s.pending).map residue)) := by
  unfold Sponge.soaked
  by_cases h0 : s.pending = []
  · rw [if_pos h0, flushed, h0]; rfl
  · rw [if_neg h0, chunks_pending, absorb_append]
    have hr : (restPart s.pending).length ≠ 0 := by
      rw [length_restPart]; rcases h with h | h
      · exact absurd h h0
      · exact h
    rw [chunks_short ((restPart s.pending).map residue), absorb_one]
    · rfl
    · intro e; exact hr (by simpa using congrArg List.length e)
    · rw [List.length_map, length_restPart]; omega

/-- ... when the elements absorbed fill complete blocks. -/
theorem soaked_full (s : Sponge) (h0 : s.pending ≠ []) (h : s.pending.length % 8 = 0) :
    s.soaked P = flushed P s := by
  have hr : restPart s.pending = [] := by
    apply List.eq_nil_of_length_eq_zero; rw [length_restPart, h]
  rw [Sponge.soaked, if_neg h0, chunks_pending, hr, List.map_nil, chunks_nil, List.append_nil]
  rfl

/-! ## The chip as a function of the abstract sponge -/

/-- Rate part of a state. -/
def rate (s : Fin 12 → Fp) : List Fr := (List.ofFn (embS s)).take 8

/-- State from which squeezed elements have been taken (for `taken ≠ 0`). -/
def squeezed (P : (Fin 12 → Fp) → Fin 12 → Fp) (s : Sponge) : Fin 12 → Fp :=
  P^[(s.taken - 1) / 8] (s.soaked P)

/-- The chip that corresponds to an abstract sponge. -/
def chip (P : (Fin 12 → Fp) → Fin 12 → Fp) (s : Sponge) : Chip :=
  if s.taken = 0 then
    ⟨embS (flushed P s), restPart s.pending,
      if s.pending ≠ [] ∧ s.pending.length % 8 = 0 then rate (flushed P s) else []⟩
  else ⟨embS (squeezed P s), [], (rate (squeezed P s)).take (7 - (s.taken - 1) % 8)⟩

/-- All pending elements are small. -/
def Good (s : Sponge) : Prop := ∀ x ∈ s.pending, Small x

/-- Observed elements are small. -/
def GoodEv : Ev → Prop
  | .absorb x => Small x
  | .squeeze => True

theorem chip_init : newChip = chip P Sponge.init := by
  unfold chip
  rw [if_pos (by rfl)]
  unfold newChip
  refine congrArg₂ (fun a b => Chip.mk a b []) ?_ rfl
  funext i
  exact emb_zero.symm

theorem good_step {s : Sponge} (hs : Good s) {e : Ev} (he : GoodEv e) : Good (s.step P e) := by
  cases e with
  | squeeze => exact hs
  | absorb x =>
    unfold Sponge.step
    simp only
    by_cases ht : s.taken = 0
    · rw [if_pos ht]
      intro y hy
      rcases List.mem_append.1 hy with hy | hy
      · exact hs y hy
      · rw [List.mem_singleton.1 hy]; exact he
    · rw [if_neg ht]
      intro y hy
      rw [List.mem_singleton.1 hy]; exact he

theorem good_rest {s : Sponge} (hs : Good s) : ∀ x ∈ restPart s.pending, Small x := fun x hx =>
  hs x (List.mem_of_mem_drop hx)

theorem restPart_snoc (l : List Fr) (x : Fr) (h : (l.length + 1) % 8 ≠ 0) :
    restPart (l ++ [x]) = restPart l ++ [x] := by
  unfold restPart
  rw [List.length_append, List.length_singleton]
  have : (l.length + 1) / 8 = l.length / 8 := by omega
  rw [this, List.drop_append_of_le_length (by omega)]

theorem fullPart_snoc (l : List Fr) (x : Fr) (h : (l.length + 1) % 8 ≠ 0) : fullPart (l ++ [x]) = fullPart l := by
  unfold fullPart
  rw [List.length_append, List.length_singleton]
  have : (l.length + 1) / 8 = l.length / 8 := by omega
  rw [this, List.take_append_of_le_length (by omega)]

theorem den_observe_aux (h : ExactPerm perm P) (s : Sponge) (hs : Good s) (out : List Fr) (x : Fr)
    (hx : Small x) :
    den (observeElement perm x ⟨embS (flushed P s), restPart s.pending, out⟩) =
      pure ((), chip P ⟨s.base, s.pending ++ [x], 0⟩) := by
  unfold observeElement
  simp only
  by_cases h8 : (s.pending.length + 1) % 8 = 0
  · have hlen : (restPart s.pending ++ [x]).length = SPONGE_RATE := by
      rw [List.length_append, length_restPart, List.length_singleton, SPONGE_RATE]; omega
    rw [if_pos hlen, den_duplexing h]
    · have e : P (over (flushed P s) ((restPart s.pending ++ [x]).map residue)) =
          flushed P ⟨s.base, s.pending ++ [x], 0⟩ := by
        have hc : fullPart (s.pending ++ [x]) = fullPart s.pending ++ (restPart s.pending ++ [x]) := by
          rw [← List.append_assoc, full_append_rest, fullPart, List.take_of_length_le]
          rw [List.length_append, List.length_singleton]; omega
        have e1 : flushed P ⟨s.base, s.pending ++ [x], 0⟩ = Spec.absorb P s.base
            (chunks ((fullPart s.pending).map residue ++ (restPart s.pending ++ [x]).map residue)) := by
          rw [flushed]; simp only; rw [hc, List.map_append]
        rw [e1, chunks_append, absorb_append, chunks_short ((restPart s.pending ++ [x]).map residue), absorb_one]
        · rfl
        · simp
        · rw [List.length_map, hlen, SPONGE_RATE]
        · rw [List.length_map, length_fullPart]; exact ⟨_, rfl⟩
      rw [e]
      unfold chip
      rw [if_pos rfl]
      refine congrArg (fun z => (pure ((), z) : Den (Unit × Chip))) ?_
      have hr : restPart (s.pending ++ [x]) = [] := by
        apply List.eq_nil_of_length_eq_zero
        rw [length_restPart, List.length_append, List.length_singleton, h8]
      rw [hr, if_pos ⟨by simp, by rw [List.length_append, List.length_singleton, h8]⟩]
      rfl
    · intro y hy
      rcases List.mem_append.1 hy with hy | hy
      · exact good_rest hs y hy
      · rw [List.mem_singleton.1 hy]; exact hx
    · rw [hlen, SPONGE_RATE]
  · have hlen : ¬ (restPart s.pending ++ [x]).length = SPONGE_RATE := by
      rw [List.length_append, length_restPart, List.length_singleton, SPONGE_RATE]; omega
    rw [if_neg hlen, den_pure]
    unfold chip
    rw [if_pos rfl]
    have hf : flushed P ⟨s.base, s.pending ++ [x], 0⟩ = flushed P s := by
      rw [flushed, flushed, fullPart_snoc _ _ h8]
    rw [hf, if_neg]
    · rw [restPart_snoc _ _ h8]
    · intro hc
      rw [List.length_append, List.length_singleton] at hc
      exact h8 hc.2

/-- Observing an element is an `absorb` event. -/
theorem den_observeElement (h : ExactPerm perm P) (s : Sponge) (hs : Good s) (x : Fr) (hx : Small x) :
    den (observeElement perm x (chip P s)) = pure ((), chip P (s.step P (.absorb x))) := by
  unfold Sponge.step
  simp only
  by_cases ht : s.taken = 0
  · rw [if_pos ht, ← den_observe_aux h s hs _ x hx]
    rw [chip, if_pos ht]
  · rw [if_neg ht]
    have := den_observe_aux h ⟨squeezed P s, [], 0⟩ (by intro y hy; cases hy)
      ((rate (squeezed P s)).take (7 - (s.taken - 1) % 8)) x hx
    have hfl : flushed P ⟨squeezed P s, [], 0⟩ = squeezed P s := by
      simp only [flushed, fullPart, List.take_nil, List.map_nil, chunks_nil, Spec.absorb, List.foldl_nil]
    have hre : restPart ([] : List Fr) = [] := List.drop_nil
    rw [hfl] at this
    simp only [hre] at this
    rw [chip, if_neg ht]
    exact this

theorem length_rate (s : Fin 12 → Fp) : (rate s).length = 8 := by simp [rate]

theorem rate_getElem (s : Fin 12 → Fp) (i : ℕ) (hi : i < (rate s).length) :
    (rate s)[i] = emb (s (Fin.ofNat 12 i)) := by
  have h8 : i < 8 := by rwa [length_rate] at hi
  have e : rate s = (List.range 8).map fun k => embS s (Fin.ofNat 12 k) := take_ofFn (embS s) (le_refl 8)
  simp only [e, List.getElem_map, List.getElem_range, embS]

theorem pop_rate (s : Fin 12 → Fp) (k : ℕ) (hk : k < 8) :
    ((rate s).take (k + 1)).getLast? = some (emb (s (Fin.ofNat 12 k))) ∧
    ((rate s).take (k + 1)).dropLast = (rate s).take k := by
  constructor
  · rw [List.getLast?_eq_getElem?, List.length_take, length_rate, Nat.min_eq_left (by omega), Nat.add_sub_cancel,
      List.getElem?_eq_getElem (by rw [List.length_take, length_rate]; omega), List.getElem_take, rate_getElem]
  · rw [List.dropLast_eq_take, List.length_take, length_rate, Nat.min_eq_left (by omega), Nat.add_sub_cancel,
      List.take_take, Nat.min_eq_left (by omega)]

theorem take8_rate (s : Fin 12 → Fp) : (rate s).take (7 + 1) = rate s :=
  List.take_of_length_le (by rw [length_rate])

/-- Popping from a chip whose output buffer is not empty. -/
theorem den_get_pop (st : Fin 12 → Fp) (k : ℕ) (hk : k < 8) :
    den (getChallenge perm ⟨embS st, [], (rate st).take (k + 1)⟩) =
      pure (emb (st (Fin.ofNat 12 k)), ⟨embS st, [], (rate st).take k⟩) := by
  unfold getChallenge
  have hn : ¬ (([] : List Fr).length ≠ 0 ∨ ((rate st).take (k + 1)).length = 0) := by
    rw [List.length_take, length_rate]; simp
  simp only
  rw [if_neg hn, den_bind, den_pure, pure_bind, (pop_rate st k hk).1, (pop_rate st k hk).2]
  exact den_pure _

/-- Getting a challenge that requires a permutation. -/
theorem den_get_dup (h : ExactPerm perm P) (s : Fin 12 → Fp) (inp out : List Fr) (hi : ∀ x ∈ inp, Small x)
    (hl : inp.length ≤ 8) (hc : inp.length ≠ 0 ∨ out.length = 0) :
    den (getChallenge perm ⟨embS s, inp, out⟩) =
      pure (emb (P (over s (inp.map residue)) (Fin.ofNat 12 7)),
        ⟨embS (P (over s (inp.map residue))), [], (rate (P (over s (inp.map residue)))).take 7⟩) := by
  set st := P (over s (inp.map residue)) with hst
  have hp := pop_rate st 7 (by norm_num)
  rw [take8_rate] at hp
  unfold getChallenge
  simp only
  rw [if_pos hc, den_bind, den_bind, den_duplexing h _ _ _ hi hl, pure_bind, den_pure, pure_bind, ← hst]
  change den (match (rate st).getLast? with
    | none => goPanic "index out of range"
    | some x => pure (x, (⟨embS st, [], (rate st).dropLast⟩ : Chip))) = _
  rw [hp.1, hp.2]
  exact den_pure _

/-- Getting a challenge is a `squeeze` event. -/
theorem den_getChallenge (h : ExactPerm perm P) (s : Sponge) (hs : Good s) :
    den (getChallenge perm (chip P s)) = pure (emb (s.next P), chip P (s.step P .squeeze)) := by
  have hstep : s.step P .squeeze = ⟨s.base, s.pending, s.taken + 1⟩ := rfl
  have hne : ¬ (s.step P .squeeze).taken = 0 := by rw [hstep]; simp
  have hsk : (s.step P .squeeze).soaked P = s.soaked P := rfl
  by_cases ht : s.taken = 0
  · have hnext : s.next P = s.soaked P (Fin.ofNat 12 7) := by
      rw [Sponge.next, ht]; rfl
    have hsq : squeezed P (s.step P .squeeze) = s.soaked P := by
      have : ((s.step P .squeeze).taken - 1) / 8 = 0 := by rw [hstep]; simp only; omega
      rw [squeezed, hsk, this]; rfl
    have h7 : 7 - ((s.step P .squeeze).taken - 1) % 8 = 7 := by rw [hstep]; simp only; omega
    have e2 : chip P (s.step P .squeeze) = ⟨embS (s.soaked P), [], (rate (s.soaked P)).take 7⟩ := by
      rw [chip, if_neg hne, hsq, h7]
    rw [e2, hnext, chip, if_pos ht]
    by_cases hf : s.pending ≠ [] ∧ s.pending.length % 8 = 0
    · have hr : restPart s.pending = [] := by
        apply List.eq_nil_of_length_eq_zero; rw [length_restPart, hf.2]
      rw [if_pos hf, hr, ← soaked_full s hf.1 hf.2]
      have := den_get_pop (perm := perm) (s.soaked P) 7 (by norm_num)
      rw [take8_rate] at this
      exact this
    · have hf' : s.pending = [] ∨ s.pending.length % 8 ≠ 0 := by
        by_cases h0 : s.pending = []
        · exact Or.inl h0
        · exact Or.inr fun hc => hf ⟨h0, hc⟩
      rw [if_neg hf, soaked_flush s hf']
      exact den_get_dup h _ _ _ (good_rest hs) (by rw [length_restPart]; omega) (Or.inr rfl)
  · have e1 : chip P s = ⟨embS (squeezed P s), [], (rate (squeezed P s)).take (7 - (s.taken - 1) % 8)⟩ := by
      rw [chip, if_neg ht]
    have e2 : chip P (s.step P .squeeze) = ⟨embS (P^[s.taken / 8] (s.soaked P)), [],
        (rate (P^[s.taken / 8] (s.soaked P))).take (7 - s.taken % 8)⟩ := by
      rw [chip, if_neg hne]; rfl
    rw [e1, e2]
    by_cases h8 : s.taken % 8 = 0
    · have ek : 7 - (s.taken - 1) % 8 = 0 := by omega
      have ed : s.taken / 8 = (s.taken - 1) / 8 + 1 := by omega
      have est : P^[s.taken / 8] (s.soaked P) = P (over (squeezed P s) (([] : List Fr).map residue)) := by
        rw [ed, Function.iterate_succ_apply']; rfl
      rw [ek, h8, Sponge.next, h8, est]
      exact den_get_dup h _ _ _ (by intro x hx; cases hx) (by simp) (Or.inr (by simp))
    · have ek : 7 - (s.taken - 1) % 8 = (7 - s.taken % 8) + 1 := by omega
      have ed : s.taken / 8 = (s.taken - 1) / 8 := by omega
      have est : P^[s.taken / 8] (s.soaked P) = squeezed P s := by rw [ed]; rfl
      rw [ek, Sponge.next, est]
      exact den_get_pop _ _ (by omega)

end Verif.Challenger
