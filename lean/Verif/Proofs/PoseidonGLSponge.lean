import Verif.Proofs.PoseidonGLPerm

/-! # The Poseidon-Goldilocks sponge -/

set_option autoImplicit false

namespace Verif.PoseidonGL

open Circ

/-- `perm` computes `P` on canonical states, without freedom for the prover. -/
def ExactPerm (perm : State → Circ State) (P : (Fin 12 → Fp) → Fin 12 → Fp) : Prop :=
  ∀ s : Fin 12 → Fp, den (perm fun i => emb (s i)) = pure fun i => emb (P s i)

theorem overwrite_emb (s : Fin 12 → Fp) (l : List Fp) :
    overwrite (fun i => emb (s i)) ((l.map emb).take 8) =
      fun j : Fin 12 => emb (((l.take 8)[(j : ℕ)]?).getD (s j)) := by
  funext j
  unfold overwrite
  by_cases h : (j : ℕ) < ((l.map emb).take 8).length
  · have h8 : (j : ℕ) < 8 := by rw [List.length_take] at h; omega
    rw [dif_pos ⟨h, h8⟩]
    have h' : (j : ℕ) < (l.take 8).length := by simpa using h
    rw [List.getElem?_eq_getElem h', Option.getD_some]
    simp
  · rw [dif_neg (fun h2 => h h2.1)]
    have h' : (l.take 8).length ≤ j := by
      rw [List.length_take, List.length_map] at h; rw [List.length_take]; omega
    rw [List.getElem?_eq_none h', Option.getD_none]

theorem chunks_cons {R : Type} (l : List R) (h : l ≠ []) :
    Spec.chunks l = l.take 8 :: Spec.chunks (l.drop 8) := by
  have hl : 0 < l.length := List.length_pos_iff.2 h
  unfold Spec.chunks
  have : (l.length + 7) / 8 = ((l.drop 8).length + 7) / 8 + 1 := by
    rw [List.length_drop]; omega
  rw [this, List.range_succ_eq_map, List.map_cons, List.map_map]
  refine congrArg₂ _ (by simp) ?_
  refine List.map_congr_left fun k _ => ?_
  simp only [Function.comp_apply, List.drop_drop]
  congr 2
  omega

theorem den_absorbLoop {perm : State → Circ State} {P : (Fin 12 → Fp) → Fin 12 → Fp}
    (h : ExactPerm perm P) (l : List Fp) (s : Fin 12 → Fp) :
    den (absorbLoop perm (fun i => emb (s i)) (l.map emb)) =
      pure fun i => emb (Spec.absorb P s (Spec.chunks l) i) := by
  induction hn : l.length using Nat.strong_induction_on generalizing l s with
  | _ n ih =>
    cases l with
    | nil =>
      rw [List.map_nil, absorbLoop, den_pure]; rfl
    | cons x xs =>
      rw [List.map_cons, absorbLoop, ← List.map_cons, den_bind]
      simp only [SPONGE_RATE]
      rw [overwrite_emb, h, pure_bind, ← List.map_drop, ih _ _ _ _ rfl,
        chunks_cons (x :: xs) (by simp), Spec.absorb, Spec.absorb, List.foldl_cons]
      rw [← hn]; simp

theorem take_ofFn {R : Type} (s : Fin 12 → R) {n : ℕ} (hn : n ≤ 8) :
    (List.ofFn s).take n = (List.range n).map fun k => s (Fin.ofNat 12 k) := by
  apply List.ext_getElem
  · simp; omega
  · intro i h1 h2
    have : i < 12 := by simp at h2; omega
    rw [List.getElem_take, List.getElem_ofFn, List.getElem_map, List.getElem_range]
    refine congrArg s (Fin.ext ?_)
    show i = i % 12
    rw [Nat.mod_eq_of_lt this]

theorem den_squeezeLoop {perm : State → Circ State} {P : (Fin 12 → Fp) → Fin 12 → Fp}
    (h : ExactPerm perm P) (n : ℕ) (s : Fin 12 → Fp) :
    den (squeezeLoop perm (fun i => emb (s i)) n) =
      pure ((List.range n).map fun k => emb (Spec.squeeze P s k)) := by
  induction n using Nat.strong_induction_on generalizing s with
  | _ n ih =>
    rw [squeezeLoop]
    by_cases hn : n ≤ SPONGE_RATE
    · rw [dif_pos hn]
      simp only [SPONGE_RATE] at hn ⊢
      rw [den_pure, take_ofFn _ hn]
      refine congrArg pure (List.map_congr_left fun k hk => ?_)
      have hk' : k < 8 := by rw [List.mem_range] at hk; omega
      simp only [Spec.squeeze, Nat.div_eq_of_lt hk', Nat.mod_eq_of_lt hk', Function.iterate_zero, id]
    · rw [dif_neg hn]
      simp only [SPONGE_RATE] at hn ⊢
      rw [den_bind, h, pure_bind, den_bind, ih _ (by omega), pure_bind, den_pure]
      refine congrArg pure ?_
      have : n = 8 + (n - 8) := by omega
      conv_rhs => rw [this, List.range_add, List.map_append, List.map_map]
      rw [take_ofFn _ (le_refl 8)]
      refine congrArg₂ _ (List.map_congr_left fun k hk => ?_) (List.map_congr_left fun k hk => ?_)
      · have hk' : k < 8 := List.mem_range.1 hk
        simp only [Spec.squeeze, Nat.div_eq_of_lt hk', Nat.mod_eq_of_lt hk', Function.iterate_zero, id]
      · have h1 : (8 + k) / 8 = k / 8 + 1 := by omega
        have h2 : (8 + k) % 8 = k % 8 := by omega
        simp only [Function.comp_apply, Spec.squeeze, h1, h2, Function.iterate_succ_apply]

theorem den_hashNToMNoPad {perm : State → Circ State} {P : (Fin 12 → Fp) → Fin 12 → Fp}
    (h : ExactPerm perm P) (l : List Fp) {n : ℕ} (hn : n ≠ 0) :
    den (hashNToMNoPadWith perm (l.map emb) n) = pure ((Spec.hash P l n).map emb) := by
  rw [hashNToMNoPadWith, if_neg hn, den_bind]
  have h0 : (fun _ => 0 : State) = fun i => emb ((fun _ => 0 : Fin 12 → Fp) i) := by
    funext i; rw [emb_zero]
  rw [h0, den_absorbLoop h, pure_bind, den_squeezeLoop h, Spec.hash, List.map_map]
  rfl

theorem den_mapM_reduce (l : List ℕ) (hl : ∀ n ∈ l, n < 2 ^ 144 * p) :
    den ((l.map (fun n : ℕ => (n : Fr))).mapM reduce) = pure ((l.map (fun n : ℕ => (n : Fp))).map emb) := by
  rw [den_mapM, List.mapM_map, Den.mapM_pure_of (g := fun n : ℕ => emb (n : Fp)), List.map_map]
  · rfl
  · intro n hn; exact den_reduce_nat (hl n hn)

theorem den_hashNoPad {perm : State → Circ State} {P : (Fin 12 → Fp) → Fin 12 → Fp}
    (h : ExactPerm perm P) (l : List ℕ) (hl : ∀ n ∈ l, n < 2 ^ 144 * p) :
    den (hashNoPadWith perm (l.map (fun n : ℕ => (n : Fr)))) =
      pure fun i : Fin 4 => emb ((Spec.hash P (l.map (fun n : ℕ => (n : Fp))) 4).getD i 0) := by
  rw [hashNoPadWith, den_bind, den_mapM_reduce l hl, pure_bind, den_bind,
    den_hashNToMNoPad h _ (by norm_num), pure_bind, den_pure]
  refine congrArg pure (funext fun i => ?_)
  rw [← emb_zero, List.getD_map]

theorem Ref.absorbLoop {perm perm' : State → Circ State} (h : ∀ s, Ref (perm s) (perm' s)) (s : State)
    (l : List Fr) : Ref (absorbLoop perm s l) (absorbLoop perm' s l) := by
  induction hn : l.length using Nat.strong_induction_on generalizing l s with
  | _ n ih =>
    cases l with
    | nil => rw [PoseidonGL.absorbLoop, PoseidonGL.absorbLoop]; exact Circ.Ref.refl _
    | cons x xs =>
      rw [PoseidonGL.absorbLoop, PoseidonGL.absorbLoop]
      exact Circ.Ref.bind (h _) fun s => ih _ (by rw [← hn]; simp [SPONGE_RATE]) _ _ rfl

theorem Ref.squeezeLoop {perm perm' : State → Circ State} (h : ∀ s, Ref (perm s) (perm' s)) (s : State)
    (n : ℕ) : Ref (squeezeLoop perm s n) (squeezeLoop perm' s n) := by
  induction n using Nat.strong_induction_on generalizing s with
  | _ n ih =>
    rw [PoseidonGL.squeezeLoop, PoseidonGL.squeezeLoop]
    split
    · exact Circ.Ref.refl _
    · next hn =>
      exact Circ.Ref.bind (h _) fun s => Circ.Ref.bind (ih _ (by simp only [SPONGE_RATE] at *; omega) _)
        fun _ => Circ.Ref.refl _

theorem Ref.hashNToMNoPadWith {perm perm' : State → Circ State} (h : ∀ s, Ref (perm s) (perm' s))
    (l : List Fr) (n : ℕ) : Ref (hashNToMNoPadWith perm l n) (hashNToMNoPadWith perm' l n) := by
  unfold PoseidonGL.hashNToMNoPadWith
  split
  · exact Circ.Ref.refl _
  · exact Circ.Ref.bind (Ref.absorbLoop h _ _) fun _ => Ref.squeezeLoop h _ _

theorem Ref.hashNoPadWith {perm perm' : State → Circ State} (h : ∀ s, Ref (perm s) (perm' s))
    (l : List Fr) : Ref (hashNoPadWith perm l) (hashNoPadWith perm' l) :=
  Circ.Ref.bind (Circ.Ref.refl _) fun _ => Circ.Ref.bind (Ref.hashNToMNoPadWith h _ _) fun _ =>
    Circ.Ref.refl _

/-- The code's permutation with the prover's freedom removed. -/
def cleanPerm (s : State) : Circ State := poseidonWith cleanSbox s

theorem cleanPerm_exact : ExactPerm cleanPerm Spec.poseidon := den_poseidonWith cleanSbox_exact

theorem cleanPerm_ref (s : State) : Ref (cleanPerm s) (poseidon s) := Ref.poseidonWith cleanSbox_ref s

end Verif.PoseidonGL
