import Verif.Proofs.Challenger
import Verif.Proofs.FriInstance
import Verif.Proofs.NoPanic
import Verif.Model.Verifier

/-!
# Methods of the challenger as transcripts
-/

set_option autoImplicit false

namespace Verif.Challenger

open Circ PoseidonGL
open Spec (Sponge Ev residue absorbs squeezes capElems coords limbs)

variable {perm : State → Circ State} {P : (Fin 12 → Fp) → Fin 12 → Fp} {α β σ : Type}

/-- Number of squeezed elements. -/
def nsq : List Ev → ℕ
  | [] => 0
  | .squeeze :: h => nsq h + 1
  | .absorb _ :: h => nsq h

theorem nsq_append (h h' : List Ev) : nsq (h ++ h') = nsq h + nsq h' := by
  induction h with
  | nil => simp [nsq]
  | cons e h ih => cases e <;> simp [nsq, ih]; omega

theorem nsq_absorbs (l : List Fr) : nsq (absorbs l) = 0 := by
  induction l with
  | nil => rfl
  | cons x l ih => exact ih

theorem nsq_squeezes (n : ℕ) : nsq (squeezes n) = n := by
  induction n with
  | zero => rfl
  | succ n ih => rw [squeezes, List.replicate_succ, nsq]; exact congrArg (· + 1) ih

theorem after_append (s : Sponge) (h h' : List Ev) : s.after P (h ++ h') = (s.after P h).after P h' :=
  List.foldl_append

theorem outputs_append (s : Sponge) (h h' : List Ev) :
    s.outputs P (h ++ h') = s.outputs P h ++ (s.after P h).outputs P h' := by
  induction h generalizing s with
  | nil => rfl
  | cons e h ih =>
    cases e with
    | squeeze =>
      rw [List.cons_append, Sponge.outputs, Sponge.outputs, ih, List.cons_append]; rfl
    | absorb x => rw [List.cons_append, Sponge.outputs, Sponge.outputs, ih]; rfl

theorem length_outputs (s : Sponge) (h : List Ev) : (s.outputs P h).length = nsq h := by
  induction h generalizing s with
  | nil => rfl
  | cons e h ih =>
    cases e with
    | squeeze => rw [Sponge.outputs, List.length_cons, ih, nsq]
    | absorb x => rw [Sponge.outputs, ih, nsq]

theorem good_after {s : Sponge} (hs : Good s) {h : List Ev} (hh : ∀ e ∈ h, GoodEv e) : Good (s.after P h) := by
  induction h generalizing s with
  | nil => exact hs
  | cons e h ih => exact ih (good_step hs (hh e (by simp))) fun e he => hh e (by simp [he])

/-- The method `m` performs the events `h` and returns `f` of the squeezed elements. -/
def Tracks (P : (Fin 12 → Fp) → Fin 12 → Fp) (m : ChipM α) (h : List Ev)
    (f : List Fp → α) : Prop :=
  (∀ e ∈ h, GoodEv e) ∧ ∀ s, Good s → den (m (chip P s)) = pure (f (s.outputs P h), chip P (s.after P h))

theorem Tracks.pure (a : α) : Tracks P (pure a) [] fun _ => a :=
  ⟨fun _ he => absurd he List.not_mem_nil, fun _ _ => den_pure _⟩

theorem Tracks.bind {m : ChipM α} {k : α → ChipM β} {h h' : List Ev} {f : List Fp → α}
    {g : List Fp → List Fp → β} (hm : Tracks P m h f)
    (hk : ∀ o, o.length = nsq h → Tracks P (k (f o)) h' (g o)) :
    Tracks P (m >>= k) (h ++ h') fun o => g (o.take (nsq h)) (o.drop (nsq h)) := by
  constructor
  · intro e he
    rcases List.mem_append.1 he with he | he
    · exact hm.1 e he
    · exact (hk (List.replicate (nsq h) 0) (by simp)).1 e he
  · intro s hs
    have e : (m >>= k) (chip P s) = m (chip P s) >>= fun r => k r.1 r.2 := rfl
    have hl := length_outputs (P := P) s h
    rw [e, den_bind, hm.2 s hs, pure_bind, (hk _ hl).2 _ (good_after hs hm.1), outputs_append, after_append]
    simp only [← hl, List.take_left', List.drop_left']

theorem Tracks.congr {m : ChipM α} {h h' : List Ev} {f f' : List Fp → α} (hm : Tracks P m h f) (hh : h = h')
    (hf : ∀ o, o.length = nsq h → f o = f' o) : Tracks P m h' f' := by
  subst hh
  exact ⟨hm.1, fun s hs => by rw [hm.2 s hs, hf _ (length_outputs s h)]⟩

/-- A method without result followed by another one. -/
theorem Tracks.seq {m : ChipM Unit} {k : ChipM β} {h h' : List Ev} {f : List Fp → Unit} {g : List Fp → β}
    (hm : Tracks P m h f) (hn : nsq h = 0) (hk : Tracks P k h' g) :
    Tracks P (m >>= fun _ => k) (h ++ h') g :=
  (hm.bind fun _ _ => hk).congr rfl fun o _ => by rw [hn, List.drop_zero]

theorem Tracks.forM {m : σ → ChipM Unit} {h : σ → List Ev} (l : List σ)
    (hm : ∀ x ∈ l, Tracks P (m x) (h x) fun _ => ()) : Tracks P (l.forM m) (l.flatMap h) fun _ => () := by
  induction l with
  | nil => exact Tracks.pure ()
  | cons a l ih =>
    rw [List.forM, List.flatMap_cons]
    exact (hm a (by simp)).bind (g := fun _ _ => ()) fun _ _ => ih fun x hx => hm x (by simp [hx])

theorem Tracks.mapM {m : σ → ChipM β} {h : σ → List Ev} {c : ℕ} {f : List Fp → β} (l : List σ)
    (hm : ∀ x ∈ l, Tracks P (m x) (h x) f) (hc : ∀ x ∈ l, nsq (h x) = c) :
    Tracks P (l.mapM m) (l.flatMap h)
      fun o => (List.range l.length).map fun i => f ((o.drop (c * i)).take c) := by
  induction l with
  | nil => rw [List.mapM_nil]; exact (Tracks.pure []).congr rfl fun _ _ => rfl
  | cons a l ih =>
    rw [List.mapM_cons, List.flatMap_cons]
    refine Tracks.congr ((hm a (by simp)).bind fun o _ =>
      (ih (fun x hx => hm x (by simp [hx])) fun x hx => hc x (by simp [hx])).bind fun o' _ =>
        Tracks.pure _) (by rw [List.append_nil]) ?_
    intro o ho
    have hL : nsq (l.flatMap h) = c * l.length := by
      clear ho ih hm
      induction l with
      | nil => rfl
      | cons b l ih =>
        rw [List.flatMap_cons, nsq_append, hc b (by simp), ih fun x hx => hc x (by
          rcases List.mem_cons.1 hx with h | h
          · simp [h]
          · simp [h]), List.length_cons]
        ring
    simp only [hc a (by simp), hL]
    have hT : (o.drop c).take (c * l.length) = o.drop c := by
      rw [nsq_append, nsq_append, hc a (by simp), hL] at ho
      apply List.take_of_length_le
      rw [List.length_drop, ho]
      simp [nsq]
    rw [List.length_cons, List.range_succ_eq_map, List.map_cons, List.map_map]
    refine congrArg₂ _ (by simp) (List.map_congr_left fun i hi => ?_)
    have hi' : i < l.length := List.mem_range.1 hi
    simp only [Function.comp_apply, Nat.succ_eq_add_one]
    refine congrArg f ?_
    rw [hT, List.drop_drop, mul_add, mul_one, add_comm]

/-! ## The methods -/

theorem tracks_observeElement (h : ExactPerm perm P) {x : Fr} (hx : Small x) :
    Tracks P (observeElement perm x) [.absorb x] fun _ => () :=
  ⟨fun e he => by rw [List.mem_singleton.1 he]; exact hx, fun s hs => den_observeElement h s hs x hx⟩

theorem tracks_observeElements (h : ExactPerm perm P) (l : List Fr) (hl : ∀ x ∈ l, Small x) :
    Tracks P (observeElements perm l) (absorbs l) fun _ => () := by
  have := Tracks.forM (P := P) l fun x hx => tracks_observeElement h (hl x hx)
  refine this.congr ?_ fun _ _ => rfl
  induction l with
  | nil => rfl
  | cons x l ih =>
    rw [List.flatMap_cons, absorbs, List.map_cons, List.singleton_append]
    refine congrArg _ (ih (fun y hy => hl y (by simp [hy])) ?_)
    exact Tracks.forM (P := P) l fun x hx => tracks_observeElement h (hl x (by simp [hx]))

theorem small_of_lt {x : Fr} {n : ℕ} (h : x.val < n) (hn : n ≤ 2 ^ 144 * p := by norm_num [p]) : Small x :=
  lt_of_lt_of_le h hn

theorem small_limbs (h : Fr) : ∀ x ∈ limbs h, Small x := by
  intro x hx
  obtain ⟨i, -, rfl⟩ := List.mem_map.1 hx
  have hr : (2 : ℕ) ^ 56 < r := by norm_num [r]
  refine small_of_lt (n := 2 ^ 56) ?_
  have hlt := Nat.mod_lt (h.val / 2 ^ i) (show 0 < 2 ^ 56 by norm_num)
  rw [ZMod.val_natCast, Nat.mod_eq_of_lt (hlt.trans hr)]
  exact hlt

theorem tracks_observeBN254Hash (h : ExactPerm perm P) (x : Fr) :
    Tracks P (observeBN254Hash perm x) (absorbs (limbs x)) fun _ => () := by
  have ht := tracks_observeElements h (limbs x) (small_limbs x)
  refine ⟨ht.1, fun s hs => ?_⟩
  have e : observeBN254Hash perm x (chip P s) =
      (PoseidonBN.toVec x >>= fun v => pure (v, chip P s)) >>= fun r => observeElements perm r.1 r.2 := rfl
  rw [e, den_bind, den_bind, PoseidonBN.den_toVec, pure_bind, den_pure, pure_bind]
  exact ht.2 s hs

theorem absorbs_flatMap (l : List σ) (f : σ → List Fr) :
    (l.flatMap fun x => absorbs (f x)) = absorbs (l.flatMap f) := by
  rw [absorbs, List.map_flatMap]; rfl

theorem tracks_observeCap (h : ExactPerm perm P) (cap : List Fr) :
    Tracks P (observeCap perm cap) (absorbs (capElems cap)) fun _ => () :=
  (Tracks.forM cap fun x _ => tracks_observeBN254Hash h x).congr (absorbs_flatMap _ _) fun _ _ => rfl

/-- Both coordinates small. -/
def SmallQ (e : QEV) : Prop := Small e.1 ∧ Small e.2

theorem smallQ_embQ (a : QE) : SmallQ (embQ a) := ⟨small_emb _, small_emb _⟩

/-- Coordinates of circuit values. -/
def coordsV (l : List QEV) : List Fr := l.flatMap fun e => [e.1, e.2]

theorem tracks_observeExtensionElements (h : ExactPerm perm P) (l : List QEV) (hl : ∀ e ∈ l, SmallQ e) :
    Tracks P (observeExtensionElements perm l) (absorbs (coordsV l)) fun _ => () :=
  (Tracks.forM l fun x hx => tracks_observeElements h [x.1, x.2] (by
    intro y hy
    rcases List.mem_cons.1 hy with rfl | hy
    · exact (hl x hx).1
    · rw [List.mem_singleton.1 hy]; exact (hl x hx).2)).congr (absorbs_flatMap _ _) fun _ _ => rfl

theorem tracks_observeOpenings (h : ExactPerm perm P) (l : List (List QEV)) (hl : ∀ b ∈ l, ∀ e ∈ b, SmallQ e) :
    Tracks P (observeOpenings perm l) (absorbs (l.flatMap coordsV)) fun _ => () :=
  (Tracks.forM l fun x hx => tracks_observeExtensionElements h x (hl x hx)).congr (absorbs_flatMap _ _)
    fun _ _ => rfl

theorem tracks_getChallenge (h : ExactPerm perm P) :
    Tracks P (getChallenge perm) (squeezes 1) fun o => emb (o.getD 0 0) :=
  ⟨fun e he => by rw [squeezes, List.replicate_one, List.mem_singleton] at he; rw [he]; trivial,
    fun s hs => by rw [den_getChallenge h s hs]; rfl⟩

theorem tracks_getNChallenges (h : ExactPerm perm P) (n : ℕ) :
    Tracks P (getNChallenges perm n) (squeezes n) fun o => o.map emb := by
  refine (Tracks.mapM (c := 1) (List.range n) (fun _ _ => tracks_getChallenge h) fun _ _ => rfl).congr ?_ ?_
  · rw [squeezes, squeezes, List.replicate_one]
    induction n with
    | zero => rfl
    | succ n ih => rw [List.range_succ, List.flatMap_append, ih, List.replicate_succ']; rfl
  · intro o ho
    have hn : o.length = n := by
      rw [ho]
      have : ((List.range n).flatMap fun _ => squeezes 1) = squeezes n := by
        rw [squeezes, squeezes, List.replicate_one]
        clear ho
        induction n with
        | zero => rfl
        | succ n ih => rw [List.range_succ, List.flatMap_append, ih, List.replicate_succ']; rfl
      rw [this, nsq_squeezes]
    simp only [List.length_range]
    apply List.ext_getElem
    · simp [hn]
    · intro i h1 h2
      have hi : i < o.length := by simpa using h2
      simp [hi]

theorem tracks_getExtensionChallenge (h : ExactPerm perm P) :
    Tracks P (getExtensionChallenge perm) (squeezes 2) fun o => embQ (Spec.extAt o 0) := by
  refine ((tracks_getNChallenges h 2).bind (h' := []) (g := fun o _ => embQ (Spec.extAt o 0)) ?_).congr
    (List.append_nil _) ?_
  · intro o ho
    rw [nsq_squeezes] at ho
    match o, ho with
    | [a, b], _ => exact (Tracks.pure _).congr rfl fun _ _ => rfl
  · intro o ho
    rw [List.append_nil] at ho
    rw [List.take_of_length_le (by omega)]

end Verif.Challenger
