import Verif.Proofs.Freedom

/-!
# Methods of the challenger, as runs of the relational challenger
-/

set_option autoImplicit false

namespace Verif.Freedom

open Circ PoseidonGL
open Challenger hiding over
open Spec (Ev residue absorbs squeezes capElems coords limbs extAt)
open Spec.Free (St Conf Step Run Absorb Hash over)

variable {perm : State → Circ State} {R : St → St → Prop} {α β σ : Type}

theorem over_eq (s : St) (l : List Fp) : Challenger.over s l = over s l := rfl

/-- The chip that corresponds to a configuration. -/
def chipOf (k : Conf) : Chip := ⟨embS k.state, k.waiting, (rate k.state).take k.left⟩

/-- Configurations that occur. -/
def Ok (k : Conf) : Prop := (∀ x ∈ k.waiting, Small x) ∧ k.waiting.length ≤ 7 ∧ k.left ≤ 8

theorem sat_duplexing (h : RelPerm perm R) (s : St) (inp out : List Fr) (hi : ∀ x ∈ inp, Small x)
    (hl : inp.length ≤ 8) (y : Unit × Chip) :
    Sat (duplexing perm ⟨embS s, inp, out⟩) y ↔
      ∃ t, R (over s (inp.map residue)) t ∧ y = ((), ⟨embS t, [], rate t⟩) := by
  have hl' : ¬ inp.length > SPONGE_RATE := by rw [SPONGE_RATE]; omega
  have h1 := sat_of_den_pure (den_mapM_reduce_small inp hi)
  unfold duplexing
  simp only
  rw [if_neg hl', sat_bind]
  constructor
  · rintro ⟨a, ha, hy⟩
    obtain rfl := (h1 a).1 ha
    rw [sat_bind, overwrite_emb' _ _ (by simpa using hl)] at hy
    obtain ⟨b, hb, hy⟩ := hy
    obtain ⟨t, rfl, ht⟩ := (h _ b).1 hb
    exact ⟨t, ht, (sat_pure _ _).1 hy⟩
  · rintro ⟨t, ht, rfl⟩
    refine ⟨_, (h1 _).2 rfl, ?_⟩
    rw [sat_bind, overwrite_emb' _ _ (by simpa using hl)]
    exact ⟨_, (h _ _).2 ⟨t, rfl, ht⟩, (sat_pure _ _).2 rfl⟩

theorem sat_observeElement (h : RelPerm perm R) (k : Conf) (hk : Ok k) (x : Fr) (hx : Small x) (y : Unit × Chip) :
    Sat (observeElement perm x (chipOf k)) y ↔ ∃ k', Step R k (.absorb x) [] k' ∧ y = ((), chipOf k') := by
  unfold observeElement chipOf
  simp only [Step, true_and]
  have hl : (k.waiting ++ [x]).length = k.waiting.length + 1 := by simp
  by_cases h7 : k.waiting.length < 7
  · rw [if_neg (by rw [hl, SPONGE_RATE]; omega), sat_pure]
    simp only [if_pos h7]
    constructor
    · rintro rfl; exact ⟨_, rfl, rfl⟩
    · rintro ⟨k', rfl, rfl⟩; rfl
  · have h8 : k.waiting.length = 7 := by have := hk.2.1; omega
    rw [if_pos (by rw [hl, SPONGE_RATE]; omega), sat_duplexing h]
    · simp only [if_neg h7]
      constructor
      · rintro ⟨t, ht, rfl⟩
        exact ⟨_, ⟨t, ht, rfl⟩, by simp only; rw [List.take_of_length_le (by rw [length_rate])]⟩
      · rintro ⟨k', ⟨t, ht, rfl⟩, rfl⟩
        exact ⟨t, ht, by simp only; rw [List.take_of_length_le (by rw [length_rate])]⟩
    · intro z hz
      rcases List.mem_append.1 hz with hz | hz
      · exact hk.1 z hz
      · rw [List.mem_singleton.1 hz]; exact hx
    · omega

theorem sat_getChallenge (h : RelPerm perm R) (k : Conf) (hk : Ok k) (y : Fr × Chip) :
    Sat (getChallenge perm (chipOf k)) y ↔ ∃ o k', Step R k .squeeze o k' ∧ y = (emb (o.getD 0 0), chipOf k') := by
  by_cases hc : k.waiting = [] ∧ k.left ≠ 0
  · obtain ⟨j, hj⟩ : ∃ j, k.left = j + 1 := ⟨k.left - 1, by omega⟩
    have hj8 : j < 8 := by have := hk.2.2; omega
    have := sat_of_den_pure (den_get_pop (perm := perm) k.state j hj8) y
    have e : chipOf k = ⟨embS k.state, [], (rate k.state).take (j + 1)⟩ := by rw [chipOf, hc.1, hj]
    rw [e, this]
    simp only [Step, if_pos hc]
    have e2 : k.left - 1 = j := by omega
    constructor
    · rintro rfl; exact ⟨_, _, ⟨rfl, rfl⟩, by rw [e2]; rfl⟩
    · rintro ⟨o, k', ⟨rfl, rfl⟩, rfl⟩; rw [e2]; rfl
  · have hc' : (chipOf k).inputBuffer.length ≠ 0 ∨ (chipOf k).outputBuffer.length = 0 := by
      by_cases h0 : k.waiting = []
      · refine Or.inr ?_
        have : k.left = 0 := by by_contra h1; exact hc ⟨h0, h1⟩
        simp [chipOf, this]
      · exact Or.inl (by simpa [chipOf] using h0)
    have hd := sat_duplexing h k.state k.waiting ((rate k.state).take k.left) hk.1 (by have := hk.2.1; omega)
    have hpop : ∀ t : St, (rate t).getLast? = some (emb (t 7)) ∧ (rate t).dropLast = (rate t).take 7 := by
      intro t
      have := pop_rate t 7 (by norm_num)
      rw [take8_rate] at this
      exact this
    unfold getChallenge
    simp only [Step, if_neg hc]
    rw [if_pos hc', sat_bind]
    constructor
    · rintro ⟨a, ha, hy⟩
      rw [sat_bind] at ha
      obtain ⟨b, hb, ha⟩ := ha
      obtain ⟨t, ht, rfl⟩ := (hd b).1 hb
      obtain rfl := (sat_pure _ _).1 ha
      simp only [(hpop t).1, (hpop t).2] at hy
      exact ⟨_, _, ⟨t, ht, rfl, rfl⟩, (sat_pure _ _).1 hy⟩
    · rintro ⟨o, k', ⟨t, ht, rfl, rfl⟩, rfl⟩
      refine ⟨⟨embS t, [], rate t⟩, ?_, ?_⟩
      · rw [sat_bind]
        exact ⟨_, (hd _).2 ⟨t, ht, rfl⟩, (sat_pure _ _).2 rfl⟩
      · simp only [(hpop t).1, (hpop t).2]
        exact (sat_pure _ _).2 rfl

theorem ok_step {k k' : Conf} {e : Ev} {o : List Fp} (hk : Ok k) (he : GoodEv e) (h : Step R k e o k') : Ok k' := by
  cases e with
  | absorb x =>
    simp only [Step] at h
    obtain ⟨-, h⟩ := h
    split at h
    · subst h
      refine ⟨fun z hz => ?_, by simp only [List.length_append, List.length_singleton]; omega, by simp⟩
      rcases List.mem_append.1 hz with hz | hz
      · exact hk.1 z hz
      · rw [List.mem_singleton.1 hz]; exact he
    · obtain ⟨t, -, rfl⟩ := h
      exact ⟨fun z hz => absurd hz List.not_mem_nil, by simp, by simp⟩
  | squeeze =>
    simp only [Step] at h
    split at h
    · obtain ⟨-, rfl⟩ := h
      exact ⟨fun z hz => absurd hz List.not_mem_nil, by simp, by have := hk.2.2; simp only; omega⟩
    · obtain ⟨t, -, -, rfl⟩ := h
      exact ⟨fun z hz => absurd hz List.not_mem_nil, by simp, by simp⟩

theorem ok_run {h : List Ev} (hh : ∀ e ∈ h, GoodEv e) {k k' : Conf} {o : List Fp} (hk : Ok k) (hr : Run R h k o k') :
    Ok k' := by
  induction h generalizing k o with
  | nil => rw [hr.2]; exact hk
  | cons e h ih =>
    obtain ⟨m, a, b, h1, h2, -⟩ := hr
    exact ih (fun e he => hh e (by simp [he])) (ok_step hk (hh e (by simp)) h1) h2

theorem length_step {k k' : Conf} {e : Ev} {o : List Fp} (h : Step R k e o k') : o.length = nsq [e] := by
  cases e with
  | absorb x => simp only [Step] at h; rw [h.1]; rfl
  | squeeze =>
    simp only [Step] at h
    split at h
    · rw [h.1]; rfl
    · obtain ⟨t, -, rfl, -⟩ := h; rfl

theorem length_run {h : List Ev} {k k' : Conf} {o : List Fp} (hr : Run R h k o k') : o.length = nsq h := by
  induction h generalizing k o with
  | nil => rw [hr.1]; rfl
  | cons e h ih =>
    obtain ⟨m, a, b, h1, h2, rfl⟩ := hr
    rw [List.length_append, length_step h1, ih h2, ← nsq_append]; rfl

theorem run_append (h h' : List Ev) (k k' : Conf) (o : List Fp) :
    Run R (h ++ h') k o k' ↔ ∃ m a b, Run R h k a m ∧ Run R h' m b k' ∧ o = a ++ b := by
  induction h generalizing k o with
  | nil =>
    constructor
    · intro hr; exact ⟨k, [], o, ⟨rfl, rfl⟩, hr, rfl⟩
    · rintro ⟨m, a, b, ⟨rfl, rfl⟩, hr, rfl⟩; exact hr
  | cons e h ih =>
    constructor
    · rintro ⟨m, a, b, h1, h2, rfl⟩
      obtain ⟨m', a', b', h3, h4, rfl⟩ := (ih m b).1 h2
      exact ⟨m', a ++ a', b', ⟨m, a, a', h1, h3, rfl⟩, h4, by rw [List.append_assoc]⟩
    · rintro ⟨m', _, b', ⟨m, a, a', h1, h3, rfl⟩, h4, rfl⟩
      exact ⟨m, a, a' ++ b', h1, (ih m _).2 ⟨m', a', b', h3, h4, rfl⟩, by rw [List.append_assoc]⟩

theorem run_one (e : Ev) (k k' : Conf) (o : List Fp) : Run R [e] k o k' ↔ Step R k e o k' := by
  constructor
  · rintro ⟨m, a, b, h1, ⟨rfl, rfl⟩, rfl⟩; rw [List.append_nil]; exact h1
  · intro h; exact ⟨k', o, [], h, ⟨rfl, rfl⟩, by rw [List.append_nil]⟩

/-- The method `m` performs the events `h` and returns `f` of the elements read. -/
def TracksR (R : St → St → Prop) (m : ChipM α) (h : List Ev) (f : List Fp → α) : Prop :=
  (∀ e ∈ h, GoodEv e) ∧ ∀ k, Ok k → ∀ y, Sat (m (chipOf k)) y ↔ ∃ o k', Run R h k o k' ∧ y = (f o, chipOf k')

theorem TracksR.pure (a : α) : TracksR R (pure a) [] fun _ => a :=
  ⟨fun _ he => absurd he List.not_mem_nil, fun k _ y => by
    rw [show (Pure.pure a : ChipM α) (chipOf k) = (Pure.pure (a, chipOf k) : Circ _) from rfl, sat_pure]
    constructor
    · rintro rfl; exact ⟨[], k, ⟨rfl, rfl⟩, rfl⟩
    · rintro ⟨o, k', ⟨rfl, rfl⟩, rfl⟩; rfl⟩

theorem TracksR.bind {m : ChipM α} {k : α → ChipM β} {h h' : List Ev} {f : List Fp → α}
    {g : List Fp → List Fp → β} (hm : TracksR R m h f)
    (hk : ∀ o, o.length = nsq h → TracksR R (k (f o)) h' (g o)) :
    TracksR R (m >>= k) (h ++ h') fun o => g (o.take (nsq h)) (o.drop (nsq h)) := by
  constructor
  · intro e he
    rcases List.mem_append.1 he with he | he
    · exact hm.1 e he
    · exact (hk (List.replicate (nsq h) 0) (by simp)).1 e he
  · intro s hs y
    have e : (m >>= k) (chipOf s) = m (chipOf s) >>= fun r => k r.1 r.2 := rfl
    rw [e, sat_bind]
    constructor
    · rintro ⟨a, ha, hy⟩
      obtain ⟨o, s', hr, rfl⟩ := (hm.2 s hs a).1 ha
      have hl := length_run hr
      obtain ⟨o', s'', hr', rfl⟩ := ((hk o hl).2 s' (ok_run hm.1 hs hr) y).1 hy
      refine ⟨o ++ o', s'', (run_append _ _ _ _ _).2 ⟨s', o, o', hr, hr', rfl⟩, ?_⟩
      simp only [← hl, List.take_left', List.drop_left']
    · rintro ⟨_, s'', hr0, rfl⟩
      obtain ⟨s', o, o', hr, hr', rfl⟩ := (run_append _ _ _ _ _).1 hr0
      have hl := length_run hr
      refine ⟨_, (hm.2 s hs _).2 ⟨o, s', hr, rfl⟩, ?_⟩
      refine ((hk o hl).2 s' (ok_run hm.1 hs hr) _).2 ⟨o', s'', hr', ?_⟩
      simp only [← hl, List.take_left', List.drop_left']

theorem TracksR.congr {m : ChipM α} {h h' : List Ev} {f f' : List Fp → α} (hm : TracksR R m h f) (hh : h = h')
    (hf : ∀ o, o.length = nsq h → f o = f' o) : TracksR R m h' f' := by
  subst hh
  refine ⟨hm.1, fun k hk y => ?_⟩
  rw [hm.2 k hk y]
  constructor
  · rintro ⟨o, k', hr, rfl⟩; exact ⟨o, k', hr, by rw [hf o (length_run hr)]⟩
  · rintro ⟨o, k', hr, rfl⟩; exact ⟨o, k', hr, by rw [hf o (length_run hr)]⟩

/-- A method without result followed by another one. -/
theorem TracksR.seq {m : ChipM Unit} {k : ChipM β} {h h' : List Ev} {f : List Fp → Unit} {g : List Fp → β}
    (hm : TracksR R m h f) (hn : nsq h = 0) (hk : TracksR R k h' g) :
    TracksR R (m >>= fun _ => k) (h ++ h') g :=
  (hm.bind fun _ _ => hk).congr rfl fun o _ => by rw [hn, List.drop_zero]

theorem TracksR.forM {m : σ → ChipM Unit} {h : σ → List Ev} (l : List σ)
    (hm : ∀ x ∈ l, TracksR R (m x) (h x) fun _ => ()) : TracksR R (l.forM m) (l.flatMap h) fun _ => () := by
  induction l with
  | nil => exact TracksR.pure ()
  | cons a l ih =>
    rw [List.forM, List.flatMap_cons]
    exact (hm a (by simp)).bind (g := fun _ _ => ()) fun _ _ => ih fun x hx => hm x (by simp [hx])

theorem TracksR.mapM {m : σ → ChipM β} {h : σ → List Ev} {c : ℕ} {f : List Fp → β} (l : List σ)
    (hm : ∀ x ∈ l, TracksR R (m x) (h x) f) (hc : ∀ x ∈ l, nsq (h x) = c) :
    TracksR R (l.mapM m) (l.flatMap h)
      fun o => (List.range l.length).map fun i => f ((o.drop (c * i)).take c) := by
  induction l with
  | nil => rw [List.mapM_nil]; exact (TracksR.pure []).congr rfl fun _ _ => rfl
  | cons a l ih =>
    rw [List.mapM_cons, List.flatMap_cons]
    refine TracksR.congr ((hm a (by simp)).bind fun o _ =>
      (ih (fun x hx => hm x (by simp [hx])) fun x hx => hc x (by simp [hx])).bind fun o' _ =>
        TracksR.pure _) (by rw [List.append_nil]) ?_
    intro o ho
    have hL : nsq (l.flatMap h) = c * l.length := by
      clear ho ih hm
      induction l with
      | nil => rfl
      | cons b l ih =>
        rw [List.flatMap_cons, nsq_append, hc b (by simp), ih fun x hx => hc x (by
          rcases List.mem_cons.1 hx with h | h
          · simp [h]
          · simp [h]), List.length_cons]
        ring
    simp only [hc a (by simp), hL]
    have hT : (o.drop c).take (c * l.length) = o.drop c := by
      rw [nsq_append, nsq_append, hc a (by simp), hL] at ho
      apply List.take_of_length_le
      rw [List.length_drop, ho]
      simp [nsq]
    rw [List.length_cons, List.range_succ_eq_map, List.map_cons, List.map_map]
    refine congrArg₂ _ (by simp) (List.map_congr_left fun i hi => ?_)
    have hi' : i < l.length := List.mem_range.1 hi
    simp only [Function.comp_apply, Nat.succ_eq_add_one]
    refine congrArg f ?_
    rw [hT, List.drop_drop, mul_add, mul_one, add_comm]

/-! ## The methods -/

theorem tracksR_observeElement (h : RelPerm perm R) {x : Fr} (hx : Small x) :
    TracksR R (observeElement perm x) [.absorb x] fun _ => () :=
  ⟨fun e he => by rw [List.mem_singleton.1 he]; exact hx, fun k hk y => by
    rw [sat_observeElement h k hk x hx]
    constructor
    · rintro ⟨k', hs, rfl⟩; exact ⟨[], k', (run_one _ _ _ _).2 hs, rfl⟩
    · rintro ⟨o, k', hs, rfl⟩
      rw [run_one] at hs
      have ho : o = [] := List.eq_nil_of_length_eq_zero (length_step hs)
      subst ho
      exact ⟨k', hs, rfl⟩⟩

theorem tracksR_observeElements (h : RelPerm perm R) (l : List Fr) (hl : ∀ x ∈ l, Small x) :
    TracksR R (observeElements perm l) (absorbs l) fun _ => () := by
  have := TracksR.forM (R := R) l fun x hx => tracksR_observeElement h (hl x hx)
  refine this.congr ?_ fun _ _ => rfl
  induction l with
  | nil => rfl
  | cons x l ih =>
    rw [List.flatMap_cons, absorbs, List.map_cons, List.singleton_append]
    refine congrArg _ (ih (fun y hy => hl y (by simp [hy])) ?_)
    exact TracksR.forM (R := R) l fun x hx => tracksR_observeElement h (hl x (by simp [hx]))

theorem tracksR_observeBN254Hash (h : RelPerm perm R) (x : Fr) :
    TracksR R (observeBN254Hash perm x) (absorbs (limbs x)) fun _ => () := by
  have ht := tracksR_observeElements h (limbs x) (small_limbs x)
  refine ⟨ht.1, fun k hk y => ?_⟩
  have e : observeBN254Hash perm x (chipOf k) =
      PoseidonBN.toVec x >>= fun v => observeElements perm v (chipOf k) := by
    have : observeBN254Hash perm x (chipOf k) =
      (PoseidonBN.toVec x >>= fun v => pure (v, chipOf k)) >>= fun r => observeElements perm r.1 r.2 := rfl
    rw [this, bind_assoc]; simp only [pure_bind]
  rw [e, ← ht.2 k hk y, sat_bind]
  have hv := sat_of_den_pure (PoseidonBN.den_toVec x)
  constructor
  · rintro ⟨v, h1, h2⟩; obtain rfl := (hv v).1 h1; exact h2
  · intro h2; exact ⟨_, (hv _).2 rfl, h2⟩

theorem tracksR_observeCap (h : RelPerm perm R) (cap : List Fr) :
    TracksR R (observeCap perm cap) (absorbs (capElems cap)) fun _ => () :=
  (TracksR.forM cap fun x _ => tracksR_observeBN254Hash h x).congr (absorbs_flatMap _ _) fun _ _ => rfl

theorem tracksR_observeExtensionElements (h : RelPerm perm R) (l : List QEV) (hl : ∀ e ∈ l, SmallQ e) :
    TracksR R (observeExtensionElements perm l) (absorbs (coordsV l)) fun _ => () :=
  (TracksR.forM l fun x hx => tracksR_observeElements h [x.1, x.2] (by
    intro y hy
    rcases List.mem_cons.1 hy with rfl | hy
    · exact (hl x hx).1
    · rw [List.mem_singleton.1 hy]; exact (hl x hx).2)).congr (absorbs_flatMap _ _) fun _ _ => rfl

theorem tracksR_observeOpenings (h : RelPerm perm R) (l : List (List QEV)) (hl : ∀ b ∈ l, ∀ e ∈ b, SmallQ e) :
    TracksR R (observeOpenings perm l) (absorbs (l.flatMap coordsV)) fun _ => () :=
  (TracksR.forM l fun x hx => tracksR_observeExtensionElements h x (hl x hx)).congr (absorbs_flatMap _ _)
    fun _ _ => rfl

theorem tracksR_getChallenge (h : RelPerm perm R) :
    TracksR R (getChallenge perm) (squeezes 1) fun o => emb (o.getD 0 0) :=
  ⟨fun e he => by rw [squeezes, List.replicate_one, List.mem_singleton] at he; rw [he]; trivial,
    fun k hk y => by
      rw [sat_getChallenge h k hk, squeezes, List.replicate_one]
      simp only [run_one]⟩

theorem tracksR_getNChallenges (h : RelPerm perm R) (n : ℕ) :
    TracksR R (getNChallenges perm n) (squeezes n) fun o => o.map emb := by
  refine (TracksR.mapM (c := 1) (List.range n) (fun _ _ => tracksR_getChallenge h) fun _ _ => rfl).congr ?_ ?_
  · rw [squeezes, squeezes, List.replicate_one]
    induction n with
    | zero => rfl
    | succ n ih => rw [List.range_succ, List.flatMap_append, ih, List.replicate_succ']; rfl
  · intro o ho
    have hn : o.length = n := by
      rw [ho]
      have : ((List.range n).flatMap fun _ => squeezes 1) = squeezes n := by
        rw [squeezes, squeezes, List.replicate_one]
        clear ho
        induction n with
        | zero => rfl
        | succ n ih => rw [List.range_succ, List.flatMap_append, ih, List.replicate_succ']; rfl
      rw [this, nsq_squeezes]
    simp only [List.length_range]
    apply List.ext_getElem
    · simp [hn]
    · intro i h1 h2
      have hi : i < o.length := by simpa using h2
      simp [hi]

theorem tracksR_getExtensionChallenge (h : RelPerm perm R) :
    TracksR R (getExtensionChallenge perm) (squeezes 2) fun o => embQ (Spec.extAt o 0) := by
  refine ((tracksR_getNChallenges h 2).bind (h' := []) (g := fun o _ => embQ (Spec.extAt o 0)) ?_).congr
    (List.append_nil _) ?_
  · intro o ho
    rw [nsq_squeezes] at ho
    match o, ho with
    | [a, b], _ => exact (TracksR.pure _).congr rfl fun _ _ => rfl
  · intro o ho
    rw [List.append_nil] at ho
    rw [List.take_of_length_le (by omega)]


theorem tracksR_capBeta (h : RelPerm perm R) (cap : List Fr) :
    TracksR R (capBeta perm cap) (absorbs (capElems cap) ++ squeezes 2) fun o => embQ (extAt o 0) :=
  (tracksR_observeCap h cap).seq (nsq_absorbs _) (tracksR_getExtensionChallenge h)

theorem tracksR_getFriChallenges (h : RelPerm perm R) (caps : List (List Fr)) (finalPoly : List QE) (pow : Fp)
    (cfg : FriConfig) :
    TracksR R (getFriChallenges perm caps (finalPoly.map embQ) (emb pow) cfg)
      (friEvents caps finalPoly pow cfg.numQueryRounds) fun o => (friOf caps.length o).enc := by
  have hcoord := tracksR_observeExtensionElements h (finalPoly.map embQ) (by
    intro e he; obtain ⟨a, -, rfl⟩ := List.mem_map.1 he; exact smallQ_embQ a)
  rw [coordsV_emb] at hcoord
  have hcaps := TracksR.mapM (c := 2) caps (fun cap _ => tracksR_capBeta h cap) fun cap _ => by
    rw [nsq_append, nsq_absorbs, nsq_squeezes]
  refine TracksR.congr ((tracksR_getExtensionChallenge h).bind fun o1 _ => hcaps.bind fun o2 _ =>
    hcoord.seq (nsq_absorbs _) <| (tracksR_observeElement h (small_emb pow)).seq rfl <|
    (tracksR_getChallenge h).bind fun o3 _ => (tracksR_getNChallenges h cfg.numQueryRounds).bind fun o4 _ =>
      TracksR.pure _) ?_ ?_
  · rw [List.append_nil]; rfl
  · intro o ho
    rw [List.append_nil] at ho
    have ho' : o.length = 2 + 2 * caps.length + 1 + cfg.numQueryRounds :=
      ho.trans (nsq_friEvents caps finalPoly pow cfg.numQueryRounds)
    simp only [nsq_squeezes, nsq_caps]
    unfold friOf FriChallenges.enc
    simp only [FriChallenges.mk.injEq]
    refine ⟨?_, ?_, ?_, ?_⟩
    · rw [extAt_take_lt _ _ _ (by norm_num)]
    · rw [List.map_map]
      refine List.map_congr_left fun i hi => ?_
      have hi' : i < caps.length := List.mem_range.1 hi
      simp only [Function.comp_apply]
      rw [extAt_take, extAt_take_lt _ _ _ (by omega), extAt_drop]
    · refine congrArg emb ?_
      simp [List.getD_eq_getElem?_getD]
    · refine congrArg (List.map emb) ?_
      rw [List.drop_drop, List.drop_drop, List.take_of_length_le]
      · congr 1
      · rw [List.length_drop]; omega

theorem tracksR_openings (h : RelPerm perm R) (o : OpeningSet QE) :
    TracksR R (observeOpenings perm (Fri.toOpenings o.enc)) (absorbs (coords (o.constants ++ o.plonkSigmas ++ o.wires ++
      o.plonkZs ++ o.partialProducts ++ o.quotientPolys ++ o.plonkZsNext))) fun _ => () := by
  rw [← openings_coords]
  refine tracksR_observeOpenings h _ fun b hb e he => ?_
  rw [Fri.toOpenings_enc] at hb
  obtain ⟨b', -, rfl⟩ := List.mem_map.1 hb
  obtain ⟨a, -, rfl⟩ := List.mem_map.1 he
  exact smallQ_embQ a

theorem tracksR_challengesM (h : RelPerm perm R) (c : CommonCircuitData) (proof : Proof Fp QE) (pih : Fin 4 → Fp)
    (vd : VerifierOnlyCircuitData) :
    TracksR R (Verifier.challengesM perm c proof.enc (fun i => emb (pih i)) vd)
      (Spec.transcript c.config.numChallenges c.config.friConfig.numQueryRounds vd.circuitDigest pih proof)
      fun o => (Spec.challengesOf c.config.numChallenges proof.openingProof.commitCaps.length o).enc := by
  set n := c.config.numChallenges with hn
  have hpih : TracksR R (observeHash perm fun i => emb (pih i)) (absorbs ((List.ofFn pih).map emb)) fun _ => () := by
    have e : List.ofFn (fun i => emb (pih i)) = (List.ofFn pih).map emb := by rw [List.map_ofFn]; rfl
    rw [observeHash, e]
    refine tracksR_observeElements h _ fun x hx => ?_
    obtain ⟨a, -, rfl⟩ := List.mem_map.1 hx
    exact small_emb a
  have hfri := tracksR_getFriChallenges h proof.openingProof.commitCaps proof.openingProof.finalPoly
    proof.openingProof.powWitness c.config.friConfig
  refine TracksR.congr ((tracksR_observeBN254Hash h _).seq (nsq_absorbs _) <| hpih.seq (nsq_absorbs _) <|
    (tracksR_observeCap h _).seq (nsq_absorbs _) <| (tracksR_getNChallenges h n).bind fun o1 _ =>
    (tracksR_getNChallenges h n).bind fun o2 _ => (tracksR_observeCap h _).seq (nsq_absorbs _) <|
    (tracksR_getNChallenges h n).bind fun o3 _ => (tracksR_observeCap h _).seq (nsq_absorbs _) <|
    (tracksR_getExtensionChallenge h).bind fun o4 _ => (tracksR_openings h _).seq (nsq_absorbs _) <|
    hfri.bind fun o5 _ => TracksR.pure _) ?_ ?_
  · rw [Spec.transcript]
    simp only [friEvents, absorbs_append, List.append_assoc, List.append_nil]
    rfl
  · intro o ho
    simp only [nsq_append, nsq_absorbs, nsq_squeezes, nsq_friEvents, List.append_nil, zero_add] at ho ⊢
    simp only [List.drop_drop]
    rw [List.take_of_length_le (i := 2 + 2 * proof.openingProof.commitCaps.length + 1 +
      c.config.friConfig.numQueryRounds) (by rw [List.length_drop]; omega)]
    unfold Spec.challengesOf ProofChallenges.enc
    simp only [ProofChallenges.mk.injEq]
    refine ⟨trivial, trivial, ?_, ?_, ?_⟩
    · rw [two_mul]
    · rw [extAt_take]
      congr 2; ring
    · refine congrArg FriChallenges.enc ?_
      unfold friOf
      simp only [FriChallenges.mk.injEq, extAt_drop]
      refine ⟨?_, ?_, ?_, ?_⟩
      · congr 1; ring
      · refine List.map_congr_left fun i _ => ?_
        congr 1; ring
      · rw [List.getD_eq_getElem?_getD, List.getD_eq_getElem?_getD, List.getElem?_drop]
        congr 2; ring
      · rw [List.drop_drop]; congr 1; ring

end Verif.Freedom
