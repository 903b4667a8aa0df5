import Verif.Proofs.ChallengerRuns
import Verif.Spec.ChallengerHistory

/-!
# Histories of calls refine the sponge; injectivity of the transcript encoding
-/

set_option autoImplicit false

namespace Verif

open Circ PoseidonGL Spec Challenger

theorem flatMap_coordsV (l : List (List QEV)) : l.flatMap coordsV = l.flatten.flatMap fun e => [e.1, e.2] := by
  induction l with
  | nil => rfl
  | cons a l ih => rw [List.flatMap_cons, ih, List.flatten_cons, List.flatMap_append]; rfl

theorem tracks_op {perm : State → Circ State} {P : (Fin 12 → Fp) → Fin 12 → Fp} (h : ExactPerm perm P) (op : Op)
    (hop : ∀ x ∈ op.operands, Small x) : Tracks P (op.exec perm) op.events fun o => o.map emb := by
  have obs : ∀ {m : ChipM Unit} {l : List Fr}, Tracks P m (absorbs l) (fun _ => ()) →
      Tracks P (do m; pure ([] : List Fr)) (absorbs l ++ squeezes 0) fun o => o.map emb := by
    intro m l hm
    refine (hm.seq (nsq_absorbs l) (Tracks.pure [])).congr rfl fun o ho => ?_
    rw [nsq_append, nsq_absorbs] at ho
    rw [List.eq_nil_of_length_eq_zero ho]
    rfl
  cases op with
  | observeElement x => exact obs (tracks_observeElement h (hop x (by simp [Op.operands])))
  | observeElements l => exact obs (tracks_observeElements h l hop)
  | observeHash f =>
    have e : List.ofFn f = [f 0, f 1, f 2, f 3] := by simp [List.ofFn_succ]
    refine obs (l := [f 0, f 1, f 2, f 3]) ?_
    rw [Challenger.observeHash, e]
    exact tracks_observeElements h _ hop
  | observeBN254Hash x => exact obs (tracks_observeBN254Hash h x)
  | observeCap cap => exact obs (tracks_observeCap h cap)
  | observeExtensionElement e => exact obs (tracks_observeElements h [e.1, e.2] hop)
  | observeExtensionElements l =>
    exact obs (tracks_observeExtensionElements h l fun e he =>
      ⟨hop _ (List.mem_flatMap.2 ⟨e, he, by simp⟩), hop _ (List.mem_flatMap.2 ⟨e, he, by simp⟩)⟩)
  | observeOpenings l =>
    have := tracks_observeOpenings h l fun b hb e he =>
      ⟨hop _ (List.mem_flatMap.2 ⟨e, List.mem_flatten.2 ⟨b, hb, he⟩, by simp⟩),
        hop _ (List.mem_flatMap.2 ⟨e, List.mem_flatten.2 ⟨b, hb, he⟩, by simp⟩)⟩
    rw [flatMap_coordsV] at this
    exact obs this
  | getChallenge =>
    refine ((tracks_getChallenge h).bind (h' := []) (g := fun o _ => [emb (o.getD 0 0)]) fun o _ =>
      Tracks.pure _).congr (List.append_nil _) fun o ho => ?_
    match o, ho with
    | [a], _ => rfl
  | getNChallenges n => exact tracks_getNChallenges h n
  | getExtensionChallenge =>
    refine ((tracks_getExtensionChallenge h).bind (h' := [])
      (g := fun o _ => [(embQ (extAt o 0)).1, (embQ (extAt o 0)).2]) fun o _ =>
      Tracks.pure _).congr (List.append_nil _) fun o ho => ?_
    match o, ho with
    | [a, b], _ => rfl
  | getHash =>
    have g := tracks_getChallenge h
    refine Tracks.congr (Tracks.bind (h := squeezes 1 ++ (squeezes 1 ++ (squeezes 1 ++ (squeezes 1 ++ []))))
      (g.bind fun a _ => g.bind fun b _ => g.bind fun c _ => g.bind fun d _ => Tracks.pure _)
      (h' := []) (g := fun o _ => o.map emb) fun o ho => ?_) rfl fun o ho => ?_
    · match o, ho with
      | [a, b, c, d], _ => exact (Tracks.pure _).congr rfl fun _ _ => rfl
    · match o, ho with
      | [a, b, c, d], _ => rfl

theorem tracks_execAll {perm : State → Circ State} {P : (Fin 12 → Fp) → Fin 12 → Fp} (h : ExactPerm perm P)
    (ops : List Op) (hops : ∀ op ∈ ops, ∀ x ∈ op.operands, Small x) :
    Tracks P (execAll perm ops) (ops.flatMap Op.events) fun o => o.map emb := by
  induction ops with
  | nil => exact (Tracks.pure []).congr rfl fun o ho => by rw [List.eq_nil_of_length_eq_zero ho]; rfl
  | cons op ops ih =>
    rw [execAll, List.flatMap_cons]
    refine ((tracks_op h op (hops op (by simp))).bind fun a _ =>
      (ih fun o ho => hops o (by simp [ho])).bind (h' := []) (g := fun b _ => a.map emb ++ b.map emb) fun b _ =>
        Tracks.pure _).congr (by rw [List.append_nil]) fun o ho => ?_
    rw [nsq_append, nsq_append] at ho
    have e : ((o.drop (nsq op.events)).take (nsq (ops.flatMap Op.events))) = o.drop (nsq op.events) :=
      List.take_of_length_le (by rw [List.length_drop, ho]; simp [nsq])
    simp only [e]
    rw [← List.map_append, List.take_append_drop]

theorem ref_op {perm perm' : State → Circ State} (h : ∀ s, Ref (perm s) (perm' s)) (op : Op) :
    RefM (op.exec perm) (op.exec perm') := by
  cases op with
  | observeElement x => exact (ref_observeElement h x).bind fun _ => RefM.refl _
  | observeElements l => exact (ref_observeElements h l).bind fun _ => RefM.refl _
  | observeHash f => exact (ref_observeElements h _).bind fun _ => RefM.refl _
  | observeBN254Hash x => exact (ref_observeBN254Hash h x).bind fun _ => RefM.refl _
  | observeCap cap => exact (ref_observeCap h cap).bind fun _ => RefM.refl _
  | observeExtensionElement e => exact (ref_observeElements h _).bind fun _ => RefM.refl _
  | observeExtensionElements l => exact (ref_observeExtensionElements h l).bind fun _ => RefM.refl _
  | observeOpenings l => exact (ref_observeOpenings h l).bind fun _ => RefM.refl _
  | getChallenge => exact (ref_getChallenge h).bind fun _ => RefM.refl _
  | getNChallenges n => exact ref_getNChallenges h n
  | getExtensionChallenge => exact (ref_getExtensionChallenge h).bind fun _ => RefM.refl _
  | getHash => exact (ref_getHash h).bind fun _ => RefM.refl _

theorem ref_execAll {perm perm' : State → Circ State} (h : ∀ s, Ref (perm s) (perm' s)) (ops : List Op) :
    RefM (execAll perm ops) (execAll perm' ops) := by
  induction ops with
  | nil => exact RefM.refl _
  | cons op ops ih => exact (ref_op h op).bind fun _ => ih.bind fun _ => RefM.refl _

theorem safe_op {perm : State → Circ State} (h : ∀ s, NoPanic (perm s)) (op : Op) : SafeM (op.exec perm) := by
  cases op with
  | observeElement x => exact SafeM.bind (safe_observeElement h x) fun _ => SafeM.pure _
  | observeElements l => exact SafeM.bind (safe_observeElements h l) fun _ => SafeM.pure _
  | observeHash f => exact SafeM.bind (safe_observeElements h _) fun _ => SafeM.pure _
  | observeBN254Hash x => exact SafeM.bind (safe_observeBN254Hash h x) fun _ => SafeM.pure _
  | observeCap cap => exact SafeM.bind (safe_observeCap h cap) fun _ => SafeM.pure _
  | observeExtensionElement e => exact SafeM.bind (safe_observeElements h _) fun _ => SafeM.pure _
  | observeExtensionElements l => exact SafeM.bind (safe_observeExtensionElements h l) fun _ => SafeM.pure _
  | observeOpenings l => exact SafeM.bind (safe_observeOpenings h l) fun _ => SafeM.pure _
  | getChallenge => exact SafeM.bind (safe_getChallenge h) fun _ => SafeM.pure _
  | getNChallenges n => exact safe_getN h n
  | getExtensionChallenge => exact SafeM.bind (safe_getExtensionChallenge h) fun _ => SafeM.pure _
  | getHash => exact SafeM.bind (safe_getHash h) fun _ => SafeM.pure _

theorem safe_execAll {perm : State → Circ State} (h : ∀ s, NoPanic (perm s)) (ops : List Op) :
    SafeM (execAll perm ops) := by
  induction ops with
  | nil => exact SafeM.pure _
  | cons op ops ih => exact (safe_op h op).bind fun _ => ih.bind fun _ => SafeM.pure _

theorem window {P : (Fin 12 → Fp) → Fin 12 → Fp} {T t : List Ev} {k N : ℕ} (hT : t ++ squeezes k <+: T)
    (hN : nsq t = N) : ((Sponge.init.outputs P T).drop N).take k = (Sponge.init.after P t).outputs P (squeezes k) := by
  obtain ⟨rest, rfl⟩ := hT
  subst hN
  have h1 := length_outputs (P := P) Sponge.init t
  have h2 := length_outputs (P := P) (Sponge.init.after P t) (squeezes k)
  rw [nsq_squeezes] at h2
  rw [List.append_assoc, outputs_append, outputs_append, ← h1, List.drop_left]
  generalize (Sponge.init.after P t).outputs P (squeezes k) = l at h2 ⊢
  subst h2
  exact List.take_left

theorem extAt_window {o l : List Fp} {i : ℕ} (h : (o.drop i).take 2 = l) (hl : l.length = 2) :
    [(Spec.extAt o i).re, (Spec.extAt o i).im] = l := by
  rw [← extAt_take, h]
  match l, hl with
  | [a, b], _ => rfl

theorem limbs_inj {a b : Fr} (h : limbs a = limbs b) : a = b := by
  have hr : (2 : ℕ) ^ 56 < r := by norm_num [r]
  have key : ∀ m n : ℕ, ((m % 2 ^ 56 : ℕ) : Fr) = ((n % 2 ^ 56 : ℕ) : Fr) → m % 2 ^ 56 = n % 2 ^ 56 := by
    intro m n e
    have := congrArg ZMod.val e
    rw [ZMod.val_natCast, ZMod.val_natCast, Nat.mod_eq_of_lt ((Nat.mod_lt _ (by norm_num)).trans hr),
      Nat.mod_eq_of_lt ((Nat.mod_lt _ (by norm_num)).trans hr)] at this
    exact this
  simp only [limbs, List.map_cons, List.map_nil, List.cons.injEq, and_true] at h
  obtain ⟨h0, h1, h2, h3, h4⟩ := h
  have e0 := key _ _ h0
  have e1 := key _ _ h1
  have e2 := key _ _ h2
  have e3 := key _ _ h3
  have e4 := key _ _ h4
  have ha := ZMod.val_lt a
  have hb := ZMod.val_lt b
  have hr' : r < 2 ^ 255 := by norm_num [r]
  apply ZMod.val_injective r
  generalize a.val = x at *
  generalize b.val = y at *
  have hx : x < 2 ^ 255 := ha.trans hr'
  have hy : y < 2 ^ 255 := hb.trans hr'
  clear key h0 h1 h2 h3 h4 ha hb hr hr'
  norm_num at e0 e1 e2 e3 e4 hx hy
  omega

theorem flatMap_inj {α β : Type} {f : α → List β} {k : ℕ} (hk : ∀ a, (f a).length = k + 1)
    (hf : ∀ a b, f a = f b → a = b) : ∀ {l l' : List α}, l.flatMap f = l'.flatMap f → l = l'
  | [], [], _ => rfl
  | [], b :: l', h => by
    have := congrArg List.length h
    rw [List.flatMap_cons, List.length_append, hk, List.flatMap_nil, List.length_nil] at this
    omega
  | a :: l, [], h => by
    have := congrArg List.length h
    rw [List.flatMap_cons, List.length_append, hk, List.flatMap_nil, List.length_nil] at this
    omega
  | a :: l, b :: l', h => by
    rw [List.flatMap_cons, List.flatMap_cons] at h
    obtain ⟨h1, h2⟩ := List.append_inj h (by rw [hk, hk])
    rw [hf _ _ h1, flatMap_inj hk hf h2]

theorem capElems_inj {a b : List Fr} (h : capElems a = capElems b) : a = b :=
  flatMap_inj (k := 4) (fun _ => rfl) (fun _ _ => limbs_inj) h

theorem coords_inj {a b : List QE} (h : coords a = coords b) : a = b := by
  refine flatMap_inj (k := 1) (fun _ => rfl) (fun x y e => ?_) h
  simp only [List.cons.injEq, and_true, emb_inj] at e
  exact QuadraticAlgebra.ext e.1 e.2

theorem absorbs_inj {a b : List Fr} (h : absorbs a = absorbs b) : a = b :=
  (List.map_injective_iff.2 fun _ _ e => by cases e; rfl) h

theorem length_absorbs (l : List Fr) : (absorbs l).length = l.length := List.length_map _

theorem length_squeezes (n : ℕ) : (squeezes n).length = n := List.length_replicate

theorem length_capElems (l : List Fr) : (capElems l).length = 5 * l.length := by
  induction l with
  | nil => rfl
  | cons a l ih => rw [capElems, List.flatMap_cons, List.length_append, ← capElems, ih, List.length_cons]
                   simp [limbs]; ring

theorem length_coords (l : List QE) : (coords l).length = 2 * l.length := by
  induction l with
  | nil => rfl
  | cons a l ih => rw [coords, List.flatMap_cons, List.length_append, ← coords, ih, List.length_cons]
                   simp; ring

theorem caps_inj {a b : List (List Fr)} (hl : a.map List.length = b.map List.length)
    (h : (a.flatMap fun cap => absorbs (capElems cap) ++ squeezes 2) =
      b.flatMap fun cap => absorbs (capElems cap) ++ squeezes 2) : a = b := by
  induction a generalizing b with
  | nil => cases b with
    | nil => rfl
    | cons => simp at hl
  | cons x a ih => cases b with
    | nil => simp at hl
    | cons y b =>
      rw [List.map_cons, List.map_cons, List.cons.injEq] at hl
      rw [List.flatMap_cons, List.flatMap_cons] at h
      obtain ⟨h1, h2⟩ := List.append_inj h (by
        simp only [List.length_append, length_absorbs, length_squeezes, length_capElems, hl.1])
      rw [ih hl.2 h2, capElems_inj (absorbs_inj (List.append_cancel_right h1))]

theorem length_caps (a : List (List Fr)) :
    (a.flatMap fun cap => absorbs (capElems cap) ++ squeezes 2).length =
      ((a.map List.length).map fun k => 5 * k + 2).sum := by
  induction a with
  | nil => rfl
  | cons x a ih =>
    simp only [List.flatMap_cons, List.length_append, length_absorbs, length_squeezes, length_capElems, ih,
      List.map_cons, List.sum_cons]

end Verif
