import Verif.Proofs.Challenges

/-!
# The code's own challenger: honest runs, absence of panics, wrong runs
-/

set_option autoImplicit false

namespace Verif.Challenger

open Circ PoseidonGL
open Spec (Sponge Ev residue absorbs squeezes capElems coords limbs extAt)

variable {perm perm' : State → Circ State} {P : (Fin 12 → Fp) → Fin 12 → Fp} {α β σ : Type}

/-! ## Refinement -/

/-- Method-wise refinement. -/
def RefM (m m' : ChipM α) : Prop := ∀ c, Ref (m c) (m' c)

theorem RefM.refl (m : ChipM α) : RefM m m := fun _ => Ref.refl _

theorem RefM.bind {m m' : ChipM α} {k k' : α → ChipM β} (h : RefM m m') (hk : ∀ a, RefM (k a) (k' a)) :
    RefM (m >>= k) (m' >>= k') := fun c => Ref.bind (h c) fun r => hk r.1 r.2

theorem RefM.forM {m m' : σ → ChipM Unit} (h : ∀ x, RefM (m x) (m' x)) (l : List σ) :
    RefM (l.forM m) (l.forM m') := by
  induction l with
  | nil => exact RefM.refl _
  | cons a l ih => rw [List.forM, List.forM]; exact RefM.bind (h a) fun _ => ih

theorem RefM.mapM {m m' : σ → ChipM β} (h : ∀ x, RefM (m x) (m' x)) (l : List σ) :
    RefM (l.mapM m) (l.mapM m') := by
  induction l with
  | nil => exact RefM.refl _
  | cons a l ih =>
    rw [List.mapM_cons, List.mapM_cons]
    exact RefM.bind (h a) fun _ => RefM.bind ih fun _ => RefM.refl _

section
variable (h : ∀ s, Ref (perm s) (perm' s))
include h

theorem ref_duplexing : RefM (duplexing perm) (duplexing perm') := fun c => by
  unfold duplexing
  split
  · exact Ref.refl _
  · exact Ref.bind (Ref.refl _) fun _ => Ref.bind (h _) fun _ => Ref.refl _

theorem ref_observeElement (x : Fr) : RefM (observeElement perm x) (observeElement perm' x) := fun c => by
  unfold observeElement
  simp only
  split
  · exact ref_duplexing h _
  · exact Ref.refl _

theorem ref_observeElements (l : List Fr) : RefM (observeElements perm l) (observeElements perm' l) :=
  RefM.forM (ref_observeElement h) l

theorem ref_observeBN254Hash (x : Fr) : RefM (observeBN254Hash perm x) (observeBN254Hash perm' x) :=
  RefM.bind (RefM.refl _) fun _ => ref_observeElements h _

theorem ref_observeCap (l : List Fr) : RefM (observeCap perm l) (observeCap perm' l) :=
  RefM.forM (ref_observeBN254Hash h) l

theorem ref_observeExtensionElements (l : List QEV) :
    RefM (observeExtensionElements perm l) (observeExtensionElements perm' l) :=
  RefM.forM (fun _ => ref_observeElements h _) l

theorem ref_observeOpenings (l : List (List QEV)) : RefM (observeOpenings perm l) (observeOpenings perm' l) :=
  RefM.forM (ref_observeExtensionElements h) l

theorem ref_getChallenge : RefM (getChallenge perm) (getChallenge perm') := fun c => by
  unfold getChallenge
  refine Ref.bind ?_ fun _ => Ref.refl _
  split
  · exact Ref.bind (ref_duplexing h _) fun _ => Ref.refl _
  · exact Ref.refl _

theorem ref_getNChallenges (n : ℕ) : RefM (getNChallenges perm n) (getNChallenges perm' n) :=
  RefM.mapM (fun _ => ref_getChallenge h) _

theorem ref_getExtensionChallenge : RefM (getExtensionChallenge perm) (getExtensionChallenge perm') :=
  RefM.bind (ref_getNChallenges h 2) fun _ => RefM.refl _

theorem ref_getHash : RefM (getHash perm) (getHash perm') :=
  RefM.bind (ref_getChallenge h) fun _ => RefM.bind (ref_getChallenge h) fun _ => RefM.bind (ref_getChallenge h) fun _ =>
    RefM.bind (ref_getChallenge h) fun _ => RefM.refl _

theorem ref_capBeta (l : List Fr) : RefM (capBeta perm l) (capBeta perm' l) :=
  RefM.bind (ref_observeCap h l) fun _ => ref_getExtensionChallenge h

theorem ref_getFriChallenges (caps : List (List Fr)) (fp : List QEV) (pow : Fr) (cfg : FriConfig) :
    RefM (getFriChallenges perm caps fp pow cfg) (getFriChallenges perm' caps fp pow cfg) :=
  RefM.bind (ref_getExtensionChallenge h) fun _ => RefM.bind (RefM.mapM (ref_capBeta h) _) fun _ =>
    RefM.bind (ref_observeExtensionElements h _) fun _ => RefM.bind (ref_observeElement h _) fun _ =>
    RefM.bind (ref_getChallenge h) fun _ => RefM.bind (ref_getNChallenges h _) fun _ => RefM.refl _

theorem ref_challengesM (c : CommonCircuitData) (proof : Proof Fr QEV) (pih : Fin 4 → Fr)
    (vd : VerifierOnlyCircuitData) :
    RefM (Verifier.challengesM perm c proof pih vd) (Verifier.challengesM perm' c proof pih vd) :=
  RefM.bind (ref_observeBN254Hash h _) fun _ => RefM.bind (ref_observeElements h _) fun _ =>
    RefM.bind (ref_observeCap h _) fun _ => RefM.bind (ref_getNChallenges h _) fun _ =>
    RefM.bind (ref_getNChallenges h _) fun _ => RefM.bind (ref_observeCap h _) fun _ =>
    RefM.bind (ref_getNChallenges h _) fun _ => RefM.bind (ref_observeCap h _) fun _ =>
    RefM.bind (ref_getExtensionChallenge h) fun _ => RefM.bind (ref_observeOpenings h _) fun _ =>
    RefM.bind (ref_getFriChallenges h _ _ _ _) fun _ => RefM.refl _

theorem ref_getChallenges (c : CommonCircuitData) (proof : Proof Fr QEV) (pih : Fin 4 → Fr)
    (vd : VerifierOnlyCircuitData) :
    Ref (Verifier.getChallenges perm c proof pih vd) (Verifier.getChallenges perm' c proof pih vd) :=
  Ref.bind (ref_challengesM h c proof pih vd _) fun _ => Ref.refl _

end

/-! ## No panics, bounded buffers -/

/-- Bounds on the buffers between two calls. -/
def Bounded (c : Chip) : Prop := c.inputBuffer.length < 8 ∧ c.outputBuffer.length ≤ 8

/-- A method that neither panics nor breaks the bounds. -/
def SafeM (m : ChipM α) : Prop := ∀ c, Bounded c → Safe (m c) fun r => Bounded r.2

theorem SafeM.pure (a : α) : SafeM (pure a) := fun c h => (safe_pure (a, c) _).2 h

theorem SafeM.bind {m : ChipM α} {k : α → ChipM β} (h : SafeM m) (hk : ∀ a, SafeM (k a)) : SafeM (m >>= k) :=
  fun c hc => by
    have e : (m >>= k) c = m c >>= fun r => k r.1 r.2 := rfl
    rw [e, safe_bind]
    exact (h c hc).mono fun r hr => hk r.1 r.2 hr

theorem SafeM.forM {m : σ → ChipM Unit} (h : ∀ x, SafeM (m x)) (l : List σ) : SafeM (l.forM m) := by
  induction l with
  | nil => exact SafeM.pure _
  | cons a l ih => rw [List.forM]; exact SafeM.bind (h a) fun _ => ih

theorem SafeM.mapM {m : σ → ChipM β} (h : ∀ x, SafeM (m x)) (l : List σ) : SafeM (l.mapM m) := by
  induction l with
  | nil => exact SafeM.pure _
  | cons a l ih =>
    rw [List.mapM_cons]
    exact SafeM.bind (h a) fun _ => SafeM.bind ih fun _ => SafeM.pure _

section
variable (h : ∀ s, NoPanic (perm s))
include h

theorem safe_duplexing (c : Chip) (hc : c.inputBuffer.length ≤ 8) :
    Safe (duplexing perm c) fun r => r.2.inputBuffer = [] ∧ r.2.outputBuffer.length = 8 := by
  unfold duplexing
  rw [if_neg (by rw [SPONGE_RATE]; omega)]
  refine NoPanic.safe_bind' (NoPanic.mapM _ fun _ _ => NoPanic.reduce _) fun _ =>
    NoPanic.safe_bind' (h _) fun st => ?_
  rw [safe_pure]
  exact ⟨rfl, by simp [SPONGE_RATE]⟩

theorem safe_observeElement (x : Fr) : SafeM (observeElement perm x) := fun c hc => by
  unfold observeElement
  simp only
  split
  · next h8 =>
    refine (safe_duplexing h _ (by simp only; rw [h8, SPONGE_RATE])).mono fun r hr => ⟨?_, ?_⟩
    · rw [hr.1]; norm_num
    · rw [hr.2]
  · next h8 =>
    rw [safe_pure]
    refine ⟨?_, by simp⟩
    have := hc.1
    rw [List.length_append, List.length_singleton, SPONGE_RATE] at h8
    simp only [List.length_append, List.length_singleton]
    omega

theorem safe_observeElements (l : List Fr) : SafeM (observeElements perm l) := SafeM.forM (safe_observeElement h) l

theorem safe_observeBN254Hash (x : Fr) : SafeM (observeBN254Hash perm x) := by
  refine SafeM.bind (fun c hc => ?_) fun _ => safe_observeElements h _
  exact NoPanic.safe_bind' (NoPanic.toVec x) fun _ => (safe_pure _ _).2 hc

theorem safe_observeCap (l : List Fr) : SafeM (observeCap perm l) := SafeM.forM (safe_observeBN254Hash h) l

theorem safe_observeExtensionElements (l : List QEV) : SafeM (observeExtensionElements perm l) :=
  SafeM.forM (fun _ => safe_observeElements h _) l

theorem safe_observeOpenings (l : List (List QEV)) : SafeM (observeOpenings perm l) :=
  SafeM.forM (safe_observeExtensionElements h) l

theorem safe_getChallenge : SafeM (getChallenge perm) := fun c hc => by
  unfold getChallenge
  rw [safe_bind]
  have key : Safe (if c.inputBuffer.length ≠ 0 ∨ c.outputBuffer.length = 0 then (do
      let r ← duplexing perm c
      pure r.2 : Circ Chip) else pure c) fun c => c.inputBuffer = [] ∧ c.outputBuffer ≠ [] ∧
        c.outputBuffer.length ≤ 8 := by
    split
    · rw [safe_bind]
      refine (safe_duplexing h c (le_of_lt hc.1)).mono fun r hr => ?_
      rw [safe_pure]
      refine ⟨hr.1, ?_, le_of_eq hr.2⟩
      intro e
      have := hr.2
      rw [e] at this
      simp at this
    · next hn =>
      rw [safe_pure]
      simp only [ne_eq, not_or, not_not] at hn
      refine ⟨List.eq_nil_of_length_eq_zero hn.1, ?_, hc.2⟩
      intro e; exact hn.2 (by rw [e]; rfl)
  refine key.mono fun c hc => ?_
  rw [List.getLast?_eq_getLast_of_ne_nil hc.2.1]
  rw [safe_pure]
  refine ⟨?_, ?_⟩
  · simp only [hc.1]; norm_num
  · simp only [List.length_dropLast]
    have := hc.2.2
    omega

/-- `mapM` preserves lengths. -/
theorem safe_getNChallenges (n : ℕ) (c : Chip) (hc : Bounded c) :
    Safe (getNChallenges perm n c) fun r => r.1.length = n ∧ Bounded r.2 := by
  have key : ∀ (l : List ℕ) (c : Chip), Bounded c →
      Safe ((l.mapM fun _ => getChallenge perm) c) fun r => r.1.length = l.length ∧ Bounded r.2 := by
    intro l
    induction l with
    | nil => intro c hc; exact (safe_pure ([], c) _).2 ⟨rfl, hc⟩
    | cons a l ih =>
      intro c hc
      rw [List.mapM_cons]
      have e : ((getChallenge perm >>= fun x => (l.mapM fun _ => getChallenge perm) >>= fun xs =>
          (pure (x :: xs) : ChipM (List Fr))) c) = getChallenge perm c >>= fun r =>
            (l.mapM fun _ => getChallenge perm) r.2 >>= fun r' => pure (r.1 :: r'.1, r'.2) := rfl
      rw [e, safe_bind]
      refine (safe_getChallenge h c hc).mono fun r hr => ?_
      rw [safe_bind]
      refine (ih r.2 hr).mono fun r' hr' => ?_
      rw [safe_pure]
      exact ⟨by rw [List.length_cons, List.length_cons, hr'.1], hr'.2⟩
  refine (key (List.range n) c hc).mono fun r hr => ⟨?_, hr.2⟩
  rw [hr.1, List.length_range]

theorem safe_getExtensionChallenge : SafeM (getExtensionChallenge perm) := fun c hc => by
  have e : getExtensionChallenge perm c = getNChallenges perm 2 c >>= fun r => (match r.1 with
    | [a, b] => (pure (a, b) : ChipM QEV)
    | _ => fun _ => goPanic "index out of range") r.2 := rfl
  rw [e, safe_bind]
  refine (safe_getNChallenges h 2 c hc).mono fun r hr => ?_
  obtain ⟨l, c'⟩ := r
  match l, hr.1 with
  | [a, b], _ => exact (safe_pure ((a, b), c') _).2 hr.2

theorem safe_getHash : SafeM (getHash perm) :=
  SafeM.bind (safe_getChallenge h) fun _ => SafeM.bind (safe_getChallenge h) fun _ =>
    SafeM.bind (safe_getChallenge h) fun _ => SafeM.bind (safe_getChallenge h) fun _ => SafeM.pure _

theorem safe_getN (n : ℕ) : SafeM (getNChallenges perm n) := SafeM.mapM (fun _ => safe_getChallenge h) _

theorem safe_getFriChallenges (caps : List (List Fr)) (fp : List QEV) (pow : Fr) (cfg : FriConfig) :
    SafeM (getFriChallenges perm caps fp pow cfg) :=
  SafeM.bind (safe_getExtensionChallenge h) fun _ => SafeM.bind (SafeM.mapM (fun cap =>
    SafeM.bind (safe_observeCap h cap) fun _ => safe_getExtensionChallenge h) _) fun _ =>
    SafeM.bind (safe_observeExtensionElements h _) fun _ => SafeM.bind (safe_observeElement h _) fun _ =>
    SafeM.bind (safe_getChallenge h) fun _ => SafeM.bind (safe_getN h _) fun _ => SafeM.pure _

theorem safe_challengesM (c : CommonCircuitData) (proof : Proof Fr QEV) (pih : Fin 4 → Fr)
    (vd : VerifierOnlyCircuitData) : SafeM (Verifier.challengesM perm c proof pih vd) :=
  SafeM.bind (safe_observeBN254Hash h _) fun _ => SafeM.bind (safe_observeElements h _) fun _ =>
    SafeM.bind (safe_observeCap h _) fun _ => SafeM.bind (safe_getN h _) fun _ =>
    SafeM.bind (safe_getN h _) fun _ => SafeM.bind (safe_observeCap h _) fun _ =>
    SafeM.bind (safe_getN h _) fun _ => SafeM.bind (safe_observeCap h _) fun _ =>
    SafeM.bind (safe_getExtensionChallenge h) fun _ => SafeM.bind (safe_observeOpenings h _) fun _ =>
    SafeM.bind (safe_getFriChallenges h _ _ _ _) fun _ => SafeM.pure _

end

theorem bounded_newChip : Bounded newChip := ⟨by simp [newChip], by simp [newChip]⟩

theorem noPanic_getChallengesWith (h : ∀ s, NoPanic (perm s)) (c : CommonCircuitData) (proof : Proof Fr QEV)
    (pih : Fin 4 → Fr) (vd : VerifierOnlyCircuitData) : NoPanic (Verifier.getChallenges perm c proof pih vd) := by
  have h1 := safe_challengesM h c proof pih vd
  generalize hm : Verifier.challengesM perm c proof pih vd = m at h1
  unfold Verifier.getChallenges
  rw [hm]
  exact NoPanic.bind (NoPanic.of_safe (h1 _ bounded_newChip)) fun _ => NoPanic.pure _

theorem noPanic_getChallenges (c : CommonCircuitData) (proof : Proof Fr QEV) (pih : Fin 4 → Fr)
    (vd : VerifierOnlyCircuitData) : NoPanic (Verifier.getChallenges poseidon c proof pih vd) :=
  noPanic_getChallengesWith NoPanic.poseidon c proof pih vd

/-! ## A wrong run -/

/-- Continue after an honest method. -/
theorem sat_step {m : ChipM α} {m' : ChipM α} {k : α → ChipM β} {e : List Ev} {f : List Fp → α} (ht : Tracks P m e f)
    (hr : RefM m m') {s : Sponge} (hs : Good s) {y : β × Chip}
    (hk : Good (s.after P e) → Sat (k (f (s.outputs P e)) (chip P (s.after P e))) y) :
    Sat ((m' >>= k) (chip P s)) y := by
  have e' : (m' >>= k) (chip P s) = m' (chip P s) >>= fun r => k r.1 r.2 := rfl
  rw [e', sat_bind]
  exact ⟨_, (hr _).sat_of_den_pure (ht.2 s hs), hk (good_after hs ht.1)⟩

theorem sat_step_ex {m : ChipM α} {m' : ChipM α} {k : α → ChipM β} {e : List Ev} {f : List Fp → α}
    (ht : Tracks P m e f) (hr : RefM m m') {s : Sponge} (hs : Good s) {Q : β × Chip → Prop}
    (hk : ∃ y, Q y ∧ Sat (k (f (s.outputs P e)) (chip P (s.after P e))) y) :
    ∃ y, Q y ∧ Sat ((m' >>= k) (chip P s)) y :=
  let ⟨y, hQ, hy⟩ := hk
  ⟨y, hQ, sat_step ht hr hs fun _ => hy⟩

/-- Only full blocks squeezed from: `k` elements of the rate part left. -/
def Squeezing (c : Chip) : Prop := ∃ st k, k ≤ 8 ∧ c = ⟨embS st, [], (rate st).take k⟩

theorem squeezing_get (c : Chip) (hc : Squeezing c) : ∃ y c', Squeezing c' ∧ Sat (getChallenge poseidon c) (y, c') := by
  obtain ⟨st, k, hk, rfl⟩ := hc
  rcases Nat.eq_zero_or_pos k with rfl | hpos
  · have h := (ref_getChallenge cleanPerm_ref _).sat_of_den_pure
      (den_get_dup cleanPerm_exact st [] ((rate st).take 0) (fun x hx => absurd hx List.not_mem_nil) (by simp)
        (Or.inr (by simp)))
    exact ⟨_, _, ⟨_, 7, by norm_num, rfl⟩, h⟩
  · obtain ⟨j, rfl⟩ : ∃ j, k = j + 1 := ⟨k - 1, by omega⟩
    have h := (ref_getChallenge cleanPerm_ref _).sat_of_den_pure (den_get_pop (perm := cleanPerm) st j (by omega))
    exact ⟨_, _, ⟨st, j, by omega, rfl⟩, h⟩

theorem squeezing_getN (n : ℕ) (c : Chip) (hc : Squeezing c) : ∃ r, Sat (getNChallenges poseidon n c) r := by
  unfold getNChallenges
  generalize List.range n = l
  induction l generalizing c with
  | nil => exact ⟨([], c), by rw [List.mapM_nil]; exact (sat_pure _ _).2 rfl⟩
  | cons a l ih =>
    obtain ⟨y, c', hc', hy⟩ := squeezing_get c hc
    obtain ⟨r, hr⟩ := ih c' hc'
    refine ⟨(y :: r.1, r.2), ?_⟩
    rw [List.mapM_cons]
    have e : ((getChallenge poseidon >>= fun x => (l.mapM fun _ => getChallenge poseidon) >>= fun xs =>
        (pure (x :: xs) : ChipM (List Fr))) c) = getChallenge poseidon c >>= fun r =>
          (l.mapM fun _ => getChallenge poseidon) r.2 >>= fun r' => pure (r.1 :: r'.1, r'.2) := rfl
    rw [e, sat_bind]
    refine ⟨_, hy, ?_⟩
    rw [sat_bind]
    exact ⟨_, hr, (sat_pure _ _).2 rfl⟩

/-- The wrong value of the permutation. -/
def wrongPerm (s : Fin 12 → Fp) : Fin 12 → Fp := fun i =>
  Spec.poseidon s i + (Spec.mds i 0 : Fp) * ((1 : ℕ) * (r : Fp))

theorem wrongPerm_ne (s : Fin 12 → Fp) (i : Fin 12) : wrongPerm s i ≠ Spec.poseidon s i := by
  intro h
  unfold wrongPerm at h
  rw [add_eq_left, Nat.cast_one, one_mul, mul_eq_zero] at h
  rcases h with h | h
  · rw [ZMod.natCast_eq_zero_iff] at h
    revert h; revert i; decide +kernel
  · exact r_fp_ne_zero h

theorem sat_duplexing_wrong (s : Fin 12 → Fp) (inp out : List Fr) (hi : ∀ x ∈ inp, Small x)
    (hl : inp.length ≤ 8) :
    Sat (duplexing poseidon ⟨embS s, inp, out⟩)
      ((), ⟨embS (wrongPerm (over s (inp.map residue))), [], rate (wrongPerm (over s (inp.map residue)))⟩) := by
  unfold duplexing
  simp only
  rw [if_neg (by rw [SPONGE_RATE]; omega), sat_bind]
  refine ⟨_, (sat_of_den_pure (den_mapM_reduce_small _ hi) _).2 rfl, ?_⟩
  rw [overwrite_emb' _ _ (by simpa using hl), sat_bind]
  exact ⟨_, sat_poseidon_wrong (over s (inp.map residue)) (k := 1) (by norm_num), (sat_pure _ _).2 rfl⟩

/-- After absorbing an element a wrong challenge can be squeezed. -/
theorem sat_observe_get_wrong (s : Sponge) (hs : Good s) (x : Fr) (hx : Small x) :
    ∃ (y : Fp) (c c' : Chip), Squeezing c' ∧ Sat (observeElement poseidon x (chip Spec.poseidon s)) ((), c) ∧
      Sat (getChallenge poseidon c) (emb y, c') ∧ y ≠ (s.step Spec.poseidon (.absorb x)).next Spec.poseidon := by
  set P : (Fin 12 → Fp) → Fin 12 → Fp := Spec.poseidon with hP
  set s' := s.step P (.absorb x) with hs'
  have hg : Good s' := good_step hs hx
  have ht : s'.taken = 0 := by
    rw [hs', Sponge.step]; split <;> rfl
  have hp : s'.pending ≠ [] := by
    rw [hs', Sponge.step]; split <;> simp
  have hnext : s'.next P = s'.soaked P (Fin.ofNat 12 7) := by rw [Sponge.next, ht]; rfl
  by_cases h8 : s'.pending.length % 8 = 0
  · -- the duplexing happens while observing
    obtain ⟨base, inp, hin, hil, hch, hsk⟩ : ∃ (base : Fin 12 → Fp) (inp : List Fr), (∀ y ∈ inp, Small y) ∧
        inp.length = 7 ∧ (∃ out, chip P s = ⟨embS base, inp, out⟩) ∧
        s'.soaked P = P (over base ((inp ++ [x]).map residue)) := by
      by_cases h0 : s.taken = 0
      · have e : s' = ⟨s.base, s.pending ++ [x], 0⟩ := by rw [hs', Sponge.step]; rw [if_pos h0]
        refine ⟨flushed P s, restPart s.pending, good_rest hs, ?_, ⟨_, by rw [chip, if_pos h0]⟩, ?_⟩
        · rw [length_restPart]
          rw [e] at h8
          simp only [List.length_append, List.length_singleton] at h8
          omega
        · rw [e] at h8
          have hc : fullPart (s.pending ++ [x]) = fullPart s.pending ++ (restPart s.pending ++ [x]) := by
            rw [← List.append_assoc, full_append_rest, fullPart, List.take_of_length_le]
            simp only at h8
            omega
          have hlen : (restPart s.pending ++ [x]).length = 8 := by
            simp only [List.length_append, List.length_singleton] at h8
            rw [List.length_append, length_restPart, List.length_singleton]; omega
          rw [soaked_full s' hp (by rw [e]; exact h8), e]
          have e1 : flushed P ⟨s.base, s.pending ++ [x], 0⟩ = Spec.absorb P s.base
              (Spec.chunks ((fullPart s.pending).map residue ++ (restPart s.pending ++ [x]).map residue)) := by
            rw [flushed]; simp only; rw [hc, List.map_append]
          rw [e1, chunks_append, absorb_append, chunks_short ((restPart s.pending ++ [x]).map residue), absorb_one]
          · rfl
          · simp
          · rw [List.length_map, hlen]
          · rw [List.length_map, length_fullPart]; exact ⟨_, rfl⟩
      · exfalso
        have e : s'.pending = [x] := by rw [hs', Sponge.step]; rw [if_neg h0]
        rw [e] at h8
        simp at h8
    obtain ⟨out, hch⟩ := hch
    refine ⟨wrongPerm (over base ((inp ++ [x]).map residue)) (Fin.ofNat 12 7),
      ⟨embS (wrongPerm (over base ((inp ++ [x]).map residue))), [],
        rate (wrongPerm (over base ((inp ++ [x]).map residue)))⟩, _,
      ⟨wrongPerm (over base ((inp ++ [x]).map residue)), 7, by norm_num, rfl⟩, ?_, ?_, ?_⟩
    · rw [hch]
      unfold observeElement
      simp only
      rw [if_pos (by rw [List.length_append, hil, SPONGE_RATE]; rfl)]
      refine sat_duplexing_wrong base (inp ++ [x]) [] ?_ (by rw [List.length_append, hil]; rfl)
      intro y hy
      rcases List.mem_append.1 hy with hy | hy
      · exact hin y hy
      · rw [List.mem_singleton.1 hy]; exact hx
    · have := den_get_pop (perm := poseidon) (wrongPerm (over base ((inp ++ [x]).map residue))) 7 (by norm_num)
      rw [take8_rate] at this
      exact (sat_of_den_pure this _).2 rfl
    · rw [hnext, hsk]
      exact wrongPerm_ne _ _
  · -- the duplexing happens while getting the challenge
    have hob : Sat (observeElement poseidon x (chip P s)) ((), chip P s') :=
      (ref_observeElement cleanPerm_ref x _).sat_of_den_pure (den_observeElement cleanPerm_exact s hs x hx)
    have hlen : (restPart s'.pending).length ≤ 8 := by rw [length_restPart]; omega
    have hpop := pop_rate (wrongPerm (over (flushed P s') ((restPart s'.pending).map residue))) 7 (by norm_num)
    rw [take8_rate] at hpop
    refine ⟨wrongPerm (over (flushed P s') ((restPart s'.pending).map residue)) (Fin.ofNat 12 7), _, _,
      ⟨wrongPerm (over (flushed P s') ((restPart s'.pending).map residue)), 7, by norm_num, rfl⟩, hob, ?_, ?_⟩
    · rw [chip, if_pos ht, if_neg fun hc => h8 hc.2]
      unfold getChallenge
      simp only
      rw [if_pos (Or.inr (by simp)), sat_bind]
      refine ⟨⟨embS (wrongPerm (over (flushed P s') ((restPart s'.pending).map residue))), [],
        rate (wrongPerm (over (flushed P s') ((restPart s'.pending).map residue)))⟩, ?_, ?_⟩
      · rw [sat_bind]
        exact ⟨_, sat_duplexing_wrong _ _ _ (good_rest hg) hlen, (sat_pure _ _).2 rfl⟩
      · change Sat (match (rate (wrongPerm (over (flushed P s') ((restPart s'.pending).map residue)))).getLast? with
          | none => goPanic "index out of range"
          | some x => pure (x, (⟨_, _, _⟩ : Chip))) _
        rw [hpop.1, hpop.2]
        exact (sat_pure _ _).2 rfl
    · rw [hnext, soaked_flush s' (Or.inr h8)]
      exact wrongPerm_ne _ _

theorem outputs_getD (s : Sponge) (e e' : List Ev) :
    (s.outputs P (e ++ (squeezes 1 ++ e'))).getD (nsq e) 0 = (s.after P e).next P := by
  rw [outputs_append, List.getD_eq_getElem?_getD, List.getElem?_append_right (by rw [length_outputs]), length_outputs,
    Nat.sub_self]
  rfl

/-- Events of `GetFriChallenges` before the proof-of-work response. -/
def powEvents (caps : List (List Fr)) (finalPoly : List QE) (pow : Fp) : List Ev :=
  squeezes 2 ++ ((caps.flatMap fun cap => absorbs (capElems cap) ++ squeezes 2) ++
    (absorbs (coords finalPoly) ++ [.absorb (emb pow)]))

theorem sat_getFriChallenges_wrong {s : Sponge} (hs : Good s) (caps : List (List Fr)) (finalPoly : List QE) (pow : Fp)
    (cfg : FriConfig) :
    ∃ ch, Sat (getFriChallenges poseidon caps (finalPoly.map embQ) (emb pow) cfg (chip Spec.poseidon s)) ch ∧
      ch.1.powResponse ≠ emb ((s.after Spec.poseidon (powEvents caps finalPoly pow)).next Spec.poseidon) := by
  have hcoord := tracks_observeExtensionElements cleanPerm_exact (finalPoly.map embQ) (by
    intro e he; obtain ⟨a, -, rfl⟩ := List.mem_map.1 he; exact smallQ_embQ a)
  rw [coordsV_emb] at hcoord
  have hcaps := Tracks.mapM (c := 2) caps (fun cap _ => tracks_capBeta cleanPerm_exact cap) fun cap _ => by
    rw [nsq_append, nsq_absorbs, nsq_squeezes]
  have halpha := tracks_getExtensionChallenge cleanPerm_exact
  have g1 := good_after (P := Spec.poseidon) hs halpha.1
  have g2 := good_after (P := Spec.poseidon) g1 hcaps.1
  have g3 := good_after (P := Spec.poseidon) g2 hcoord.1
  obtain ⟨y, c, c', hsq, ho, hg, hne⟩ := sat_observe_get_wrong _ g3 (emb pow) (small_emb pow)
  obtain ⟨r, hr⟩ := squeezing_getN cfg.numQueryRounds c' hsq
  have hne' : emb y ≠ emb ((s.after Spec.poseidon (powEvents caps finalPoly pow)).next Spec.poseidon) := by
    intro e
    refine hne (emb_inj.1 e |>.trans ?_)
    rw [powEvents, after_append, after_append, after_append]
    rfl
  refine (Exists.imp fun _ h => And.intro h.2 h.1) (?_ : ∃ ch, _ ∧ Sat _ ch)
  refine sat_step_ex halpha (ref_getExtensionChallenge cleanPerm_ref) hs ?_
  refine sat_step_ex hcaps (RefM.mapM (ref_capBeta cleanPerm_ref) _) g1 ?_
  refine sat_step_ex hcoord (ref_observeExtensionElements cleanPerm_ref _) g2 ?_
  exact ⟨(⟨_, _, emb y, r.1⟩, r.2), hne', (sat_bind _ _ _).2 ⟨_, ho, (sat_bind _ _ _).2 ⟨_, hg,
    (sat_bind _ _ _).2 ⟨_, hr, (sat_pure _ _).2 rfl⟩⟩⟩⟩

/-- Events before the proof-of-work response. -/
def prefixEvents (n : ℕ) (digest : Fr) (pih : Fin 4 → Fp) (proof : Proof Fp QE) : List Ev :=
  let o := proof.openings
  absorbs (limbs digest) ++ (absorbs ((List.ofFn pih).map emb) ++ (absorbs (capElems proof.wiresCap) ++
  (squeezes n ++ (squeezes n ++ (absorbs (capElems proof.plonkZsPartialProductsCap) ++ (squeezes n ++
  (absorbs (capElems proof.quotientPolysCap) ++ (squeezes 2 ++
  (absorbs (coords (o.constants ++ o.plonkSigmas ++ o.wires ++ o.plonkZs ++ o.partialProducts ++ o.quotientPolys ++
    o.plonkZsNext)) ++
    powEvents proof.openingProof.commitCaps proof.openingProof.finalPoly proof.openingProof.powWitness)))))))))

theorem transcript_eq (n q : ℕ) (digest : Fr) (pih : Fin 4 → Fp) (proof : Proof Fp QE) :
    Spec.transcript n q digest pih proof = prefixEvents n digest pih proof ++ (squeezes 1 ++ squeezes q) := by
  rw [Spec.transcript, prefixEvents, powEvents]
  simp only [absorbs_append, List.append_assoc]
  rfl

theorem nsq_prefixEvents (n : ℕ) (digest : Fr) (pih : Fin 4 → Fp) (proof : Proof Fp QE) :
    nsq (prefixEvents n digest pih proof) = 3 * n + 4 + 2 * proof.openingProof.commitCaps.length := by
  have h1 : ∀ x, nsq [Ev.absorb x] = 0 := fun _ => rfl
  simp only [prefixEvents, powEvents, nsq_append, nsq_absorbs, nsq_squeezes, nsq_caps, h1]
  omega

theorem challengesOf_pow (n m : ℕ) (o : List Fp) :
    (Spec.challengesOf n m o).friChallenges.powResponse = o.getD (3 * n + 4 + 2 * m) 0 := rfl

theorem pow_response_eq (n q : ℕ) (digest : Fr) (pih : Fin 4 → Fp) (proof : Proof Fp QE) :
    (Spec.challenges P n q digest pih proof).friChallenges.powResponse =
      (Sponge.init.after P (prefixEvents n digest pih proof)).next P := by
  have := outputs_getD (P := P) Sponge.init (prefixEvents n digest pih proof) (squeezes q)
  rw [nsq_prefixEvents, ← transcript_eq] at this
  rw [Spec.challenges, challengesOf_pow]
  exact this

theorem sat_getChallenges_wrong (c : CommonCircuitData) (proof : Proof Fp QE) (pih : Fin 4 → Fp)
    (vd : VerifierOnlyCircuitData) :
    ∃ ch, Sat (Verifier.getChallenges poseidon c proof.enc (fun i => emb (pih i)) vd) ch ∧
      ch.friChallenges.powResponse ≠ emb (Spec.challenges Spec.poseidon c.config.numChallenges
        c.config.friConfig.numQueryRounds vd.circuitDigest pih proof).friChallenges.powResponse := by
  have hpih : Tracks Spec.poseidon (observeHash cleanPerm fun i => emb (pih i)) (absorbs ((List.ofFn pih).map emb))
      fun _ => () := by
    have e : List.ofFn (fun i => emb (pih i)) = (List.ofFn pih).map emb := by rw [List.map_ofFn]; rfl
    rw [observeHash, e]
    refine tracks_observeElements cleanPerm_exact _ fun x hx => ?_
    obtain ⟨a, -, rfl⟩ := List.mem_map.1 hx
    exact small_emb a
  have g0 : Good Sponge.init := fun x hx => absurd hx List.not_mem_nil
  have t1 := tracks_observeBN254Hash cleanPerm_exact vd.circuitDigest
  have t3 := tracks_observeCap cleanPerm_exact proof.wiresCap
  have t4 := tracks_getNChallenges cleanPerm_exact c.config.numChallenges
  have t6 := tracks_observeCap cleanPerm_exact proof.plonkZsPartialProductsCap
  have t8 := tracks_observeCap cleanPerm_exact proof.quotientPolysCap
  have t9 := tracks_getExtensionChallenge cleanPerm_exact
  have t10 := tracks_openings cleanPerm_exact proof.openings
  have g1 := good_after (P := Spec.poseidon) g0 t1.1
  have g2 := good_after (P := Spec.poseidon) g1 hpih.1
  have g3 := good_after (P := Spec.poseidon) g2 t3.1
  have g4 := good_after (P := Spec.poseidon) g3 t4.1
  have g5 := good_after (P := Spec.poseidon) g4 t4.1
  have g6 := good_after (P := Spec.poseidon) g5 t6.1
  have g7 := good_after (P := Spec.poseidon) g6 t4.1
  have g8 := good_after (P := Spec.poseidon) g7 t8.1
  have g9 := good_after (P := Spec.poseidon) g8 t9.1
  have g10 := good_after (P := Spec.poseidon) g9 t10.1
  obtain ⟨ch, hch, hne⟩ := sat_getFriChallenges_wrong g10 proof.openingProof.commitCaps
    proof.openingProof.finalPoly proof.openingProof.powWitness c.config.friConfig
  have hM : ∃ a : ProofChallenges Fr QEV, a.friChallenges = ch.1 ∧
      Sat (Verifier.challengesM poseidon c proof.enc (fun i => emb (pih i)) vd (chip Spec.poseidon Sponge.init))
        (a, ch.2) := by
    suffices h : ∃ y : ProofChallenges Fr QEV × Chip, (y.1.friChallenges = ch.1 ∧ y.2 = ch.2) ∧
        Sat (Verifier.challengesM poseidon c proof.enc (fun i => emb (pih i)) vd (chip Spec.poseidon Sponge.init)) y by
      obtain ⟨⟨a, b⟩, ⟨h1, rfl⟩, h2⟩ := h
      exact ⟨a, h1, h2⟩
    refine sat_step_ex t1 (ref_observeBN254Hash cleanPerm_ref _) g0 ?_
    refine sat_step_ex hpih (ref_observeElements cleanPerm_ref _) g1 ?_
    refine sat_step_ex t3 (ref_observeCap cleanPerm_ref _) g2 ?_
    refine sat_step_ex t4 (ref_getNChallenges cleanPerm_ref _) g3 ?_
    refine sat_step_ex t4 (ref_getNChallenges cleanPerm_ref _) g4 ?_
    refine sat_step_ex t6 (ref_observeCap cleanPerm_ref _) g5 ?_
    refine sat_step_ex t4 (ref_getNChallenges cleanPerm_ref _) g6 ?_
    refine sat_step_ex t8 (ref_observeCap cleanPerm_ref _) g7 ?_
    refine sat_step_ex t9 (ref_getExtensionChallenge cleanPerm_ref) g8 ?_
    refine sat_step_ex t10 (ref_observeOpenings cleanPerm_ref _) g9 ?_
    exact ⟨(⟨_, _, _, _, ch.1⟩, ch.2), ⟨rfl, rfl⟩, (sat_bind _ _ _).2 ⟨_, hch, (sat_pure _ _).2 rfl⟩⟩
  obtain ⟨a, ha, hM⟩ := hM
  refine ⟨a, ?_, ?_⟩
  · rw [Verifier.getChallenges, chip_init (P := Spec.poseidon), sat_bind]
    exact ⟨_, hM, (sat_pure _ _).2 rfl⟩
  · rw [ha, pow_response_eq, prefixEvents]
    simp only [after_append]
    exact hne

end Verif.Challenger
