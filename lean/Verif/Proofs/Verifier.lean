import Verif.Proofs.ChallengerRuns
import Verif.Proofs.FriInstance
import Verif.Proofs.Plonk
import Verif.Proofs.FriRound
import Verif.Spec.Verifier

/-!
# The verifier
-/

set_option autoImplicit false

namespace Verif.Verifier

open Circ PoseidonGL Challenger
open Spec.Verifier (Canonical CanonicalQE Checks Accepts Fits inputsHash)
open Spec (residue)

variable {α β σ : Type}

/-! ## Canonical values are encodings -/

theorem emb_residue {x : Fr} (h : x.val < p) : emb (residue x) = x := by
  rw [residue, emb_natCast, Nat.mod_eq_of_lt h, natCast_val_fr]

theorem exists_emb {x : Fr} (h : x.val < p) : ∃ a : Fp, x = emb a := ⟨residue x, (emb_residue h).symm⟩

theorem exists_embQ {x : QEV} (h : CanonicalQE x) : ∃ a : QE, x = embQ a :=
  ⟨⟨residue x.1, residue x.2⟩, Prod.ext (emb_residue h.1).symm (emb_residue h.2).symm⟩

theorem exists_map {f : α → β} {l : List β} (h : ∀ y ∈ l, ∃ x, y = f x) : ∃ l' : List α, l = l'.map f := by
  induction l with
  | nil => exact ⟨[], rfl⟩
  | cons y l ih =>
    obtain ⟨x, rfl⟩ := h y (by simp)
    obtain ⟨l', rfl⟩ := ih fun y hy => h y (by simp [hy])
    exact ⟨x :: l', rfl⟩

theorem canonicalQE_embQ (a : QE) : CanonicalQE (embQ a) :=
  ⟨by show (emb a.re).val < p; rw [emb_val]; exact ZMod.val_lt _,
    by show (emb a.im).val < p; rw [emb_val]; exact ZMod.val_lt _⟩

theorem canonical_emb (a : Fp) : (emb a).val < p := by rw [emb_val]; exact ZMod.val_lt _

theorem mapQ {l : List QEV} (h : ∀ e ∈ l, CanonicalQE e) : ∃ l' : List QE, l = l'.map embQ :=
  exists_map fun y hy => exists_embQ (h y hy)

theorem canonical_iff (x : Proof Fr QEV) : Canonical x ↔ ∃ y : Proof Fp QE, x = y.enc := by
  constructor
  · intro h
    obtain ⟨o1, e1⟩ := mapQ h.constants
    obtain ⟨o2, e2⟩ := mapQ h.plonkSigmas
    obtain ⟨o3, e3⟩ := mapQ h.wires
    obtain ⟨o4, e4⟩ := mapQ h.plonkZs
    obtain ⟨o5, e5⟩ := mapQ h.plonkZsNext
    obtain ⟨o6, e6⟩ := mapQ h.partialProducts
    obtain ⟨o7, e7⟩ := mapQ h.quotientPolys
    obtain ⟨fp, e8⟩ := mapQ h.finalPoly
    obtain ⟨pw, e9⟩ := exists_emb h.powWitness
    have hr : ∃ rs : List (FriQueryRound Fp QE), x.openingProof.rounds = rs.map FriQueryRound.enc := by
      refine exists_map fun round hround => ?_
      obtain ⟨ini, i1⟩ : ∃ l : List (FriEvalProof Fp), round.initial = l.map FriEvalProof.enc := by
        refine exists_map fun t ht => ?_
        obtain ⟨el, e⟩ := exists_map (f := emb) fun y hy => exists_emb (h.leaves round hround t ht y hy)
        exact ⟨⟨el, t.siblings⟩, by rw [FriEvalProof.enc, ← e]⟩
      obtain ⟨st, s1⟩ : ∃ l : List (FriQueryStep QE), round.steps = l.map FriQueryStep.enc := by
        refine exists_map fun s hs => ?_
        obtain ⟨el, e⟩ := mapQ (h.evals round hround s hs)
        exact ⟨⟨el, s.siblings⟩, by rw [FriQueryStep.enc, ← e]⟩
      exact ⟨⟨ini, st⟩, by rw [FriQueryRound.enc, ← i1, ← s1]⟩
    obtain ⟨rs, e10⟩ := hr
    refine ⟨⟨x.wiresCap, x.plonkZsPartialProductsCap, x.quotientPolysCap, ⟨o1, o2, o3, o4, o5, o6, o7⟩,
      ⟨x.openingProof.commitCaps, rs, fp, pw⟩⟩, ?_⟩
    rw [Proof.enc, OpeningSet.enc, FriProof.enc, ← e1, ← e2, ← e3, ← e4, ← e5, ← e6, ← e7, ← e8, ← e9, ← e10]
  · rintro ⟨y, rfl⟩
    have hq : ∀ (l : List QE), ∀ e ∈ l.map embQ, CanonicalQE e := fun l e he => by
      obtain ⟨a, -, rfl⟩ := List.mem_map.1 he
      exact canonicalQE_embQ a
    refine ⟨hq _, hq _, hq _, hq _, hq _, hq _, hq _, ?_, ?_, hq _, canonical_emb _⟩
    · intro round hround t ht e he
      obtain ⟨round, -, rfl⟩ := List.mem_map.1 hround
      obtain ⟨t, -, rfl⟩ := List.mem_map.1 ht
      obtain ⟨a, -, rfl⟩ := List.mem_map.1 he
      exact canonical_emb a
    · intro round hround t ht e he
      obtain ⟨round, -, rfl⟩ := List.mem_map.1 hround
      obtain ⟨t, -, rfl⟩ := List.mem_map.1 ht
      exact hq _ e he

theorem map_embQ_injective : Function.Injective (List.map embQ) :=
  List.map_injective_iff.2 fun _ _ => embQ_inj.1

theorem map_emb_injective : Function.Injective (List.map emb) := List.map_injective_iff.2 fun _ _ => emb_inj.1

theorem openings_injective {x y : OpeningSet QE} (h : x.enc = y.enc) : x = y := by
  cases x; cases y
  simp only [OpeningSet.enc, OpeningSet.mk.injEq] at h
  obtain ⟨h1, h2, h3, h4, h5, h6, h7⟩ := h
  rw [map_embQ_injective h1, map_embQ_injective h2, map_embQ_injective h3, map_embQ_injective h4,
    map_embQ_injective h5, map_embQ_injective h6, map_embQ_injective h7]

theorem leaf_injective : Function.Injective FriEvalProof.enc := by
  intro x y h
  cases x; cases y
  simp only [FriEvalProof.enc, FriEvalProof.mk.injEq] at h
  rw [map_emb_injective h.1, h.2]

theorem step_injective : Function.Injective FriQueryStep.enc := by
  intro x y h
  cases x; cases y
  simp only [FriQueryStep.enc, FriQueryStep.mk.injEq] at h
  rw [map_embQ_injective h.1, h.2]

theorem round_injective : Function.Injective FriQueryRound.enc := by
  intro x y h
  cases x; cases y
  simp only [FriQueryRound.enc, FriQueryRound.mk.injEq] at h
  rw [List.map_injective_iff.2 leaf_injective h.1, List.map_injective_iff.2 step_injective h.2]

theorem enc_injective {x y : Proof Fp QE} (h : x.enc = y.enc) : x = y := by
  cases x with | mk x1 x2 x3 x4 x5 => cases y with | mk y1 y2 y3 y4 y5 =>
  simp only [Proof.enc, Proof.mk.injEq] at h
  obtain ⟨rfl, rfl, rfl, h4, h5⟩ := h
  obtain rfl := openings_injective h4
  cases x5; cases y5
  simp only [FriProof.enc, FriProof.mk.injEq] at h5
  obtain ⟨rfl, h6, h7, h8⟩ := h5
  rw [List.map_injective_iff.2 round_injective h6, map_embQ_injective h7, emb_inj.1 h8]

theorem ProofChallenges.enc_injective {x y : ProofChallenges Fp QE} (h : x.enc = y.enc) : x = y := by
  cases x with | mk x1 x2 x3 x4 x5 => cases y with | mk y1 y2 y3 y4 y5 =>
  simp only [Verif.ProofChallenges.enc, Verif.ProofChallenges.mk.injEq] at h
  obtain ⟨h1, h2, h3, h4, h5⟩ := h
  rw [map_emb_injective h1, map_emb_injective h2, map_emb_injective h3, embQ_inj.1 h4]
  cases x5; cases y5
  simp only [FriChallenges.enc, FriChallenges.mk.injEq] at h5
  obtain ⟨h6, h7, h8, h9⟩ := h5
  rw [embQ_inj.1 h6, map_embQ_injective h7, emb_inj.1 h8, map_emb_injective h9]

/-! ## Range checks -/

theorem den_rangeCheckQEs (l : List QEV) : den (l.forM rangeCheckQE) = Den.assert (∀ e ∈ l, CanonicalQE e) := by
  rw [den_forM]
  exact Den.forM_assert fun x _ => by rw [den_rangeCheckQE, Den.guard_eq_assert]; rfl

theorem den_rangeChecks (l : List Fr) : den (l.forM rangeCheck) = Den.assert (∀ e ∈ l, e.val < p) := by
  rw [den_forM]
  exact Den.forM_assert fun x _ => by rw [den_rangeCheck, Den.guard_eq_assert]

theorem den_rangeCheckRounds (l : List (FriQueryRound Fr QEV)) :
    den (l.forM fun queryRound => do
      queryRound.initial.forM fun evalsProof => evalsProof.elements.forM rangeCheck
      queryRound.steps.forM fun queryStep => queryStep.evals.forM rangeCheckQE) =
    Den.assert (∀ x ∈ l, (∀ t ∈ x.initial, ∀ e ∈ t.elements, e.val < p) ∧
      ∀ s ∈ x.steps, ∀ e ∈ s.evals, CanonicalQE e) := by
  rw [den_forM]
  refine Den.forM_assert fun x _ => ?_
  rw [den_bind, den_forM, den_forM, Den.forM_assert fun t _ => den_rangeChecks t.elements,
    Den.forM_assert fun t _ => den_rangeCheckQEs t.evals, Den.assert_bind_assert]

theorem den_rangeCheckProof (x : Proof Fr QEV) : den (rangeCheckProof x) = Den.assert (Canonical x) := by
  rw [rangeCheckProof]
  simp only [den_bind, den_rangeCheckQEs, den_rangeCheckRounds, den_rangeCheck, Den.guard_eq_assert,
    Den.assert_bind_assert]
  refine Den.assert_congr ⟨?_, ?_⟩
  · rintro ⟨h1, h2, h3, h4, h5, h6, h7, h8, h9, h10⟩
    exact ⟨h1, h2, h3, h4, h5, h6, h7, fun r hr => (h8 r hr).1, fun r hr => (h8 r hr).2, h9, h10⟩
  · rintro ⟨h1, h2, h3, h4, h5, h6, h7, h8, h8', h9, h10⟩
    exact ⟨h1, h2, h3, h4, h5, h6, h7, fun r hr => ⟨h8 r hr, h8' r hr⟩, h9, h10⟩

/-! ## Public inputs -/

theorem den_reduce_all (x : Fr) : den (reduce x) =
    Den.assert (x.val < 2 ^ 144 * p) >>= fun _ => pure (emb (residue x)) := by
  by_cases h : x.val < 2 ^ 144 * p
  · rw [Den.assert_true h, pure_bind]
    exact den_reduce_of (natCast_val_fr x).symm h rfl
  · rw [Den.assert_false h, Den.fail_bind]
    have hs : ∀ y, ¬ Sat (reduce x) y := by
      intro y hy
      obtain ⟨h1, q, h2, h3⟩ := (sat_reduceWithMaxBits x RANGE_CHECK_NB_BITS y).1 hy
      rw [show RANGE_CHECK_NB_BITS = 144 from rfl] at h2
      have h4 : q * (p : Fr) + y = ((q.val * p + y.val : ℕ) : Fr) := by push_cast; simp
      have hle : q.val * p ≤ (2 ^ 144 - 1) * p := Nat.mul_le_mul_right _ (by omega)
      have hb : (2 ^ 144 - 1) * p + p = 2 ^ 144 * p := by norm_num [p]
      have hr : 2 ^ 144 * p < r := by norm_num [p, r]
      rw [h3, h4, val_natCast_of_lt (by omega)] at h
      omega
    exact (den_eq_fail_iff _).2 hs

theorem den_mapM_reduce_all (l : List Fr) : den (l.mapM reduce) =
    Den.assert (∀ x ∈ l, x.val < 2 ^ 144 * p) >>= fun _ => pure ((l.map residue).map emb) := by
  induction l with
  | nil => rw [Den.assert_true (by simp)]; simp
  | cons x l ih =>
    rw [List.mapM_cons, den_bind, den_reduce_all]
    simp only [den_bind, ih, den_pure, bind_assoc, pure_bind]
    rw [Den.assert_bind_assert_bind]
    refine Den.assert_bind_congr (by simp) fun _ => rfl

theorem den_inputsHash {perm : State → Circ State} {P : (Fin 12 → Fp) → Fin 12 → Fp} (h : ExactPerm perm P)
    (l : List Fr) : den (getPublicInputsHash perm l) = Den.assert (∀ x ∈ l, x.val < 2 ^ 144 * p) >>= fun _ =>
      pure fun i => emb (inputsHash P (l.map residue) i) := by
  by_cases hl : ∀ x ∈ l, x.val < 2 ^ 144 * p
  · rw [Den.assert_true hl, pure_bind]
    have := den_hashNoPad h (l.map ZMod.val) (by simpa using hl)
    rw [List.map_map, List.map_map] at this
    have e : l.map ((fun n : ℕ => (n : Fr)) ∘ ZMod.val) = l := by
      conv_rhs => rw [← List.map_id l]
      exact List.map_congr_left fun x _ => natCast_val_fr x
    rw [e] at this
    exact this
  · rw [Den.assert_false hl, getPublicInputsHash, hashNoPadWith, den_bind, den_mapM_reduce_all, Den.assert_false hl]
    simp only [Den.fail_bind]

/-! ## Every run of the code's own sponge yields canonical values -/

/-- Whatever the prover does, the result satisfies `Q`. -/
def Ens (c : Circ α) (Q : α → Prop) : Prop := ∀ y, Sat c y → Q y

theorem Ens.pure {a : α} {Q : α → Prop} (h : Q a) : Ens (pure a) Q := fun y hy => by
  rw [sat_pure] at hy; rw [hy]; exact h

theorem Ens.bind {c : Circ α} {f : α → Circ β} {Q : α → Prop} {R : β → Prop} (h : Ens c Q)
    (hf : ∀ a, Q a → Ens (f a) R) : Ens (c >>= f) R := fun y hy => by
  rw [sat_bind] at hy
  obtain ⟨a, h1, h2⟩ := hy
  exact hf a (h a h1) y h2

theorem Ens.bind' {c : Circ α} {f : α → Circ β} {R : β → Prop} (hf : ∀ a, Ens (f a) R) : Ens (c >>= f) R :=
  Ens.bind (Q := fun _ => True) (fun _ _ => trivial) fun a _ => hf a

theorem Ens.tabM {n : ℕ} {f : Fin n → Circ α} {Q : α → Prop} (h : ∀ i, Ens (f i) Q) :
    Ens (tabM n f) fun y => ∀ i, Q (y i) := fun y hy i => h i _ ((sat_tabM y).1 hy i)

theorem ens_reduce (x : Fr) : Ens (reduce x) fun y => y.val < p := fun y hy =>
  ((sat_reduceWithMaxBits x RANGE_CHECK_NB_BITS y).1 hy).1

theorem ens_mdsLayer (s : State) : Ens (mdsLayer s) fun t => ∀ i, (t i).val < p :=
  Ens.tabM fun _ => ens_reduce _

theorem ens_poseidon (s : State) : Ens (poseidon s) fun t => ∀ i, (t i).val < p := by
  refine Ens.bind' fun s => Ens.bind' fun s => ?_
  rw [fullRounds, HALF_N_FULL_ROUNDS, List.range_succ, List.foldlM_append]
  refine Ens.bind' fun s => ?_
  rw [List.foldlM_cons]
  refine Ens.bind (Q := fun t => ∀ i, (t i).val < p) ?_ fun t ht => Ens.pure ht
  exact Ens.bind' fun _ => Ens.bind' fun _ => ens_mdsLayer _

section

variable {perm : State → Circ State} (hperm : ∀ s, Ens (perm s) fun t => ∀ i, (t i).val < p)
include hperm

theorem ens_absorbLoop (s : State) (hs : ∀ i, (s i).val < p) (l : List Fr) :
    Ens (absorbLoop perm s l) fun t => ∀ i, (t i).val < p := by
  induction hn : l.length using Nat.strong_induction_on generalizing l s with
  | _ n ih =>
    cases l with
    | nil => rw [absorbLoop]; exact Ens.pure hs
    | cons a l =>
      rw [absorbLoop]
      refine Ens.bind (hperm _) fun t ht => ?_
      refine ih _ ?_ t ht _ rfl
      rw [← hn, List.length_drop, SPONGE_RATE, List.length_cons]; omega

theorem ens_inputsHash (l : List Fr) : Ens (getPublicInputsHash perm l) fun h => ∀ i, (h i).val < p := by
  refine Ens.bind' fun inp => Ens.bind (Q := fun o : List Fr => ∀ x ∈ o, x.val < p) ?_ fun o ho => Ens.pure fun i => ?_
  · rw [hashNToMNoPadWith, if_neg (by norm_num)]
    refine Ens.bind (ens_absorbLoop hperm _ (fun i => by norm_num [p]) _) fun t ht => ?_
    rw [squeezeLoop, dif_pos (by norm_num [SPONGE_RATE])]
    refine Ens.pure fun x hx => ?_
    obtain ⟨i, rfl⟩ := List.mem_ofFn.1 (List.mem_of_mem_take hx)
    exact ht i
  · rw [List.getD_eq_getElem?_getD]
    rcases h : o[(i : ℕ)]? with _ | x
    · norm_num [p]
    · exact ho x (List.mem_of_getElem? h)

end

/-- Elements waiting to be squeezed are canonical. -/
def Ready (c : Chip) : Prop := ∀ x ∈ c.outputBuffer, x.val < p

/-- A challenger method keeps waiting elements canonical; its result satisfies `Q`. -/
def EnsM (m : ChipM α) (Q : α → Prop) : Prop := ∀ c, Ready c → Ens (m c) fun r => Q r.1 ∧ Ready r.2

theorem EnsM.pure {a : α} {Q : α → Prop} (h : Q a) : EnsM (pure a) Q := fun _ hc => Ens.pure ⟨h, hc⟩

theorem EnsM.bind {m : ChipM α} {k : α → ChipM β} {Q : α → Prop} {R : β → Prop} (h : EnsM m Q)
    (hk : ∀ a, Q a → EnsM (k a) R) : EnsM (m >>= k) R := fun c hc =>
  Ens.bind (h c hc) fun r hr => hk r.1 hr.1 r.2 hr.2

theorem EnsM.forM {m : σ → ChipM Unit} (h : ∀ x, EnsM (m x) fun _ => True) (l : List σ) :
    EnsM (l.forM m) fun _ => True := by
  induction l with
  | nil => exact EnsM.pure trivial
  | cons a l ih => rw [List.forM]; exact EnsM.bind (h a) fun _ _ => ih

theorem EnsM.mapM {m : σ → ChipM β} {Q : β → Prop} (h : ∀ x, EnsM (m x) Q) (l : List σ) :
    EnsM (l.mapM m) fun ys => ys.length = l.length ∧ ∀ y ∈ ys, Q y := by
  induction l with
  | nil => exact EnsM.pure ⟨rfl, by simp⟩
  | cons a l ih =>
    rw [List.mapM_cons]
    refine EnsM.bind (h a) fun y hy => EnsM.bind ih fun ys hys => EnsM.pure ⟨?_, ?_⟩
    · rw [List.length_cons, List.length_cons, hys.1]
    · intro z hz
      rcases List.mem_cons.1 hz with rfl | hz
      · exact hy
      · exact hys.2 z hz

section

variable {perm : State → Circ State} (hperm : ∀ s, Ens (perm s) fun t => ∀ i, (t i).val < p)
include hperm

theorem ens_duplexing (c : Chip) : Ens (duplexing perm c) fun r => Ready r.2 := by
  unfold duplexing
  split
  · intro y hy; simp [goPanic, Sat] at hy
  · refine Ens.bind' fun _ => Ens.bind (hperm _) fun t ht => Ens.pure fun x hx => ?_
    obtain ⟨i, rfl⟩ := List.mem_ofFn.1 (List.mem_of_mem_take hx)
    exact ht i

theorem ens_observeElement (x : Fr) : EnsM (observeElement perm x) fun _ => True := fun c _ => by
  unfold observeElement
  simp only
  split
  · exact fun y hy => ⟨trivial, ens_duplexing hperm _ y hy⟩
  · exact Ens.pure ⟨trivial, fun x hx => absurd hx (by simp)⟩

theorem ens_observeElements (l : List Fr) : EnsM (observeElements perm l) fun _ => True :=
  EnsM.forM (ens_observeElement hperm) l

theorem ens_observeBN254Hash (x : Fr) : EnsM (observeBN254Hash perm x) fun _ => True := by
  refine EnsM.bind (Q := fun _ => True) (fun c hc => ?_) fun _ _ => ens_observeElements hperm _
  exact Ens.bind' fun _ => Ens.pure ⟨trivial, hc⟩

theorem ens_observeCap (l : List Fr) : EnsM (observeCap perm l) fun _ => True :=
  EnsM.forM (ens_observeBN254Hash hperm) l

theorem ens_observeExtensionElements (l : List QEV) : EnsM (observeExtensionElements perm l) fun _ => True :=
  EnsM.forM (fun _ => ens_observeElements hperm _) l

theorem ens_observeOpenings (l : List (List QEV)) : EnsM (observeOpenings perm l) fun _ => True :=
  EnsM.forM (ens_observeExtensionElements hperm) l

theorem ens_getChallenge : EnsM (getChallenge perm) fun x => x.val < p := fun c hc => by
  unfold getChallenge
  refine Ens.bind (Q := Ready) ?_ fun c' hc' => ?_
  · split
    · exact Ens.bind (ens_duplexing hperm c) fun r hr => Ens.pure hr
    · exact Ens.pure hc
  · split
    · intro y hy; simp [goPanic, Sat] at hy
    · next x hx =>
      exact Ens.pure ⟨hc' x (List.mem_of_getLast? hx), fun y hy => hc' y (List.mem_of_mem_dropLast hy)⟩

theorem ens_getNChallenges (n : ℕ) : EnsM (getNChallenges perm n) fun l => l.length = n ∧ ∀ x ∈ l, x.val < p := by
  have := EnsM.mapM (fun _ : ℕ => ens_getChallenge hperm) (List.range n)
  rwa [List.length_range] at this

theorem ens_getExtensionChallenge : EnsM (getExtensionChallenge perm) CanonicalQE := by
  refine EnsM.bind (ens_getNChallenges hperm 2) fun v hv => ?_
  match v, hv with
  | [a, b], hv => exact EnsM.pure ⟨hv.2 a (by simp), hv.2 b (by simp)⟩

theorem ens_capBeta (l : List Fr) : EnsM (capBeta perm l) CanonicalQE :=
  EnsM.bind (ens_observeCap hperm l) fun _ _ => ens_getExtensionChallenge hperm

theorem ens_getFriChallenges (caps : List (List Fr)) (fp : List QEV) (pow : Fr) (cfg : FriConfig) :
    EnsM (getFriChallenges perm caps fp pow cfg) fun ch => ∃ ch' : FriChallenges Fp QE, ch = ch'.enc := by
  refine EnsM.bind (ens_getExtensionChallenge hperm) fun a ha => EnsM.bind (EnsM.mapM (ens_capBeta hperm) _) fun b hb =>
    EnsM.bind (ens_observeExtensionElements hperm _) fun _ _ => EnsM.bind (ens_observeElement hperm _) fun _ _ =>
    EnsM.bind (ens_getChallenge hperm) fun w hw => EnsM.bind (ens_getNChallenges hperm _) fun q hq => EnsM.pure ?_
  obtain ⟨a', rfl⟩ := exists_embQ ha
  obtain ⟨b', rfl⟩ := mapQ hb.2
  obtain ⟨w', rfl⟩ := exists_emb hw
  obtain ⟨q', rfl⟩ := exists_map (f := emb) fun x hx => exists_emb (hq.2 x hx)
  exact ⟨⟨a', b', w', q'⟩, rfl⟩

theorem ens_getChallenges (c : CommonCircuitData) (proof : Proof Fr QEV) (h : Fin 4 → Fr)
    (vd : VerifierOnlyCircuitData) :
    Ens (getChallenges perm c proof h vd) fun ch => ∃ ch' : ProofChallenges Fp QE, ch = ch'.enc ∧
      ch'.plonkBetas.length = c.config.numChallenges ∧ ch'.plonkGammas.length = c.config.numChallenges ∧
      ch'.plonkAlphas.length = c.config.numChallenges := by
  have key : EnsM (challengesM perm c proof h vd) fun ch => ∃ ch' : ProofChallenges Fp QE, ch = ch'.enc ∧
      ch'.plonkBetas.length = c.config.numChallenges ∧ ch'.plonkGammas.length = c.config.numChallenges ∧
      ch'.plonkAlphas.length = c.config.numChallenges := by
    refine EnsM.bind (ens_observeBN254Hash hperm _) fun _ _ => EnsM.bind (ens_observeElements hperm _) fun _ _ =>
      EnsM.bind (ens_observeCap hperm _) fun _ _ => EnsM.bind (ens_getNChallenges hperm _) fun b hb =>
      EnsM.bind (ens_getNChallenges hperm _) fun g hg => EnsM.bind (ens_observeCap hperm _) fun _ _ =>
      EnsM.bind (ens_getNChallenges hperm _) fun a ha => EnsM.bind (ens_observeCap hperm _) fun _ _ =>
      EnsM.bind (ens_getExtensionChallenge hperm) fun z hz => EnsM.bind (ens_observeOpenings hperm _) fun _ _ =>
      EnsM.bind (ens_getFriChallenges hperm _ _ _ _) fun f hf => EnsM.pure ?_
    obtain ⟨b', rfl⟩ := exists_map (f := emb) fun x hx => exists_emb (hb.2 x hx)
    obtain ⟨g', rfl⟩ := exists_map (f := emb) fun x hx => exists_emb (hg.2 x hx)
    obtain ⟨a', rfl⟩ := exists_map (f := emb) fun x hx => exists_emb (ha.2 x hx)
    obtain ⟨z', rfl⟩ := exists_embQ hz
    obtain ⟨f', rfl⟩ := hf
    exact ⟨⟨b', g', a', z', f'⟩, rfl, by simpa using hb.1, by simpa using hg.1, by simpa using ha.1⟩
  refine Ens.bind (key newChip (fun x hx => absurd hx List.not_mem_nil)) fun r hr => Ens.pure hr.1

end

/-! ## The checks -/

theorem shape_of_fits {c : CommonCircuitData} {gates : List Gates.Gate} {vd : VerifierOnlyCircuitData}
    {x : Proof Fp QE} (h : Fits c gates vd x) {ch : ProofChallenges Fp QE}
    (h1 : ch.plonkBetas.length = c.config.numChallenges) (h2 : ch.plonkGammas.length = c.config.numChallenges)
    (h3 : ch.plonkAlphas.length = c.config.numChallenges) : Spec.Plonk.Shape c gates ch x.openings where
  degree := by have := h.degree; omega
  factor := h.factor
  chunks := h.chunks
  gatesOk := h.gatesOk
  counts := h.counts
  kIs := h.kIs
  kIsLt := h.kIsLt
  betas := h1.ge
  gammas := h2.ge
  alphas := h3.ge
  wires := h.wires
  sigmas := h.sigmas
  zs := h.zs
  zsNext := h.zsNext
  partialProducts := h.partialProducts
  quotients := h.quotients

theorem supported_of_fits {c : CommonCircuitData} {gates : List Gates.Gate} {vd : VerifierOnlyCircuitData}
    {x : Proof Fp QE} (h : Fits c gates vd x) (zeta : QE) :
    Spec.Fri.Supported c.friParams (Spec.Fri.plonkInstance c zeta) (Fri.toOpenings x.openings)
      [vd.constantSigmasCap, x.wiresCap, x.plonkZsPartialProductsCap, x.quotientPolysCap] where
  domain := h.domain
  pow := h.pow
  arities := h.arities
  caps := ⟨rfl, by
    obtain ⟨h1, h2, h3, h4⟩ := h.caps
    intro cap hcap
    simp only [List.mem_cons, List.not_mem_nil, or_false] at hcap
    rcases hcap with rfl | rfl | rfl | rfl <;> assumption⟩
  openings := rfl
  batches := Fri.instance_batches c zeta

/-- The checks, for given hash and challenges. -/
def checksCirc (c : CommonCircuitData) (gates : List Gates.Gate) (vd : VerifierOnlyCircuitData) (proof : Proof Fr QEV)
    (h : Fin 4 → Fr) (ch : ProofChallenges Fr QEV) : Circ Unit := do
  Plonk.verify c gates ch proof.openings h
  let inst ← Fri.getInstance c ch.plonkZeta
  Fri.verifyFriProof c.friParams inst (Fri.toOpenings proof.openings) ch.friChallenges
    [vd.constantSigmasCap, proof.wiresCap, proof.plonkZsPartialProductsCap, proof.quotientPolysCap] proof.openingProof

theorem verify_eq (perm : State → Circ State) (c : CommonCircuitData) (gates : List Gates.Gate) (proof : Proof Fr QEV)
    (pis : List Fr) (vd : VerifierOnlyCircuitData) : verify perm c gates proof pis vd = (do
      rangeCheckProof proof
      let h ← getPublicInputsHash perm pis
      let ch ← getChallenges perm c proof h vd
      checksCirc c gates vd proof h ch) := rfl

theorem den_checksCirc {c : CommonCircuitData} {gates : List Gates.Gate} {vd : VerifierOnlyCircuitData}
    {x : Proof Fp QE} (hf : Fits c gates vd x) (h : Fin 4 → Fp) {ch : ProofChallenges Fp QE}
    (h1 : ch.plonkBetas.length = c.config.numChallenges) (h2 : ch.plonkGammas.length = c.config.numChallenges)
    (h3 : ch.plonkAlphas.length = c.config.numChallenges) :
    den (checksCirc c gates vd x.enc (fun i => emb (h i)) ch.enc) = Den.assert (Checks c gates vd x h ch) := by
  have e1 := Plonk.den_verify (hsh := h) (shape_of_fits hf h1 h2 h3)
  have e2 := Fri.den_getInstance c hf.degree ch.plonkZeta
  have e3 := Fri.den_verifyFriProof (supported_of_fits hf ch.plonkZeta) ch.friChallenges x.openingProof
  rw [← Fri.toOpenings_enc] at e3
  unfold checksCirc
  rw [den_bind]
  refine (congrArg (· >>= _) e1).trans ?_
  simp only [den_bind]
  refine (congrArg (Den.assert _ >>= ·) (funext fun _ => (congrArg (· >>= _) e2).trans
    ((pure_bind _ _).trans e3))).trans ?_
  rw [Den.assert_bind_assert]
  exact Den.assert_congr ⟨fun h => ⟨h.1.1, h.1.2, h.2⟩, fun h => ⟨⟨h.1, h.2⟩, h.3⟩⟩

theorem fits_enc {c : CommonCircuitData} {gates : List Gates.Gate} {vd : VerifierOnlyCircuitData} {x : Proof Fp QE}
    (h : Fits c gates vd x.enc) : Fits c gates vd x := by
  obtain ⟨h1, h2, h3, h4, h5, h6, h7, h8, h9, h10, h11, h12, h13, h14, h15, h16, h17⟩ := h
  simp only [Proof.enc, OpeningSet.enc, List.length_map] at h4 h8 h9 h10 h11 h12 h13
  exact ⟨h1, h2, h3, h4, h5, h6, h7, h8, h9, h10, h11, h12, h13, h14, h15, h16, h17⟩

theorem fits_to_enc {c : CommonCircuitData} {gates : List Gates.Gate} {vd : VerifierOnlyCircuitData} {x : Proof Fp QE}
    (h : Fits c gates vd x) : Fits c gates vd x.enc := by
  obtain ⟨h1, h2, h3, h4, h5, h6, h7, h8, h9, h10, h11, h12, h13, h14, h15, h16, h17⟩ := h
  refine ⟨h1, h2, h3, ?_, h5, h6, h7, ?_, ?_, ?_, ?_, ?_, ?_, h14, h15, h16, h17⟩
  all_goals simp only [Proof.enc, OpeningSet.enc, List.length_map]
  all_goals assumption

theorem nsq_transcript (n q : ℕ) (d : Fr) (pih : Fin 4 → Fp) (x : Proof Fp QE) :
    nsq (Spec.transcript n q d pih x) = 3 * n + 4 + 2 * x.openingProof.commitCaps.length + (q + 1) := by
  simp only [Spec.transcript, nsq_append, nsq_absorbs, nsq_squeezes, nsq_caps]
  omega

theorem length_challenges (P : (Fin 12 → Fp) → Fin 12 → Fp) (n q : ℕ) (d : Fr) (pih : Fin 4 → Fp) (x : Proof Fp QE) :
    (Spec.challenges P n q d pih x).plonkBetas.length = n ∧ (Spec.challenges P n q d pih x).plonkGammas.length = n ∧
      (Spec.challenges P n q d pih x).plonkAlphas.length = n := by
  have h : (Spec.Sponge.init.outputs P (Spec.transcript n q d pih x)).length =
    3 * n + 4 + 2 * x.openingProof.commitCaps.length + (q + 1) := by rw [length_outputs, nsq_transcript]
  unfold Spec.challenges
  generalize Spec.Sponge.init.outputs P (Spec.transcript n q d pih x) = o at h
  simp only [Spec.challengesOf, List.length_take, List.length_drop]
  omega

/-! ## `Verify` -/

theorem den_verify {perm : State → Circ State} {P : (Fin 12 → Fp) → Fin 12 → Fp} (hP : ExactPerm perm P)
    {c : CommonCircuitData} {gates : List Gates.Gate} {vd : VerifierOnlyCircuitData} {proof : Proof Fr QEV}
    (hf : Fits c gates vd proof) (pis : List Fr) :
    den (verify perm c gates proof pis vd) = Den.assert (∃ x : Proof Fp QE, proof = x.enc ∧
      (∀ v ∈ pis, v.val < 2 ^ 144 * p) ∧ Accepts P c gates vd x (pis.map residue)) := by
  rw [verify_eq, den_bind, den_rangeCheckProof]
  by_cases hc : Canonical proof
  · rw [Den.assert_true hc, pure_bind]
    obtain ⟨x, rfl⟩ := (canonical_iff _).1 hc
    simp only [den_bind]
    rw [den_inputsHash hP]
    by_cases hv : ∀ v ∈ pis, v.val < 2 ^ 144 * p
    · rw [Den.assert_true hv, pure_bind, pure_bind, den_getChallenges hP, pure_bind]
      obtain ⟨h1, h2, h3⟩ := length_challenges P c.config.numChallenges c.config.friConfig.numQueryRounds
        vd.circuitDigest (inputsHash P (pis.map residue)) x
      rw [den_checksCirc (fits_enc hf) _ h1 h2 h3]
      refine Den.assert_congr ⟨fun h => ⟨x, rfl, hv, h⟩, ?_⟩
      rintro ⟨y, hy, -, h⟩
      rwa [enc_injective hy]
    · rw [Den.assert_false hv, Den.fail_bind, Den.fail_bind]
      exact (Den.assert_false fun ⟨_, _, h, _⟩ => hv h).symm
  · rw [Den.assert_false hc, Den.fail_bind]
    exact (Den.assert_false fun ⟨x, h, _⟩ => hc ((canonical_iff _).2 ⟨x, h⟩)).symm

theorem sat_verify {perm : State → Circ State} (hperm : ∀ s, Ens (perm s) fun t => ∀ i, (t i).val < p)
    {c : CommonCircuitData} {gates : List Gates.Gate} {vd : VerifierOnlyCircuitData} {proof : Proof Fr QEV}
    (hf : Fits c gates vd proof) (pis : List Fr) :
    Sat (verify perm c gates proof pis vd) () ↔ ∃ (x : Proof Fp QE) (h : Fin 4 → Fp) (ch : ProofChallenges Fp QE),
      proof = x.enc ∧ Sat (getPublicInputsHash perm pis) (fun i => emb (h i)) ∧
      Sat (getChallenges perm c proof (fun i => emb (h i)) vd) ch.enc ∧ Checks c gates vd x h ch := by
  have hrc := (den_eq_assert_iff _ _).1 (den_rangeCheckProof proof)
  rw [verify_eq, sat_bind]
  simp only [sat_bind]
  constructor
  · rintro ⟨_, h1, h, h2, ch, h3, h4⟩
    obtain ⟨x, rfl⟩ := (canonical_iff _).1 (hrc.1.1 h1)
    obtain ⟨h', rfl⟩ : ∃ h' : Fin 4 → Fp, h = fun i => emb (h' i) :=
      ⟨fun i => residue (h i), funext fun i => (emb_residue (ens_inputsHash hperm pis h h2 i)).symm⟩
    obtain ⟨ch', rfl, l1, l2, l3⟩ := ens_getChallenges hperm _ _ _ _ ch h3
    exact ⟨x, h', ch', rfl, h2, h3,
      (((den_eq_assert_iff _ _).1 (den_checksCirc (fits_enc hf) h' l1 l2 l3)).1.1 h4)⟩
  · rintro ⟨x, h, ch, rfl, h2, h3, h4⟩
    obtain ⟨ch', e, l1, l2, l3⟩ := ens_getChallenges hperm _ _ _ _ _ h3
    rw [← ProofChallenges.enc_injective e] at l1 l2 l3
    exact ⟨(), hrc.1.2 ((canonical_iff _).2 ⟨x, rfl⟩), _, h2, _, h3,
      ((den_eq_assert_iff _ _).1 (den_checksCirc (fits_enc hf) h l1 l2 l3)).1.2 h4⟩

theorem ref_verify {perm perm' : State → Circ State} (h : ∀ s, Ref (perm s) (perm' s)) (c : CommonCircuitData)
    (gates : List Gates.Gate) (vd : VerifierOnlyCircuitData) (proof : Proof Fr QEV) (pis : List Fr) :
    Ref (verify perm c gates proof pis vd) (verify perm' c gates proof pis vd) :=
  Ref.bind (Ref.refl _) fun _ => Ref.bind (Ref.hashNoPadWith h _) fun _ => Ref.bind (ref_getChallenges h _ _ _ _)
    fun _ => Ref.refl _

end Verif.Verifier
