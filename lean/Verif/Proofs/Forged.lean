import Verif.Proofs.Verifier

/-!
# Runs chosen by the prover

The prover may take any admitted output of every call of the code's permutation; in particular any function of the state.
-/

set_option autoImplicit false

namespace Verif.Circ

variable {α β : Type}

/-- Everything admitted by `c` is admitted by `c'`. -/
def Adm (c c' : Circ α) : Prop := ∀ y, Sat c y → Sat c' y

theorem Adm.refl (c : Circ α) : Adm c c := fun _ h => h

theorem Adm.bind {c c' : Circ α} {f f' : α → Circ β} (h : Adm c c') (hf : ∀ a, Adm (f a) (f' a)) :
    Adm (c >>= f) (c' >>= f') := by
  intro y hy
  rw [sat_bind] at hy ⊢
  obtain ⟨a, h1, h2⟩ := hy
  exact ⟨a, h a h1, hf a y h2⟩

end Verif.Circ

namespace Verif.PoseidonGL

open Circ

theorem adm_absorbLoop {perm perm' : State → Circ State} (h : ∀ s, Adm (perm s) (perm' s)) (s : State)
    (l : List Fr) : Adm (absorbLoop perm s l) (absorbLoop perm' s l) := by
  induction hn : l.length using Nat.strong_induction_on generalizing l s with
  | _ n ih =>
    cases l with
    | nil => rw [PoseidonGL.absorbLoop, PoseidonGL.absorbLoop]; exact Adm.refl _
    | cons x xs =>
      rw [PoseidonGL.absorbLoop, PoseidonGL.absorbLoop]
      exact Adm.bind (h _) fun s => ih _ (by rw [← hn]; simp [SPONGE_RATE]) _ _ rfl

theorem adm_squeezeLoop {perm perm' : State → Circ State} (h : ∀ s, Adm (perm s) (perm' s)) (s : State)
    (n : ℕ) : Adm (squeezeLoop perm s n) (squeezeLoop perm' s n) := by
  induction n using Nat.strong_induction_on generalizing s with
  | _ n ih =>
    rw [PoseidonGL.squeezeLoop, PoseidonGL.squeezeLoop]
    split
    · exact Adm.refl _
    · next hn =>
      exact Adm.bind (h _) fun s => Adm.bind (ih _ (by simp only [SPONGE_RATE] at *; omega) _)
        fun _ => Adm.refl _

theorem adm_hashNToMNoPadWith {perm perm' : State → Circ State} (h : ∀ s, Adm (perm s) (perm' s))
    (l : List Fr) (n : ℕ) : Adm (hashNToMNoPadWith perm l n) (hashNToMNoPadWith perm' l n) := by
  unfold PoseidonGL.hashNToMNoPadWith
  split
  · exact Adm.refl _
  · exact Adm.bind (adm_absorbLoop h _ _) fun _ => adm_squeezeLoop h _ _

theorem adm_hashNoPadWith {perm perm' : State → Circ State} (h : ∀ s, Adm (perm s) (perm' s))
    (l : List Fr) : Adm (hashNoPadWith perm l) (hashNoPadWith perm' l) :=
  Adm.bind (Adm.refl _) fun _ => Adm.bind (adm_hashNToMNoPadWith h _ _) fun _ =>
    Adm.refl _

end Verif.PoseidonGL

namespace Verif.Challenger

open Circ PoseidonGL

variable {perm perm' : State → Circ State} {α β σ : Type}

/-- Method-wise. -/
def AdmM (m m' : ChipM α) : Prop := ∀ c, Adm (m c) (m' c)

theorem AdmM.refl (m : ChipM α) : AdmM m m := fun _ => Adm.refl _

theorem AdmM.bind {m m' : ChipM α} {k k' : α → ChipM β} (h : AdmM m m') (hk : ∀ a, AdmM (k a) (k' a)) :
    AdmM (m >>= k) (m' >>= k') := fun c => Adm.bind (h c) fun r => hk r.1 r.2

theorem AdmM.forM {m m' : σ → ChipM Unit} (h : ∀ x, AdmM (m x) (m' x)) (l : List σ) :
    AdmM (l.forM m) (l.forM m') := by
  induction l with
  | nil => exact AdmM.refl _
  | cons a l ih => rw [List.forM, List.forM]; exact AdmM.bind (h a) fun _ => ih

theorem AdmM.mapM {m m' : σ → ChipM β} (h : ∀ x, AdmM (m x) (m' x)) (l : List σ) :
    AdmM (l.mapM m) (l.mapM m') := by
  induction l with
  | nil => exact AdmM.refl _
  | cons a l ih =>
    rw [List.mapM_cons, List.mapM_cons]
    exact AdmM.bind (h a) fun _ => AdmM.bind ih fun _ => AdmM.refl _

section
variable (h : ∀ s, Adm (perm s) (perm' s))
include h

theorem adm_duplexing : AdmM (duplexing perm) (duplexing perm') := fun c => by
  unfold duplexing
  split
  · exact Adm.refl _
  · exact Adm.bind (Adm.refl _) fun _ => Adm.bind (h _) fun _ => Adm.refl _

theorem adm_observeElement (x : Fr) : AdmM (observeElement perm x) (observeElement perm' x) := fun c => by
  unfold observeElement
  simp only
  split
  · exact adm_duplexing h _
  · exact Adm.refl _

theorem adm_observeElements (l : List Fr) : AdmM (observeElements perm l) (observeElements perm' l) :=
  AdmM.forM (adm_observeElement h) l

theorem adm_observeBN254Hash (x : Fr) : AdmM (observeBN254Hash perm x) (observeBN254Hash perm' x) :=
  AdmM.bind (AdmM.refl _) fun _ => adm_observeElements h _

theorem adm_observeCap (l : List Fr) : AdmM (observeCap perm l) (observeCap perm' l) :=
  AdmM.forM (adm_observeBN254Hash h) l

theorem adm_observeExtensionElements (l : List QEV) :
    AdmM (observeExtensionElements perm l) (observeExtensionElements perm' l) :=
  AdmM.forM (fun _ => adm_observeElements h _) l

theorem adm_observeOpenings (l : List (List QEV)) : AdmM (observeOpenings perm l) (observeOpenings perm' l) :=
  AdmM.forM (adm_observeExtensionElements h) l

theorem adm_getChallenge : AdmM (getChallenge perm) (getChallenge perm') := fun c => by
  unfold getChallenge
  refine Adm.bind ?_ fun _ => Adm.refl _
  split
  · exact Adm.bind (adm_duplexing h _) fun _ => Adm.refl _
  · exact Adm.refl _

theorem adm_getNChallenges (n : ℕ) : AdmM (getNChallenges perm n) (getNChallenges perm' n) :=
  AdmM.mapM (fun _ => adm_getChallenge h) _

theorem adm_getExtensionChallenge : AdmM (getExtensionChallenge perm) (getExtensionChallenge perm') :=
  AdmM.bind (adm_getNChallenges h 2) fun _ => AdmM.refl _

theorem adm_getHash : AdmM (getHash perm) (getHash perm') :=
  AdmM.bind (adm_getChallenge h) fun _ => AdmM.bind (adm_getChallenge h) fun _ => AdmM.bind (adm_getChallenge h) fun _ =>
    AdmM.bind (adm_getChallenge h) fun _ => AdmM.refl _

theorem adm_capBeta (l : List Fr) : AdmM (capBeta perm l) (capBeta perm' l) :=
  AdmM.bind (adm_observeCap h l) fun _ => adm_getExtensionChallenge h

theorem adm_getFriChallenges (caps : List (List Fr)) (fp : List QEV) (pow : Fr) (cfg : FriConfig) :
    AdmM (getFriChallenges perm caps fp pow cfg) (getFriChallenges perm' caps fp pow cfg) :=
  AdmM.bind (adm_getExtensionChallenge h) fun _ => AdmM.bind (AdmM.mapM (adm_capBeta h) _) fun _ =>
    AdmM.bind (adm_observeExtensionElements h _) fun _ => AdmM.bind (adm_observeElement h _) fun _ =>
    AdmM.bind (adm_getChallenge h) fun _ => AdmM.bind (adm_getNChallenges h _) fun _ => AdmM.refl _

theorem adm_challengesM (c : CommonCircuitData) (proof : Proof Fr QEV) (pih : Fin 4 → Fr)
    (vd : VerifierOnlyCircuitData) :
    AdmM (Verifier.challengesM perm c proof pih vd) (Verifier.challengesM perm' c proof pih vd) :=
  AdmM.bind (adm_observeBN254Hash h _) fun _ => AdmM.bind (adm_observeElements h _) fun _ =>
    AdmM.bind (adm_observeCap h _) fun _ => AdmM.bind (adm_getNChallenges h _) fun _ =>
    AdmM.bind (adm_getNChallenges h _) fun _ => AdmM.bind (adm_observeCap h _) fun _ =>
    AdmM.bind (adm_getNChallenges h _) fun _ => AdmM.bind (adm_observeCap h _) fun _ =>
    AdmM.bind (adm_getExtensionChallenge h) fun _ => AdmM.bind (adm_observeOpenings h _) fun _ =>
    AdmM.bind (adm_getFriChallenges h _ _ _ _) fun _ => AdmM.refl _

theorem adm_getChallenges (c : CommonCircuitData) (proof : Proof Fr QEV) (pih : Fin 4 → Fr)
    (vd : VerifierOnlyCircuitData) :
    Adm (Verifier.getChallenges perm c proof pih vd) (Verifier.getChallenges perm' c proof pih vd) :=
  Adm.bind (adm_challengesM h c proof pih vd _) fun _ => Adm.refl _

end

end Verif.Challenger

namespace Verif.Verifier

open Circ PoseidonGL Challenger Spec.Verifier
open Spec (residue)

theorem adm_verify {perm perm' : State → Circ State} (h : ∀ s, Adm (perm s) (perm' s)) (c : CommonCircuitData)
    (gates : List Gates.Gate) (vd : VerifierOnlyCircuitData) (proof : Proof Fr QEV) (pis : List Fr) :
    Adm (verify perm c gates proof pis vd) (verify perm' c gates proof pis vd) :=
  Adm.bind (Adm.refl _) fun _ => Adm.bind (adm_hashNoPadWith h _) fun _ => Adm.bind (adm_getChallenges h _ _ _ _)
    fun _ => Adm.refl _

open Classical in
/-- The permutation circuit of a prover who answers with `P`. -/
noncomputable def chosen (P : (Fin 12 → Fp) → Fin 12 → Fp) (st : State) : Circ State :=
  if st = (fun i => emb (residue (st i))) then pure fun i => emb (P (fun i => residue (st i)) i) else poseidon st

theorem chosen_exact (P : (Fin 12 → Fp) → Fin 12 → Fp) : ExactPerm (chosen P) P := by
  intro s
  have e : (fun i => residue (emb (s i))) = s := funext fun i => residue_emb (s i)
  rw [chosen, if_pos (by simp only [residue_emb]), den_pure, e]

theorem chosen_adm {P : (Fin 12 → Fp) → Fin 12 → Fp}
    (hP : ∀ s : Fin 12 → Fp, Sat (poseidon fun i => emb (s i)) fun i => emb (P s i)) (st : State) :
    Adm (chosen P st) (poseidon st) := by
  unfold chosen
  split
  · next h =>
    intro y hy
    rw [(sat_pure _ _).1 hy, h]
    simp only [residue_emb]
    exact hP _
  · exact Adm.refl _

/-- Whatever outputs of the permutation the prover chooses among the admitted ones: a proof accepted by the verifier over
them satisfies the circuit. -/
theorem sat_verify_chosen {P : (Fin 12 → Fp) → Fin 12 → Fp}
    (hP : ∀ s : Fin 12 → Fp, Sat (poseidon fun i => emb (s i)) fun i => emb (P s i))
    {c : CommonCircuitData} {gates : List Gates.Gate} {vd : VerifierOnlyCircuitData} {proof : Proof Fr QEV}
    (hf : Fits c gates vd proof) (pis : List Fr)
    (h : ∃ x : Proof Fp QE, proof = x.enc ∧ (∀ v ∈ pis, v.val < 2 ^ 144 * p) ∧
      Accepts P c gates vd x (pis.map residue)) :
    Sat (verify poseidon c gates proof pis vd) () :=
  adm_verify (chosen_adm hP) c gates vd proof pis ()
    (((den_eq_assert_iff _ _).1 (den_verify (chosen_exact P) hf pis)).1.2 h)

end Verif.Verifier
