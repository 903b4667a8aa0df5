import Verif.Proofs.Malleable
import Verif.Proofs.WitnessInputs

/-!
# The proof of `WitnessInputs` with another proof-of-work witness
-/

set_option autoImplicit false

namespace Verif.WitnessPow

open Spec (Ev residue)
open Spec.Free
open Evaluate Witness WitnessInputs

/-- The other proof-of-work witness. -/
abbrev other : ℕ := 7588314135521037498

theorem waiting_absorbs {R : St → St → Prop} (l : List Fr) {k k' : Conf} {o : List Fp} (hl : l ≠ [])
    (hk : k.waiting.length + l.length = 8) (h : Run R (Spec.absorbs l) k o k') : k'.waiting = [] := by
  induction l generalizing k o with
  | nil => exact absurd rfl hl
  | cons x l ih =>
    obtain ⟨m, a, b, ⟨-, hs⟩, hr, -⟩ := h
    split_ifs at hs with hlen
    · subst hs
      refine ih (fun e => ?_) ?_ hr
      · subst e; simp at hk; omega
      · simp at hk ⊢; omega
    · obtain ⟨t, -, rfl⟩ := hs
      have : l = [] := List.eq_nil_of_length_eq_zero (by simp at hk; omega)
      subst this
      rw [hr.2]

theorem waiting_squeeze {R : St → St → Prop} {k k' : Conf} {o : List Fp} (h : Step R k .squeeze o k') : k'.waiting = [] := by
  simp only [Step] at h
  split_ifs at h
  · rw [h.2]
  · obtain ⟨t, -, -, rfl⟩ := h; rfl

/-- A read and eight absorbed elements leave nothing waiting. -/
theorem waiting_eight {R : St → St → Prop} (l : List Ev) (e : List Fr) (he : e.length = 8) {k k' : Conf} {o : List Fp}
    (h : Run R (l ++ .squeeze :: Spec.absorbs e) k o k') : k'.waiting = [] := by
  obtain ⟨m, a, b, -, ⟨m', a', b', h1, h2, -⟩, -⟩ := (Freedom.run_append _ _ _ _ _).1 h
  exact waiting_absorbs e (by rintro rfl; simp at he) (by rw [waiting_squeeze h1, he]; rfl) h2

theorem sbox : SBox ((other : Fp) + (Spec.rc 0 0 : Fp)) ((((33965 : ℕ) : Fp) + (Spec.rc 0 0 : Fp)) ^ 7) :=
  ⟨0, 1, by norm_num, by norm_num, by decide +kernel⟩

theorem sbox_mono (x y : Fp) (h : y = x ^ 7) : SBox x y := ⟨0, 0, by norm_num, by norm_num, by rw [h]; push_cast; ring⟩

/-- The permutation that absorbs the witness. -/
theorem perm_shared {s t : St} (h : Perm (fun x y => y = x ^ 7) (over s [((33965 : ℕ) : Fp)]) t) :
    Perm SBox (over s [(other : Fp)]) t := by
  obtain ⟨a, b, ⟨m, ⟨u, hu, rfl⟩, h1⟩, h2, h3⟩ := h
  refine ⟨a, b, ⟨_, ⟨u, fun j => ?_, rfl⟩, Freedom.rounds_mono (fun i s t => Freedom.fullRound_mono sbox_mono) h1⟩,
    Freedom.rounds_mono (fun i s t => Freedom.partialRound_mono sbox_mono) h2,
    Freedom.rounds_mono (fun i s t => Freedom.fullRound_mono sbox_mono) h3⟩
  by_cases hj : j = 0
  · subst hj
    rw [hu 0]
    exact sbox
  · have e : over s [(other : Fp)] j = over s [((33965 : ℕ) : Fp)] j := by
      match j, hj with
      | ⟨0, _⟩, hj => exact absurd rfl hj
      | ⟨k + 1, hk⟩, _ => rfl
    have := sbox_mono _ _ (hu j)
    rwa [← e] at this

theorem run_shared (l l' : List Ev) (e : List Fr) (he : e.length = 8) {k : Conf} {o : List Fp}
    (h : Run (Perm fun x y => y = x ^ 7)
      ((l ++ .squeeze :: Spec.absorbs e) ++ .absorb (emb ((33965 : ℕ) : Fp)) :: .squeeze :: l') .init o k) :
    Run (Perm SBox) ((l ++ .squeeze :: Spec.absorbs e) ++ .absorb (emb (other : Fp)) :: .squeeze :: l') .init o k := by
  obtain ⟨m, a, b, h1, h2, rfl⟩ := (Freedom.run_append _ _ _ _ _).1 h
  have hm : ∀ s t : St, Perm (fun x y => y = x ^ 7) s t → Perm SBox s t := fun s t => Freedom.perm_mono sbox_mono
  refine (Freedom.run_append _ _ _ _ _).2 ⟨m, a, b, Freedom.run_mono hm h1, ?_, rfl⟩
  have hw := waiting_eight l e he h1
  obtain ⟨m1, a1, b1, ⟨rfl, hs⟩, ⟨m2, a2, b2, hs2, hr, rfl⟩, rfl⟩ := h2
  rw [hw, if_pos (by simp)] at hs
  subst hs
  simp only [Step, List.nil_append, List.cons_ne_nil, false_and, if_false] at hs2
  obtain ⟨t, ht, rfl, rfl⟩ := hs2
  refine ⟨⟨m.state, [emb (other : Fp)], 0⟩, [], _, ⟨rfl, ?_⟩, ⟨_, [t 7], b2, ?_, Freedom.run_mono hm hr, rfl⟩, rfl⟩
  · rw [hw, if_pos (by simp)]; rfl
  · simp only [Step, List.cons_ne_nil, false_and, if_false]
    refine ⟨t, ?_, rfl, rfl⟩
    simp only [List.map_cons, List.map_nil, Challenger.residue_emb] at ht ⊢
    exact perm_shared ht

/-- The proof. -/
noncomputable def proof : Proof Fp QE := Malleable.withPow WitnessInputs.proof (other : Fp)

set_option maxRecDepth 100000 in
theorem out_pow : outN permN (List.replicate 12 0) (phasesOf hash1 (List.replicate 16 11) (List.replicate 16 1)
    (List.replicate 16 0) WitnessInputs.openN WitnessInputs.finN other) =
    [3910204982719713263, 17358163989117054086, 7312707062953442083, 17676334645411510829, 12079439762223289844,
    6604673926781406951, 726663456494119419, 13497661413645093982, 3658496287656108628] := by
  decide +kernel

/-- The textbook verifier rejects it: not enough proof of work. -/
theorem rejects : ¬ Spec.Verifier.Accepts Spec.poseidon (HonestProof.data 16) HonestProof.gates (HonestProof.vd 1) proof [1] := by
  intro h
  have h1 : (Spec.challenges Spec.poseidon 1 1 1 (Spec.Verifier.inputsHash Spec.poseidon [1]) proof).friChallenges.powResponse.val <
    2 ^ (64 - 16) := h.fri.pow
  have hc : Spec.challenges Spec.poseidon 1 1 1 (Spec.Verifier.inputsHash Spec.poseidon [1]) proof =
      Spec.challengesOf 1 0 ([3910204982719713263, 17358163989117054086, 7312707062953442083, 17676334645411510829, 12079439762223289844,
      6604673926781406951, 726663456494119419, 13497661413645093982, 3658496287656108628].map ((↑) : ℕ → Fp)) := by
    refine outputs_proof_of runs_permN _ _ hash1 (List.replicate 16 11) (List.replicate 16 1) (List.replicate 16 0)
      WitnessInputs.openN WitnessInputs.finN other hash_one ?_ ?_ ?_
      WitnessInputs.coords_openings WitnessInputs.coords_final rfl rfl (by decide +kernel) (by decide +kernel) _ out_pow
    · have := constCap_eq 11 (by norm_num [p])
      rwa [show ((11 : ℕ) : Fp) = 11 from rfl] at this
    · have := constCap_eq 1 (by norm_num [p])
      rwa [Nat.cast_one] at this
    · have := constCap_eq 0 (by norm_num [p])
      rwa [Nat.cast_zero] at this
  rw [hc] at h1
  revert h1
  decide +kernel

/-- The code's circuit admits it. -/
theorem free_accepts : Accepts SBox (HonestProof.data 16) HonestProof.gates (HonestProof.vd 1) proof [1] := by
  obtain ⟨h, o, k, hh, hr, hc⟩ := (Freedom.accepts_graph _ _ _ _ _).2 WitnessInputs.accepts
  refine ⟨h, o, k, ?_, ?_, Malleable.checks_pow _ hc⟩
  · obtain ⟨t, ht, ho⟩ := hh
    exact ⟨t, Freedom.absorb_mono (fun s t => Freedom.perm_mono sbox_mono) ht, ho⟩
  · let x := WitnessInputs.proof
    let o' := x.openings
    have key : ∀ w, Spec.transcript 1 1 1 h (Malleable.withPow x w) =
      ((Spec.absorbs (Spec.limbs 1 ++ (List.ofFn h).map emb ++ Spec.capElems x.wiresCap) ++
        Spec.squeezes 1 ++ Spec.squeezes 1 ++ Spec.absorbs (Spec.capElems x.plonkZsPartialProductsCap) ++
        Spec.squeezes 1 ++ Spec.absorbs (Spec.capElems x.quotientPolysCap) ++ Spec.squeezes 2 ++
        Spec.absorbs (Spec.coords (o'.constants ++ o'.plonkSigmas ++ o'.wires ++ o'.plonkZs ++ o'.partialProducts ++
          o'.quotientPolys ++ o'.plonkZsNext)) ++ Spec.squeezes 1) ++
        .squeeze :: Spec.absorbs (Spec.coords x.openingProof.finalPoly)) ++ .absorb (emb w) :: .squeeze :: Spec.squeezes 1 := by
      intro w
      simp only [Spec.transcript, Malleable.withPow, Spec.absorbs, List.map_append, List.map_cons, List.map_nil,
        List.append_assoc, List.cons_append, List.nil_append]
      rfl
    show Run _ (Spec.transcript 1 1 1 h (Malleable.withPow x (other : Fp))) _ _ _
    have hr' : Run (Perm fun x y => y = x ^ 7) (Spec.transcript 1 1 1 h (Malleable.withPow x ((33965 : ℕ) : Fp))) .init o k := hr
    rw [key] at hr' ⊢
    exact run_shared _ _ _ (by simp [x, WitnessInputs.proof, HonestProof.proof, Spec.coords]) hr'

end Verif.WitnessPow
