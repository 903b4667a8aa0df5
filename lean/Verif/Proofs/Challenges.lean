import Verif.Proofs.Transcript

/-!
# The Fiat–Shamir challenges
-/

set_option autoImplicit false

namespace Verif.Challenger

open Circ PoseidonGL
open Spec (Sponge Ev residue absorbs squeezes capElems coords limbs extAt)

variable {perm : State → Circ State} {P : (Fin 12 → Fp) → Fin 12 → Fp} {α β σ : Type}

theorem coordsV_emb (l : List QE) : coordsV (l.map embQ) = coords l := by
  rw [coordsV, coords, List.flatMap_map]; rfl

theorem extAt_take (o : List Fp) (i : ℕ) : extAt ((o.drop i).take 2) 0 = extAt o i := by
  unfold extAt
  simp [List.getD_eq_getElem?_getD, List.getElem?_drop]

theorem extAt_drop (o : List Fp) (i j : ℕ) : extAt (o.drop i) j = extAt o (i + j) := by
  unfold extAt
  simp [List.getD_eq_getElem?_getD, add_assoc]

theorem extAt_take_lt (o : List Fp) (i k : ℕ) (h : i + 1 < k) : extAt (o.take k) i = extAt o i := by
  unfold extAt
  have h1 : i < k := by omega
  simp [List.getD_eq_getElem?_getD, h, h1]

theorem nsq_caps (caps : List (List Fr)) :
    nsq (caps.flatMap fun cap => absorbs (capElems cap) ++ squeezes 2) = 2 * caps.length := by
  induction caps with
  | nil => rfl
  | cons a l ih =>
    rw [List.flatMap_cons, nsq_append, nsq_append, nsq_absorbs, nsq_squeezes, ih, List.length_cons]; omega

theorem tracks_capBeta (h : ExactPerm perm P) (cap : List Fr) :
    Tracks P (capBeta perm cap) (absorbs (capElems cap) ++ squeezes 2) fun o => embQ (extAt o 0) :=
  (tracks_observeCap h cap).seq (nsq_absorbs _) (tracks_getExtensionChallenge h)

/-- Events of `GetFriChallenges`. -/
def friEvents (caps : List (List Fr)) (finalPoly : List QE) (pow : Fp) (q : ℕ) : List Ev :=
  squeezes 2 ++ ((caps.flatMap fun cap => absorbs (capElems cap) ++ squeezes 2) ++
    (absorbs (coords finalPoly) ++ (absorbs [emb pow] ++ (squeezes 1 ++ squeezes q))))

/-- FRI challenges from the squeezed elements. -/
def friOf (m : ℕ) (o : List Fp) : FriChallenges Fp QE where
  alpha := extAt o 0
  betas := (List.range m).map fun i => extAt o (2 + 2 * i)
  powResponse := o.getD (2 + 2 * m) 0
  queryIndices := o.drop (2 + 2 * m + 1)

theorem nsq_friEvents (caps : List (List Fr)) (finalPoly : List QE) (pow : Fp) (q : ℕ) :
    nsq (friEvents caps finalPoly pow q) = 2 + 2 * caps.length + 1 + q := by
  simp only [friEvents, nsq_append, nsq_absorbs, nsq_squeezes, nsq_caps]; omega

theorem tracks_getFriChallenges (h : ExactPerm perm P) (caps : List (List Fr)) (finalPoly : List QE) (pow : Fp)
    (cfg : FriConfig) :
    Tracks P (getFriChallenges perm caps (finalPoly.map embQ) (emb pow) cfg)
      (friEvents caps finalPoly pow cfg.numQueryRounds) fun o => (friOf caps.length o).enc := by
  have hcoord := tracks_observeExtensionElements h (finalPoly.map embQ) (by
    intro e he; obtain ⟨a, -, rfl⟩ := List.mem_map.1 he; exact smallQ_embQ a)
  rw [coordsV_emb] at hcoord
  have hcaps := Tracks.mapM (c := 2) caps (fun cap _ => tracks_capBeta h cap) fun cap _ => by
    rw [nsq_append, nsq_absorbs, nsq_squeezes]
  refine Tracks.congr ((tracks_getExtensionChallenge h).bind fun o1 _ => hcaps.bind fun o2 _ =>
    hcoord.seq (nsq_absorbs _) <| (tracks_observeElement h (small_emb pow)).seq rfl <|
    (tracks_getChallenge h).bind fun o3 _ => (tracks_getNChallenges h cfg.numQueryRounds).bind fun o4 _ =>
      Tracks.pure _) ?_ ?_
  · rw [List.append_nil]; rfl
  · intro o ho
    rw [List.append_nil] at ho
    have ho' : o.length = 2 + 2 * caps.length + 1 + cfg.numQueryRounds :=
      ho.trans (nsq_friEvents caps finalPoly pow cfg.numQueryRounds)
    simp only [nsq_squeezes, nsq_caps]
    unfold friOf FriChallenges.enc
    simp only [FriChallenges.mk.injEq]
    refine ⟨?_, ?_, ?_, ?_⟩
    · rw [extAt_take_lt _ _ _ (by norm_num)]
    · rw [List.map_map]
      refine List.map_congr_left fun i hi => ?_
      have hi' : i < caps.length := List.mem_range.1 hi
      simp only [Function.comp_apply]
      rw [extAt_take, extAt_take_lt _ _ _ (by omega), extAt_drop]
    · refine congrArg emb ?_
      simp [List.getD_eq_getElem?_getD]
    · refine congrArg (List.map emb) ?_
      rw [List.drop_drop, List.drop_drop, List.take_of_length_le]
      · congr 1
      · rw [List.length_drop]; omega

theorem openings_coords (o : OpeningSet QE) : (Fri.toOpenings o.enc).flatMap coordsV =
    coords (o.constants ++ o.plonkSigmas ++ o.wires ++ o.plonkZs ++ o.partialProducts ++ o.quotientPolys ++
      o.plonkZsNext) := by
  rw [Fri.toOpenings_enc]
  simp only [Fri.toOpenings, List.map_cons, List.map_nil, List.flatMap_cons, List.flatMap_nil, List.append_nil,
    coordsV_emb]
  simp only [coords, List.flatMap_append]

theorem tracks_openings (h : ExactPerm perm P) (o : OpeningSet QE) :
    Tracks P (observeOpenings perm (Fri.toOpenings o.enc)) (absorbs (coords (o.constants ++ o.plonkSigmas ++ o.wires ++
      o.plonkZs ++ o.partialProducts ++ o.quotientPolys ++ o.plonkZsNext))) fun _ => () := by
  rw [← openings_coords]
  refine tracks_observeOpenings h _ fun b hb e he => ?_
  rw [Fri.toOpenings_enc] at hb
  obtain ⟨b', -, rfl⟩ := List.mem_map.1 hb
  obtain ⟨a, -, rfl⟩ := List.mem_map.1 he
  exact smallQ_embQ a

theorem absorbs_append (a b : List Fr) : absorbs (a ++ b) = absorbs a ++ absorbs b := List.map_append

theorem tracks_challengesM (h : ExactPerm perm P) (c : CommonCircuitData) (proof : Proof Fp QE) (pih : Fin 4 → Fp)
    (vd : VerifierOnlyCircuitData) :
    Tracks P (Verifier.challengesM perm c proof.enc (fun i => emb (pih i)) vd)
      (Spec.transcript c.config.numChallenges c.config.friConfig.numQueryRounds vd.circuitDigest pih proof)
      fun o => (Spec.challengesOf c.config.numChallenges proof.openingProof.commitCaps.length o).enc := by
  set n := c.config.numChallenges with hn
  have hpih : Tracks P (observeHash perm fun i => emb (pih i)) (absorbs ((List.ofFn pih).map emb)) fun _ => () := by
    have e : List.ofFn (fun i => emb (pih i)) = (List.ofFn pih).map emb := by rw [List.map_ofFn]; rfl
    rw [observeHash, e]
    refine tracks_observeElements h _ fun x hx => ?_
    obtain ⟨a, -, rfl⟩ := List.mem_map.1 hx
    exact small_emb a
  have hfri := tracks_getFriChallenges h proof.openingProof.commitCaps proof.openingProof.finalPoly
    proof.openingProof.powWitness c.config.friConfig
  refine Tracks.congr ((tracks_observeBN254Hash h _).seq (nsq_absorbs _) <| hpih.seq (nsq_absorbs _) <|
    (tracks_observeCap h _).seq (nsq_absorbs _) <| (tracks_getNChallenges h n).bind fun o1 _ =>
    (tracks_getNChallenges h n).bind fun o2 _ => (tracks_observeCap h _).seq (nsq_absorbs _) <|
    (tracks_getNChallenges h n).bind fun o3 _ => (tracks_observeCap h _).seq (nsq_absorbs _) <|
    (tracks_getExtensionChallenge h).bind fun o4 _ => (tracks_openings h _).seq (nsq_absorbs _) <|
    hfri.bind fun o5 _ => Tracks.pure _) ?_ ?_
  · rw [Spec.transcript]
    simp only [friEvents, absorbs_append, List.append_assoc, List.append_nil]
    rfl
  · intro o ho
    simp only [nsq_append, nsq_absorbs, nsq_squeezes, nsq_friEvents, List.append_nil, zero_add] at ho ⊢
    simp only [List.drop_drop]
    rw [List.take_of_length_le (i := 2 + 2 * proof.openingProof.commitCaps.length + 1 +
      c.config.friConfig.numQueryRounds) (by rw [List.length_drop]; omega)]
    unfold Spec.challengesOf ProofChallenges.enc
    simp only [ProofChallenges.mk.injEq]
    refine ⟨trivial, trivial, ?_, ?_, ?_⟩
    · rw [two_mul]
    · rw [extAt_take]
      congr 2; ring
    · refine congrArg FriChallenges.enc ?_
      unfold friOf
      simp only [FriChallenges.mk.injEq, extAt_drop]
      refine ⟨?_, ?_, ?_, ?_⟩
      · congr 1; ring
      · refine List.map_congr_left fun i _ => ?_
        congr 1; ring
      · rw [List.getD_eq_getElem?_getD, List.getD_eq_getElem?_getD, List.getElem?_drop]
        congr 2; ring
      · rw [List.drop_drop]; congr 1; ring

theorem den_getChallenges (h : ExactPerm perm P) (c : CommonCircuitData) (proof : Proof Fp QE) (pih : Fin 4 → Fp)
    (vd : VerifierOnlyCircuitData) :
    den (Verifier.getChallenges perm c proof.enc (fun i => emb (pih i)) vd) =
      pure (Spec.challenges P c.config.numChallenges c.config.friConfig.numQueryRounds vd.circuitDigest pih
        proof).enc := by
  rw [Verifier.getChallenges, chip_init (P := P), den_bind,
    (tracks_challengesM h c proof pih vd).2 _ (fun x hx => absurd hx List.not_mem_nil), pure_bind, den_pure]
  rfl

end Verif.Challenger
