import Verif.Proofs.FreedomRuns

/-!
# The verifier circuit in terms of S-box relations
-/

set_option autoImplicit false

namespace Verif.Freedom

open Circ PoseidonGL Verifier
open Challenger hiding over
open Spec (Ev residue chunks)
open Spec.Free (St Conf Step Run Absorb Hash Perm FullRound PartialRound Rounds over)

variable {perm : State → Circ State} {R : St → St → Prop}

/-! ## Public inputs -/

theorem sat_absorbLoop (h : RelPerm perm R) (l : List Fp) (s : St) (y : State) :
    Sat (absorbLoop perm (embS s) (l.map emb)) y ↔ ∃ t, y = embS t ∧ Absorb R (chunks l) s t := by
  induction hn : l.length using Nat.strong_induction_on generalizing l s with
  | _ n ih =>
    cases l with
    | nil =>
      rw [List.map_nil, absorbLoop, sat_pure, chunks_nil]
      exact ⟨fun e => ⟨s, e, rfl⟩, by rintro ⟨t, rfl, rfl⟩; rfl⟩
    | cons x xs =>
      have ho : overwrite (embS s) (((x :: xs).map emb).take 8) = embS (over s ((x :: xs).take 8)) := overwrite_emb s _
      have hi := fun m => ih _ (by rw [← hn]; simp) ((x :: xs).drop 8) m rfl
      rw [List.map_cons, absorbLoop, ← List.map_cons]
      simp only [SPONGE_RATE]
      rw [ho, ← List.map_drop, sat_bind, chunks_cons (x :: xs) (by simp)]
      constructor
      · rintro ⟨a, ha, hy⟩
        obtain ⟨m, rfl, hm⟩ := (h _ a).1 ha
        obtain ⟨t, e, ht⟩ := (hi m).1 hy
        exact ⟨t, e, m, hm, ht⟩
      · rintro ⟨t, e, m, hm, ht⟩
        exact ⟨_, (h _ _).2 ⟨m, rfl, hm⟩, (hi m).2 ⟨t, e, ht⟩⟩

theorem sat_inputsHash (h : RelPerm perm R) (l : List Fr) (v : Fin 4 → Fp) :
    Sat (getPublicInputsHash perm l) (fun i => emb (v i)) ↔
      (∀ x ∈ l, x.val < 2 ^ 144 * p) ∧ Hash R (l.map residue) v := by
  have h0 : (fun _ => 0 : State) = embS fun _ => 0 := by funext i; exact emb_zero.symm
  have hsq : ∀ t : St, squeezeLoop perm (embS t) 4 = pure [emb (t 0), emb (t 1), emb (t 2), emb (t 3)] := by
    intro t
    rw [squeezeLoop, dif_pos (by norm_num [SPONGE_RATE]), take_ofFn _ (by norm_num)]
    rfl
  have hout : ∀ t : St, (fun i : Fin 4 => ([emb (t 0), emb (t 1), emb (t 2), emb (t 3)] : List Fr).getD i 0) =
      fun i : Fin 4 => emb (t (i.castLE (by norm_num))) := by
    intro t; funext i; fin_cases i <;> rfl
  rw [getPublicInputsHash, hashNoPadWith, sat_bind]
  by_cases hl : ∀ x ∈ l, x.val < 2 ^ 144 * p
  · have h1 := sat_of_den_pure (den_mapM_reduce_small l hl)
    have key : Sat (hashNToMNoPadWith perm ((l.map residue).map emb) 4 >>= fun outputVars =>
        pure fun i : Fin 4 => outputVars.getD i 0) (fun i => emb (v i)) ↔ Hash R (l.map residue) v := by
      rw [hashNToMNoPadWith, if_neg (by norm_num), h0, bind_assoc, sat_bind]
      constructor
      · rintro ⟨a, ha, hy⟩
        obtain ⟨t, rfl, ht⟩ := (sat_absorbLoop h _ _ a).1 ha
        rw [hsq, pure_bind, hout, sat_pure] at hy
        exact ⟨t, ht, fun i => emb_inj.1 (congrFun hy i)⟩
      · rintro ⟨t, ht, hv⟩
        refine ⟨_, (sat_absorbLoop h _ _ _).2 ⟨t, rfl, ht⟩, ?_⟩
        rw [hsq, pure_bind, hout, sat_pure]
        exact funext fun i => congrArg emb (hv i)
    constructor
    · rintro ⟨a, ha, hy⟩
      obtain rfl := (h1 a).1 ha
      exact ⟨hl, key.1 hy⟩
    · rintro ⟨-, hh⟩
      exact ⟨_, (h1 _).2 rfl, key.2 hh⟩
  · constructor
    · rintro ⟨a, ha, -⟩
      have hd := den_mapM_reduce_all l
      rw [Den.assert_false hl, Den.fail_bind, den_eq_fail_iff] at hd
      exact absurd ha (hd a)
    · rintro ⟨h2, -⟩; exact absurd h2 hl

/-! ## Challenges -/

theorem newChip_eq : newChip = chipOf .init := by
  have h0 : (fun _ => 0 : State) = embS fun _ => 0 := by funext i; exact emb_zero.symm
  rw [newChip, h0]; rfl

theorem ok_init : Ok .init := ⟨fun _ hx => absurd hx List.not_mem_nil, by simp [Conf.init], by simp [Conf.init]⟩

theorem sat_getChallenges (h : RelPerm perm R) (c : CommonCircuitData) (x : Proof Fp QE) (pih : Fin 4 → Fp)
    (vd : VerifierOnlyCircuitData) (ch : ProofChallenges Fp QE) :
    Sat (getChallenges perm c x.enc (fun i => emb (pih i)) vd) ch.enc ↔
      ∃ o k, Run R (Spec.transcript c.config.numChallenges c.config.friConfig.numQueryRounds vd.circuitDigest pih x)
        .init o k ∧ ch = Spec.challengesOf c.config.numChallenges x.openingProof.commitCaps.length o := by
  rw [getChallenges, newChip_eq, sat_bind]
  have ht := (tracksR_challengesM h c x pih vd).2 .init ok_init
  constructor
  · rintro ⟨a, ha, hy⟩
    obtain ⟨o, k, hr, rfl⟩ := (ht a).1 ha
    exact ⟨o, k, hr, ProofChallenges.enc_injective ((sat_pure _ _).1 hy)⟩
  · rintro ⟨o, k, hr, rfl⟩
    exact ⟨_, (ht _).2 ⟨o, k, hr, rfl⟩, (sat_pure _ _).2 rfl⟩

/-! ## The verifier -/

theorem ens_poseidonWith (sbox : Fr → Circ Fr) (s : State) : Ens (poseidonWith sbox s) fun t => ∀ i, (t i).val < p := by
  refine Ens.bind' fun s => Ens.bind' fun s => ?_
  rw [fullRounds, HALF_N_FULL_ROUNDS, List.range_succ, List.foldlM_append]
  refine Ens.bind' fun s => ?_
  rw [List.foldlM_cons]
  refine Ens.bind (Q := fun t => ∀ i, (t i).val < p) ?_ fun t ht => Ens.pure ht
  exact Ens.bind' fun _ => Ens.bind' fun _ => ens_mdsLayer _

theorem sat_verifyWith {sbox : Fr → Circ Fr} {S : Fp → Fp → Prop} (hs : RelSbox sbox S) {c : CommonCircuitData}
    {gates : List Gates.Gate} {vd : VerifierOnlyCircuitData} {proof : Proof Fr QEV}
    (hf : Spec.Verifier.Fits c gates vd proof) (pis : List Fr) :
    Sat (verify (poseidonWith sbox) c gates proof pis vd) () ↔ ∃ x : Proof Fp QE, proof = x.enc ∧
      (∀ v ∈ pis, v.val < 2 ^ 144 * p) ∧ Spec.Free.Accepts S c gates vd x (pis.map residue) := by
  have hR := sat_poseidonWith hs
  rw [sat_verify (ens_poseidonWith sbox) hf]
  constructor
  · rintro ⟨x, h, ch, rfl, h1, h2, h3⟩
    obtain ⟨hb, hh⟩ := (sat_inputsHash hR _ _).1 h1
    obtain ⟨o, k, hr, rfl⟩ := (sat_getChallenges hR c x h vd ch).1 h2
    exact ⟨x, rfl, hb, h, o, k, hh, hr, h3⟩
  · rintro ⟨x, rfl, hb, h, o, k, hh, hr, h3⟩
    exact ⟨x, h, _, rfl, (sat_inputsHash hR _ _).2 ⟨hb, hh⟩, (sat_getChallenges hR c x h vd _).2 ⟨o, k, hr, rfl⟩, h3⟩

/-! ## Functions as relations -/

theorem perm_graph (s t : St) : Perm (fun a b => b = a ^ 7) s t ↔ t = Spec.poseidon s := by
  have hf : ∀ i (s t : St), FullRound (fun a b => b = a ^ 7) i s t ↔ t = Spec.fullRound s i := by
    intro i s t
    constructor
    · rintro ⟨u, hu, rfl⟩; rw [show u = _ from funext hu]; rfl
    · rintro rfl; exact ⟨_, fun _ => rfl, rfl⟩
  have hp : ∀ i (s t : St), PartialRound (fun a b => b = a ^ 7) i s t ↔ t = Spec.partialRound s i := by
    intro i s t
    have e : ∀ u, u = (s 0 + (Spec.rc i 0 : Fp)) ^ 7 → (fun j : Fin 12 => if j = 0 then u else s j + (Spec.rc i j : Fp)) =
        fun j => if j = 0 then (s j + (Spec.rc i j : Fp)) ^ 7 else s j + (Spec.rc i j : Fp) := by
      rintro u rfl
      funext j
      by_cases hj : j = 0
      · subst hj; rfl
      · rw [if_neg hj, if_neg hj]
    constructor
    · rintro ⟨u, hu, rfl⟩; rw [e u hu]; rfl
    · rintro rfl; exact ⟨_, rfl, by rw [e _ rfl]; rfl⟩
  have hr : ∀ (round : ℕ → St → St → Prop) (f : St → ℕ → St), (∀ i s t, round i s t ↔ t = f s i) →
      ∀ l s t, Rounds round l s t ↔ t = l.foldl f s := by
    intro round f h l
    induction l with
    | nil => intro s t; rfl
    | cons i l ih =>
      intro s t
      rw [List.foldl_cons, ← ih]
      constructor
      · rintro ⟨m, h1, h2⟩; rwa [(h i s m).1 h1] at h2
      · intro h2; exact ⟨_, (h _ _ _).2 rfl, h2⟩
  have h1 := hr _ _ hf
  have h2 := hr _ _ hp
  unfold Perm
  simp only [h1, h2]
  constructor
  · rintro ⟨a, b, rfl, rfl, rfl⟩; rfl
  · rintro rfl; exact ⟨_, _, rfl, rfl, rfl⟩

theorem relPerm_of_exact {P : St → St} (h : ExactPerm perm P) (hR : ∀ s t, R s t ↔ t = P s) : RelPerm perm R := by
  intro s y
  rw [show Sat (perm (embS s)) y ↔ y = embS (P s) from sat_of_den_pure (h s) y]
  constructor
  · rintro rfl; exact ⟨_, rfl, (hR _ _).2 rfl⟩
  · rintro ⟨t, rfl, ht⟩; rw [(hR _ _).1 ht]

/-! ## Monotonicity -/

theorem fullRound_mono {S S' : Fp → Fp → Prop} (h : ∀ a b, S a b → S' a b) {i : ℕ} {s t : St} :
    FullRound S i s t → FullRound S' i s t := fun ⟨u, hu, e⟩ => ⟨u, fun j => h _ _ (hu j), e⟩

theorem partialRound_mono {S S' : Fp → Fp → Prop} (h : ∀ a b, S a b → S' a b) {i : ℕ} {s t : St} :
    PartialRound S i s t → PartialRound S' i s t := fun ⟨u, hu, e⟩ => ⟨u, h _ _ hu, e⟩

theorem rounds_mono {f g : ℕ → St → St → Prop} (h : ∀ i s t, f i s t → g i s t) {l : List ℕ} {s t : St} :
    Rounds f l s t → Rounds g l s t := by
  induction l generalizing s with
  | nil => exact id
  | cons i l ih => exact fun ⟨m, hm, hr⟩ => ⟨m, h _ _ _ hm, ih hr⟩

theorem perm_mono {S S' : Fp → Fp → Prop} (h : ∀ a b, S a b → S' a b) {s t : St} : Perm S s t → Perm S' s t :=
  fun ⟨a, b, h1, h2, h3⟩ => ⟨a, b, rounds_mono (fun _ _ _ => fullRound_mono h) h1,
    rounds_mono (fun _ _ _ => partialRound_mono h) h2, rounds_mono (fun _ _ _ => fullRound_mono h) h3⟩

theorem absorb_mono {f g : St → St → Prop} (h : ∀ s t, f s t → g s t) {l : List (List Fp)} {s t : St} :
    Absorb f l s t → Absorb g l s t := by
  induction l generalizing s with
  | nil => exact id
  | cons i l ih => exact fun ⟨m, hm, hr⟩ => ⟨m, h _ _ hm, ih hr⟩

theorem step_mono {f g : St → St → Prop} (h : ∀ s t, f s t → g s t) {k k' : Conf} {e : Ev} {o : List Fp} :
    Step f k e o k' → Step g k e o k' := by
  cases e with
  | absorb x =>
    simp only [Step]
    split_ifs
    · exact id
    · exact fun ⟨e, t, ht, e'⟩ => ⟨e, t, h _ _ ht, e'⟩
  | squeeze =>
    simp only [Step]
    split_ifs
    · exact id
    · exact fun ⟨t, ht, e'⟩ => ⟨t, h _ _ ht, e'⟩

theorem run_mono {f g : St → St → Prop} (h : ∀ s t, f s t → g s t) {l : List Ev} {k k' : Conf} {o : List Fp} :
    Run f l k o k' → Run g l k o k' := by
  induction l generalizing k o with
  | nil => exact id
  | cons e l ih => exact fun ⟨m, a, b, h1, h2, h3⟩ => ⟨m, a, b, step_mono h h1, ih h2, h3⟩

/-- With the S-box `x^7` the relational hash is the textbook one. -/
theorem hash_graph (inputs : List Fp) (v : Fin 4 → Fp) : Hash (Perm fun a b => b = a ^ 7) inputs v ↔
    v = Spec.Verifier.inputsHash Spec.poseidon inputs := by
  have hR : RelPerm cleanPerm (Perm fun a b => b = a ^ 7) := relPerm_of_exact cleanPerm_exact perm_graph
  have hin : ∀ v ∈ inputs.map emb, v.val < 2 ^ 144 * p := by
    intro v hv
    obtain ⟨a, -, rfl⟩ := List.mem_map.1 hv
    exact small_emb a
  have hres : (inputs.map emb).map residue = inputs := by
    rw [List.map_map]
    conv_rhs => rw [← List.map_id inputs]
    exact List.map_congr_left fun a _ => residue_emb a
  have h1 := sat_inputsHash hR (inputs.map emb) v
  have h2 := den_inputsHash cleanPerm_exact (inputs.map emb)
  rw [Den.assert_true hin, pure_bind] at h2
  have h3 := sat_of_den_pure h2 (fun i => emb (v i))
  rw [hres] at h1 h3
  rw [h3] at h1
  constructor
  · intro hv; exact funext fun i => emb_inj.1 (congrFun (h1.2 ⟨hin, hv⟩) i)
  · rintro rfl; exact (h1.1 rfl).2

/-- With the S-box `x^7` the relational verifier is the verifier. -/
theorem accepts_graph (c : CommonCircuitData) (gates : List Gates.Gate) (vd : VerifierOnlyCircuitData) (x : Proof Fp QE)
    (inputs : List Fp) : Spec.Free.Accepts (fun a b => b = a ^ 7) c gates vd x inputs ↔
      Spec.Verifier.Accepts Spec.poseidon c gates vd x inputs := by
  have hR : RelPerm cleanPerm (Perm fun a b => b = a ^ 7) := relPerm_of_exact cleanPerm_exact perm_graph
  have hh := hash_graph inputs
  have hc : ∀ h ch, (∃ o k, Run (Perm fun a b => b = a ^ 7) (Spec.transcript c.config.numChallenges
      c.config.friConfig.numQueryRounds vd.circuitDigest h x) .init o k ∧
        ch = Spec.challengesOf c.config.numChallenges x.openingProof.commitCaps.length o) ↔
      ch = Spec.challenges Spec.poseidon c.config.numChallenges c.config.friConfig.numQueryRounds vd.circuitDigest h x := by
    intro h ch
    rw [← sat_getChallenges hR c x h vd ch, sat_of_den_pure (den_getChallenges cleanPerm_exact c x h vd)]
    exact ⟨fun e => ProofChallenges.enc_injective e, fun e => by rw [e]⟩
  constructor
  · rintro ⟨h, o, k, h1, h2, h3⟩
    rw [hh] at h1
    subst h1
    rw [(hc _ _).1 ⟨o, k, h2, rfl⟩] at h3
    exact h3
  · intro h3
    obtain ⟨o, k, h2, e⟩ := (hc (Spec.Verifier.inputsHash Spec.poseidon inputs) _).2 rfl
    refine ⟨_, o, k, (hh _).2 rfl, h2, ?_⟩
    rw [← e]
    exact h3

end Verif.Freedom
