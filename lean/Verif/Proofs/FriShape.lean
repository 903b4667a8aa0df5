import Verif.Proofs.FriRound

/-!
# FRI: shape validation and the whole FRI verifier
-/

set_option autoImplicit false

namespace Verif

open Circ

/-! ## Checks made while generating the circuit -/

/-- `c` tests `P` while the circuit is generated: it emits nothing when `P` holds and panics otherwise. -/
def Decides {α : Type} (c : Circ α) (P : Prop) (y : α) : Prop := (P → c = pure y) ∧ (¬ P → Panics c)

theorem Decides.pure {α : Type} (y : α) : Decides (pure y) True y := ⟨fun _ => rfl, fun h => (h trivial).elim⟩

theorem Decides.congr {α : Type} {c : Circ α} {P Q : Prop} {y : α} (h : Decides c P y) (hq : P ↔ Q) :
    Decides c Q y := by rwa [← propext hq]

theorem Decides.ite {α : Type} {c : Circ α} {P Q : Prop} [Decidable Q] {y : α} (m : String) (h : Decides c P y) :
    Decides (if Q then goPanic m else c) (¬ Q ∧ P) y := by
  constructor
  · rintro ⟨h1, h2⟩; rw [if_neg h1, h.1 h2]
  · intro h1
    by_cases hq : Q
    · rw [if_pos hq]; trivial
    · rw [if_neg hq]; exact h.2 fun hp => h1 ⟨hq, hp⟩

theorem Decides.bind {α β : Type} {c : Circ α} {f : α → Circ β} {P Q : Prop} {y : α} {z : β} (h : Decides c P y)
    (hf : P → Decides (f y) Q z) : Decides (c >>= f) (P ∧ Q) z := by
  constructor
  · rintro ⟨h1, h2⟩; rw [h.1 h1, pure_bind]; exact (hf h1).1 h2
  · intro h1
    by_cases hp : P
    · rw [h.1 hp, pure_bind]; exact (hf hp).2 fun hq => h1 ⟨hp, hq⟩
    · exact (h.2 hp).bind f

theorem Decides.forM {σ : Type} {f : σ → Circ Unit} {P : σ → Prop} {l : List σ} (h : ∀ x ∈ l, Decides (f x) (P x) ()) :
    Decides (l.forM f) (∀ x ∈ l, P x) () := by
  induction l with
  | nil => exact (Decides.pure ()).congr (by simp)
  | cons a l ih =>
    rw [List.forM]
    exact ((h a (by simp)).bind fun _ => ih fun x hx => h x (by simp [hx])).congr (by simp)

theorem Decides.den {c : Circ Unit} {P : Prop} (h : Decides c P ()) : den c = Den.assert P := by
  by_cases hp : P
  · rw [h.1 hp, Den.assert_true hp, den_pure]
  · rw [Den.assert_false hp, den_eq_fail_iff]
    exact fun z => (h.2 hp).not_sat z

theorem idx_of {α : Type} {l : List α} {i : ℕ} {x : α} (h : l[i]? = some x) : idx l i = pure x := by
  rw [idx, h]

namespace Fri

open Spec.Fri

/-! ## `validateFriProofShape` -/

theorem decides_evalProof (inst : InstanceInfo QEV) (q : FriParams) (e : FriEvalProof Fr) (i : ℕ) (o : OracleInfo)
    (ho : inst.oracles[i]? = some o) :
    Decides (validateEvalProof inst q (e, i))
      (e.elements.length = o.numPolys + (if o.blinding ∧ q.isHiding then 4 else 0) ∧
        e.siblings.length + q.config.capHeight = q.degreeBits + q.config.rateBits) () := by
  rw [validateEvalProof]
  simp only
  rw [idx_of ho, pure_bind]
  refine (((Decides.pure ()).ite _).ite _).congr ?_
  simp only [FriParams.ldeBits, Bool.and_eq_true, not_not, and_true, ne_eq]

theorem decides_step (q : FriParams) (hs : ∀ a ∈ q.reductionArityBits, a < 63) (s : FriQueryStep QEV) (i a : ℕ)
    (ha : q.reductionArityBits[i]? = some a) (cw : ℤ) :
    Decides (validateStep q cw (s, i)) (s.evals.length = 2 ^ a ∧
      ((s.siblings.length + q.config.capHeight : ℕ) : ℤ) = cw - a) (cw - a) := by
  rw [validateStep]
  simp only
  rw [idx_of ha, pure_bind]
  refine (((Decides.pure _).ite _).ite _).congr ?_
  rw [goShl1_eq (hs a (List.mem_of_getElem? ha)), ne_eq, not_not, ne_eq, not_not, and_true, Nat.cast_inj]

theorem decides_steps (q : FriParams) (hs : ∀ a ∈ q.reductionArityBits, a < 63) (l : List (FriQueryStep QEV)) (k : ℕ)
    (hl : k + l.length = q.reductionArityBits.length) (cw : ℤ) :
    ∃ z, Decides ((l.zipIdx k).foldlM (validateStep q) cw)
      (∀ i (s : FriQueryStep QEV) (a : ℕ), l[i]? = some s → q.reductionArityBits[k + i]? = some a →
        s.evals.length = 2 ^ a ∧ ((s.siblings.length + q.config.capHeight : ℕ) : ℤ) =
          cw - (((q.reductionArityBits.drop k).take (i + 1)).sum : ℕ)) z := by
  induction l generalizing k cw with
  | nil => exact ⟨cw, (Decides.pure cw).congr (by simp)⟩
  | cons s l ih =>
    rw [List.length_cons] at hl
    have hk : k < q.reductionArityBits.length := by omega
    set a := q.reductionArityBits[k] with ha
    have ha' : q.reductionArityBits[k]? = some a := List.getElem?_eq_getElem hk
    have hd : q.reductionArityBits.drop k = a :: q.reductionArityBits.drop (k + 1) := List.drop_eq_getElem_cons hk
    obtain ⟨z, hz⟩ := ih (k + 1) (by omega) (cw - a)
    refine ⟨z, ?_⟩
    rw [List.zipIdx_cons, List.foldlM_cons]
    refine ((decides_step q hs s k a ha' cw).bind fun _ => hz).congr ?_
    constructor
    · rintro ⟨h1, h2⟩ i s' a' hs' ha''
      cases i with
      | zero =>
        simp only [List.getElem?_cons_zero, Option.some.injEq] at hs'
        rw [Nat.add_zero, ha', Option.some.injEq] at ha''
        subst hs' ha''
        refine ⟨h1.1, ?_⟩
        rw [h1.2, hd]; simp
      | succ i =>
        rw [List.getElem?_cons_succ] at hs'
        rw [show k + (i + 1) = k + 1 + i by omega] at ha''
        refine ⟨(h2 i s' a' hs' ha'').1, ?_⟩
        rw [(h2 i s' a' hs' ha'').2, hd, List.take_succ_cons, List.sum_cons]
        push_cast; ring
    · intro h
      refine ⟨?_, fun i s' a' hs' ha'' => ?_⟩
      · have := h 0 s a (by simp) (by simpa using ha')
        refine ⟨this.1, ?_⟩
        rw [this.2, hd]; simp
      · have := h (i + 1) s' a' (by simpa using hs') (by rw [show k + (i + 1) = k + 1 + i by omega]; exact ha'')
        refine ⟨this.1, ?_⟩
        rw [this.2, hd, List.take_succ_cons, List.sum_cons]
        push_cast; ring

theorem forall_zipIdx {α : Type} (l : List α) (P : α → ℕ → Prop) :
    (∀ x ∈ l.zipIdx, P x.1 x.2) ↔ ∀ i x, l[i]? = some x → P x i := by
  constructor
  · intro h i x hx
    have := h (x, i) (by rw [List.mem_zipIdx_iff_getElem?]; exact hx)
    exact this
  · rintro h ⟨x, i⟩ hx
    rw [List.mem_zipIdx_iff_getElem?] at hx
    exact h i x hx

theorem decides_round (inst : InstanceInfo QEV) (q : FriParams) (hs : ∀ a ∈ q.reductionArityBits, a < 63)
    (round : FriQueryRound Fr QEV) : Decides (validateRound inst q round) (RoundShape q inst round) () := by
  rw [validateRound]
  by_cases hi : round.initial.length = inst.oracles.length
  swap
  · refine ⟨fun h => (hi h.initial.1).elim, fun _ => ?_⟩
    rw [if_pos hi]; trivial
  rw [if_neg (not_not.2 hi)]
  have h1 : Decides (round.initial.zipIdx.forM (validateEvalProof inst q))
      (∀ x ∈ round.initial.zipIdx, ∀ o, inst.oracles[x.2]? = some o →
        x.1.elements.length = o.numPolys + (if o.blinding ∧ q.isHiding then 4 else 0) ∧
        x.1.siblings.length + q.config.capHeight = q.degreeBits + q.config.rateBits) () := by
    refine Decides.forM fun x hx => ?_
    rw [List.mem_zipIdx_iff_getElem?] at hx
    obtain ⟨hlt, _⟩ := List.getElem?_eq_some_iff.1 hx
    have ho : inst.oracles[x.2]? = some (inst.oracles[x.2]'(by omega)) := List.getElem?_eq_getElem (by omega)
    refine (decides_evalProof inst q x.1 x.2 _ ho).congr ?_
    rw [ho]
    constructor
    · rintro h o ⟨⟩; exact h
    · intro h; exact h _ rfl
  by_cases hsl : round.steps.length = q.reductionArityBits.length
  swap
  · refine ⟨fun h => (hsl h.steps.1).elim, fun _ => ?_⟩
    rw [if_pos hsl]
    have := h1.bind (f := fun _ => goPanic "length of steps != params.reduction_arity_bits") (Q := False) (z := ())
      fun _ => ⟨fun h => h.elim, fun _ => trivial⟩
    exact this.2 fun h => h.2
  rw [if_neg (not_not.2 hsl)]
  obtain ⟨z, hz⟩ := decides_steps q hs round.steps 0 (by omega) (q.ldeBits : ℤ)
  refine (h1.bind fun _ => (hz.bind fun _ => Decides.pure ())).congr ?_
  rw [forall_zipIdx round.initial (fun e i => ∀ o, inst.oracles[i]? = some o →
        e.elements.length = o.numPolys + (if o.blinding ∧ q.isHiding then 4 else 0) ∧
        e.siblings.length + q.config.capHeight = q.degreeBits + q.config.rateBits)]
  simp only [Nat.zero_add, List.drop_zero, and_true]
  have hcast : ∀ (m i : ℕ), ((m + q.config.capHeight : ℕ) : ℤ) =
      (q.ldeBits : ℤ) - ((q.reductionArityBits.take (i + 1)).sum : ℕ) ↔
      m + q.config.capHeight + (q.reductionArityBits.take (i + 1)).sum = q.degreeBits + q.config.rateBits := by
    intro m i; rw [FriParams.ldeBits]; omega
  simp only [hcast]
  constructor
  · rintro ⟨g1, g2⟩
    exact ⟨⟨hi, fun i e o he ho => g1 i e he o ho⟩, ⟨hsl, g2⟩⟩
  · rintro ⟨⟨_, g1⟩, ⟨_, g2⟩⟩
    exact ⟨fun i e he o ho => g1 i e o he ho, g2⟩

theorem totalArities_eq (q : FriParams) : q.totalArities = q.reductionArityBits.sum := by
  rw [FriParams.totalArities, List.sum_eq_foldl]

theorem decides_shape (proof : FriProof Fr QEV) (inst : InstanceInfo QEV) (q : FriParams)
    (hc : q.config.capHeight < 63) (hs : ∀ a ∈ q.reductionArityBits, a < 63) (hd : q.degreeBits < 63) :
    Decides (validateFriProofShape proof inst q) (ProofShape q inst proof) () := by
  rw [validateFriProofShape]
  have h1 : Decides (proof.commitCaps.forM fun cap => if goShl1 q.config.capHeight ≠ cap.length then
      goPanic "config cap_height does not match commit_phase_merkle_caps" else (pure () : Circ Unit))
      (∀ cap ∈ proof.commitCaps, cap.length = 2 ^ q.config.capHeight) () := by
    refine Decides.forM fun cap _ => ((Decides.pure ()).ite _).congr ?_
    rw [goShl1_eq hc, ne_eq, not_not, and_true, Nat.cast_inj, eq_comm]
  have h2 : Decides (proof.rounds.forM (validateRound inst q)) (∀ round ∈ proof.rounds, RoundShape q inst round) () :=
    Decides.forM fun round _ => decides_round inst q hs round
  have h3 : Decides (if q.finalPolyBits < 0 then goPanic "negative shift amount"
      else if (proof.finalPoly.length : ℤ) ≠ goShl1 q.finalPolyBits.toNat then
        goPanic "len finalPoly doesn't match params FinalPolyLen"
      else (pure () : Circ Unit)) (q.reductionArityBits.sum ≤ q.degreeBits ∧
        proof.finalPoly.length = 2 ^ (q.degreeBits - q.reductionArityBits.sum)) () := by
    have e : q.finalPolyBits.toNat = q.degreeBits - q.reductionArityBits.sum := by
      rw [FriParams.finalPolyBits, totalArities_eq]; omega
    refine (((Decides.pure ()).ite _).ite _).congr ?_
    rw [e, goShl1_eq (by omega), FriParams.finalPolyBits, totalArities_eq, ne_eq, not_not, and_true, Nat.cast_inj]
    refine and_congr_left fun _ => ?_
    omega
  refine (h1.bind fun _ => h2.bind fun _ => h3).congr ?_
  constructor
  · rintro ⟨g1, g2, g3⟩; exact ⟨g1, g2, g3⟩
  · rintro ⟨g1, g2, g3⟩; exact ⟨g1, g2, g3⟩

/-! ## Encodings preserve shapes -/

theorem roundShape_enc (q : FriParams) (inst : InstanceInfo QE) (round : FriQueryRound Fp QE) :
    RoundShape q inst.enc round.enc ↔ RoundShape q inst round := by
  constructor
  · rintro ⟨⟨h1, h2⟩, ⟨h3, h4⟩⟩
    refine ⟨⟨by simpa [FriQueryRound.enc, InstanceInfo.enc] using h1, fun i e o he ho => ?_⟩,
      ⟨by simpa [FriQueryRound.enc] using h3, fun i s a hs ha => ?_⟩⟩
    · have := h2 i e.enc o (by simp [FriQueryRound.enc, he]) ho
      simpa [FriEvalProof.enc] using this
    · have := h4 i s.enc a (by simp [FriQueryRound.enc, hs]) ha
      simpa [FriQueryStep.enc] using this
  · rintro ⟨⟨h1, h2⟩, ⟨h3, h4⟩⟩
    refine ⟨⟨by simpa [FriQueryRound.enc, InstanceInfo.enc] using h1, fun i e o he ho => ?_⟩,
      ⟨by simpa [FriQueryRound.enc] using h3, fun i s a hs ha => ?_⟩⟩
    · simp only [FriQueryRound.enc, List.getElem?_map, Option.map_eq_some_iff] at he
      obtain ⟨e', he', rfl⟩ := he
      simpa [FriEvalProof.enc] using h2 i e' o he' ho
    · simp only [FriQueryRound.enc, List.getElem?_map, Option.map_eq_some_iff] at hs
      obtain ⟨s', hs', rfl⟩ := hs
      simpa [FriQueryStep.enc] using h4 i s' a hs' ha

theorem proofShape_enc (q : FriParams) (inst : InstanceInfo QE) (proof : FriProof Fp QE) :
    ProofShape q inst.enc proof.enc ↔ ProofShape q inst proof := by
  constructor
  · rintro ⟨h1, h2, h3⟩
    refine ⟨h1, fun round hr => (roundShape_enc q inst round).1 (h2 _ ?_), by simpa [FriProof.enc] using h3⟩
    exact List.mem_map_of_mem hr
  · rintro ⟨h1, h2, h3⟩
    refine ⟨h1, fun round hr => ?_, by simpa [FriProof.enc] using h3⟩
    obtain ⟨r', hr', rfl⟩ := List.mem_map.1 hr
    exact (roundShape_enc q inst r').2 (h2 _ hr')

/-! ## `VerifyFriProof` -/

theorem den_assertLeadingZeros (w : Fp) (cfg : FriConfig) (h : cfg.proofOfWorkBits ≤ 64) :
    den (assertLeadingZeros (emb w) cfg) = Den.assert (w.val < 2 ^ (64 - cfg.proofOfWorkBits)) := by
  have e : (64 + 2 ^ 64 - cfg.proofOfWorkBits % 2 ^ 64) % 2 ^ 64 = 64 - cfg.proofOfWorkBits := by omega
  rw [assertLeadingZeros, e, rangeCheckWithMaxBits, den_rangeCheckerCheck, emb_val, Den.guard_eq_assert]

theorem den_fromOpenings (openings : List (List QE)) (α : QE) :
    den (fromOpeningsAndAlpha (openings.map fun l => l.map embQ) (embQ α)) =
      pure ((openings.map fun l => evalPoly l α).map embQ) := by
  rw [fromOpeningsAndAlpha, den_mapM, List.mapM_map, List.map_map]
  exact Den.mapM_pure_of fun l _ => den_reduceWithPowers l α

theorem foldlM_fail {σ τ : Type} {f : σ → τ → Den σ} {l : List τ} {x : τ} (hx : x ∈ l) (h : ∀ s, f s x = Den.fail)
    (s : σ) : l.foldlM f s = Den.fail := by
  induction l generalizing s with
  | nil => simp at hx
  | cons a l ih =>
    rw [List.foldlM_cons]
    rcases List.mem_cons.1 hx with rfl | hx
    · rw [h, Den.fail_bind]
    · simp only [ih hx]; exact Den.bind_fail _

/-- Without a commitment or a challenge for every reduction the round panics. -/
theorem den_verifyQueryRound_short (q : FriParams) (inst : InstanceInfo QEV) (ch : FriChallenges Fr QEV)
    (y : List QEV) (caps : List (List Fr)) (proof : FriProof Fr QEV) (v : Fr) (n : ℕ) (round : FriQueryRound Fr QEV)
    (h : proof.commitCaps.length < q.reductionArityBits.length ∨ ch.betas.length < q.reductionArityBits.length) :
    den (verifyQueryRound q inst ch y caps proof v n round) = Den.fail := by
  obtain ⟨k, hk, hlt⟩ : ∃ k, k < q.reductionArityBits.length ∧
      (proof.commitCaps.length ≤ k ∨ ch.betas.length ≤ k) := by
    rcases h with h | h
    · exact ⟨_, h, Or.inl le_rfl⟩
    · exact ⟨_, h, Or.inr le_rfl⟩
  have key : ∀ cb st, den (q.reductionArityBits.zipIdx.foldlM (reductionStep ch proof round.steps cb) st) = Den.fail := by
    intro cb st
    rw [den_foldlM]
    refine foldlM_fail (x := (q.reductionArityBits[k], k))
      (by rw [List.mem_zipIdx_iff_getElem?]; exact List.getElem?_eq_getElem hk) (fun s => ?_) st
    rw [reductionStep]
    split_ifs
    · simp only [den_bind, goPanic, den_panic, Den.bind_fail]
    · rcases hlt with hlt | hlt
      · simp only [den_bind, den_idx_none hlt, Den.bind_fail, Den.fail_bind]
      · simp only [den_bind, den_idx_none hlt, Den.bind_fail, Den.fail_bind]
  rw [verifyQueryRound]
  simp only [den_bind, key, Den.bind_fail, Den.fail_bind]

theorem roundFits_of {q : FriParams} {inst : InstanceInfo QE} {openings : List (List QE)} {caps : List (List Fr)}
    {ch : FriChallenges Fp QE} {proof : FriProof Fp QE} (hp : Supported q inst openings caps)
    (hb : q.reductionArityBits.length ≤ ch.betas.length)
    (hc : q.reductionArityBits.length ≤ proof.commitCaps.length)
    (hs : ProofShape q inst proof) {round : FriQueryRound Fp QE} (hr : round ∈ proof.rounds) :
    RoundFits q inst ch (openings.map fun l => evalPoly l ch.alpha) caps proof round := by
  obtain ⟨⟨i1, i2⟩, ⟨s1, s2⟩⟩ := hs.rounds round hr
  have h4 : q.config.capHeight = 4 := hp.domain.2.2.2
  refine ⟨hp.domain, ⟨i1.trans hp.caps.1.symm, hp.caps.2, fun e he => ?_⟩, ⟨by simpa using hp.openings, ?_⟩,
    ⟨hp.arities, s1, hb, hc⟩, fun j h => ?_, fun cap hcap => by have := hs.caps cap hcap; rwa [h4] at this⟩
  · obtain ⟨i, hi, rfl⟩ := List.getElem_of_mem he
    have := (i2 i _ _ (List.getElem?_eq_getElem hi) (List.getElem?_eq_getElem (i1 ▸ hi))).2
    omega
  · intro b hb f hf
    obtain ⟨o, ho, hlt⟩ := hp.batches b hb f hf
    obtain ⟨hi, _⟩ := List.getElem?_eq_some_iff.1 ho
    have hi' : f.oracleIndex < round.initial.length := i1 ▸ hi
    refine ⟨_, List.getElem?_eq_getElem hi', ?_⟩
    have := (i2 _ _ _ (List.getElem?_eq_getElem hi') ho).1
    omega
  · have hj : j < q.reductionArityBits.length := s1 ▸ h
    have h1 := s2 j _ _ (List.getElem?_eq_getElem h) (List.getElem?_eq_getElem hj)
    have ha : q.reductionArityBits[j] = 4 := hp.arities _ (List.getElem_mem _)
    rw [ha] at h1
    refine ⟨h1.1, ?_⟩
    have hsum : (q.reductionArityBits.take (j + 1)).sum = 4 * (j + 1) := by
      have : q.reductionArityBits.take (j + 1) = List.replicate (j + 1) 4 := by
        rw [List.eq_replicate_iff]
        refine ⟨by rw [List.length_take]; omega, fun b hb => hp.arities b (List.mem_of_mem_take hb)⟩
      rw [this, List.sum_replicate, smul_eq_mul, mul_comm]
    have h2 := h1.2
    rw [hsum] at h2
    omega

theorem den_verifyFriProof {q : FriParams} {inst : InstanceInfo QE} {openings : List (List QE)}
    {caps : List (List Fr)} (hp : Supported q inst openings caps) (ch : FriChallenges Fp QE) (proof : FriProof Fp QE) :
    den (verifyFriProof q inst.enc (openings.map fun l => l.map embQ) ch.enc caps proof.enc) =
      Den.assert (Accepts q inst openings ch caps proof) := by
  have hd := hp.domain
  rw [verifyFriProof, den_bind, (decides_shape proof.enc inst.enc q (by omega)
    (fun a ha => by rw [hp.arities a ha]; norm_num) (by omega)).den, proofShape_enc, den_bind]
  have e1 : ch.enc.powResponse = emb ch.powResponse := rfl
  have e2 : ch.enc.alpha = embQ ch.alpha := rfl
  have e3 : ch.enc.queryIndices = ch.queryIndices.map emb := rfl
  rw [e1, e2, den_assertLeadingZeros _ _ hp.pow, Den.assert_bind_assert_bind]
  have hrl : proof.enc.rounds.length = proof.rounds.length := by simp [FriProof.enc]
  rw [hrl]
  by_cases h1 : q.config.numQueryRounds = proof.rounds.length
  swap
  · rw [if_pos h1, Den.assert_false (P := Accepts _ _ _ _ _ _) fun h => h1 h.count.1]
    simp only [goPanic, den_panic]
    exact Den.bind_fail _
  rw [if_neg (not_not.2 h1), den_bind, den_fromOpenings, pure_bind]
  have hql : ch.enc.queryIndices.length = ch.queryIndices.length := List.length_map _
  by_cases h2 : ch.queryIndices.length = proof.rounds.length
  swap
  · rw [if_pos (by rw [hql]; exact h2), Den.assert_false (P := Accepts _ _ _ _ _ _) fun h => h2 h.count.2]
    simp only [goPanic, den_panic]
    exact Den.bind_fail _
  rw [if_neg (not_not.2 (hql.trans h2)), den_forM, e3]
  by_cases hs : ProofShape q inst proof ∧ ch.powResponse.val < 2 ^ (64 - q.config.proofOfWorkBits)
  swap
  · rw [Den.assert_false hs, Den.fail_bind, Den.assert_false (P := Accepts _ _ _ _ _ _) fun h => hs ⟨h.shape, h.pow⟩]
  rw [Den.assert_true hs, pure_bind]
  have hidx : ∀ x ∈ (ch.queryIndices.map emb).zipIdx, ∃ v round, ch.queryIndices[x.2]? = some v ∧
      proof.rounds[x.2]? = some round ∧ x.1 = emb v ∧ proof.enc.rounds[x.2]? = some round.enc := by
    rintro ⟨x, i⟩ hx
    rw [List.mem_zipIdx_iff_getElem?, List.getElem?_map, Option.map_eq_some_iff] at hx
    obtain ⟨v, hv, hxv⟩ := hx
    obtain ⟨hi, _⟩ := List.getElem?_eq_some_iff.1 hv
    have hr : proof.rounds[i]? = some (proof.rounds[i]'(by omega)) := List.getElem?_eq_getElem (by omega)
    exact ⟨v, _, hv, hr, hxv.symm, by rw [FriProof.enc, List.getElem?_map, hr]; rfl⟩
  by_cases hshort : proof.rounds = [] ∨ (q.reductionArityBits.length ≤ ch.betas.length ∧
      q.reductionArityBits.length ≤ proof.commitCaps.length)
  · rw [Den.forM_assert (P := fun x => ∀ v round, ch.queryIndices[x.2]? = some v → proof.rounds[x.2]? = some round →
        RoundOk q inst ch (openings.map fun l => evalPoly l ch.alpha) caps proof v.val round)]
    · refine Den.assert_congr ?_
      constructor
      · intro h
        refine ⟨hs.1, hs.2, ⟨h1, h2⟩, ?_, fun i v round hv hr => ?_⟩
        · exact hshort
        · exact h (emb v, i) (by rw [List.mem_zipIdx_iff_getElem?, List.getElem?_map, hv]; rfl) v round hv hr
      · intro h x _ v round hv hr
        exact h.rounds x.2 v round hv hr
    · intro x hx
      obtain ⟨v, round, hv, hr, hxv, hre⟩ := hidx x hx
      have hne : proof.rounds ≠ [] := by rintro e; rw [e] at hr; simp at hr
      have hb := hshort.resolve_left hne
      rw [den_bind, den_idx_some hre, pure_bind, hxv]
      have := den_verifyQueryRound (roundFits_of hp hb.1 hb.2 hs.1 (List.mem_of_getElem? hr)) v
      rw [this]
      refine Den.assert_congr ⟨fun h v' r' hv' hr' => ?_, fun h => h v round hv hr⟩
      rw [hv, Option.some.injEq] at hv'
      rw [hr, Option.some.injEq] at hr'
      rw [← hv', ← hr']
      exact h
  · rw [Den.assert_false (P := Accepts _ _ _ _ _ _) fun h => hshort h.enough]
    simp only [not_or, not_and_or, not_le] at hshort
    cases hq : (ch.queryIndices.map emb).zipIdx with
    | nil =>
      have := congrArg List.length hq
      simp only [List.length_zipIdx, List.length_map, List.length_nil, h2, List.length_eq_zero_iff] at this
      exact (hshort.1 this).elim
    | cons x l =>
      obtain ⟨v, round, hv, hr, hxv, hre⟩ := hidx x (by rw [hq]; simp)
      rw [List.forM, den_bind, den_idx_some hre, pure_bind, den_verifyQueryRound_short, Den.fail_bind]
      rcases hshort.2 with h | h
      · right; simpa [FriChallenges.enc] using h
      · left; exact h

end Fri
end Verif
