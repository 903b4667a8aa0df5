import Verif.Proofs.FriFold

/-!
# FRI: query rounds
-/

set_option autoImplicit false

namespace Verif.Fri

open Circ Spec.Fri

theorem den_lookup_bit (b : Bool) (x y : QEV) : den (lookup (bitF b) x y) = pure (if b then y else x) := by
  cases b
  · exact den_lookup_zero x y
  · exact den_lookup_one x y

theorem den_lookup2 (b0 b1 : Bool) (i0 i1 i2 i3 : QEV) :
    den (lookup2 (bitF b0) (bitF b1) i0 i1 i2 i3) =
      pure (if b1 then (if b0 then i3 else i2) else (if b0 then i1 else i0)) := by
  rw [lookup2, den_bind, den_lookup_bit, pure_bind, den_bind, den_lookup_bit, pure_bind, den_lookup_bit]

theorem den_evalLookup (b : List Bool) (evals : List QE) (hb : b.length = 4) (he : evals.length = 16) :
    den (evalLookup (b.map bitF) (evals.map embQ)) = pure (embQ (evals.getD (bitsVal b) 0)) := by
  match b, evals, hb, he with
  | [b0, b1, b2, b3], [c0, c1, c2, c3, c4, c5, c6, c7, c8, c9, c10, c11, c12, c13, c14, c15], _, _ =>
    have hx : ∀ {α : Type} {l : List α} {i : ℕ} {x : α}, l[i]? = some x → den (idx l i) = pure x :=
      fun h => den_idx_some h
    have hm : ∀ (f : ℕ → Circ QEV) (a0 a1 a2 a3 : QEV), den (f 0) = pure a0 → den (f 1) = pure a1 →
        den (f 2) = pure a2 → den (f 3) = pure a3 → den ((List.range 4).mapM f) = pure [a0, a1, a2, a3] := by
      intro f a0 a1 a2 a3 h0 h1 h2 h3
      rw [show List.range 4 = [0, 1, 2, 3] from rfl]
      simp only [List.mapM_cons, List.mapM_nil, den_bind, h0, h1, h2, h3, pure_bind, den_pure]
    rw [evalLookup]
    rw [den_bind, hx (x := bitF b0) rfl, pure_bind, den_bind, hx (x := bitF b1) rfl, pure_bind, den_bind]
    rw [hm _ (if b1 then (if b0 then embQ c3 else embQ c2) else (if b0 then embQ c1 else embQ c0))
      (if b1 then (if b0 then embQ c7 else embQ c6) else (if b0 then embQ c5 else embQ c4))
      (if b1 then (if b0 then embQ c11 else embQ c10) else (if b0 then embQ c9 else embQ c8))
      (if b1 then (if b0 then embQ c15 else embQ c14) else (if b0 then embQ c13 else embQ c12))]
    rotate_left
    iterate 4
      rw [den_bind, hx rfl, pure_bind, den_bind, hx rfl, pure_bind, den_bind, hx rfl, pure_bind, den_bind, hx rfl,
        pure_bind]
      exact den_lookup2 _ _ _ _ _ _
    rw [pure_bind, den_bind, hx (x := bitF b2) rfl, pure_bind, den_bind, hx (x := bitF b3) rfl, pure_bind,
      den_bind, hx rfl, pure_bind,
      den_bind, hx rfl, pure_bind, den_bind, hx rfl, pure_bind, den_bind, hx rfl, pure_bind]
    refine (den_lookup2 _ _ _ _ _ _).trans (congrArg pure ?_)
    cases b0 <;> cases b1 <;> cases b2 <;> cases b3 <;> rfl

theorem den_sliceFrom {α : Type} {l : List α} {n : ℕ} (h : n ≤ l.length) : den (sliceFrom l n) = pure (l.drop n) := by
  rw [sliceFrom, if_pos h, den_pure]

theorem den_sliceTo {α : Type} {l : List α} {n : ℕ} (h : n ≤ l.length) : den (sliceTo l n) = pure (l.take n) := by
  rw [sliceTo, if_pos h, den_pure]

theorem den_assertPair (a b : QE) :
    (do
      den (glAssertIsEqual (embQ a).1 (embQ b).1)
      den (glAssertIsEqual (embQ a).2 (embQ b).2)) = Den.assert (a = b) := by
  rw [den_glAssertIsEqual, den_glAssertIsEqual, Den.guard_bind_guard, Den.guard_eq_assert]
  exact Den.assert_congr (Prod.ext_iff.symm.trans embQ_inj)

theorem den_squareLoop (n : ℕ) (x : Fp) :
    den ((List.range n).foldlM (fun s _ => mul s s) (emb x)) = pure (emb (x ^ 2 ^ n)) := by
  induction n with
  | zero => simp
  | succ n ih =>
    rw [List.range_succ, List.foldlM_append, den_bind, ih, pure_bind, List.foldlM_cons, den_bind, den_mul, pure_bind,
      List.foldlM_nil, den_pure, ← pow_two, ← pow_mul, pow_succ]

theorem flatten_eq (evals : List QE) : (evals.map embQ).flatMap (fun e => [e.1, e.2]) = flatten evals := by
  rw [flatten, List.flatMap_map]; rfl

/-- The Merkle check, with the cap index as a bit list. -/
theorem den_verifyMerkle' (leaf : List Fr) (bits capBits : List Bool) (cap sibs : List Fr)
    (hb : capBits.length = 4) (hc : cap.length = 16) (hl : sibs.length ≤ bits.length) :
    den (verifyMerkleProofToCap leaf (bits.map bitF) (capBits.map bitF) cap sibs) =
      Den.assert (Opens leaf bits sibs cap (bitsVal capBits)) := by
  match capBits, hb with
  | [b0, b1, b2, b3], _ =>
    have h := den_verifyMerkle leaf bits ![b0, b1, b2, b3] cap sibs hc hl
    rw [Den.guard_eq_assert] at h
    refine (Eq.trans ?_ h).trans (Den.assert_congr ?_)
    · rfl
    · rw [Opens]
      have : capIndex ![b0, b1, b2, b3] = bitsVal [b0, b1, b2, b3] := by
        cases b0 <;> cases b1 <;> cases b2 <;> cases b3 <;> rfl
      rw [this]

theorem den_reductionStep {ch : FriChallenges Fr QEV} {proof : FriProof Fr QEV} {steps : List (FriQueryStep QEV)}
    {capBits : List Bool} (hcb : capBits.length = 4) {s : Step} {k : ℕ}
    (hs : steps[k]? = some s.step.enc) (hbeta : ch.betas[k]? = some (embQ s.beta))
    (hcap : proof.commitCaps[k]? = some s.cap) {bits : List Bool} {x : Fp} (hx : x ≠ 0) (old : QE)
    (he : s.step.evals.length = 16) (hc : s.cap.length = 16) (hb : 4 ≤ bits.length)
    (hsib : s.step.siblings.length ≤ (bits.drop 4).length) :
    den (reductionStep ch proof steps (capBits.map bitF) (bits.map bitF, emb x, embQ old) (4, k)) =
      Den.assert (s.step.evals.getD (bitsVal (bits.take 4)) 0 = old ∧
        (∀ i < 16, s.beta ≠ cosetPoint 4 x (bits.take 4) i) ∧
        Opens (flatten s.step.evals) (bits.drop 4) s.step.siblings s.cap (bitsVal capBits)) >>= fun _ =>
      pure ((bits.drop 4).map bitF, emb (x ^ 16), embQ (fold 4 x (bits.take 4) s.step.evals s.beta)) := by
  have h4 : (bits.take 4).length = 4 := by simpa using hb
  rw [reductionStep, den_bind, den_idx_some hs, pure_bind, den_bind, den_sliceFrom (by simpa using hb), pure_bind,
    den_bind, den_sliceTo (by simpa using hb), pure_bind, if_neg (by simp), den_bind, ← List.map_take,
    ← List.map_drop]
  simp only [FriQueryStep.enc]
  rw [den_evalLookup _ _ h4 he, pure_bind, den_bind, den_glAssertIsEqual]
  simp only [den_bind]
  rw [den_glAssertIsEqual]
  have hp := den_assertPair (s.step.evals.getD (bitsVal (bits.take 4)) 0) old
  rw [den_glAssertIsEqual, den_glAssertIsEqual] at hp
  rw [← bind_assoc, hp, den_idx_some hbeta, pure_bind,
    den_computeEvaluation (by norm_num) hx _ _ (by simpa using he), bind_assoc]
  simp only [pure_bind]
  rw [den_idx_some hcap, pure_bind, flatten_eq, den_verifyMerkle' _ _ _ _ _ hcb hc hsib]
  rw [den_squareLoop, pure_bind, den_pure, Den.assert_bind_assert_bind, Den.assert_bind_assert_bind]
  refine Den.assert_bind_congr ?_ fun _ => rfl
  rw [and_assoc]
  rfl

/-- The part of `verifyQueryRound` after the reduction loop. -/
def finish (proof : FriProof Fr QEV) (st : RoundState) : Circ Unit := do
  let fin ← finalPolyEval proof.finalPoly (toQE st.2.1)
  glAssertIsEqual st.2.2.1 fin.1
  glAssertIsEqual st.2.2.2 fin.2

theorem den_finish {proof : FriProof Fr QEV} {coeffs : List QE} (h : proof.finalPoly = coeffs.map embQ)
    (bits : List Fr) (x : Fp) (old : QE) :
    den (finish proof (bits, emb x, embQ old)) = Den.assert (old = evalPoly coeffs (ofBase x)) := by
  rw [finish, h, den_bind, toQE_emb, den_finalPolyEval, pure_bind, den_bind]
  exact den_assertPair old _

theorem den_chain {ch : FriChallenges Fr QEV} {proof : FriProof Fr QEV} {steps : List (FriQueryStep QEV)}
    {capBits : List Bool} (hcb : capBits.length = 4) {coeffs : List QE} (hf : proof.finalPoly = coeffs.map embQ)
    (l : List Step) (k : ℕ)
    (hs : ∀ j (h : j < l.length), steps[k + j]? = some l[j].step.enc ∧ ch.betas[k + j]? = some (embQ l[j].beta) ∧
      proof.commitCaps[k + j]? = some l[j].cap)
    (bits : List Bool) {x : Fp} (hx : x ≠ 0) (old : QE)
    (hsh : ∀ j (h : j < l.length), l[j].step.evals.length = 16 ∧ l[j].cap.length = 16 ∧
      l[j].step.siblings.length + 4 * (j + 1) ≤ bits.length) :
    (den (((List.replicate l.length 4).zipIdx k).foldlM (reductionStep ch proof steps (capBits.map bitF))
      (bits.map bitF, emb x, embQ old)) >>= fun st => den (finish proof st)) =
      Den.assert (Chain (bitsVal capBits) coeffs l bits x old) := by
  induction l generalizing k bits x old with
  | nil =>
    simp only [List.length_nil, List.replicate_zero, List.zipIdx_nil, List.foldlM_nil, den_pure, pure_bind]
    rw [den_finish hf]
    rfl
  | cons s l ih =>
    have h0 := hs 0 (by simp)
    have g0 := hsh 0 (by simp)
    simp only [List.getElem_cons_zero, Nat.add_zero] at h0 g0
    rw [List.length_cons, List.replicate_succ, List.zipIdx_cons, List.foldlM_cons, den_bind,
      den_reductionStep hcb h0.1 h0.2.1 h0.2.2 hx old g0.1 g0.2.1 (by omega) (by rw [List.length_drop]; omega),
      bind_assoc, bind_assoc]
    simp only [pure_bind]
    rw [ih (k + 1) (fun j h => ?_) (bits.drop 4) (pow_ne_zero _ hx) _ (fun j h => ?_), Den.assert_bind_assert]
    · refine Den.assert_congr ?_
      rw [Chain]
      tauto
    · have := hs (j + 1) (by simpa using h)
      rwa [List.getElem_cons_succ, show k + (j + 1) = k + 1 + j by omega] at this
    · have := hsh (j + 1) (by simpa using h)
      rw [List.getElem_cons_succ] at this
      refine ⟨this.1, this.2.1, ?_⟩
      rw [List.length_drop]; omega

/-! ## A whole round -/

theorem den_verifyInitialProof (bits capBits : List Bool) (initial : List (FriEvalProof Fp)) (caps : List (List Fr))
    (hcb : capBits.length = 4) (hl : initial.length = caps.length) (hc : ∀ cap ∈ caps, cap.length = 16)
    (hs : ∀ e ∈ initial, e.siblings.length ≤ bits.length) :
    den (verifyInitialProof (bits.map bitF) (initial.map FriEvalProof.enc) caps (capBits.map bitF)) =
      Den.assert (∀ ec ∈ initial.zip caps,
        Opens (ec.1.elements.map emb) bits ec.1.siblings ec.2 (bitsVal capBits)) := by
  rw [verifyInitialProof, if_neg (by simpa using hl), den_forM, List.zip_map_left,
    Den.forM_assert (P := fun ec => Opens ec.1.elements bits ec.1.siblings ec.2 (bitsVal capBits))]
  · refine Den.assert_congr ?_
    simp only [List.forall_mem_map, Prod.map, FriEvalProof.enc, id]
  · intro ec hec
    obtain ⟨e, he, rfl⟩ := List.mem_map.1 hec
    obtain ⟨h1, h2⟩ := List.of_mem_zip he
    exact den_verifyMerkle' _ _ _ _ _ hcb (hc _ h2) (hs _ h1)

theorem den_noncanonical {q : FriParams} (h : q.config.rateBits ≤ 15) :
    den (assertNoncanonicalIndicesOK q) = pure () := by
  have h1 : 2 ^ q.config.rateBits ≤ 2 ^ 15 := Nat.pow_le_pow_right (by norm_num) h
  rw [assertNoncanonicalIndicesOK, if_neg, den_pure]
  rintro ⟨_, h2⟩
  have h3 : (2 ^ 32 - 1) * 10 ^ 5 * 2 ^ q.config.rateBits ≤ (2 ^ 32 - 1) * 10 ^ 5 * 2 ^ 15 := Nat.mul_le_mul_left _ h1
  have h4 : (2 ^ 32 - 1) * 10 ^ 5 * 2 ^ 15 < p := by norm_num [p]
  omega

theorem bitsLE_eq_lowBits (n v : ℕ) : bitsLE n v = (lowBits n v).map bitF := by
  rw [bitsLE, lowBits, List.map_map]; rfl

theorem den_indexBits (v : Fp) : den (toBinary 64 (emb v)) = pure (bitsLE 64 v.val) := by
  have : v.val < 2 ^ 64 := lt_trans (ZMod.val_lt v) (by norm_num [p])
  rw [den_toBinary, emb_val, if_pos this]

theorem den_verifyQueryRound {q : FriParams} {inst : InstanceInfo QE} {ch : FriChallenges Fp QE} {y : List QE}
    {caps : List (List Fr)} {proof : FriProof Fp QE} {round : FriQueryRound Fp QE}
    (hf : RoundFits q inst ch y caps proof round) (v : Fp) :
    den (verifyQueryRound q inst.enc ch.enc (y.map embQ) caps proof.enc (emb v)
      (q.degreeBits + q.config.rateBits) round.enc) =
      Den.assert (RoundOk q inst ch y caps proof v.val round) := by
  obtain ⟨⟨hn4, hn, hrate, hcap⟩, ⟨hi1, hi2, hi3⟩, ⟨hb1, hb2⟩, ⟨ha1, ha2, ha3, ha4⟩, hsteps, hcc⟩ := hf
  have harity : q.reductionArityBits = List.replicate round.steps.length 4 := by
    rw [ha2]; exact List.eq_replicate_of_mem ha1
  set n := q.degreeBits + q.config.rateBits with hnn
  set bits := lowBits n v.val with hbits
  have hbl : bits.length = n := lowBits_length _ _
  set l : List Step := (round.steps.zip (ch.betas.zip proof.commitCaps)).map fun s => ⟨s.1, s.2.1, s.2.2⟩ with hl
  have hll : l.length = round.steps.length := by
    rw [hl, List.length_map, List.length_zip, List.length_zip]; omega
  have htake : (bitsLE 64 v.val).take n = bits.map bitF := by
    rw [bitsLE_take, bitsLE_eq_lowBits, Nat.min_eq_left (by omega)]
  rw [verifyQueryRound, den_bind, den_noncanonical hrate, pure_bind, den_bind, den_reduce_emb, pure_bind, den_bind,
    den_indexBits, pure_bind, den_bind, den_sliceTo (by rw [bitsLE_length]; omega), pure_bind, ← hnn, htake,
    den_bind, List.length_map, hbl, if_pos (by omega), den_sliceFrom (by rw [List.length_map, hbl]; omega), pure_bind,
    ← List.map_drop, den_bind]
  have hcbl : (bits.drop (n - q.config.capHeight)).length = 4 := by rw [List.length_drop, hbl]; omega
  simp only [FriQueryRound.enc, FriChallenges.enc]
  rw [den_verifyInitialProof bits _ round.initial caps hcbl hi1 hi2 (by simpa [hbl] using hi3), den_bind,
    den_calculateSubgroupX bits hn, pure_bind, den_bind, toQE_emb,
    den_friCombineInitial inst round.initial ch.alpha _ y hb1 hb2, bind_assoc]
  simp only [pure_bind]
  rw [den_bind]
  have hchain := den_chain (ch := ch.enc) (proof := proof.enc) (steps := round.steps.map FriQueryStep.enc)
    hcbl (coeffs := proof.finalPoly) rfl l 0 (fun j h => ?_) bits (queryPoint_ne_zero n bits)
    (combine ch.alpha (ofBase (queryPoint n bits)) (roundBatches inst round.initial y)) (fun j h => ?_)
  · rw [hll, ← harity] at hchain
    simp only [finish, FriChallenges.enc] at hchain
    rw [hchain, Den.assert_bind_assert, Den.assert_bind_assert]
    rfl
  · rw [hll] at h
    simp only [hl, List.getElem_map, List.getElem_zip, Nat.zero_add]
    refine ⟨?_, ?_, ?_⟩
    · rw [List.getElem?_map, List.getElem?_eq_getElem h, Option.map_some]
    · rw [FriChallenges.enc, List.getElem?_map, List.getElem?_eq_getElem (by omega), Option.map_some]
    · exact List.getElem?_eq_getElem (l := proof.commitCaps) (by omega)
  · rw [hll] at h
    simp only [hl, List.getElem_map, List.getElem_zip]
    refine ⟨(hsteps j h).1, hcc _ (List.getElem_mem _), ?_⟩
    rw [hbl]
    exact (hsteps j h).2

end Verif.Fri
