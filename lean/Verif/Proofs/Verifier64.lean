import Verif.Proofs.Fri64
import Verif.Proofs.FriShape

/-!
# The verifier on 64-bit words
-/

set_option autoImplicit false

namespace Verif

open Circ Gates

attribute [local irreducible] Verifier.rangeCheckProof PoseidonGL.hashNoPadWith Verifier.getChallenges Plonk.verify
  Plonk64.verify Fri.getInstance Fri64.getInstance Fri.verifyFriProof Fri64.verifyFriProof

theorem post_getInstanceNat {c : CommonCircuitData} {zeta : QEV} :
    Post (fun i => i.oracles = Fri.friOracles c) (Fri.getInstance c zeta) := by
  rw [Fri.getInstance]
  exact .skip fun _ => .skip fun _ => Post.pure rfl

namespace Verifier64

theorem verify_agree {perm : PoseidonGL.State → Circ PoseidonGL.State} {maxLen : ℕ} (hL : maxLen ≤ 2 ^ 58)
    {c : CommonCircuitData} (gates : List Gates64.Gate) {proof : Proof Fr QEV} (inputs : List Fr)
    (vd : VerifierOnlyCircuitData) (hw : Spec.Words.Parameters c) (hm : Spec.Words.InMemory maxLen c proof)
    (hs : c.friParams.degreeBits + c.friParams.config.rateBits < 2 ^ 64)
    (h0 : c.friParams.config.numQueryRounds ≠ 0) :
    Agree (verify perm maxLen c gates proof inputs vd)
      (Verifier.verify perm c (gates.map Gates64.Gate.toNat) proof inputs vd) := by
  have m1 := hm.kIs
  have m2 := hm.partialProducts
  have m3 := hm.plonkZs
  have m4 := hm.quotients
  have m5 := hm.rounds
  have m6 := hm.arities
  rw [verify, Verifier.verify]
  by_cases hb : Plonk64.Bounds c (gates.map Gates64.Gate.toNat) proof.openings
  swap
  · right
    constructor
    · exact .bind_all fun _ => .bind_all fun _ => .bind_all fun _ => .bind ((Plonk64.post_verify hL hm.constants
        hm.wires (by omega) hm.quotients hw.partialProducts hw.factor).panics hb) _
    · exact .bind_all fun _ => .bind_all fun _ => .bind_all fun _ => .bind (Plonk64.post_verifyNat.panics hb) _
  have b1 := hb.kIs
  have b2 := hb.zs
  have b3 := hb.products
  have b4 := hb.quotients
  by_cases hf : Fri64.Bounds c.friParams proof.openingProof
  swap
  · right
    constructor
    · exact .bind_all fun _ => .bind_all fun _ => .bind_all fun _ => .bind_all fun _ => .bind_all fun _ =>
        (Fri64.post_verifyFriProof hs hw.cap hw.queries h0).panics hf
    · exact .bind_all fun _ => .bind_all fun _ => .bind_all fun _ => .bind_all fun _ => .bind_all fun _ =>
        (Fri64.post_verifyFriProofNat h0).panics hf
  have hne : proof.openingProof.rounds ≠ [] := by
    intro h
    have := hf.queries
    rw [h] at this
    exact h0 this
  by_cases hi : Fri64.InstanceFits maxLen c
  swap
  · right
    constructor
    · exact .bind_all fun _ => .bind_all fun _ => .bind_all fun _ => .bind_all fun _ => .bind
        ((Fri64.post_getInstance hL (by omega) hw.constants (by omega) (by omega) (by omega)).panics hi) _
    · refine .bind_all fun _ => .bind_all fun _ => .bind_all fun _ => .bind_all fun _ => Post.panics ?_ hi
      refine post_getInstanceNat.bind fun inst ho => ?_
      refine (Fri64.post_oracles hne fun round hr e he => (hm.leaves round hr e he).1).mono fun _ h => ?_
      rwa [ho] at h
  · left
    congr 1; funext _; congr 1; funext ph; congr 1; funext ch
    rw [Plonk64.verify_eq hL hm.constants hm.wires hm.plonkZs hm.partialProducts hm.quotients (by omega) hb]
    congr 1; funext _
    simp only
    rw [Fri64.getInstance_eq hL (by omega) (by omega) (by omega) (by omega) hi]
    refine post_getInstanceNat.bind_congr fun inst ho => ?_
    refine Fri64.verifyFriProof_eq hf (by omega) (by omega) (fun o hmem => ?_)
      (fun round hr e he => le_trans (hm.leaves round hr e he).2 hL)
      (fun round hr s hs => le_trans (hm.siblings round hr s hs) hL)
    rw [ho] at hmem
    exact le_trans (hi o hmem) hL

end Verifier64

namespace Fri64

theorem rateOne_sum (q : FriParams) :
    (Spec.Words.rateOne q).degreeBits + (Spec.Words.rateOne q).config.rateBits = nLog q := Nat.add_zero _

theorem assertNoncanonical_rateOne (q : FriParams) :
    Fri.assertNoncanonicalIndicesOK (Spec.Words.rateOne q) = pure () := by
  rw [Fri.assertNoncanonicalIndicesOK, if_neg]
  rintro ⟨_, h⟩
  exact absurd h (by simp only [Spec.Words.rateOne]; norm_num [p])

theorem nLog_lt (q : FriParams) : nLog q < 2 ^ 64 := Nat.mod_lt _ (by norm_num)

theorem nLog_rateOne (q : FriParams) : nLog (Spec.Words.rateOne q) = nLog q := by
  conv_lhs => rw [nLog, rateOne_sum]
  exact u64_of_lt (nLog_lt q)

attribute [local irreducible] nLog int64 u64 Fri.sliceTo Verif.sliceInt toBinary reduce

/-- From 64 rate bits on, the query rounds are those for a domain of `2^n` points and no rate bits, `n` the wrapped sum. -/
theorem verifyQueryRound_wrapped {q : FriParams} {inst : InstanceInfo QEV} {ch : FriChallenges Fr QEV} {pre : List QEV}
    {caps : List (List Fr)} {proof : FriProof Fr QEV} {x : Fr} {n : ℕ} {round : FriQueryRound Fr QEV}
    (hr : 64 ≤ q.config.rateBits) (hc : q.config.capHeight ≤ 64) (hn : nLog q ≤ 64) :
    verifyQueryRound q inst ch pre caps proof x n round =
      Fri.verifyQueryRound (Spec.Words.rateOne q) inst ch pre caps proof x n round := by
  have e1 : Fri.assertNoncanonicalIndicesOK q = pure () := by
    rw [Fri.assertNoncanonicalIndicesOK, if_neg (by omega)]
  rw [verifyQueryRound, Fri.verifyQueryRound, e1, assertNoncanonical_rateOne, rateOne_sum]
  congr 1; funext _; congr 1; funext _; congr 1; funext bits
  refine (Post.sliceTo _ _).bind_congr fun xb hxb => ?_
  rw [capBits_eq (by omega) hc]
  rfl

theorem ldeBits_rateOne (q : FriParams) : ldeBits (Spec.Words.rateOne q) = ldeBits q := by
  rw [ldeBits, ldeBits, nLog_rateOne]

theorem validateRound_rateOne (inst : InstanceInfo QEV) (q : FriParams) (round : FriQueryRound Fr QEV) :
    validateRound inst q round = validateRound inst (Spec.Words.rateOne q) round := by
  have e1 : validateEvalProof inst q = validateEvalProof inst (Spec.Words.rateOne q) := by
    funext ei
    rw [validateEvalProof, validateEvalProof, ldeBits_rateOne]
    rfl
  rw [validateRound, validateRound, ldeBits_rateOne, e1]
  rfl

/-- Proofs accepted by the shape validation and the query rounds when the sum of degree bits and rate bits wraps around. -/
theorem wrapped_noPanic {q : FriParams} {inst : InstanceInfo QEV} {openings : List (List QEV)}
    {ch : FriChallenges Fr QEV} {caps : List (List Fr)} {proof : FriProof Fr QEV}
    (hr : 64 ≤ q.config.rateBits) (hn : 4 ≤ nLog q ∧ nLog q ≤ 32) (hcap : q.config.capHeight = 4)
    (hd : q.degreeBits ≤ 62) (ha : ∀ a ∈ q.reductionArityBits, a = 4)
    (hfinal : 4 * q.reductionArityBits.length ≤ q.degreeBits ∧
      proof.finalPoly.length = 2 ^ (q.degreeBits - 4 * q.reductionArityBits.length))
    (hcaps : caps.length = inst.oracles.length ∧ ∀ cap ∈ caps, cap.length = 16)
    (ho : ∀ o ∈ inst.oracles, o.numPolys ≤ 2 ^ 58)
    (hy : inst.batches.length = openings.length)
    (hbat : ∀ b ∈ inst.batches, ∀ f ∈ b.polynomials,
      ∃ o, inst.oracles[f.oracleIndex]? = some o ∧ f.polynomialInfo < o.numPolys)
    (hnq : q.config.numQueryRounds = proof.rounds.length) (hlen : proof.rounds.length ≤ 2 ^ 58)
    (hi : ch.queryIndices.length = proof.rounds.length)
    (hb : q.reductionArityBits.length ≤ ch.betas.length) (hc : q.reductionArityBits.length ≤ proof.commitCaps.length)
    (hcc : ∀ cap ∈ proof.commitCaps, cap.length = 16)
    (hrs : ∀ round ∈ proof.rounds, Spec.Fri.RoundShape (Spec.Words.rateOne q) inst round) :
    NoPanic (verifyFriProof q inst openings ch caps proof) := by
  have hsum := rateOne_sum q
  have hb1 : Bounds (Spec.Words.rateOne q) proof :=
    ⟨hnq, by omega, by show q.config.capHeight ≤ 64; omega, ha⟩
  have hround : ∀ round ∈ proof.rounds, validateRound inst q round = pure () := by
    intro round hmem
    have hs := hrs round hmem
    have hcp : (Spec.Words.rateOne q).config.capHeight = 4 := hcap
    rw [validateRound_rateOne, validateRound_eq hb1 ho]
    · exact (Fri.decides_round inst _ (fun a h => by rw [ha a h]; norm_num) round).1 hs
    · intro e he
      obtain ⟨i, hlt, rfl⟩ := List.getElem_of_mem he
      have hlt' : i < inst.oracles.length := by rw [← hs.initial.1]; exact hlt
      have := (hs.initial.2 i _ _ (List.getElem?_eq_getElem hlt) (List.getElem?_eq_getElem hlt')).2
      omega
    · intro s hs'
      obtain ⟨i, hlt, rfl⟩ := List.getElem_of_mem hs'
      have hlt' : i < (Spec.Words.rateOne q).reductionArityBits.length := by rw [← hs.steps.1]; exact hlt
      have := (hs.steps.2 i _ _ (List.getElem?_eq_getElem hlt) (List.getElem?_eq_getElem hlt')).2
      omega
  have ht := totalArities_loop ha 0 (by omega)
  have hf : finalPolyBits q = ((q.degreeBits - 4 * q.reductionArityBits.length : ℕ) : ℤ) := by
    have h1 := ht.1
    rw [Nat.cast_zero] at h1
    rw [finalPolyBits, totalArities, int64_of (z := (q.degreeBits : ℤ)) (by omega) (by omega), h1, ht.2,
      int64_of (by omega) (by omega)]
    omega
  have hshape : validateFriProofShape proof inst q = pure () := by
    have hfin : (proof.finalPoly.length : ℤ) = goShl1 (q.degreeBits - 4 * q.reductionArityBits.length) := by
      rw [goShl1, if_pos (by omega), hfinal.2]; push_cast; rfl
    rw [validateFriProofShape, hf, if_neg (by omega), Int.toNat_natCast, if_neg (not_not.2 hfin), hcap,
      forM_congr' (l := proof.rounds) (g := fun _ => pure ()) hround,
      forM_congr' (l := proof.commitCaps) (g := fun _ => pure ()) fun cap h => by rw [hcc cap h]; rfl]
    have key : ∀ {σ : Type} (l : List σ), l.forM (fun _ => (pure () : Circ Unit)) = pure () := by
      intro σ l
      induction l with
      | nil => rfl
      | cons a l ih => rw [List.forM, ih]; rfl
    rw [key, key]
    rfl
  rw [verifyFriProof, hshape]
  refine NoPanic.bind (NoPanic.pure _) fun _ => NoPanic.bind (NoPanic.rangeCheckWithMaxBits _ _) fun _ => ?_
  rw [int64_of (by omega) (by omega), if_neg (by simpa using hnq)]
  refine Safe.bindN (Safe.mapM_length _ fun _ _ => NoPanic.reduceWithPowers _ _) fun y hyl => ?_
  rw [if_neg (by simpa using hi)]
  refine NoPanic.forM _ fun xi hxi => ?_
  have hlt : xi.2 < proof.rounds.length := hi ▸ NoPanic.zipIdx_lt hxi
  refine (NoPanic.idx hlt).bindN fun r hrr => ?_
  rw [verifyQueryRound_wrapped hr (by omega) (by omega), ← hsum]
  refine NoPanic.verifyQueryRound ⟨by omega, by omega, Nat.zero_le _, hcap⟩ ha hcaps (hy.trans hyl.symm) hbat ?_
    (hrs _ (hrr ▸ List.getElem_mem _)) hb hc
  intro cap hmem
  rw [hcc cap hmem]
  show 16 = 2 ^ q.config.capHeight
  rw [hcap]; norm_num

end Fri64

end Verif
