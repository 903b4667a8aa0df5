import Verif.Proofs.FriInstance
import Verif.Proofs.Plonk64

/-!
# FRI on 64-bit words
-/

set_option autoImplicit false

namespace Verif

open Circ

namespace Circ

theorem Post.mem_idx {α : Type} (l : List α) (i : ℕ) : Post (fun a => a ∈ l) (Verif.idx l i) := by
  rw [Verif.idx]
  cases h : l[i]? with
  | none => trivial
  | some a => exact Post.pure (List.mem_of_getElem? h)

theorem Post.sliceTo {α : Type} (l : List α) (n : ℕ) : Post (fun r => n ≤ l.length ∧ r.length = n) (Fri.sliceTo l n) := by
  rw [Fri.sliceTo]
  split
  · next h => exact Post.pure ⟨h, by simpa using h⟩
  · trivial

/-- Loops that agree as long as the state satisfies the invariant. -/
theorem foldlM_congr_inv {β σ : Type} (I : β → Prop) {f g : β → σ → Circ β} {l : List σ}
    (h : ∀ b, ∀ x ∈ l, I b → f b x = g b x ∧ Post I (g b x)) : ∀ b, I b → l.foldlM f b = l.foldlM g b := by
  induction l with
  | nil => intro b _; rfl
  | cons a l ih =>
    intro b hb
    obtain ⟨h1, h2⟩ := h b a (by simp) hb
    rw [List.foldlM_cons, List.foldlM_cons, h1]
    exact h2.bind_congr fun b' hb' => ih (fun b x hx => h b x (by simp [hx])) b' hb'

end Circ

attribute [local irreducible] Verif.mulExt Verif.addExt Verif.subExt Verif.scalarMulExt Verif.reduceWithPowers
  Verif.idx Verif.orPanic Verif.rangeCheck Verif.divExt Verif.reduce Verif.makeCap Verif.sliceInt Verif.toBinary
  Fri.sliceTo Fri.sliceFrom Fri.assertNoncanonicalIndicesOK Fri.verifyInitialProof Fri.calculateSubgroupX
  Fri.friCombineInitial Fri.finalPolyEval Fri.assertLeadingZeros Fri.fromOpeningsAndAlpha

namespace Fri64

/-- Parameters with which a query round can be verified. -/
structure Bounds (q : FriParams) (proof : FriProof Fr QEV) : Prop where
  queries : q.config.numQueryRounds = proof.rounds.length
  lde : q.degreeBits + q.config.rateBits ≤ 64
  cap : q.config.capHeight ≤ 64
  arities : ∀ a ∈ q.reductionArityBits, a = 4

/-! ## Bounds from a run without panic -/

theorem post_reductionStep {ch : FriChallenges Fr QEV} {proof : FriProof Fr QEV} {steps : List (FriQueryStep QEV)}
    {cb : List Fr} {st : Fri.RoundState} {ai : ℕ × ℕ} :
    Post (fun _ => True ∧ ai.1 = 4) (Fri.reductionStep ch proof steps cb st ai) := by
  rw [Fri.reductionStep]
  refine .skip fun _ => .skip fun _ => .skip fun _ => ?_
  split
  · trivial
  · next h => exact Post.const ⟨trivial, not_not.1 h⟩ _

theorem arities_of_zipIdx {l : List ℕ} (h : ∀ x ∈ l.zipIdx, x.1 = 4) : ∀ a ∈ l, a = 4 := by
  intro a ha
  obtain ⟨i, hi, rfl⟩ := List.getElem_of_mem ha
  exact h (l[i], i) (List.mem_zipIdx_iff_getElem?.2 (List.getElem?_eq_getElem hi))

theorem post_verifyQueryRound {q : FriParams} {inst : InstanceInfo QEV} {ch : FriChallenges Fr QEV} {pre : List QEV}
    {caps : List (List Fr)} {proof : FriProof Fr QEV} {x : Fr} {n : ℕ} {round : FriQueryRound Fr QEV}
    (hs : q.degreeBits + q.config.rateBits < 2 ^ 64) (hc : q.config.capHeight < 2 ^ 64) :
    Post (fun _ => q.degreeBits + q.config.rateBits ≤ 64 ∧ q.config.capHeight ≤ 64 ∧ ∀ a ∈ q.reductionArityBits, a = 4)
      (verifyQueryRound q inst ch pre caps proof x n round) := by
  rw [verifyQueryRound]
  refine .skip fun _ => .skip fun _ => (NoPanic.toBinary _ _).post.bind fun bits hbits =>
    (Post.sliceTo _ _).bind fun xb hxb => (Post.sliceInt _ _ _).bind fun cb hcb => .skip fun _ => .skip fun _ =>
    .skip fun _ => ?_
  rw [nLog, u64_of_lt hs, hbits] at hxb
  refine (Post.foldlM (P := fun ai => ai.1 = 4) (fun _ => True) _ (fun _ _ _ _ => post_reductionStep) _ trivial).bind
    fun _ h => Post.const ⟨hxb.1, ?_, arities_of_zipIdx h.2⟩ _
  rw [hxb.2, int64, int64] at hcb
  omega

theorem post_verifyQueryRoundNat {q : FriParams} {inst : InstanceInfo QEV} {ch : FriChallenges Fr QEV} {pre : List QEV}
    {caps : List (List Fr)} {proof : FriProof Fr QEV} {x : Fr} {n : ℕ} {round : FriQueryRound Fr QEV} :
    Post (fun _ => q.degreeBits + q.config.rateBits ≤ 64 ∧ q.config.capHeight ≤ 64 ∧ ∀ a ∈ q.reductionArityBits, a = 4)
      (Fri.verifyQueryRound q inst ch pre caps proof x n round) := by
  rw [Fri.verifyQueryRound]
  refine .skip fun _ => .skip fun _ => (NoPanic.toBinary _ _).post.bind fun bits hbits =>
    (Post.sliceTo _ _).bind fun xb hxb => ?_
  split
  · next hcb =>
    refine .skip fun _ => .skip fun _ => .skip fun _ => .skip fun _ => ?_
    refine (Post.foldlM (P := fun ai => ai.1 = 4) (fun _ => True) _ (fun _ _ _ _ => post_reductionStep) _ trivial).bind
      fun _ h => Post.const ⟨by omega, by omega, arities_of_zipIdx h.2⟩ _
  · trivial

attribute [local irreducible] int64 in
theorem post_verifyFriProof {q : FriParams} {inst : InstanceInfo QEV} {openings : List (List QEV)}
    {ch : FriChallenges Fr QEV} {caps : List (List Fr)} {proof : FriProof Fr QEV}
    (hs : q.degreeBits + q.config.rateBits < 2 ^ 64) (hc : q.config.capHeight < 2 ^ 64)
    (hn : q.config.numQueryRounds < 2 ^ 64) (h0 : q.config.numQueryRounds ≠ 0) :
    Post (fun _ => Bounds q proof) (verifyFriProof q inst openings ch caps proof) := by
  rw [verifyFriProof]
  refine .skip fun _ => .skip fun _ => ?_
  by_cases hr : int64 q.config.numQueryRounds ≠ proof.rounds.length
  · rw [if_pos hr]; trivial
  rw [if_neg hr]
  have hr' : q.config.numQueryRounds = proof.rounds.length := by
    rw [not_not] at hr
    have := (int64_nonneg hn (by rw [hr]; exact Int.natCast_nonneg _)).1
    rw [hr] at this
    exact_mod_cast this.symm
  refine .skip fun _ => ?_
  by_cases hi : ch.queryIndices.length ≠ proof.rounds.length
  · rw [if_pos hi]; trivial
  rw [if_neg hi]
  refine (Post.forM (P := fun _ => q.degreeBits + q.config.rateBits ≤ 64 ∧ q.config.capHeight ≤ 64 ∧
    ∀ a ∈ q.reductionArityBits, a = 4) _ fun xi _ => .skip fun _ => post_verifyQueryRound hs hc).mono fun _ hall => ?_
  have := hall (ch.queryIndices[0]'(by omega), 0) (List.mem_zipIdx_iff_getElem?.2 (List.getElem?_eq_getElem _))
  exact ⟨hr', this.1, this.2.1, this.2.2⟩

theorem post_verifyFriProofNat {q : FriParams} {inst : InstanceInfo QEV} {openings : List (List QEV)}
    {ch : FriChallenges Fr QEV} {caps : List (List Fr)} {proof : FriProof Fr QEV} (h0 : q.config.numQueryRounds ≠ 0) :
    Post (fun _ => Bounds q proof) (Fri.verifyFriProof q inst openings ch caps proof) := by
  rw [Fri.verifyFriProof]
  refine .skip fun _ => .skip fun _ => ?_
  split
  · trivial
  next hr =>
  refine .skip fun _ => ?_
  simp only
  split
  · trivial
  next hi =>
  refine (Post.forM (P := fun _ => q.degreeBits + q.config.rateBits ≤ 64 ∧ q.config.capHeight ≤ 64 ∧
    ∀ a ∈ q.reductionArityBits, a = 4) _ fun xi _ => .skip fun _ => post_verifyQueryRoundNat).mono fun _ hall => ?_
  have := hall (ch.queryIndices[0]'(by omega), 0) (List.mem_zipIdx_iff_getElem?.2 (List.getElem?_eq_getElem _))
  exact ⟨not_not.1 hr, this.1, this.2.1, this.2.2⟩

/-- The leaves opened in the first round have the lengths of the instance. -/
theorem post_oracles {maxLen : ℕ} {q : FriParams} {inst : InstanceInfo QEV} {openings : List (List QEV)}
    {ch : FriChallenges Fr QEV} {caps : List (List Fr)} {proof : FriProof Fr QEV} (h0 : proof.rounds ≠ [])
    (hm : ∀ round ∈ proof.rounds, ∀ e ∈ round.initial, e.elements.length ≤ maxLen) :
    Post (fun _ => ∀ o ∈ inst.oracles, o.numPolys ≤ maxLen)
      (Fri.verifyFriProof q inst openings ch caps proof) := by
  rw [Fri.verifyFriProof]
  refine Post.stop ?_
  rw [Fri.validateFriProofShape]
  refine .skip fun _ => Post.stop ?_
  obtain ⟨round, hround⟩ := List.exists_mem_of_ne_nil _ h0
  refine (Post.forM (P := fun round => round ∈ proof.rounds → ∀ o ∈ inst.oracles, o.numPolys ≤ maxLen) _
    fun round _ => ?_).mono fun _ h => h round hround hround
  rw [Fri.validateRound]
  split
  · trivial
  next hl =>
  refine Post.stop ((Post.forM (P := fun ei => ∀ o, inst.oracles[ei.2]? = some o → o.numPolys ≤ ei.1.elements.length) _
    fun ei _ => ?_).mono fun _ h hr o ho => ?_)
  · rw [Fri.validateEvalProof]
    cases hio : inst.oracles[ei.2]? with
    | none => exact Panics.post (.bind (.idx (List.getElem?_eq_none_iff.1 hio)) _)
    | some o =>
      have : idx inst.oracles ei.2 = pure o := by rw [idx, hio]
      rw [this]
      simp only [pure_bind]
      by_cases he : ei.1.elements.length ≠ o.numPolys + if (o.blinding && q.isHiding) = true then 4 else 0
      · rw [if_pos he]; trivial
      · refine Post.const (fun o' ho' => ?_) _
        have : o = o' := by simpa using ho'
        subst this
        have := not_not.1 he
        omega
  · obtain ⟨i, hi, rfl⟩ := List.getElem_of_mem ho
    have hi' : i < round.initial.length := by omega
    exact le_trans (h (round.initial[i], i) (List.mem_zipIdx_iff_getElem?.2 (List.getElem?_eq_getElem hi')) _
      (List.getElem?_eq_getElem hi)) (hm _ hr _ (List.getElem_mem hi'))

/-! ## Equality within bounds -/

theorem totalArities_loop {l : List ℕ} (h : ∀ a ∈ l, a = 4) : ∀ n : ℕ, n + 4 * l.length < 2 ^ 63 →
    l.foldl (fun (res : ℤ) (b : ℕ) => int64 (res + int64 b)) (n : ℤ) = ((l.foldl (· + ·) n : ℕ) : ℤ) ∧
      l.foldl (· + ·) n = n + 4 * l.length := by
  induction l with
  | nil => intro n _; exact ⟨rfl, rfl⟩
  | cons a l ih =>
    intro n hn
    rw [List.length_cons] at hn
    have ha : a = 4 := h a (by simp)
    subst ha
    rw [List.foldl_cons, List.foldl_cons, int64_of (z := ((4 : ℕ) : ℤ)) (by norm_num) (by norm_num), ← Nat.cast_add,
      int64_of (by omega) (by omega), List.length_cons]
    have := ih (fun a ha => h a (by simp [ha])) (n + 4) (by omega)
    exact ⟨this.1, by rw [this.2]; ring⟩

theorem finalPolyBits_eq {q : FriParams} {proof : FriProof Fr QEV} (hb : Bounds q proof)
    (hl : q.reductionArityBits.length ≤ 2 ^ 58) : finalPolyBits q = q.finalPolyBits := by
  have ht := totalArities_loop hb.arities 0 (by omega)
  have hl' := hb.lde
  rw [finalPolyBits, FriParams.finalPolyBits, totalArities, FriParams.totalArities,
    int64_of (z := (q.degreeBits : ℤ)) (by omega) (by omega)]
  have h1 := ht.1
  rw [Nat.cast_zero] at h1
  rw [h1]
  have := ht.2
  exact int64_of (by omega) (by omega)

theorem nLog_eq {q : FriParams} {proof : FriProof Fr QEV} (hb : Bounds q proof) :
    nLog q = q.degreeBits + q.config.rateBits := u64_of_lt (by have := hb.lde; omega)

theorem ldeBits_eq {q : FriParams} {proof : FriProof Fr QEV} (hb : Bounds q proof) : ldeBits q = q.ldeBits := by
  have := hb.lde
  rw [ldeBits, nLog_eq hb, FriParams.ldeBits, int64_of (by omega) (by omega)]

theorem validateEvalProof_eq {q : FriParams} {proof : FriProof Fr QEV} {inst : InstanceInfo QEV}
    {ei : FriEvalProof Fr × ℕ} (hb : Bounds q proof) (ho : ∀ o ∈ inst.oracles, o.numPolys ≤ 2 ^ 58)
    (hs : ei.1.siblings.length ≤ 2 ^ 58) :
    validateEvalProof inst q ei = Fri.validateEvalProof inst q ei := by
  rw [validateEvalProof, Fri.validateEvalProof]
  refine (Post.mem_idx _ _).bind_congr fun o hmem => ?_
  have h1 := ho o hmem
  have h2 := hb.cap
  have e1 : ((ei.1.elements.length : ℤ) ≠ int64 (int64 o.numPolys + if o.blinding && q.isHiding then 4 else 0)) ↔
      ei.1.elements.length ≠ o.numPolys + if o.blinding && q.isHiding then 4 else 0 := by
    rw [int64_of (z := (o.numPolys : ℤ)) (by omega) (by omega)]
    split
    · rw [int64_of (by omega) (by omega)]; omega
    · rw [int64_of (by omega) (by omega)]; omega
  have e2 : (int64 (ei.1.siblings.length + int64 q.config.capHeight) ≠ ldeBits q) ↔
      ei.1.siblings.length + q.config.capHeight ≠ q.ldeBits := by
    rw [ldeBits_eq hb, int64_of (z := (q.config.capHeight : ℤ)) (by omega) (by omega), int64_of (by omega) (by omega)]
    omega
  simp only [e1, e2]

theorem validateStep_eq {q : FriParams} {proof : FriProof Fr QEV} {b : ℤ} {si : FriQueryStep QEV × ℕ}
    (hb : Bounds q proof) (hs : si.1.siblings.length ≤ 2 ^ 58) (h : 0 ≤ b ∧ b ≤ 2 ^ 59) :
    validateStep q b si = Fri.validateStep q b si ∧ Post (fun b => 0 ≤ b ∧ b ≤ 2 ^ 59) (Fri.validateStep q b si) := by
  have h2 := hb.cap
  constructor
  · rw [validateStep, Fri.validateStep]
    refine (Post.mem_idx _ _).bind_congr fun a hmem => ?_
    have ha := hb.arities a hmem
    subst ha
    rw [int64_of (z := (q.config.capHeight : ℤ)) (by omega) (by omega),
      int64_of (z := ((4 : ℕ) : ℤ)) (by norm_num) (by norm_num), int64_of (z := b - _) (by omega) (by omega),
      int64_of (by omega) (by omega), Nat.cast_add]
  · rw [Fri.validateStep]
    refine .skip fun a => ?_
    simp only
    split
    · trivial
    · split
      · trivial
      · next hc => exact Post.pure (by omega)

theorem validateRound_eq {q : FriParams} {proof : FriProof Fr QEV} {inst : InstanceInfo QEV}
    {round : FriQueryRound Fr QEV} (hb : Bounds q proof) (ho : ∀ o ∈ inst.oracles, o.numPolys ≤ 2 ^ 58)
    (hi : ∀ e ∈ round.initial, e.siblings.length ≤ 2 ^ 58) (hs : ∀ s ∈ round.steps, s.siblings.length ≤ 2 ^ 58) :
    validateRound inst q round = Fri.validateRound inst q round := by
  have h1 := hb.lde
  rw [validateRound, Fri.validateRound,
    forM_congr' (l := round.initial.zipIdx) (g := Fri.validateEvalProof inst q) fun ei hei =>
      validateEvalProof_eq hb ho (hi _ (List.fst_mem_of_mem_zipIdx hei)),
    foldlM_congr_inv (fun b => 0 ≤ b ∧ b ≤ 2 ^ 59) (g := Fri.validateStep q)
      (fun b si hsi hb' => validateStep_eq hb (hs _ (List.fst_mem_of_mem_zipIdx hsi)) hb') (ldeBits q) (by
        rw [ldeBits_eq hb, FriParams.ldeBits]; omega), ldeBits_eq hb]

theorem validate_eq {q : FriParams} {proof : FriProof Fr QEV} {inst : InstanceInfo QEV} (hb : Bounds q proof)
    (hl : q.reductionArityBits.length ≤ 2 ^ 58) (ho : ∀ o ∈ inst.oracles, o.numPolys ≤ 2 ^ 58)
    (hi : ∀ round ∈ proof.rounds, ∀ e ∈ round.initial, e.siblings.length ≤ 2 ^ 58)
    (hs : ∀ round ∈ proof.rounds, ∀ s ∈ round.steps, s.siblings.length ≤ 2 ^ 58) :
    validateFriProofShape proof inst q = Fri.validateFriProofShape proof inst q := by
  rw [validateFriProofShape, Fri.validateFriProofShape, finalPolyBits_eq hb hl,
    forM_congr' (l := proof.rounds) (g := Fri.validateRound inst q) fun round hr =>
      validateRound_eq hb ho (hi round hr) (hs round hr)]

theorem capBits_eq {xb : List Fr} {cap : ℕ} (hx : xb.length ≤ 64) (hc : cap ≤ 64) :
    sliceInt xb (int64 (xb.length - int64 cap)) xb.length =
      if cap ≤ xb.length then Fri.sliceFrom xb (xb.length - cap) else goPanic "slice bounds out of range" := by
  rw [int64_of (z := (cap : ℤ)) (by omega) (by omega), int64_of (by omega) (by omega), sliceInt, Fri.sliceFrom]
  by_cases h : cap ≤ xb.length
  · rw [if_pos (by omega), if_pos h, if_pos (by omega)]
    have : ((xb.length : ℤ) - (cap : ℤ)).toNat = xb.length - cap := by omega
    rw [this]
    simp
  · rw [if_neg (by omega), if_neg h]

theorem verifyQueryRound_eq {q : FriParams} {inst : InstanceInfo QEV} {ch : FriChallenges Fr QEV} {pre : List QEV}
    {caps : List (List Fr)} {proof : FriProof Fr QEV} {x : Fr} {n : ℕ} {round : FriQueryRound Fr QEV}
    (hb : Bounds q proof) :
    verifyQueryRound q inst ch pre caps proof x n round = Fri.verifyQueryRound q inst ch pre caps proof x n round := by
  rw [verifyQueryRound, Fri.verifyQueryRound, nLog_eq hb]
  congr 1; funext _; congr 1; funext _; congr 1; funext bits
  refine (Post.sliceTo _ _).bind_congr fun xb hxb => ?_
  rw [capBits_eq (by have := hb.lde; omega) hb.cap]

theorem verifyFriProof_eq {q : FriParams} {inst : InstanceInfo QEV} {openings : List (List QEV)}
    {ch : FriChallenges Fr QEV} {caps : List (List Fr)} {proof : FriProof Fr QEV} (hb : Bounds q proof)
    (hr : proof.rounds.length ≤ 2 ^ 58)
    (hl : q.reductionArityBits.length ≤ 2 ^ 58) (ho : ∀ o ∈ inst.oracles, o.numPolys ≤ 2 ^ 58)
    (hi : ∀ round ∈ proof.rounds, ∀ e ∈ round.initial, e.siblings.length ≤ 2 ^ 58)
    (hs : ∀ round ∈ proof.rounds, ∀ s ∈ round.steps, s.siblings.length ≤ 2 ^ 58) :
    verifyFriProof q inst openings ch caps proof = Fri.verifyFriProof q inst openings ch caps proof := by
  have hq := hb.queries
  rw [verifyFriProof, Fri.verifyFriProof, validate_eq hb hl ho hi hs, int64_of (by omega) (by omega), nLog_eq hb]
  simp only [verifyQueryRound_eq hb, ne_eq, Nat.cast_inj]

/-! ## The instance -/

/-- Numbers of polynomials that fit in memory. -/
def InstanceFits (maxLen : ℕ) (c : CommonCircuitData) : Prop := ∀ o ∈ Fri.friOracles c, o.numPolys ≤ maxLen

theorem numZS_eq {maxLen : ℕ} (hL : maxLen ≤ 2 ^ 58) {c : CommonCircuitData} (h1 : c.config.numChallenges ≤ maxLen)
    (h2 : c.config.numChallenges * c.numPartialProducts ≤ maxLen) :
    numZSPartialProductsPolys c = Fri.numZSPartialProductsPolys c := by
  rw [numZSPartialProductsPolys, Fri.numZSPartialProductsPolys]
  by_cases h0 : c.config.numChallenges = 0
  · simp [h0, u64]
  · have hnp : c.numPartialProducts ≤ maxLen := le_trans (Nat.le_mul_of_pos_left _ (by omega)) h2
    have e : c.config.numChallenges * (1 + c.numPartialProducts) =
      c.config.numChallenges + c.config.numChallenges * c.numPartialProducts := by ring
    rw [u64_of_lt (n := 1 + _) (by omega), u64_of_lt (by omega)]

theorem numQuotient_eq {maxLen : ℕ} (hL : maxLen ≤ 2 ^ 58) {c : CommonCircuitData}
    (h2 : c.config.numChallenges * c.quotientDegreeFactor ≤ maxLen) :
    numQuotientPolys c = Fri.numQuotientPolys c := u64_of_lt (by omega)

theorem post_numPreprocessed {maxLen : ℕ} {c : CommonCircuitData} (h : c.config.numRoutedWires ≤ 2 ^ 58)
    (hc : c.numConstants < 2 ^ 64) :
    Post (fun n => n = Fri.numPreprocessedPolys c) (numPreprocessedPolys maxLen c) := by
  rw [numPreprocessedPolys, Fri.numPreprocessedPolys_eq]
  split
  · trivial
  next h1 =>
  split
  · trivial
  split
  · trivial
  rw [u64] at *
  exact Post.pure (by omega)

theorem post_range {maxLen o n : ℕ} : Post (fun _ => n ≤ maxLen) (polynomialInfoFromRange maxLen o n) := by
  rw [polynomialInfoFromRange]
  split
  · next h => exact Post.pure h
  · trivial

theorem post_getInstance {maxLen : ℕ} (hL : maxLen ≤ 2 ^ 58) {c : CommonCircuitData} {zeta : QEV}
    (hr : c.config.numRoutedWires ≤ maxLen) (hc : c.numConstants < 2 ^ 64)
    (h1 : c.config.numChallenges ≤ maxLen) (h2 : c.config.numChallenges * c.numPartialProducts ≤ maxLen)
    (h3 : c.config.numChallenges * c.quotientDegreeFactor ≤ maxLen) :
    Post (fun _ => InstanceFits maxLen c) (getInstance maxLen c zeta) := by
  rw [getInstance]
  refine Post.stop ?_
  rw [friAllPolys, numZS_eq hL h1 h2, numQuotient_eq hL h3]
  refine (post_numPreprocessed (by omega) hc).bind fun n hn => post_range.bind fun _ e0 => post_range.bind fun _ e1 =>
    post_range.bind fun _ e2 => post_range.bind fun _ e3 => Post.const ?_ _
  subst hn
  simp only [InstanceFits, Fri.friOracles, List.mem_cons, List.not_mem_nil, or_false, forall_eq_or_imp, forall_eq]
  exact ⟨e0, e1, e2, e3⟩

theorem range_eq {maxLen o n : ℕ} (h : n ≤ maxLen) :
    polynomialInfoFromRange maxLen o n = pure (Fri.polynomialInfoFromRange o 0 n) := by
  rw [polynomialInfoFromRange, if_pos h, Fri.polynomialInfoFromRange, List.range_eq_range', Nat.sub_zero]

theorem getInstance_eq {maxLen : ℕ} (hL : maxLen ≤ 2 ^ 58) {c : CommonCircuitData} {zeta : QEV}
    (hr : c.config.numRoutedWires + 1 ≤ maxLen)
    (h1 : c.config.numChallenges ≤ maxLen) (h2 : c.config.numChallenges * c.numPartialProducts ≤ maxLen)
    (h3 : c.config.numChallenges * c.quotientDegreeFactor ≤ maxLen) (hf : InstanceFits maxLen c) :
    getInstance maxLen c zeta = Fri.getInstance c zeta := by
  simp only [InstanceFits, Fri.friOracles, List.mem_cons, List.not_mem_nil, or_false, forall_eq_or_imp, forall_eq] at hf
  obtain ⟨e0, e1, e2, e3⟩ := hf
  have hp : numPreprocessedPolys maxLen c = pure (Fri.numPreprocessedPolys c) := by
    rw [Fri.numPreprocessedPolys_eq] at e0 ⊢
    rw [numPreprocessedPolys, u64_of_lt (by omega), if_neg (by omega), if_neg (by omega), if_neg (by omega)]
  rw [getInstance, Fri.getInstance, friAllPolys, friOracles, hp, numZS_eq hL h1 h2, numQuotient_eq hL h3]
  simp only [pure_bind, range_eq e0, range_eq e1, range_eq e2, range_eq e3, range_eq h1]
  rfl

end Fri64

end Verif
