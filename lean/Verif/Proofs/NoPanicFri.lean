import Verif.Proofs.NoPanic
import Verif.Proofs.FriShape
import Verif.Model.Gates

/-!
# Absence of panics in the Merkle and FRI verifiers
-/

set_option autoImplicit false

namespace Verif

open Circ Fri

variable {α β σ : Type}

namespace NoPanic

theorem safe {c : Circ α} (h : NoPanic c) : Safe c fun _ => True := by
  unfold NoPanic at h
  exact h

theorem of_pure {c : Circ α} {a : α} (h : c = Pure.pure a) : NoPanic c := h ▸ pure a

end NoPanic

theorem Circ.Safe.np {c : Circ α} {Q : α → Prop} (h : Safe c Q) : NoPanic c := NoPanic.of_safe h

theorem Circ.Safe.bind {c : Circ α} {f : α → Circ β} {Q : α → Prop} {R : β → Prop} (h : Safe c Q)
    (hf : ∀ a, Q a → Safe (f a) R) : Safe (c >>= f) R := (safe_bind c f R).2 (h.mono hf)

theorem NoPanic.bindS {c : Circ α} {f : α → Circ β} {R : β → Prop} (h : NoPanic c)
    (hf : ∀ a, Safe (f a) R) : Safe (c >>= f) R := (NoPanic.safe h).bind fun a _ => hf a

theorem Circ.Safe.bindN {c : Circ α} {f : α → Circ β} {Q : α → Prop} (h : Safe c Q)
    (hf : ∀ a, Q a → NoPanic (f a)) : NoPanic (c >>= f) :=
  NoPanic.of_safe (h.bind fun a ha => NoPanic.safe (hf a ha))

theorem Circ.Safe.pure {a : α} {Q : α → Prop} (h : Q a) : Safe (Pure.pure a : Circ α) Q := h

/-- Every element of the result satisfies `Q`, and the length is that of the list. -/
theorem Circ.Safe.mapM {f : σ → Circ β} {Q : β → Prop} (l : List σ) (h : ∀ x ∈ l, Safe (f x) Q) :
    Safe (l.mapM f) fun r => r.length = l.length ∧ ∀ y ∈ r, Q y := by
  induction l with
  | nil => rw [List.mapM_nil]; exact Safe.pure (by simp)
  | cons a l ih =>
    rw [List.mapM_cons]
    refine (h a (by simp)).bind fun b hb => (ih fun x hx => h x (by simp [hx])).bind fun r hr => Safe.pure ?_
    simp only [List.length_cons, hr.1, List.mem_cons, true_and]
    rintro y (rfl | hy)
    · exact hb
    · exact hr.2 y hy

theorem Circ.Safe.mapM_length {f : σ → Circ β} (l : List σ) (h : ∀ x ∈ l, NoPanic (f x)) :
    Safe (l.mapM f) fun r => r.length = l.length :=
  (Safe.mapM (Q := fun _ => True) l fun x hx => NoPanic.safe (h x hx)).mono fun _ h => h.1

theorem Circ.Safe.foldlM {f : β → σ → Circ β} (I : ℕ → β → Prop) (l : List σ)
    (h : ∀ (i : ℕ) (b : β) (x : σ), l[i]? = some x → I i b → Safe (f b x) (I (i + 1))) :
    ∀ b, I 0 b → Safe (l.foldlM f b) (I l.length) := by
  induction l generalizing I with
  | nil => exact fun b hb => Safe.pure hb
  | cons a l ih =>
    intro b hb
    rw [List.foldlM_cons]
    refine (h 0 b a (by simp) hb).bind fun b' hb' => ?_
    exact ih (fun i => I (i + 1)) (fun i b x hx hi => h (i + 1) b x (by simpa using hx) hi) b' hb'

theorem Circ.Safe.foldlM_const {f : β → σ → Circ β} {I : β → Prop} (l : List σ)
    (h : ∀ b, ∀ x ∈ l, I b → Safe (f b x) I) (b : β) (hb : I b) : Safe (l.foldlM f b) I :=
  Safe.foldlM (fun _ => I) l (fun _ b x hx hi => h b x (List.mem_of_getElem? hx) hi) b hb

namespace NoPanic

theorem idx' {l : List α} {i : ℕ} (h : i < l.length) : NoPanic (Verif.idx l i) := (idx h).np

theorem orPanic {e : Option α} {msg : String} {a : α} (h : e = some a) : Safe (orPanic msg e) fun x => x = a := by
  subst h; rfl

theorem zipIdx_lt {l : List α} {x : α × ℕ} (h : x ∈ l.zipIdx) : x.2 < l.length := by
  rw [List.mem_zipIdx_iff_getElem?] at h
  exact (List.getElem?_eq_some_iff.1 h).1

/-! ## Merkle proofs -/

theorem merkleStep {bits : List Fr} {d : Fr} {si : Fr × ℕ} (h : si.2 < bits.length) :
    NoPanic (Fri.merkleStep bits d si) :=
  bind (idx' h) fun _ => bind (select _ _ _) fun _ => bind (select _ _ _) fun _ => pure _

theorem capLookup {bits cap : List Fr} (hb : bits.length = 4) (hc : cap.length = 16) :
    NoPanic (Fri.capLookup bits cap) := by
  rw [Fri.capLookup, if_neg (by simp [hb, hc])]
  have hi : ∀ (j : ℕ), j < 16 → NoPanic (Verif.idx cap j) := fun j hj => idx' (by omega)
  refine bind (idx' (by omega)) fun _ => bind (idx' (by omega)) fun _ => ?_
  refine (Safe.mapM_length (List.range 4) fun i h => ?_).bindN fun l hl => ?_
  · have := List.mem_range.1 h
    exact bind (hi _ (by omega)) fun _ => bind (hi _ (by omega)) fun _ => bind (hi _ (by omega)) fun _ =>
      bind (hi _ (by omega)) fun _ => apiLookup2 _ _ _ _ _ _
  · rw [List.length_range] at hl
    exact bind (idx' (by omega)) fun _ => bind (idx' (by omega)) fun _ => bind (idx' (by omega)) fun _ =>
      bind (idx' (by omega)) fun _ => bind (idx' (by omega)) fun _ => bind (idx' (by omega)) fun _ =>
      apiLookup2 _ _ _ _ _ _

theorem verifyMerkleProofToCap {leaf bits capBits cap siblings : List Fr} (hs : siblings.length ≤ bits.length)
    (hb : capBits.length = 4) (hc : cap.length = 16) :
    NoPanic (Fri.verifyMerkleProofToCap leaf bits capBits cap siblings) :=
  bind (foldlM _ (fun _ _ hx => merkleStep ((zipIdx_lt hx).trans_le hs)) _) fun _ =>
    bind (capLookup hb hc) fun _ => assertEq _ _

/-! ## FRI -/

theorem glAssertIsEqual (x y : Fr) : NoPanic (Verif.glAssertIsEqual x y) := assertEq _ _

theorem rangeCheckWithMaxBits (x : Fr) (n : ℕ) : NoPanic (Verif.rangeCheckWithMaxBits x n) := check _ _

theorem sliceFrom {l : List α} {n : ℕ} (h : n ≤ l.length) : Safe (Fri.sliceFrom l n) fun r => r = l.drop n := by
  rw [Fri.sliceFrom, if_pos h]; rfl

theorem sliceTo {l : List α} {n : ℕ} (h : n ≤ l.length) : Safe (Fri.sliceTo l n) fun r => r = l.take n := by
  rw [Fri.sliceTo, if_pos h]; rfl

theorem expFromBits (base : Fp) (bits : List Fr) : NoPanic (expFromBitsConstBase base bits) :=
  foldlM _ (fun _ _ _ => bind (mul _ _) fun _ => bind (mul _ _) fun _ => add _ _) _

theorem primitiveRoot {n : ℕ} (h : n ≤ 32) : ∃ g, primitiveRootOfUnity n = some g := by
  rw [primitiveRootOfUnity]
  simp [show ¬ 32 < n by omega, TWO_ADICITY]

theorem calculateSubgroupX {bits : List Fr} {n : ℕ} (h : n ≤ 32) : NoPanic (Fri.calculateSubgroupX bits n) := by
  obtain ⟨g, hg⟩ := primitiveRoot h
  exact (orPanic hg).bindN fun _ _ => bind (expFromBits _ _) fun _ => mul _ _

theorem verifyInitialProof {bits : List Fr} {proof : List (FriEvalProof Fr)} {caps : List (List Fr)} {capBits : List Fr}
    (hl : proof.length = caps.length) (hs : ∀ t ∈ proof, t.siblings.length ≤ bits.length) (hb : capBits.length = 4)
    (hc : ∀ cap ∈ caps, cap.length = 16) : NoPanic (Fri.verifyInitialProof bits proof caps capBits) := by
  rw [Fri.verifyInitialProof, if_neg (by simp [hl])]
  refine forM _ fun ec hec => ?_
  have := List.of_mem_zip hec
  exact verifyMerkleProofToCap (hs _ this.1) hb (hc _ this.2)

theorem combineBatch {proof : List (FriEvalProof Fr)} {alpha x sum : QEV} {bo : BatchInfo QEV × QEV}
    (h : ∀ f ∈ bo.1.polynomials, ∃ t, proof[f.oracleIndex]? = some t ∧ f.polynomialInfo < t.elements.length) :
    NoPanic (Fri.combineBatch proof alpha x sum bo) := by
  refine bind (mapM _ fun f hf => ?_) fun _ => bind (reduceWithPowers _ _) fun _ => bind (subExt _ _) fun _ =>
    bind (expExt _ _) fun _ => bind (mulExt _ _) fun _ => bind (inverseExt _) fun _ => bind (assertEq _ _) fun _ =>
    mulAddExt _ _ _
  obtain ⟨t, ht, hlt⟩ := h f hf
  obtain ⟨hi, hget⟩ := List.getElem?_eq_some_iff.1 ht
  refine (idx hi).bindN fun ep hep => ?_
  subst hep
  rw [hget]
  exact bind (idx' hlt) fun _ => pure _

theorem friCombineInitial {inst : InstanceInfo QEV} {proof : List (FriEvalProof Fr)} {alpha x : QEV} {y : List QEV}
    (hy : inst.batches.length = y.length)
    (h : ∀ b ∈ inst.batches, ∀ f ∈ b.polynomials,
      ∃ t, proof[f.oracleIndex]? = some t ∧ f.polynomialInfo < t.elements.length) :
    NoPanic (Fri.friCombineInitial inst proof alpha x y) := by
  rw [Fri.friCombineInitial, if_neg (by simp [hy])]
  exact foldlM _ (fun _ bo hbo => combineBatch (h _ (List.of_mem_zip hbo).1)) _

theorem finalPolyEval (l : List QEV) (x : QEV) : NoPanic (Fri.finalPolyEval l x) :=
  foldlM _ (fun _ _ _ => mulAddExt _ _ _) _

theorem interpolate {x : QEV} {xs ys ws : List QEV} (h1 : xs.length = ys.length) (h2 : xs.length = ws.length) :
    NoPanic (Fri.interpolate x xs ys ws) := by
  rw [Fri.interpolate, if_neg (by simp [← h2, h1])]
  refine bind (foldlM _ (fun _ _ _ => subMulExt _ _ _) _) fun _ => ?_
  refine bind (foldlM _ (fun _ _ _ => bind (subExt _ _) fun _ => bind (divExt _ _) fun _ => bind (mulExt _ _) fun _ =>
    bind (addExt _ _) fun _ => pure _) _) fun _ => ?_
  exact bind (mulExt _ _) fun _ =>
    bind (foldlM _ (fun _ _ _ => bind (subExt _ _) fun _ => lookup _ _ _) _) fun _ => lookup _ _ _

theorem permuteLoop_some {E : Type} (evals : List E) (b : ℕ) (hl : evals.length ≤ 255) (h0 : evals ≠ []) :
    ∀ (fuel i : ℕ) (acc : List E), evals.length < fuel + i → i ≤ evals.length → acc.length = evals.length →
      ∃ r, permuteLoop evals b fuel i acc = some r ∧ r.length = evals.length := by
  intro fuel
  induction fuel with
  | zero => intro i acc h1 h2; omega
  | succ fuel ih =>
    intro i acc h1 h2 h3
    have hpos := List.length_pos_iff.2 h0
    rw [permuteLoop]
    by_cases h : i ≤ (evals.length - 1) % 256
    · rw [if_pos h]
      rw [Nat.mod_eq_of_lt (by omega)] at h
      rw [Nat.mod_eq_of_lt (by omega : i + 1 < 256)]
      refine ih _ _ (by omega) (by omega) ?_
      split <;> simp [h3]
    · exact ⟨acc, by rw [if_neg h], h3⟩

theorem computeEvaluation {x : Fr} {bits : List Fr} {evals : List QEV} {beta : QEV} (h : evals.length = 16) :
    NoPanic (Fri.computeEvaluation x bits 4 evals beta) := by
  obtain ⟨g, hg⟩ := primitiveRoot (n := 4) (by norm_num)
  obtain ⟨r, hr, hrl⟩ := permuteLoop_some evals 4 (by omega) (by rintro rfl; simp at h) 1000 0
    (evals.map fun _ => (0, 0)) (by omega) (by omega) (by simp)
  rw [Fri.computeEvaluation, if_neg (by rw [h]; simp [goShl1]), if_neg (by norm_num)]
  refine (orPanic hg).bindN fun g _ => (orPanic hr).bindN fun perm hp => bind (expFromBits _ _) fun _ =>
    bind (mul _ _) fun _ => ?_
  refine Safe.bindN (Q := fun pts : List QEV => pts.length = 16) ?_ fun pts hpts => ?_
  · refine (Safe.foldlM (fun i (pts : List QEV) => pts.length = i + 1) _ (fun i pts _ _ hi => ?_) _ rfl).mono
      fun pts hp => by simpa [h] using hp
    exact (mulExt _ _).bindS fun _ => Safe.pure (by simp [hi])
  · refine (Safe.mapM_length _ fun xi _ => ?_).bindN fun ws hws => ?_
    · refine bind (foldlM _ (fun _ _ _ => ite (fun _ => subMulExt _ _ _) fun _ => pure _) _) fun _ =>
        bind (inverseExt _) fun _ => bind (assertEq _ _) fun _ => pure _
    · subst hp
      exact interpolate (by omega) (by simpa using hws.symm)

theorem evalLookup {bits : List Fr} {evals : List QEV} (hb : bits.length = 4) (he : evals.length = 16) :
    NoPanic (Fri.evalLookup bits evals) := by
  have hi : ∀ (j : ℕ), j < 16 → NoPanic (Verif.idx evals j) := fun j hj => idx' (by omega)
  refine bind (idx' (by omega)) fun _ => bind (idx' (by omega)) fun _ => ?_
  refine (Safe.mapM_length (List.range 4) fun i h => ?_).bindN fun l hl => ?_
  · have := List.mem_range.1 h
    exact bind (hi _ (by omega)) fun _ => bind (hi _ (by omega)) fun _ => bind (hi _ (by omega)) fun _ =>
      bind (hi _ (by omega)) fun _ => lookup2 _ _ _ _ _ _
  · rw [List.length_range] at hl
    exact bind (idx' (by omega)) fun _ => bind (idx' (by omega)) fun _ => bind (idx' (by omega)) fun _ =>
      bind (idx' (by omega)) fun _ => bind (idx' (by omega)) fun _ => bind (idx' (by omega)) fun _ =>
      lookup2 _ _ _ _ _ _

/-- One reduction: `n` remaining index bits become `n - 4`. -/
theorem reductionStep {ch : FriChallenges Fr QEV} {proof : FriProof Fr QEV} {steps : List (FriQueryStep QEV)}
    {capBits : List Fr} {st : RoundState} {i : ℕ} {step : FriQueryStep QEV} (hb : capBits.length = 4)
    (hn : 4 ≤ st.1.length) (hstep : steps[i]? = some step) (he : step.evals.length = 16)
    (hs : step.siblings.length ≤ st.1.length - 4) (hbeta : i < ch.betas.length) (hcap : i < proof.commitCaps.length)
    (hc : ∀ cap ∈ proof.commitCaps, cap.length = 16) :
    Safe (Fri.reductionStep ch proof steps capBits st (4, i)) fun st' => st'.1.length = st.1.length - 4 := by
  obtain ⟨hi, hget⟩ := List.getElem?_eq_some_iff.1 hstep
  rw [Fri.reductionStep]
  refine (idx hi).bind fun s hs' => ?_
  rw [hget] at hs'
  subst hs'
  refine (sliceFrom hn).bind fun cosetBits hcb => (sliceTo hn).bind fun within hw => ?_
  rw [if_neg (by simp)]
  have hwl : within.length = 4 := by rw [hw, List.length_take]; omega
  refine (evalLookup hwl he).bindS fun _ => (glAssertIsEqual _ _).bindS fun _ => (glAssertIsEqual _ _).bindS fun _ =>
    (idx' hbeta).bindS fun _ => (computeEvaluation he).bindS fun _ => (idx hcap).bind fun cap hcap' => ?_
  refine (verifyMerkleProofToCap (by rw [hcb, List.length_drop]; omega) hb
    (hc _ (hcap' ▸ List.getElem_mem _))).bindS fun _ => ?_
  refine NoPanic.bindS (foldlM _ (fun _ _ _ => mul _ _) _) fun _ => Safe.pure ?_
  rw [hcb, List.length_drop]

/-- A round of the right sizes does not panic. -/
theorem verifyQueryRound {q : FriParams} {inst : InstanceInfo QEV} {ch : FriChallenges Fr QEV} {y : List QEV}
    {caps : List (List Fr)} {proof : FriProof Fr QEV} {v : Fr} {round : FriQueryRound Fr QEV}
    (hd : 4 ≤ q.degreeBits + q.config.rateBits ∧ q.degreeBits + q.config.rateBits ≤ 32 ∧
      q.config.rateBits ≤ 15 ∧ q.config.capHeight = 4) (ha : ∀ a ∈ q.reductionArityBits, a = 4)
    (hcaps : caps.length = inst.oracles.length ∧ ∀ cap ∈ caps, cap.length = 16) (hy : inst.batches.length = y.length)
    (hbat : ∀ b ∈ inst.batches, ∀ f ∈ b.polynomials,
      ∃ o, inst.oracles[f.oracleIndex]? = some o ∧ f.polynomialInfo < o.numPolys)
    (hcc : ∀ cap ∈ proof.commitCaps, cap.length = 2 ^ q.config.capHeight) (hr : Spec.Fri.RoundShape q inst round)
    (hb : q.reductionArityBits.length ≤ ch.betas.length) (hc : q.reductionArityBits.length ≤ proof.commitCaps.length) :
    NoPanic (Fri.verifyQueryRound q inst ch y caps proof v (q.degreeBits + q.config.rateBits) round) := by
  obtain ⟨h4, h32, h15, hcap⟩ := hd
  have hsum : ∀ (l : List ℕ), (∀ a ∈ l, a = 4) → l.sum = 4 * l.length := fun l hl => by
    induction l with
    | nil => rfl
    | cons a l ih => rw [List.sum_cons, ih fun a h => hl a (by simp [h]), hl a (by simp), List.length_cons]; ring
  have hnc : assertNoncanonicalIndicesOK q = Pure.pure () := by
    have : (2 ^ 32 - 1) * 10 ^ 5 * 2 ^ 15 < p := by norm_num [p]
    rw [assertNoncanonicalIndicesOK, if_neg]
    rintro ⟨_, h⟩
    exact absurd h (not_le.2 ((Nat.mul_le_mul_left _ (Nat.pow_le_pow_right (by norm_num) h15)).trans_lt this))
  rw [Fri.verifyQueryRound]
  refine bind (of_pure hnc) fun _ => bind (reduce _) fun _ => (toBinary _ _).bindN fun bits hbits =>
    (sliceTo (by omega)).bindN fun xb hxb => ?_
  have hxl : xb.length = q.degreeBits + q.config.rateBits := by rw [hxb, List.length_take]; omega
  rw [if_pos (by omega)]
  refine (sliceFrom (by omega)).bindN fun cb hcb => ?_
  have hcl : cb.length = 4 := by rw [hcb, List.length_drop]; omega
  have hin : ∀ t ∈ round.initial, t.siblings.length ≤ xb.length := fun t ht => by
    obtain ⟨i, hi⟩ := List.getElem?_of_mem ht
    have hlt : i < inst.oracles.length := hr.initial.1 ▸ (List.getElem?_eq_some_iff.1 hi).1
    have := (hr.initial.2 i t inst.oracles[i] hi (List.getElem?_eq_getElem hlt)).2
    omega
  refine bind (verifyInitialProof (hr.initial.1.trans hcaps.1.symm) hin hcl hcaps.2) fun _ =>
    bind (calculateSubgroupX h32) fun _ => bind (friCombineInitial hy fun b hb f hf => ?_) fun _ => ?_
  · obtain ⟨o, ho, hlt⟩ := hbat b hb f hf
    have hl : f.oracleIndex < round.initial.length := hr.initial.1 ▸ (List.getElem?_eq_some_iff.1 ho).1
    refine ⟨_, List.getElem?_eq_getElem hl, ?_⟩
    have := (hr.initial.2 _ _ o (List.getElem?_eq_getElem hl) ho).1
    omega
  · refine Safe.bindN (Q := fun _ => True) ?_ fun _ _ => bind (finalPolyEval _ _) fun _ =>
      bind (glAssertIsEqual _ _) fun _ => glAssertIsEqual _ _
    refine (Safe.foldlM (fun i (st : RoundState) => st.1.length + 4 * i = q.degreeBits + q.config.rateBits) _
      (fun i st ai hai hi => ?_) _ (by simp only; omega)).mono fun _ _ => trivial
    obtain ⟨a, j⟩ := ai
    rw [List.getElem?_zipIdx] at hai
    obtain ⟨a', ha', heq⟩ := Option.map_eq_some_iff.1 hai
    simp only [Prod.mk.injEq, Nat.zero_add] at heq
    obtain ⟨rfl, rfl⟩ := heq
    obtain ⟨hlt, hget⟩ := List.getElem?_eq_some_iff.1 ha'
    have h4' : a' = 4 := ha a' (hget ▸ List.getElem_mem _)
    have hstep : i < round.steps.length := hr.steps.1 ▸ hlt
    have hs := hr.steps.2 i _ a' (List.getElem?_eq_getElem hstep) ha'
    subst h4'
    have htake : (q.reductionArityBits.take (i + 1)).sum = 4 * (i + 1) := by
      rw [hsum _ fun a h => ha a (List.mem_of_mem_take h), List.length_take]
      congr 1; omega
    refine (reductionStep hcl (by omega) (List.getElem?_eq_getElem hstep) (by simpa using hs.1) (by omega) (by omega)
      (by omega) (by simpa [hcap] using hcc)).mono fun st' h => by omega

end NoPanic

/-! ## Panics on every path -/

theorem Circ.Panics.bind_all {c : Circ α} {f : α → Circ β} (hf : ∀ a, Panics (f a)) : Panics (c >>= f) := by
  rw [bind_eq]
  induction c with
  | ret a => exact hf a
  | hint n hh k ih => exact fun v => ih v
  | require b k ih => exact ih
  | check v n k ih => exact ih
  | panic m => trivial

theorem Circ.Panics.foldlM {f : β → σ → Circ β} {l : List σ} {x : σ} (hx : x ∈ l) (h : ∀ b, Panics (f b x)) (b : β) :
    Panics (l.foldlM f b) := by
  induction l generalizing b with
  | nil => simp at hx
  | cons a l ih =>
    rw [List.foldlM_cons]
    rcases List.mem_cons.1 hx with rfl | hx
    · exact (h b).bind _
    · exact bind_all fun b' => ih hx b'

theorem Circ.Panics.forM {f : σ → Circ Unit} {l : List σ} {x : σ} (hx : x ∈ l) (h : Panics (f x)) :
    Panics (l.forM f) := by
  induction l with
  | nil => simp at hx
  | cons a l ih =>
    rw [List.forM]
    rcases List.mem_cons.1 hx with rfl | hx
    · exact h.bind _
    · exact bind_all fun _ => ih hx

theorem Circ.Panics.idx {l : List α} {i : ℕ} (h : l.length ≤ i) : Panics (idx l i) := by
  rw [Verif.idx, List.getElem?_eq_none h]
  trivial

theorem NoPanic.not_panics {c : Circ α} (h : NoPanic c) : ¬ Panics c := by
  replace h := NoPanic.safe h
  intro hp
  induction c with
  | ret a => exact hp
  | hint n hh k ih => exact ih (fun _ => 0) (h _) (hp _)
  | require b k ih => exact ih h hp
  | check v n k ih => exact ih h hp
  | panic m => exact h

/-- With a challenge or a cap missing, every round panics. -/
theorem verifyQueryRound_panics {q : FriParams} {inst : InstanceInfo QEV} {ch : FriChallenges Fr QEV} {y : List QEV}
    {caps : List (List Fr)} {proof : FriProof Fr QEV} {v : Fr} {n : ℕ} {round : FriQueryRound Fr QEV}
    (h : ch.betas.length < q.reductionArityBits.length ∨ proof.commitCaps.length < q.reductionArityBits.length) :
    Panics (verifyQueryRound q inst ch y caps proof v n round) := by
  rw [verifyQueryRound]
  refine .bind_all fun _ => .bind_all fun _ => .bind_all fun _ => .bind_all fun _ => .bind_all fun _ =>
    .bind_all fun _ => .bind_all fun _ => .bind_all fun _ => Panics.bind ?_ _
  have key : ∀ k, k < q.reductionArityBits.length → (ch.betas.length ≤ k ∨ proof.commitCaps.length ≤ k) →
      ∀ st : List Fr × RoundState, Panics (q.reductionArityBits.zipIdx.foldlM (reductionStep ch proof round.steps st.1) st.2) := by
    intro k hk hlt st
    refine Panics.foldlM (x := (q.reductionArityBits[k], k)) ?_ (fun st => ?_) _
    · rw [List.mem_zipIdx_iff_getElem?]; exact List.getElem?_eq_getElem hk
    · rw [reductionStep]
      refine .bind_all fun _ => .bind_all fun _ => .bind_all fun _ => ?_
      split
      · trivial
      · refine .bind_all fun _ => .bind_all fun _ => .bind_all fun _ => ?_
        rcases hlt with hlt | hlt
        · exact Panics.bind (Panics.idx hlt) _
        · exact .bind_all fun _ => .bind_all fun _ => Panics.bind (Panics.idx hlt) _
  rcases h with h | h
  · exact key _ h (Or.inl le_rfl) (_, _)
  · exact key _ h (Or.inr le_rfl) (_, _)

/-- `P` is what generation of the circuit tests: no panic when it holds, a panic in every case otherwise. -/
def Generates (c : Circ α) (P : Prop) : Prop := (P → NoPanic c) ∧ (¬ P → Panics c)

theorem Generates.iff {c : Circ α} {P : Prop} (h : Generates c P) : NoPanic c ↔ P :=
  ⟨fun hn => by_contra fun hp => hn.not_panics (h.2 hp), h.1⟩

/-- Sizes of a FRI proof, of its caps and challenges. -/
def FriSizes (q : FriParams) (inst : InstanceInfo QEV) (ch : FriChallenges Fr QEV) (proof : FriProof Fr QEV) : Prop :=
  Spec.Fri.ProofShape q inst proof ∧ q.config.numQueryRounds = proof.rounds.length ∧
    ch.queryIndices.length = proof.rounds.length ∧
    (proof.rounds = [] ∨ (q.reductionArityBits.length ≤ ch.betas.length ∧
      q.reductionArityBits.length ≤ proof.commitCaps.length))

theorem generates_verifyFriProof {q : FriParams} {inst : InstanceInfo QEV} {openings : List (List QEV)}
    {ch : FriChallenges Fr QEV} {caps : List (List Fr)} {proof : FriProof Fr QEV}
    (hd : 4 ≤ q.degreeBits + q.config.rateBits ∧ q.degreeBits + q.config.rateBits ≤ 32 ∧
      q.config.rateBits ≤ 15 ∧ q.config.capHeight = 4) (ha : ∀ a ∈ q.reductionArityBits, a = 4)
    (hcaps : caps.length = inst.oracles.length ∧ (proof.rounds = [] ∨ ∀ cap ∈ caps, cap.length = 16))
    (hy : inst.batches.length = openings.length)
    (hbat : ∀ b ∈ inst.batches, ∀ f ∈ b.polynomials,
      ∃ o, inst.oracles[f.oracleIndex]? = some o ∧ f.polynomialInfo < o.numPolys) :
    Generates (verifyFriProof q inst openings ch caps proof) (FriSizes q inst ch proof) := by
  have hdec := decides_shape proof inst q (by omega) (fun a h => by rw [ha a h]; norm_num) (by omega)
  constructor
  · rintro ⟨hs, hn, hi, he⟩
    rw [verifyFriProof]
    refine NoPanic.bind (NoPanic.of_pure (hdec.1 hs)) fun _ => NoPanic.bind (NoPanic.rangeCheckWithMaxBits _ _) fun _ => ?_
    rw [if_neg (by simpa using hn)]
    refine Safe.bindN (Safe.mapM_length _ fun _ _ => NoPanic.reduceWithPowers _ _) fun y hyl => ?_
    simp only
    rw [if_neg (by simpa using hi)]
    refine NoPanic.forM _ fun xi hxi => ?_
    have hlt : xi.2 < proof.rounds.length := hi ▸ NoPanic.zipIdx_lt hxi
    refine (NoPanic.idx hlt).bindN fun r hr => ?_
    have hne : proof.rounds ≠ [] := by rintro h; simp [h] at hlt
    have he := he.resolve_left hne
    exact NoPanic.verifyQueryRound hd ha ⟨hcaps.1, hcaps.2.resolve_left hne⟩ (hy.trans hyl.symm) hbat hs.caps
      (hs.rounds _ (hr ▸ List.getElem_mem _)) he.1 he.2
  · intro h
    rw [verifyFriProof]
    by_cases hs : Spec.Fri.ProofShape q inst proof
    swap
    · exact (hdec.2 hs).bind _
    refine .bind_all fun _ => .bind_all fun _ => ?_
    by_cases hn : q.config.numQueryRounds = proof.rounds.length
    swap
    · rw [if_pos hn]; trivial
    rw [if_neg (by simpa using hn)]
    refine .bind_all fun y => ?_
    by_cases hi : ch.queryIndices.length = proof.rounds.length
    swap
    · simp only; rw [if_pos hi]; trivial
    simp only
    rw [if_neg (by simpa using hi)]
    have h : proof.rounds ≠ [] ∧ (ch.betas.length < q.reductionArityBits.length ∨
        proof.commitCaps.length < q.reductionArityBits.length) := by
      by_contra hcon
      refine h ⟨hs, hn, hi, ?_⟩
      by_cases h0 : proof.rounds = []
      · exact Or.inl h0
      · right
        constructor <;> (by_contra hlt; exact hcon ⟨h0, by omega⟩)
    have hpos : 0 < ch.queryIndices.length := hi ▸ List.length_pos_iff.2 h.1
    refine Panics.forM (x := (ch.queryIndices[0], 0)) ?_ ?_
    · rw [List.mem_zipIdx_iff_getElem?]; exact List.getElem?_eq_getElem hpos
    · exact .bind_all fun _ => verifyQueryRound_panics h.2

end Verif
