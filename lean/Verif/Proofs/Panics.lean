import Verif.Proofs.NoPanicVerifier

/-!
# Panics: sizes that make circuit generation fail

`Post c Q`: every run of the generator that does not panic returns a value satisfying `Q`, whatever the values.  With
`Q` independent of the result this says that generation panics unless `Q`.
-/

set_option autoImplicit false

namespace Verif

open Circ Gates

variable {α β σ : Type}

namespace Circ

/-- Every run without panic ends in `Q`. -/
def Post (Q : α → Prop) : Circ α → Prop
  | ret a => Q a
  | hint _ _ k => ∀ v, Post Q (k v)
  | require _ k => Post Q k
  | check _ _ k => Post Q k
  | panic _ => True

theorem Post.pure {Q : α → Prop} {a : α} (h : Q a) : Post Q (pure a : Circ α) := h

theorem Post.mono {Q R : α → Prop} {c : Circ α} (h : Post Q c) (hi : ∀ a, Q a → R a) : Post R c := by
  induction c with
  | ret a => exact hi a h
  | hint n hh k ih => exact fun v => ih v (h v)
  | require b k ih => exact ih h
  | check v n k ih => exact ih h
  | panic m => trivial

theorem Post.bind {Q : α → Prop} {R : β → Prop} {c : Circ α} {f : α → Circ β} (h : Post Q c)
    (hf : ∀ a, Q a → Post R (f a)) : Post R (c >>= f) := by
  rw [bind_eq]
  induction c with
  | ret a => exact hf a h
  | hint n hh k ih => exact fun v => ih v (h v)
  | require b k ih => exact ih h
  | check v n k ih => exact ih h
  | panic m => trivial

theorem Post.top (c : Circ α) : Post (fun _ => True) c := by
  induction c with
  | ret a => trivial
  | hint n hh k ih => exact fun v => ih v
  | require b k ih => exact ih
  | check v n k ih => exact ih
  | panic m => trivial

/-- A condition met from the start is met in the end. -/
theorem Post.const {P : Prop} (h : P) (c : Circ α) : Post (fun _ => P) c := (Post.top c).mono fun _ _ => h

/-- Skip a computation. -/
theorem Post.skip {R : β → Prop} {c : Circ α} {f : α → Circ β} (hf : ∀ a, Post R (f a)) : Post R (c >>= f) :=
  (Post.top c).bind fun a _ => hf a

/-- Ignore the rest of a computation. -/
theorem Post.stop {P : Prop} {c : Circ α} {f : α → Circ β} (h : Post (fun _ => P) c) : Post (fun _ => P) (c >>= f) :=
  h.bind fun _ hp => Post.const hp _

theorem Post.panics {P : Prop} {c : Circ α} (h : Post (fun _ => P) c) (hn : ¬ P) : Panics c := by
  induction c with
  | ret a => exact (hn h).elim
  | hint n hh k ih => exact fun v => ih v (h v)
  | require b k ih => exact ih h
  | check v n k ih => exact ih h
  | panic m => trivial

theorem Panics.post {Q : α → Prop} {c : Circ α} (h : Panics c) : Post Q c := by
  induction c with
  | ret a => exact h.elim
  | hint n hh k ih => exact fun v => ih v (h v)
  | require b k ih => exact ih h
  | check v n k ih => exact ih h
  | panic m => trivial

theorem Post.and {Q R : α → Prop} {c : Circ α} (h : Post Q c) (h' : Post R c) : Post (fun a => Q a ∧ R a) c := by
  induction c with
  | ret a => exact ⟨h, h'⟩
  | hint n hh k ih => exact fun v => ih v (h v) (h' v)
  | require b k ih => exact ih h h'
  | check v n k ih => exact ih h h'
  | panic m => trivial

theorem Safe.post {Q : α → Prop} {c : Circ α} (h : Safe c Q) : Post Q c := by
  induction c with
  | ret a => exact h
  | hint n hh k ih => exact fun v => ih v (h v)
  | require b k ih => exact ih h
  | check v n k ih => exact ih h
  | panic m => trivial

theorem Post.idx (l : List α) (i : ℕ) : Post (fun _ => i < l.length) (idx l i) := by
  by_cases h : i < l.length
  · exact Post.const h _
  · exact (Panics.idx (not_lt.1 h)).post

theorem Post.mapM {f : σ → Circ β} {P : σ → Prop} (l : List σ) (h : ∀ x ∈ l, Post (fun _ => P x) (f x)) :
    Post (fun r => r.length = l.length ∧ ∀ x ∈ l, P x) (l.mapM f) := by
  induction l with
  | nil => rw [List.mapM_nil]; exact Post.pure ⟨rfl, by simp⟩
  | cons a l ih =>
    rw [List.mapM_cons]
    refine (h a (by simp)).bind fun _ ha => (ih fun x hx => h x (by simp [hx])).bind fun r hr => Post.pure ⟨?_, ?_⟩
    · rw [List.length_cons, List.length_cons, hr.1]
    · intro x hx
      rcases List.mem_cons.1 hx with rfl | hx
      · exact ha
      · exact hr.2 x hx

theorem Post.forM {f : σ → Circ Unit} {P : σ → Prop} (l : List σ) (h : ∀ x ∈ l, Post (fun _ => P x) (f x)) :
    Post (fun _ => ∀ x ∈ l, P x) (l.forM f) := by
  induction l with
  | nil => rw [List.forM]; exact Post.pure (by simp)
  | cons a l ih =>
    rw [List.forM]
    refine (h a (by simp)).bind fun _ ha => (ih fun x hx => h x (by simp [hx])).mono fun _ hr x hx => ?_
    rcases List.mem_cons.1 hx with rfl | hx
    · exact ha
    · exact hr x hx

/-- Loop with an invariant of the state; every iteration establishes its own condition. -/
theorem Post.foldlM {f : β → σ → Circ β} {P : σ → Prop} (I : β → Prop) (l : List σ)
    (h : ∀ b, ∀ x ∈ l, I b → Post (fun b' => I b' ∧ P x) (f b x)) :
    ∀ b, I b → Post (fun b' => I b' ∧ ∀ x ∈ l, P x) (l.foldlM f b) := by
  induction l with
  | nil => intro b hb; rw [List.foldlM_nil]; exact Post.pure ⟨hb, by simp⟩
  | cons a l ih =>
    intro b hb
    rw [List.foldlM_cons]
    refine (h b a (by simp) hb).bind fun b' hb' => (ih (fun b x hx => h b x (by simp [hx])) b' hb'.1).mono
      fun r hr => ⟨hr.1, fun x hx => ?_⟩
    rcases List.mem_cons.1 hx with rfl | hx
    · exact hb'.2
    · exact hr.2 x hx

theorem Post.slice {l : List α} {a b : ℕ} : Post (fun _ => b ≤ l.length) (Gates.slice l a b) := by
  rw [Gates.slice]
  split
  · next h => exact Post.pure h.2
  · trivial

end Circ

/-! ## Merkle proofs and gates -/

attribute [local irreducible] Verif.mulExt Verif.addExt Verif.subExt Verif.scalarMulExt Verif.reduceWithPowers
  Gates.slice Verif.idx Verif.orPanic Verif.rangeCheck Verif.divExt Verif.reduce

theorem post_capLookup (bits cap : List Fr) :
    Post (fun _ => bits.length = 4 ∧ cap.length = 16) (Fri.capLookup bits cap) := by
  rw [Fri.capLookup]
  split
  · trivial
  · next h => exact Post.const (by omega) _

theorem post_verifyMerkle (leaf bits capBits cap sibs : List Fr) :
    Post (fun _ => (capBits.length = 4 ∧ cap.length = 16) ∧ sibs.length ≤ bits.length)
      (Fri.verifyMerkleProofToCap leaf bits capBits cap sibs) := by
  rw [Fri.verifyMerkleProofToCap]
  refine Post.bind (Q := fun _ => sibs.length ≤ bits.length) ?_ fun _ hs =>
    Post.stop ((post_capLookup capBits cap).mono fun _ h => ⟨h, hs⟩)
  refine (Post.foldlM (P := fun x => x.2 < bits.length) (fun _ => True) _ (fun b x _ _ => ?_) _ trivial).mono
    fun _ h => ?_
  · rw [Fri.merkleStep]
    exact (Post.idx bits x.2).bind fun _ h => Post.const ⟨trivial, h⟩ _
  · by_contra hlt
    have hlt := not_le.1 hlt
    exact lt_irrefl _ (h.2 (sibs[bits.length], bits.length) (List.mem_zipIdx_iff_getElem?.2 (List.getElem?_eq_getElem hlt)))

theorem panics_exponentiation_zero (vars : Vars) : Panics (Gates.exponentiation 0 vars) := by
  rw [Gates.exponentiation]
  exact .bind_all fun _ => .bind_all fun _ => .bind_all fun _ => .bind_all fun _ => .bind_all fun _ =>
    Panics.bind (by trivial) _

theorem post_foldPairs_nil : ∀ l : List QEV,
    Post (fun r => r = []) (l.foldlM (fun l b => Gates.foldPairs b l) ([] : List QEV))
  | [] => rfl
  | b :: l => by rw [List.foldlM_cons, Gates.foldPairs, pure_bind]; exact post_foldPairs_nil l

theorem panics_randomAccess_wide {b copies extra : ℕ} (hb : 64 ≤ b) (hc : copies ≠ 0) (v : Vars) :
    Panics (Gates.randomAccess b copies extra v) := by
  refine Post.panics (P := False) ?_ id
  rw [Gates.randomAccess]
  refine Post.stop ?_
  rw [Gates.collect]
  refine Post.stop ((Post.mapM (P := fun _ => False) _ fun i _ => ?_).mono fun _ h =>
    h.2 0 (List.mem_range.2 (Nat.pos_of_ne_zero hc)))
  have h0 : shl1 b = 0 := if_neg (by omega)
  rw [Gates.randomAccessCopy, h0]
  simp only [List.range_zero, List.mapM_nil, pure_bind]
  refine .skip fun _ => .skip fun _ => .skip fun bs => .skip fun _ => .skip fun _ => .skip fun _ =>
    (post_foldPairs_nil bs).bind fun r hr => ?_
  subst hr
  trivial

theorem post_addConstraints : ∀ (cs gs : List QEV),
    Post (fun r => r.length = cs.length ∧ gs.length ≤ cs.length) (Gates.addConstraints cs gs)
  | cs, [] => by rw [Gates.addConstraints]; exact Post.pure ⟨rfl, by simp⟩
  | [], _ :: _ => by rw [Gates.addConstraints]; trivial
  | a :: cs, g :: gs => by
    rw [Gates.addConstraints]
    exact .skip fun _ => (post_addConstraints cs gs).bind fun r hr => Post.pure (by simpa using hr)

/-- Selector data used by gate `i` and its constraints exist; there are at most `n` of them. -/
theorem post_evaluateGateConstraints {gates : List Gate} {n : ℕ} {si : SelectorsInfo} {v : Vars}
    (hg : ∀ gi ∈ gates.zipIdx, Spec.Gates.GateOk si v.localConstants.length v.localWires.length gi.1 gi.2) :
    Post (fun r => r.length = n ∧ ∀ gi ∈ gates.zipIdx, constraintCount gi.1 ≤ n)
      (Gates.evaluateGateConstraints gates n si v) := by
  refine Post.foldlM (P := fun gi : Gate × ℕ => constraintCount gi.1 ≤ n) (fun cs : List QEV => cs.length = n) _ (fun cs gi hgi hcs => ?_) _
    (by simp)
  have hok := hg gi hgi
  rw [gateStep]
  refine (NoPanic.idx hok.selector).post.bind fun sel hsel => ?_
  have hsel' : sel = si.selectorIndices.getD gi.2 0 := by rw [hsel]; simp [List.getD, hok.selector]
  have hlt : sel < si.groups.length := hsel' ▸ hok.group
  refine .skip fun gr => (NoPanic.evalFiltered (hlt.trans_le hok.prefix_le) hok.prefix_le hok.fits).post.bind
    fun gs hgs => (post_addConstraints cs gs).mono fun r hr => ⟨hr.1.trans hcs, ?_⟩
  rw [← hgs, ← hcs]
  exact hr.2

/-! ## PLONK -/

theorem post_chunkProduct {q : ℕ} (hq : q ≠ 0) (l : List QEV) (s : ℕ) :
    Post (fun _ => s + q ≤ l.length) (Plonk.chunkProduct l s q) := by
  rw [Plonk.chunkProduct]
  refine (Post.idx l s).bind fun _ h0 => ?_
  refine (Post.foldlM (P := fun j => s + j < l.length) (fun _ => True) _ (fun b j _ _ => ?_) _ trivial).mono fun _ h => ?_
  · exact (Post.idx l (s + j)).bind fun _ h => Post.const ⟨trivial, h⟩ _
  · by_cases h1 : q = 1
    · omega
    · have := h.2 (q - 1) (by rw [List.mem_range'_1]; omega)
      omega

theorem post_checkPartialProducts {c : CommonCircuitData} {nu de : List QEV} {i : ℕ} {o : OpeningSet QEV}
    (hq : c.quotientDegreeFactor ≠ 0) :
    Post (fun _ => (i < o.plonkZs.length ∧ (i + 1) * c.numPartialProducts ≤ o.partialProducts.length ∧
      i < o.plonkZsNext.length) ∧ (c.numPartialProducts + 1) * c.quotientDegreeFactor ≤ nu.length ∧
      (c.numPartialProducts + 1) * c.quotientDegreeFactor ≤ de.length) (Plonk.checkPartialProducts c nu de i o) := by
  rw [Plonk.checkPartialProducts]
  refine (Post.idx _ _).bind fun _ h1 => Post.slice.bind fun _ h2 => (Post.idx _ _).bind fun _ h3 => ?_
  refine (Post.mapM (P := fun (k : ℕ) => k * c.quotientDegreeFactor + c.quotientDegreeFactor ≤ nu.length ∧
    k * c.quotientDegreeFactor + c.quotientDegreeFactor ≤ de.length) _ fun k _ => ?_).mono fun r hr => ?_
  · exact (post_chunkProduct hq _ _).bind fun _ h => (post_chunkProduct hq _ _).bind fun _ h' => Post.const ⟨h, h'⟩ _
  · have := hr.2 c.numPartialProducts (by simp)
    rw [Nat.succ_mul c.numPartialProducts]
    exact ⟨⟨h1, h2, h3⟩, this⟩

/-- Sizes read by `plonk.Verify` (at least one challenge). -/
def PlonkSizes (c : CommonCircuitData) (gates : List Gate) (o : OpeningSet QEV) : Prop :=
  (∀ gi ∈ gates.zipIdx, constraintCount gi.1 ≤ c.numGateConstraints) ∧
  (c.numPartialProducts + 1) * c.quotientDegreeFactor ≤ c.config.numRoutedWires ∧
  c.config.numRoutedWires ≤ c.kIs.length ∧ c.config.numRoutedWires ≤ o.wires.length ∧
  c.config.numRoutedWires ≤ o.plonkSigmas.length ∧ c.config.numChallenges ≤ o.plonkZs.length ∧
  c.config.numChallenges ≤ o.plonkZsNext.length ∧
  c.config.numChallenges * c.numPartialProducts ≤ o.partialProducts.length ∧
  c.config.numChallenges * c.quotientDegreeFactor ≤ o.quotientPolys.length

theorem range_all {n m : ℕ} (h : ∀ i ∈ List.range n, i < m) : n ≤ m := by
  by_contra hlt
  exact lt_irrefl _ (h m (List.mem_range.2 (not_le.1 hlt)))

theorem post_plonkVerify {c : CommonCircuitData} {gates : List Gate} {ch : ProofChallenges Fr QEV} {o : OpeningSet QEV}
    {h : Fin 4 → Fr} (hq : c.quotientDegreeFactor ≠ 0) (hn : c.config.numChallenges ≠ 0)
    (hg : ∀ gi ∈ gates.zipIdx, Spec.Gates.GateOk c.selectorsInfo o.constants.length o.wires.length gi.1 gi.2) :
    Post (fun _ => PlonkSizes c gates o) (Plonk.verify c gates ch o h) := by
  obtain ⟨m, hm⟩ := Nat.exists_eq_succ_of_ne_zero hn
  rw [Plonk.verify]
  refine .skip fun zn => ?_
  refine Post.bind (Q := fun r => r.length = c.config.numChallenges ∧
    (∀ gi ∈ gates.zipIdx, constraintCount gi.1 ≤ c.numGateConstraints) ∧
    c.config.numRoutedWires ≤ c.kIs.length ∧ ∀ i ∈ List.range c.config.numChallenges,
      (∀ j ∈ List.range c.config.numRoutedWires, j < o.wires.length ∧ j < o.plonkSigmas.length) ∧
      (i < o.plonkZs.length ∧ (i + 1) * c.numPartialProducts ≤ o.partialProducts.length ∧
      i < o.plonkZsNext.length) ∧ (c.numPartialProducts + 1) * c.quotientDegreeFactor ≤ c.config.numRoutedWires) ?_
    fun vs hvs => .skip fun zh => ?_
  · rw [Plonk.evalVanishingPoly]
    refine (post_evaluateGateConstraints hg).bind fun cts hcts => ?_
    refine (Post.mapM (P := fun i => i < c.kIs.length) _ fun i _ => ?_).bind fun sids hsids => .skip fun l0 => ?_
    · exact (Post.idx _ _).bind fun _ h => Post.const h _
    · refine (Post.mapM (P := fun i => (∀ j ∈ List.range c.config.numRoutedWires, j < o.wires.length ∧
          j < o.plonkSigmas.length) ∧ (i < o.plonkZs.length ∧ (i + 1) * c.numPartialProducts ≤ o.partialProducts.length ∧
          i < o.plonkZsNext.length) ∧ (c.numPartialProducts + 1) * c.quotientDegreeFactor ≤ c.config.numRoutedWires) _
        fun i _ => ?_).bind fun terms hterms => ?_
      rotate_left
      · refine ((Post.foldlM (P := fun _ => True) (fun r => r.length = c.config.numChallenges) _ (fun b x _ _ => ?_) _
          (by simp)).mono fun r hr => ⟨hr.1, hcts.2, range_all hsids.2, hterms.2⟩)
        exact (Post.mapM (P := fun _ => True) _ fun _ _ => Post.top _).mono fun _ h => ⟨by simpa using h.1, trivial⟩
      · rw [Plonk.challengeTerms]
        refine .skip fun _ => .skip fun _ => .skip fun _ => ?_
        refine (Post.mapM (P := fun j => j < o.wires.length ∧ j < o.plonkSigmas.length) _ fun j _ => ?_).bind
          fun vals hvals => ?_
        · refine .skip fun _ => .skip fun _ => ?_
          rw [Plonk.permutationTerm]
          exact (Post.idx _ _).bind fun _ h1 => .skip fun _ => .skip fun _ => .skip fun _ => .skip fun _ =>
            (Post.idx _ _).bind fun _ h2 => Post.const ⟨h1, h2⟩ _
        · refine Post.stop ((post_checkPartialProducts hq).mono fun _ h => ⟨hvals.2, h.1, ?_⟩)
          have := h.2.1
          rw [List.length_map, hvals.1, List.length_range] at this
          exact this
  · obtain ⟨hlen, hcount, hk, hterms⟩ := hvs
    refine (Post.forM (P := fun vi => vi.2 * c.quotientDegreeFactor + c.quotientDegreeFactor ≤ o.quotientPolys.length) _
      fun vi _ => ?_).mono fun _ hquot => ?_
    · rw [Plonk.quotientCheck]
      exact Post.slice.bind fun _ h => Post.const h _
    · have h0 := hterms 0 (by simp [hm])
      have hlast := hterms m (by simp [hm])
      have hq' := hquot (vs[m]'(by omega), m) (List.mem_zipIdx_iff_getElem?.2 (List.getElem?_eq_getElem _))
      refine ⟨hcount, h0.2.2, hk, range_all fun j hj => (h0.1 j hj).1, range_all fun j hj => (h0.1 j hj).2,
        range_all fun i hi => (hterms i hi).2.1.1, range_all fun i hi => (hterms i hi).2.1.2.2, ?_, ?_⟩
      · rw [hm]; exact hlast.2.1.2.1
      · rw [hm, Nat.succ_mul]; exact hq'

theorem panics_plonkVerify_chunks {c : CommonCircuitData} {gates : List Gate} {ch : ProofChallenges Fr QEV}
    {o : OpeningSet QEV} {h : Fin 4 → Fr} (hq : c.quotientDegreeFactor ≠ 0) (hn : c.config.numChallenges ≠ 0)
    (hN : c.config.numRoutedWires < (c.numPartialProducts + 1) * c.quotientDegreeFactor) :
    Panics (Plonk.verify c gates ch o h) := by
  refine Post.panics (P := False) ?_ id
  rw [Plonk.verify]
  refine .skip fun _ => Post.stop ?_
  rw [Plonk.evalVanishingPoly]
  refine .skip fun _ => .skip fun _ => .skip fun _ => Post.stop ?_
  refine (Post.mapM (P := fun _ => False) _ fun i _ => ?_).mono fun _ h =>
    h.2 0 (List.mem_range.2 (Nat.pos_of_ne_zero hn))
  rw [Plonk.challengeTerms]
  refine .skip fun _ => .skip fun _ => .skip fun _ =>
    (Post.mapM (P := fun _ => True) _ fun _ _ => Post.top _).bind fun vals hvals => Post.stop
    ((post_checkPartialProducts hq).mono fun _ h => ?_)
  have := h.2.1
  rw [List.length_map, hvals.1, List.length_range] at this
  omega

theorem generates_evaluateGateConstraints {gates : List Gate} {n : ℕ} {si : SelectorsInfo} {v : Vars}
    (hg : ∀ gi ∈ gates.zipIdx, Spec.Gates.GateOk si v.localConstants.length v.localWires.length gi.1 gi.2) :
    Generates (Gates.evaluateGateConstraints gates n si v) (∀ gi ∈ gates.zipIdx, constraintCount gi.1 ≤ n) :=
  ⟨fun h => (NoPanic.evaluateGateConstraints hg fun gi hgi x => by rw [length_constraints]; exact h gi hgi).np,
    ((post_evaluateGateConstraints hg).mono fun _ h => h.2).panics⟩

theorem generates_plonkVerify {c : CommonCircuitData} {gates : List Gate} {ch : ProofChallenges Fr QEV}
    {o : OpeningSet QEV} {h : Fin 4 → Fr} (hq : c.quotientDegreeFactor ≠ 0) (hn : c.config.numChallenges ≠ 0)
    (hg : ∀ gi ∈ gates.zipIdx, Spec.Gates.GateOk c.selectorsInfo o.constants.length o.wires.length gi.1 gi.2)
    (hb : ch.plonkBetas.length = c.config.numChallenges) (hga : ch.plonkGammas.length = c.config.numChallenges)
    (hal : ch.plonkAlphas.length = c.config.numChallenges) :
    Generates (Plonk.verify c gates ch o h) (PlonkSizes c gates o) := by
  refine ⟨?_, (post_plonkVerify hq hn hg).panics⟩
  rintro ⟨h1, h2, h3, h4, h5, h6, h7, h8, h9⟩
  exact NoPanic.plonkVerify hq h2 hg (fun gi hgi x => by rw [length_constraints]; exact h1 gi hgi) h3 h4 h5 h6 h7 h8 h9
    hb hga hal

/-! ## FRI -/

theorem post_verifyInitialProof (bits : List Fr) (initial : List (FriEvalProof Fr)) (caps : List (List Fr))
    (capBits : List Fr) : Post (fun _ => ∀ cap ∈ caps, cap.length = 16)
      (Fri.verifyInitialProof bits initial caps capBits) := by
  rw [Fri.verifyInitialProof]
  split
  · trivial
  · next h =>
    refine (Post.forM (P := fun ec => ec.2.length = 16) _ fun ec _ => ?_).mono fun _ hall cap hcap => ?_
    · exact (post_verifyMerkle _ _ _ _ _).mono fun _ h => h.1.2
    · obtain ⟨i, hi, rfl⟩ := List.getElem_of_mem hcap
      have hi' : i < initial.length := by omega
      exact hall (initial[i], caps[i]) (List.mem_iff_getElem.2 ⟨i, by simp; omega, by simp⟩)

theorem post_verifyFriProof (q : FriParams) (inst : InstanceInfo QEV) (openings : List (List QEV))
    (ch : FriChallenges Fr QEV) (caps : List (List Fr)) (proof : FriProof Fr QEV) :
    Post (fun _ => proof.rounds = [] ∨ ∀ cap ∈ caps, cap.length = 16)
      (Fri.verifyFriProof q inst openings ch caps proof) := by
  rw [Fri.verifyFriProof]
  refine .skip fun _ => .skip fun _ => ?_
  split
  · trivial
  refine .skip fun _ => ?_
  simp only
  split
  · trivial
  next hi =>
  refine (Post.forM (P := fun _ => ∀ cap ∈ caps, cap.length = 16) _ fun xi _ => ?_).mono fun _ hall => ?_
  · refine .skip fun round => ?_
    rw [Fri.verifyQueryRound]
    exact .skip fun _ => .skip fun _ => .skip fun _ => .skip fun _ => .skip fun _ =>
      Post.stop (post_verifyInitialProof _ _ _ _)
  · by_cases hr : proof.rounds = []
    · exact Or.inl hr
    · right
      have hpos : 0 < ch.queryIndices.length := by
        have := List.length_pos_iff.2 hr
        omega
      exact hall (ch.queryIndices[0], 0) (List.mem_zipIdx_iff_getElem?.2 (List.getElem?_eq_getElem hpos))

theorem generates_fri {q : FriParams} {inst : InstanceInfo QEV} {openings : List (List QEV)}
    {ch : FriChallenges Fr QEV} {caps : List (List Fr)} {proof : FriProof Fr QEV}
    (hd : 4 ≤ q.degreeBits + q.config.rateBits ∧ q.degreeBits + q.config.rateBits ≤ 32 ∧
      q.config.rateBits ≤ 15 ∧ q.config.capHeight = 4) (ha : ∀ a ∈ q.reductionArityBits, a = 4)
    (hcaps : caps.length = inst.oracles.length) (hy : inst.batches.length = openings.length)
    (hbat : ∀ b ∈ inst.batches, ∀ f ∈ b.polynomials,
      ∃ o, inst.oracles[f.oracleIndex]? = some o ∧ f.polynomialInfo < o.numPolys) :
    Generates (Fri.verifyFriProof q inst openings ch caps proof)
      (FriSizes q inst ch proof ∧ (proof.rounds = [] ∨ ∀ cap ∈ caps, cap.length = 16)) := by
  refine ⟨fun h => (generates_verifyFriProof hd ha ⟨hcaps, h.2⟩ hy hbat).1 h.1, fun h => ?_⟩
  by_cases hc : proof.rounds = [] ∨ ∀ cap ∈ caps, cap.length = 16
  · exact (generates_verifyFriProof hd ha ⟨hcaps, hc⟩ hy hbat).2 fun hs => h ⟨hs, hc⟩
  · exact (post_verifyFriProof _ _ _ _ _ _).panics hc

/-! ## The verifier -/

attribute [local irreducible] Verifier.rangeCheckProof PoseidonGL.hashNoPadWith Verifier.getChallenges Plonk.verify
  Fri.getInstance Fri.verifyFriProof in
/-- The exact condition for generation of the verifier circuit to succeed. -/
theorem generates_verify_sizes {perm : PoseidonGL.State → Circ PoseidonGL.State} (h : ∀ s, NoPanic (perm s))
    {c : CommonCircuitData} {gates : List Gate} {vd : VerifierOnlyCircuitData} {proof : Proof Fr QEV}
    (inputs : List Fr) (hdeg : c.degreeBits ≤ 32) (hq : c.quotientDegreeFactor ≠ 0) (hn : c.config.numChallenges ≠ 0)
    (hg : ∀ gi ∈ gates.zipIdx, Spec.Gates.GateOk c.selectorsInfo proof.openings.constants.length
      proof.openings.wires.length gi.1 gi.2)
    (hd : 4 ≤ c.friParams.degreeBits + c.friParams.config.rateBits ∧
      c.friParams.degreeBits + c.friParams.config.rateBits ≤ 32 ∧ c.friParams.config.rateBits ≤ 15 ∧
      c.friParams.config.capHeight = 4) (ha : ∀ a ∈ c.friParams.reductionArityBits, a = 4) :
    Generates (Verifier.verify perm c gates proof inputs vd) (PlonkSizes c gates proof.openings ∧
      OpeningSizes c proof.openingProof ∧
      (proof.openingProof.rounds = [] ∨ ∀ cap ∈ initialCaps vd proof, cap.length = 16)) := by
  constructor
  · rintro ⟨hp, hs, hcaps⟩
    rw [Verifier.verify]
    refine NoPanic.bind ?_ fun _ => NoPanic.bind ?_ fun _ =>
      (Challenger.safe_getChallenges h _ _ _ _).bindN fun ch hch => NoPanic.bind ?_ fun _ =>
        (safe_getInstance c hdeg _).bindN fun inst hi => (generates_friPart hd ha hcaps hi hch).1 hs
    · exact NoPanic.rangeCheckProof _
    · exact NoPanic.hashNoPad h _
    · exact (generates_plonkVerify hq hn hg hch.1 hch.2.1 hch.2.2.1).1 hp
  · refine Post.panics ?_
    rw [Verifier.verify]
    refine .skip fun _ => .skip fun _ => (Challenger.safe_getChallenges h _ _ _ _).post.bind fun ch hch =>
      (post_plonkVerify hq hn hg).bind fun _ hp => (safe_getInstance c hdeg _).post.bind fun inst hi => ?_
    by_cases hcaps : proof.openingProof.rounds = [] ∨ ∀ cap ∈ initialCaps vd proof, cap.length = 16
    · by_cases hs : OpeningSizes c proof.openingProof
      · exact Post.const ⟨hp, hs, hcaps⟩ _
      · exact ((generates_friPart hd ha hcaps hi hch).2 hs).post
    · exact ((post_verifyFriProof _ _ _ _ _ _).panics hcaps).post

theorem shape_zeros {F : Type} (q : FriParams) (inst : InstanceInfo F) (x : Proof Fr QEV) :
    Spec.Fri.ProofShape q inst (Spec.Verifier.zeros x).openingProof ↔ Spec.Fri.ProofShape q inst x.openingProof := by
  constructor
  · rintro ⟨h1, h2, h3⟩
    refine ⟨fun cap hc => ?_, fun round hr => ?_, by simpa [Spec.Verifier.zeros] using h3⟩
    · simpa using h1 (cap.map fun _ => 0) (List.mem_map.2 ⟨cap, hc, rfl⟩)
    · obtain ⟨⟨hi1, hi2⟩, hs1, hs2⟩ := h2 _ (List.mem_map.2 ⟨round, hr, rfl⟩)
      refine ⟨⟨by simpa using hi1, fun i e o he ho => ?_⟩, ⟨by simpa using hs1, fun i s a hs ha => ?_⟩⟩
      · have := hi2 i ⟨e.elements.map fun _ => 0, e.siblings.map fun _ => 0⟩ o
          (by rw [List.getElem?_map, he, Option.map_some]) ho
        simpa using this
      · have := hs2 i ⟨s.evals.map fun _ => 0, s.siblings.map fun _ => 0⟩ a
          (by rw [List.getElem?_map, hs, Option.map_some]) ha
        simpa using this
  · rintro ⟨h1, h2, h3⟩
    refine ⟨fun cap hc => ?_, fun round hr => ?_, by simpa [Spec.Verifier.zeros] using h3⟩
    · obtain ⟨cap, hc', rfl⟩ := List.mem_map.1 hc
      simpa using h1 cap hc'
    · obtain ⟨round, hr', rfl⟩ := List.mem_map.1 hr
      obtain ⟨⟨hi1, hi2⟩, hs1, hs2⟩ := h2 round hr'
      refine ⟨⟨by simpa using hi1, fun i e o he ho => ?_⟩, ⟨by simpa using hs1, fun i s a hs ha => ?_⟩⟩
      · simp only [List.getElem?_map, Option.map_eq_some_iff] at he
        obtain ⟨e, he, rfl⟩ := he
        simpa using hi2 i e o he ho
      · simp only [List.getElem?_map, Option.map_eq_some_iff] at hs
        obtain ⟨s, hs, rfl⟩ := hs
        simpa using hs2 i s a hs ha

end Verif
