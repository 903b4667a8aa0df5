import Verif.Properties.NativeOpenings

/-!
# The FRI verifier with native range checks

All results of the emulated arithmetic can be chosen.
-/

set_option autoImplicit false

namespace Verif.Native

open Circ PoseidonGL Challenger Verifier Spec.Verifier

variable {α β σ : Type}

theorem sat_foldlM {f : α → σ → Circ α} {a : α} {l : List σ} (h : ∀ x ∈ l, SatWith .native (f a x) a) :
    SatWith .native (l.foldlM f a) a := by
  induction l with
  | nil => exact sat_pure a
  | cons x l ih =>
    rw [List.foldlM_cons]
    exact (sat_bind _ _ _).2 ⟨a, h x List.mem_cons_self, ih fun y hy => h y (List.mem_cons_of_mem _ hy)⟩

theorem any_mapM_length {f : σ → Circ β} {l : List σ} (h : ∀ x ∈ l, Any (f x)) :
    ∃ ys : List β, ys.length = l.length ∧ SatWith .native (l.mapM f) ys := by
  induction l with
  | nil => exact ⟨[], rfl, sat_pure _⟩
  | cons x l ih =>
    obtain ⟨ys, h1, h2⟩ := ih fun y hy => h y (List.mem_cons_of_mem _ hy)
    obtain ⟨y, hy⟩ := h x List.mem_cons_self
    refine ⟨y :: ys, by simp [h1], ?_⟩
    rw [List.mapM_cons]
    exact (sat_bind _ _ _).2 ⟨y, hy, (sat_bind _ _ _).2 ⟨ys, h2, sat_pure _⟩⟩

theorem all_pair {f g : Circ Fr} (hf : All f) (hg : All g) : All (do
    let a ← f
    let b ← g
    pure ((a, b) : QEV)) := fun y =>
  (sat_bind _ _ _).2 ⟨y.1, hf _, (sat_bind _ _ _).2 ⟨y.2, hg _, sat_pure y⟩⟩

theorem all_addExt (a b : QEV) : All (addExt a b) := all_pair (all_mulAdd _ _ _) (all_mulAdd _ _ _)
theorem all_subExt (a b : QEV) : All (subExt a b) := all_pair (all_mulAdd _ _ _) (all_mulAdd _ _ _)
theorem all_scalarMulExt (a : QEV) (b : Fr) : All (scalarMulExt a b) := all_pair (all_mulAdd _ _ _) (all_mulAdd _ _ _)
theorem all_mulExt (a b : QEV) : All (mulExt a b) := all_reduceExt _

theorem isZero_one : isZero 1 = 0 := by rw [isZero]; simp

theorem inverse_one : SatWith .native (inverse 1) (1, 1) := by
  refine (sat_bind _ _ _).2 ⟨fun _ => 1, hint_out _, (sat_bind _ _ _).2 ⟨(), range _, (sat_bind _ _ _).2 ⟨1, all_mulAdd _ _ _ _, ?_⟩⟩⟩
  rw [isZero_one, sub_zero]
  refine (sat_bind _ _ _).2 ⟨1, ?_, (sat_bind _ _ _).2 ⟨(), assert_out rfl, sat_pure _⟩⟩
  exact ⟨[], ⟨by simp, by simp [Out]⟩, trivial⟩

theorem inverseExt_one (y : QEV) : SatWith .native (inverseExt oneExt) (y, 1) := by
  refine (sat_bind _ _ _).2 ⟨(), assert_out (by simp [isZeroExt, oneExt, toQE, isZero]), ?_⟩
  refine (sat_bind _ _ _).2 ⟨0, all_mulAdd _ _ _ _, (sat_bind _ _ _).2 ⟨oneExt, all_mulExt _ _ _, ?_⟩⟩
  exact (sat_bind _ _ _).2 ⟨(1, 1), inverse_one, (sat_bind _ _ _).2 ⟨y, all_scalarMulExt _ _ _, sat_pure _⟩⟩

theorem divExt_one (a y : QEV) : SatWith .native (divExt a oneExt) (y, 1) :=
  (sat_bind _ _ _).2 ⟨(zeroExt, 1), inverseExt_one _, (sat_bind _ _ _).2 ⟨y, all_mulExt _ _ _, sat_pure _⟩⟩

theorem lookup_one (x y : QEV) : SatWith .native (lookup 1 x y) y :=
  (sat_bind _ _ _).2 ⟨y.1, ⟨[], ⟨by simp, by simp [Out]⟩, trivial⟩, (sat_bind _ _ _).2 ⟨y.2, ⟨[], ⟨by simp, by simp [Out]⟩, trivial⟩, sat_pure y⟩⟩

theorem lookup_zero (x y : QEV) : SatWith .native (lookup 0 x y) x :=
  (sat_bind _ _ _).2 ⟨x.1, ⟨[], ⟨by simp, by simp [Out]⟩, trivial⟩, (sat_bind _ _ _).2 ⟨x.2, ⟨[], ⟨by simp, by simp [Out]⟩, trivial⟩, sat_pure x⟩⟩

/-! ## Folding -/

theorem all_interpolate {b : QEV} {xs ys ws : List QEV} (h1 : xs.length = ys.length) (h2 : xs.length = ws.length) :
    All (Fri.interpolate b xs ys ws) := by
  intro y
  unfold Fri.interpolate
  rw [if_neg (by simp [h1, h2 ▸ h1])]
  obtain ⟨lX, h3⟩ : Any (xs.foldlM (fun lX xi => subMulExt b xi lX) oneExt) :=
    any_foldlM _ (fun _ _ => (all_reduceExt _).any) _
  refine (sat_bind _ _ _).2 ⟨lX, h3, (sat_bind _ _ _).2 ⟨(zeroExt, 1), ?_, ?_⟩⟩
  · refine sat_foldlM fun xyw _ => (sat_bind _ _ _).2 ⟨oneExt, all_subExt _ _ _, (sat_bind _ _ _).2 ⟨(zeroExt, 1),
      divExt_one _ _, ?_⟩⟩
    refine (sat_bind _ _ _).2 ⟨zeroExt, all_mulExt _ _ _, (sat_bind _ _ _).2 ⟨zeroExt, all_addExt _ _ _, ?_⟩⟩
    simp only [mul_one]
    exact sat_pure _
  · refine (sat_bind _ _ _).2 ⟨y, all_mulExt _ _ _, (sat_bind _ _ _).2 ⟨zeroExt, ?_, lookup_one _ _⟩⟩
    refine sat_foldlM fun xy _ => (sat_bind _ _ _).2 ⟨oneExt, all_subExt _ _ _, ?_⟩
    rw [show isZeroExt oneExt = 0 by simp [isZeroExt, oneExt, toQE, isZero]]
    exact lookup_zero _ _

theorem any_expFromBits (base : Fp) (bits : List Fr) : Any (Fri.expFromBitsConstBase base bits) :=
  any_foldlM _ (fun _ _ => (all_mulAdd _ _ _).any.bind fun _ => (all_mulAdd _ _ _).any.bind fun _ => (all_mulAdd _ _ _).any) _

theorem sat_orPanic {s : String} {o : Option α} {a : α} (h : o = some a) : SatWith .native (orPanic s o) a := by
  rw [h]
  exact sat_pure a

theorem points {f : List QEV → ℕ → Circ (List QEV)} (hf : ∀ pts k, ∃ pts', pts'.length = pts.length + 1 ∧
    SatWith .native (f pts k) pts') (l : List ℕ) (a : List QEV) :
    ∃ pts, pts.length = a.length + l.length ∧ SatWith .native (l.foldlM f a) pts := by
  induction l generalizing a with
  | nil => exact ⟨a, rfl, sat_pure _⟩
  | cons x l ih =>
    obtain ⟨b, h1, h2⟩ := hf a x
    obtain ⟨pts, h3, h4⟩ := ih b
    refine ⟨pts, by rw [h3, h1, List.length_cons]; omega, ?_⟩
    rw [List.foldlM_cons]
    exact (sat_bind _ _ _).2 ⟨b, h2, h4⟩

theorem all_computeEvaluation (x : Fr) (bits : List Fr) (evals : List QE) (hl : evals.length = 16) (beta : QEV) :
    All (Fri.computeEvaluation x bits 4 (evals.map embQ) beta) := by
  intro y
  unfold Fri.computeEvaluation
  rw [if_neg (by rw [Fri.goShl1_eq (by omega), List.length_map, hl]; norm_num), if_neg (by omega)]
  refine (sat_bind _ _ _).2 ⟨_, sat_orPanic (Fri.primitiveRoot_eq (by omega)), ?_⟩
  refine (sat_bind _ _ _).2 ⟨_, sat_orPanic (Fri.permuteLoop_eq evals (by omega) (by simpa using hl)), ?_⟩
  obtain ⟨start, h1⟩ := any_expFromBits (Spec.Fri.omega 4 ^ ((evals.map embQ).length - 1)) bits.reverse
  refine (sat_bind _ _ _).2 ⟨start, h1, (sat_bind _ _ _).2 ⟨0, all_mulAdd _ _ _ _, ?_⟩⟩
  obtain ⟨pts, h2, h3⟩ := points (f := fun (pts : List QEV) (_ : ℕ) => do
      let next ← mulExt (pts.getLastD (0, 0)) (toQE (emb (Spec.Fri.omega 4)))
      pure (pts ++ [next])) (fun pts k => ⟨pts ++ [zeroExt], by simp, (sat_bind _ _ _).2 ⟨_, all_mulExt _ _ _, sat_pure _⟩⟩)
    (List.range ((evals.map embQ).length - 1)) [(0, 0)]
  refine (sat_bind _ _ _).2 ⟨pts, h3, ?_⟩
  have hp : pts.length = 16 := by rw [h2]; simp [hl]
  obtain ⟨ws, h4, h5⟩ := any_mapM_length (l := pts.zipIdx) (f := fun xi => do
      let w ← Fri.weightLoop pts xi.1 xi.2
      let inv ← inverseExt w
      assertEq inv.2 1
      pure inv.1) (fun xi _ => ⟨zeroExt, (sat_bind _ _ _).2 ⟨oneExt, sat_foldlM fun xj _ => by
        split
        · exact all_reduceExt _ _
        · exact sat_pure _, (sat_bind _ _ _).2 ⟨(zeroExt, 1), inverseExt_one _, (sat_bind _ _ _).2 ⟨(), assert_out rfl, sat_pure _⟩⟩⟩⟩)
  refine (sat_bind _ _ _).2 ⟨ws, h5, all_interpolate ?_ ?_ y⟩
  · rw [hp]; simp
  · rw [h4, List.length_zipIdx]

/-! ## Query rounds -/

theorem any_evals {inst : InstanceInfo QE} {initial : List (FriEvalProof Fp)} {b : BatchInfo QE} (hb : b ∈ inst.batches)
    (h : ∀ b ∈ inst.batches, ∀ f ∈ b.polynomials, ∃ e, initial[f.oracleIndex]? = some e ∧ f.polynomialInfo < e.elements.length) :
    Any (b.polynomials.mapM fun polynomial => do
      let ep ← idx (initial.map FriEvalProof.enc) polynomial.oracleIndex
      let e ← idx ep.elements polynomial.polynomialInfo
      pure ((e, 0) : QEV)) := by
  obtain ⟨ys, -, h1⟩ := any_mapM_length (l := b.polynomials) (f := fun polynomial => do
      let ep ← idx (initial.map FriEvalProof.enc) polynomial.oracleIndex
      let e ← idx ep.elements polynomial.polynomialInfo
      pure ((e, 0) : QEV)) fun f hf => by
    obtain ⟨e, h1, h2⟩ := h b hb f hf
    refine ⟨(emb e.elements[f.polynomialInfo], 0), (sat_bind _ _ _).2 ⟨e.enc, of_den (den_idx_some ?_),
      (sat_bind _ _ _).2 ⟨emb e.elements[f.polynomialInfo], of_den (den_idx_some ?_), sat_pure _⟩⟩⟩
    · rw [List.getElem?_map, h1]; rfl
    · rw [FriEvalProof.enc, List.getElem?_map, List.getElem?_eq_getElem h2]; rfl
  exact ⟨ys, h1⟩

theorem any_expExt (a : QEV) (e : ℕ) : Any (expExt a e) := by
  unfold expExt
  split
  · exact ⟨_, sat_pure _⟩
  · exact ⟨_, sat_pure _⟩
  · exact (all_mulExt _ _).any
  · refine (any_foldlM _ (fun st i => Any.bind ?_ fun _ => Any.bind ?_ fun _ => ⟨_, sat_pure _⟩) _).bind fun _ => ⟨_, sat_pure _⟩
    · split
      · exact (all_mulExt _ _).any
      · exact ⟨_, sat_pure _⟩
    · split
      · exact (all_mulExt _ _).any
      · exact ⟨_, sat_pure _⟩

theorem all_combineBatch {proof : List (FriEvalProof Fr)} {alpha sx sum : QEV} {bo : BatchInfo QEV × QEV}
    (h : Any (bo.1.polynomials.mapM fun polynomial => do
      let ep ← idx proof polynomial.oracleIndex
      let e ← idx ep.elements polynomial.polynomialInfo
      pure ((e, 0) : QEV))) : All (Fri.combineBatch proof alpha sx sum bo) :=
  h.all fun evals => Any.all (any_foldlM _ (fun _ _ => (all_reduceExt _).any) _) fun _ y =>
    (sat_bind _ _ _).2 ⟨oneExt, all_subExt _ _ _, by
      obtain ⟨ae, hae⟩ := any_expExt alpha evals.length
      exact (sat_bind _ _ _).2 ⟨ae, hae, (sat_bind _ _ _).2 ⟨zeroExt, all_mulExt _ _ _, (sat_bind _ _ _).2 ⟨(zeroExt, 1),
        inverseExt_one _, (sat_bind _ _ _).2 ⟨(), assert_out rfl, all_reduceExt _ y⟩⟩⟩⟩⟩

theorem all_foldlM_mem [Inhabited α] {f : α → σ → Circ α} {l : List σ} (h : ∀ a, ∀ c ∈ l, All (f a c)) (hl : l ≠ []) (a : α) :
    All (l.foldlM f a) := by
  induction l generalizing a with
  | nil => exact (hl rfl).elim
  | cons x l ih =>
    rw [List.foldlM_cons]
    by_cases hn : l = []
    · intro y
      rw [hn]
      exact (sat_bind _ _ _).2 ⟨y, h _ _ List.mem_cons_self y, sat_pure y⟩
    · exact (h a x List.mem_cons_self).any.all fun b => ih (fun a c hc => h a c (List.mem_cons_of_mem _ hc)) hn b

theorem all_combine {inst : InstanceInfo QE} {initial : List (FriEvalProof Fp)} {alpha sx : QEV} {pre : List QEV}
    (hn : inst.batches ≠ []) (hl : inst.batches.length = pre.length)
    (h : ∀ b ∈ inst.batches, ∀ f ∈ b.polynomials, ∃ e, initial[f.oracleIndex]? = some e ∧ f.polynomialInfo < e.elements.length) :
    All (Fri.friCombineInitial inst.enc (initial.map FriEvalProof.enc) alpha sx pre) := by
  unfold Fri.friCombineInitial
  have hl' : inst.enc.batches.length = pre.length := by simpa [InstanceInfo.enc] using hl
  rw [if_neg (not_not.2 hl')]
  refine all_foldlM_mem (fun a bo hbo => all_combineBatch ?_) ?_ _
  · have := (List.of_mem_zip hbo).1
    rw [InstanceInfo.enc] at this
    obtain ⟨b, hb, e⟩ := List.mem_map.1 this
    have h1 := any_evals hb h
    rw [← e]
    exact h1
  · intro e
    have := congrArg List.length e
    rw [List.length_zip, hl', min_self, List.length_nil, ← hl] at this
    exact hn (List.length_eq_zero_iff.1 this)

theorem sat_step {ch : FriChallenges Fr QEV} {proof : FriProof Fr QEV} {steps : List (FriQueryStep QEV)}
    {capBits : List Bool} (hcb : capBits.length = 4) {s : Spec.Fri.Step} {k : ℕ}
    (hs : steps[k]? = some s.step.enc) (hbeta : ch.betas[k]? = some (embQ s.beta))
    (hcap : proof.commitCaps[k]? = some s.cap) {bits : List Bool} {x : Fr}
    (he : s.step.evals.length = 16) (hc : s.cap.length = 16) (hb : 4 ≤ bits.length)
    (hsib : s.step.siblings.length ≤ (bits.drop 4).length)
    (ho : Spec.Fri.Opens (Spec.Fri.flatten s.step.evals) (bits.drop 4) s.step.siblings s.cap (Spec.Fri.bitsVal capBits)) (y : QEV) :
    SatWith .native (Fri.reductionStep ch proof steps (capBits.map bitF)
      (bits.map bitF, x, embQ (s.step.evals.getD (Spec.Fri.bitsVal (bits.take 4)) 0)) (4, k)) ((bits.drop 4).map bitF, 0, y) := by
  have h4 : (bits.take 4).length = 4 := by simpa using hb
  refine (sat_bind _ _ _).2 ⟨_, of_den (den_idx_some hs), (sat_bind _ _ _).2 ⟨_, of_den (Fri.den_sliceFrom (by simpa using hb)),
    (sat_bind _ _ _).2 ⟨_, of_den (Fri.den_sliceTo (by simpa using hb)), ?_⟩⟩⟩
  rw [if_neg (by simp), ← List.map_take, ← List.map_drop]
  refine (sat_bind _ _ _).2 ⟨_, of_den (Fri.den_evalLookup _ _ h4 he), (sat_bind _ _ _).2 ⟨(), assert_out rfl,
    (sat_bind _ _ _).2 ⟨(), assert_out rfl, (sat_bind _ _ _).2 ⟨_, of_den (den_idx_some hbeta), ?_⟩⟩⟩⟩
  refine (sat_bind _ _ _).2 ⟨y, all_computeEvaluation _ _ _ he _ y, (sat_bind _ _ _).2 ⟨_, of_den (den_idx_some hcap), ?_⟩⟩
  refine (sat_bind _ _ _).2 ⟨(), of_sat ?_, (sat_bind _ _ _).2 ⟨0, ?_, sat_pure _⟩⟩
  · simp only [FriQueryStep.enc]
    rw [Fri.flatten_eq]
    exact ((den_eq_assert_iff _ _).1 (Fri.den_verifyMerkle' _ _ _ _ _ hcb hc hsib)).1.2 ho
  · exact all_foldlM (fun _ _ => all_mulAdd _ _ _) (by simp) _ 0

theorem sat_chain {ch : FriChallenges Fr QEV} {proof : FriProof Fr QEV} {steps : List (FriQueryStep QEV)}
    {capBits : List Bool} (hcb : capBits.length = 4) (l : List Spec.Fri.Step) (k : ℕ)
    (hs : ∀ j (h : j < l.length), steps[k + j]? = some l[j].step.enc ∧ ch.betas[k + j]? = some (embQ l[j].beta) ∧
      proof.commitCaps[k + j]? = some l[j].cap)
    (bits : List Bool) (x : Fr)
    (hsh : ∀ j (h : j < l.length), l[j].step.evals.length = 16 ∧ l[j].cap.length = 16 ∧
      l[j].step.siblings.length + 4 * (j + 1) ≤ bits.length)
    (ho : ∀ j (h : j < l.length), Spec.Fri.Opens (Spec.Fri.flatten l[j].step.evals) (bits.drop (4 * (j + 1))) l[j].step.siblings
      l[j].cap (Spec.Fri.bitsVal capBits)) :
    ∃ old st, st.2.2 = zeroExt ∧ SatWith .native (((List.replicate l.length 4).zipIdx k).foldlM
      (Fri.reductionStep ch proof steps (capBits.map bitF)) (bits.map bitF, x, old)) st := by
  induction l generalizing k bits x with
  | nil => exact ⟨zeroExt, (bits.map bitF, x, zeroExt), rfl, sat_pure _⟩
  | cons s l ih =>
    have h0 := hs 0 (by simp)
    have g0 := hsh 0 (by simp)
    have o0 := ho 0 (by simp)
    simp only [List.getElem_cons_zero, Nat.add_zero, Nat.zero_add, mul_one] at h0 g0 o0
    obtain ⟨old, st, h1, h2⟩ := ih (k + 1) (fun j h => by
        have := hs (j + 1) (by simpa using h)
        rwa [List.getElem_cons_succ, show k + (j + 1) = k + 1 + j by omega] at this) (bits.drop 4) 0 (fun j h => by
        have := hsh (j + 1) (by simpa using h)
        rw [List.getElem_cons_succ] at this
        refine ⟨this.1, this.2.1, ?_⟩
        rw [List.length_drop]; omega) (fun j h => by
        have := ho (j + 1) (by simpa using h)
        rw [List.getElem_cons_succ] at this
        rwa [List.drop_drop, show 4 + 4 * (j + 1) = 4 * (j + 1 + 1) by ring])
    refine ⟨embQ (s.step.evals.getD (Spec.Fri.bitsVal (bits.take 4)) 0), st, h1, ?_⟩
    rw [List.length_cons, List.replicate_succ, List.zipIdx_cons, List.foldlM_cons]
    exact (sat_bind _ _ _).2 ⟨_, sat_step hcb h0.1 h0.2.1 h0.2.2 g0.1 g0.2.1 (by omega) (by rw [List.length_drop]; omega) o0 old, h2⟩

/-- A query round opens leaves of all commitments at the positions belonging to one index. -/
def Leaves (q : FriParams) (caps : List (List Fr)) (proof : FriProof Fp QE) (round : FriQueryRound Fp QE) : Prop :=
  ∃ v < 2 ^ (q.degreeBits + q.config.rateBits),
    let n := q.degreeBits + q.config.rateBits
    let bits := Spec.Fri.lowBits n v
    let capIndex := Spec.Fri.bitsVal (bits.drop (n - q.config.capHeight))
    (∀ ec ∈ round.initial.zip caps, Spec.Fri.Opens (ec.1.elements.map emb) bits ec.1.siblings ec.2 capIndex) ∧
    ∀ (j : ℕ) (s : FriQueryStep QE) (cap : List Fr), round.steps[j]? = some s → proof.commitCaps[j]? = some cap →
      Spec.Fri.Opens (Spec.Fri.flatten s.evals) (bits.drop (4 * (j + 1))) s.siblings cap capIndex

theorem sat_round {q : FriParams} {inst : InstanceInfo QE} {ch : FriChallenges Fp QE} {y : List QE}
    {caps : List (List Fr)} {proof : FriProof Fp QE} {round : FriQueryRound Fp QE}
    (hf : Spec.Fri.RoundFits q inst ch y caps proof round) (hn0 : inst.batches ≠ []) (hfin : proof.finalPoly ≠ [])
    (h : Leaves q caps proof round) (pre : List QEV) (hpre : pre.length = y.length) (x : Fr) :
    SatWith .native (Fri.verifyQueryRound q inst.enc ch.enc pre caps proof.enc x
      (q.degreeBits + q.config.rateBits) round.enc) () := by
  obtain ⟨⟨hn4, hn, hrate, hcap⟩, ⟨hi1, hi2, hi3⟩, ⟨hb1, hb2⟩, ⟨ha1, ha2, ha3, ha4⟩, hsteps, hcc⟩ := hf
  obtain ⟨v, hv, ho1, ho2⟩ := h
  have harity : q.reductionArityBits = List.replicate round.steps.length 4 := by
    rw [ha2]; exact List.eq_replicate_of_mem ha1
  set n := q.degreeBits + q.config.rateBits with hnn
  set bits := Spec.Fri.lowBits n v with hbits
  have hbl : bits.length = n := Fri.lowBits_length _ _
  have hv64 : v < 2 ^ 64 := hv.trans_le (Nat.pow_le_pow_right (by norm_num) (by omega))
  have hval : ((v : ℕ) : Fr).val = v := val_natCast_of_lt (hv64.trans (by norm_num [r]))
  set l : List Spec.Fri.Step := (round.steps.zip (ch.betas.zip proof.commitCaps)).map fun s => ⟨s.1, s.2.1, s.2.2⟩ with hl
  have hll : l.length = round.steps.length := by
    rw [hl, List.length_map, List.length_zip, List.length_zip]; omega
  have htake : (bitsLE 64 v).take n = bits.map bitF := by
    rw [bitsLE_take, Fri.bitsLE_eq_lowBits, Nat.min_eq_left (by omega)]
  have hbin : den (toBinary 64 ((v : ℕ) : Fr)) = pure (bitsLE 64 v) := by
    rw [den_toBinary, hval, if_pos hv64]
  have hcbl : (bits.drop (n - q.config.capHeight)).length = 4 := by rw [List.length_drop, hbl]; omega
  refine (sat_bind _ _ _).2 ⟨(), of_den (Fri.den_noncanonical hrate), (sat_bind _ _ _).2 ⟨((v : ℕ) : Fr), all_reduce _ _ _,
    (sat_bind _ _ _).2 ⟨_, of_den hbin, (sat_bind _ _ _).2 ⟨_, of_den (Fri.den_sliceTo (by rw [bitsLE_length]; omega)), ?_⟩⟩⟩⟩
  rw [← hnn, htake]
  refine (sat_bind _ _ _).2 ⟨(bits.drop (n - q.config.capHeight)).map bitF, ?_, ?_⟩
  · rw [List.length_map, hbl, if_pos (by omega), List.map_drop]
    exact of_den (Fri.den_sliceFrom (by rw [List.length_map, hbl]; omega))
  · refine (sat_bind _ _ _).2 ⟨(), of_sat (((den_eq_assert_iff _ _).1 (Fri.den_verifyInitialProof bits _ round.initial caps hcbl hi1 hi2
      (by simpa [hbl] using hi3))).1.2 ho1), (sat_bind _ _ _).2 ⟨_, of_den (Fri.den_calculateSubgroupX bits hn), ?_⟩⟩
    obtain ⟨old, st, h1, h2⟩ := sat_chain (ch := ch.enc) (proof := proof.enc) (steps := round.steps.map FriQueryStep.enc)
      hcbl l 0 (fun j h => by
        rw [hll] at h
        simp only [hl, List.getElem_map, List.getElem_zip, Nat.zero_add]
        refine ⟨?_, ?_, ?_⟩
        · rw [List.getElem?_map, List.getElem?_eq_getElem h, Option.map_some]
        · rw [FriChallenges.enc, List.getElem?_map, List.getElem?_eq_getElem (by omega), Option.map_some]
        · exact List.getElem?_eq_getElem (l := proof.commitCaps) (by omega)) bits (emb (Spec.Fri.queryPoint n bits)) (fun j h => by
        rw [hll] at h
        simp only [hl, List.getElem_map, List.getElem_zip]
        refine ⟨(hsteps j h).1, hcc _ (List.getElem_mem _), ?_⟩
        rw [hbl]
        exact (hsteps j h).2) (fun j h => by
        rw [hll] at h
        simp only [hl, List.getElem_map, List.getElem_zip]
        exact ho2 j _ _ (List.getElem?_eq_getElem h) (List.getElem?_eq_getElem (by omega)))
    rw [hll, ← harity] at h2
    refine (sat_bind _ _ _).2 ⟨old, all_combine hn0 (hb1.trans hpre.symm) hb2 old, (sat_bind _ _ _).2 ⟨st, h2, ?_⟩⟩
    refine (sat_bind _ _ _).2 ⟨zeroExt, all_foldlM (fun _ _ => all_reduceExt _) (by simpa [FriProof.enc] using hfin) _ zeroExt, ?_⟩
    rw [h1]
    exact (sat_bind _ _ _).2 ⟨(), assert_out rfl, assert_out rfl⟩

end Verif.Native
