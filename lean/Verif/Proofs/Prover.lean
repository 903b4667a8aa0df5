import Verif.Spec.Prover
import Verif.Properties.Complete
import Verif.Proofs.PlonkTrace
import Verif.Proofs.Transcript
import Verif.Proofs.Verifier

/-!
# The honest prover
-/

set_option autoImplicit false

namespace Verif.Prover

open Polynomial Spec Spec.Prover
open Challenger (outputs_append after_append nsq nsq_absorbs nsq_squeezes length_outputs)

/-! ## Challenges in stages -/

variable {P : (Fin 12 → Fp) → Fin 12 → Fp}

theorem outputs_absorbs (s : Sponge) (l : List Fr) : s.outputs P (absorbs l) = [] := by
  rw [← List.length_eq_zero_iff, length_outputs, nsq_absorbs]

theorem length_squeezes (s : Sponge) (n : ℕ) : (s.outputs P (squeezes n)).length = n := by
  rw [length_outputs, nsq_squeezes]

/-- Coordinates of extension elements, in the base field. -/
def pairs (l : List QE) : List Fp := l.flatMap fun e => [e.re, e.im]

theorem exists_pair {l : List Fp} (h : l.length = 2) : ∃ e : QE, l = [e.re, e.im] := by
  match l, h with
  | [a, b], _ => exact ⟨⟨a, b⟩, rfl⟩

theorem length_pairs (l : List QE) : (pairs l).length = 2 * l.length := by
  induction l with
  | nil => rfl
  | cons e l ih => rw [pairs, List.flatMap_cons, List.length_append]; change 2 + (pairs l).length = _; rw [ih, List.length_cons]; ring

theorem extAt_append (a b : List Fp) (e : QE) : extAt (a ++ ([e.re, e.im] ++ b)) a.length = e := by
  have h1 : (a ++ ([e.re, e.im] ++ b)).getD a.length 0 = e.re := by
    rw [List.getD_append_right _ _ _ _ le_rfl, Nat.sub_self]; rfl
  have h2 : (a ++ ([e.re, e.im] ++ b)).getD (a.length + 1) 0 = e.im := by
    rw [List.getD_append_right _ _ _ _ (Nat.le_succ _), show a.length.succ - a.length = 1 by omega]; rfl
  rw [extAt, h1, h2]

theorem extAt_pairs (a b : List Fp) (l : List QE) (i : ℕ) (hi : i < l.length) :
    extAt (a ++ (pairs l ++ b)) (a.length + 2 * i) = l.getD i 0 := by
  induction l generalizing a i with
  | nil => simp at hi
  | cons e l ih =>
    have hp : pairs (e :: l) = [e.re, e.im] ++ pairs l := rfl
    rw [hp, List.append_assoc]
    rcases i with _ | i
    · exact extAt_append _ _ _
    · have := ih (a ++ [e.re, e.im]) i (by simpa using hi)
      rw [List.append_assoc, List.length_append] at this
      rw [List.getD_cons_succ, ← this]
      congr 1
      simp; ring

theorem challengesOf_eq (bs gs as : List Fp) (ζ α : QE) (betas : List QE) (pow : Fp) (qs : List Fp) (n : ℕ)
    (hb : bs.length = n) (hg : gs.length = n) (ha : as.length = n) :
    challengesOf n betas.length (bs ++ (gs ++ (as ++ ([ζ.re, ζ.im] ++ ([α.re, α.im] ++ (pairs betas ++ ([pow] ++ qs))))))) =
      ⟨bs, gs, as, ζ, ⟨α, betas, pow, qs⟩⟩ := by
  have h3 : (bs ++ (gs ++ as)).length = 3 * n := by simp only [List.length_append]; omega
  have e1 : ∀ l, bs ++ (gs ++ (as ++ l)) = (bs ++ (gs ++ as)) ++ l := fun l => by simp
  have h5 : (bs ++ (gs ++ as) ++ [ζ.re, ζ.im]).length = 3 * n + 2 := by rw [List.length_append, h3]; rfl
  have e2 : ∀ l, bs ++ (gs ++ as) ++ ([ζ.re, ζ.im] ++ l) = (bs ++ (gs ++ as) ++ [ζ.re, ζ.im]) ++ l := fun l => by simp
  have h7 : (bs ++ (gs ++ as) ++ [ζ.re, ζ.im] ++ [α.re, α.im]).length = 3 * n + 4 := by rw [List.length_append, h5]; rfl
  have e3 : ∀ l, bs ++ (gs ++ as) ++ [ζ.re, ζ.im] ++ ([α.re, α.im] ++ l) =
    (bs ++ (gs ++ as) ++ [ζ.re, ζ.im] ++ [α.re, α.im]) ++ l := fun l => by simp
  have h9 : (bs ++ (gs ++ as) ++ [ζ.re, ζ.im] ++ [α.re, α.im] ++ pairs betas).length = 3 * n + 4 + 2 * betas.length := by
    rw [List.length_append, h7, length_pairs]
  have e4 : ∀ l, bs ++ (gs ++ as) ++ [ζ.re, ζ.im] ++ [α.re, α.im] ++ (pairs betas ++ l) =
    (bs ++ (gs ++ as) ++ [ζ.re, ζ.im] ++ [α.re, α.im] ++ pairs betas) ++ l := fun l => by simp
  rw [challengesOf]
  congr 1
  · exact List.take_left' hb
  · rw [List.drop_left' hb]; exact List.take_left' hg
  · rw [show 2 * n = n + n by ring, ← List.drop_drop, List.drop_left' hb, List.drop_left' hg]
    exact List.take_left' ha
  · rw [e1, ← h3]
    exact extAt_append _ _ _
  · congr 1
    · rw [e1, e2, ← h5]
      exact extAt_append _ _ _
    · conv_rhs => rw [Fri.list_eq_range_getD betas 0]
      refine List.map_congr_left fun i hi => ?_
      rw [e1, e2, e3, ← h7]
      exact extAt_pairs _ _ _ _ (List.mem_range.1 hi)
    · rw [e1, e2, e3, e4, ← h9, List.getD_append_right _ _ _ _ le_rfl, Nat.sub_self]
      rfl
    · rw [e1, e2, e3, e4, ← h9, ← List.drop_drop, List.drop_left]
      rfl

/-- Folding challenges drawn from the transcript, one after each commitment. -/
theorem exists_betas (k : ℕ) (sp : Sponge) (s : Fp) (m N : ℕ) (c : ℕ → QE) : ∃ betas : List QE, betas.length = k ∧
    sp.outputs P ((Fri.Prover.commits betas s m N c).flatMap fun cap => absorbs (capElems cap) ++ squeezes 2) = pairs betas := by
  induction k generalizing sp s m N c with
  | zero => exact ⟨[], rfl, rfl⟩
  | succ k ih =>
    set cap := Merkle.treeCap BN.compress (Fri.Prover.layerDigest s m N c) (m - 8) 4 with hcap
    obtain ⟨β, hβ⟩ := exists_pair (length_squeezes (P := P) (sp.after P (absorbs (capElems cap))) 2)
    obtain ⟨betas, h1, h2⟩ := ih (sp.after P (absorbs (capElems cap) ++ squeezes 2)) (s ^ 16) (m - 4) (N / 16)
      (Fri.Prover.foldCoeffs β c)
    refine ⟨β :: betas, by rw [List.length_cons, h1], ?_⟩
    rw [Fri.Prover.commits, List.flatMap_cons, outputs_append, h2, outputs_append, ← hcap, outputs_absorbs, hβ]
    rfl

theorem length_commits (betas : List QE) (s : Fp) (m N : ℕ) (c : ℕ → QE) :
    (Fri.Prover.commits betas s m N c).length = betas.length := by
  induction betas generalizing s m N c with
  | nil => rfl
  | cons β l ih => rw [Fri.Prover.commits, List.length_cons, List.length_cons, ih]

/-- The prover's messages may be any functions of the challenges drawn before. -/
theorem exists_consistent (c : CommonCircuitData) (digest : Fr) (h : Fin 4 → Fp) (t : Plonk.Trace)
    (sw sz sq : ℕ → List Fp) (w : Fp) (S : Strategy) :
    ∃ ch : ProofChallenges Fp QE, Consistent c P digest h (S.polys t sw sz sq ch) ch w := by
  set n := c.config.numChallenges with hn
  set E1 := absorbs (limbs digest ++ (List.ofFn h).map emb ++ capElems (cap c ⟨t.wires, sw⟩)) with hE1
  set s1 := Sponge.init.after P E1 with hs1
  set bs := s1.outputs P (squeezes n) with hbs
  set s2 := s1.after P (squeezes n) with hs2
  set gs := s2.outputs P (squeezes n) with hgs
  set s3 := s2.after P (squeezes n) with hs3
  set zs := S.zs bs gs with hzs
  set pps := S.pps bs gs with hpps
  set E2 := absorbs (capElems (cap c ⟨zs ++ pps, sz⟩)) with hE2
  set s4 := s3.after P E2 with hs4
  set as := s4.outputs P (squeezes n) with has
  set s5 := s4.after P (squeezes n) with hs5
  set qs := S.qs bs gs as with hqs
  set E3 := absorbs (capElems (cap c ⟨qs, sq⟩)) with hE3
  set s6 := s5.after P E3 with hs6
  obtain ⟨ζ, hζ⟩ := exists_pair (length_squeezes (P := P) s6 2)
  set s7 := s6.after P (squeezes 2) with hs7
  set o := Plonk.openings c t zs pps qs ζ with ho
  set E4 := absorbs (coords (o.constants ++ o.plonkSigmas ++ o.wires ++ o.plonkZs ++ o.partialProducts ++ o.quotientPolys ++
    o.plonkZsNext)) with hE4
  set s8 := s7.after P E4 with hs8
  obtain ⟨α, hα⟩ := exists_pair (length_squeezes (P := P) s8 2)
  set s9 := s8.after P (squeezes 2) with hs9
  set x : Polys := ⟨t, zs, pps, qs, sw, sz, sq⟩ with hx
  set cf := (Fri.Prover.quotient α (oracles x) (Fri.plonkInstance c ζ).batches).coeff with hcf
  obtain ⟨betas, hlen, hbetas⟩ := exists_betas (P := P) c.friParams.reductionArityBits.length s9 7
    (c.friParams.degreeBits + c.friParams.config.rateBits) (2 ^ c.friParams.degreeBits) cf
  set E5 := (Fri.Prover.commits betas 7 (c.friParams.degreeBits + c.friParams.config.rateBits) (2 ^ c.friParams.degreeBits)
    cf).flatMap fun cap => absorbs (capElems cap) ++ squeezes 2 with hE5
  set s10 := s9.after P E5 with hs10
  set E6 := absorbs (coords (Fri.Prover.final betas (2 ^ c.friParams.degreeBits) cf) ++ [emb w]) with hE6
  set s11 := s10.after P E6 with hs11
  obtain ⟨pow, hpow⟩ : ∃ pow, s11.outputs P (squeezes 1) = [pow] :=
    List.length_eq_one_iff.1 (length_squeezes s11 1)
  set s12 := s11.after P (squeezes 1) with hs12
  set ix := s12.outputs P (squeezes c.config.friConfig.numQueryRounds) with hix
  refine ⟨⟨bs, gs, as, ζ, ⟨α, betas, pow, ix⟩⟩, hlen, ?_⟩
  have hT : Sponge.init.outputs P (transcript n c.config.friConfig.numQueryRounds digest h
      (proof c x ⟨bs, gs, as, ζ, ⟨α, betas, pow, ix⟩⟩ w)) =
      bs ++ (gs ++ (as ++ ([ζ.re, ζ.im] ++ ([α.re, α.im] ++ (pairs betas ++ ([pow] ++ ix)))))) := by
    show Sponge.init.outputs P (E1 ++ squeezes n ++ squeezes n ++ E2 ++ squeezes n ++ E3 ++ squeezes 2 ++ E4 ++ squeezes 2 ++
      E5 ++ E6 ++ squeezes 1 ++ squeezes c.config.friConfig.numQueryRounds) = _
    simp only [List.append_assoc, outputs_append]
    rw [hE1, outputs_absorbs, ← hE1, ← hs1, ← hbs, ← hs2, ← hgs, ← hs3, hE2, outputs_absorbs, ← hE2, ← hs4, ← has, ← hs5,
      hE3, outputs_absorbs, ← hE3, ← hs6, hζ, ← hs7, hE4, outputs_absorbs, ← hE4, ← hs8, hα, ← hs9, hbetas, ← hs10, hE6,
      outputs_absorbs, ← hE6, ← hs11, hpow, ← hs12, ← hix]
    simp only [List.nil_append]
  show _ = challengesOf n (Fri.Prover.commits betas 7 (c.friParams.degreeBits + c.friParams.config.rateBits)
    (2 ^ c.friParams.degreeBits) cf).length _
  rw [length_commits]
  refine Eq.trans ?_ (congrArg _ hT.symm)
  exact (challengesOf_eq bs gs as ζ α betas pow ix n (length_squeezes _ _) (length_squeezes _ _) (length_squeezes _ _)).symm

/-! ## Openings -/

variable {c : CommonCircuitData} {x : Polys}

theorem map_poly (os : List Fri.Prover.Oracle) (i : ℕ) (z : QE) {l : List Fp[X]} {n : ℕ} (hn : n ≤ l.length)
    (hl : (os.getD i ⟨[], fun _ => []⟩).polys = l) :
    (((List.range n).map (PolynomialInfo.mk i)).map fun f => (Fri.Prover.poly os f).eval₂ Fri.Prover.base z) =
      (l.take n).map (Plonk.value z) := by
  have h : l.take n = (List.range n).map fun k => l.getD k 0 := by
    conv_lhs => rw [Fri.list_eq_range_getD l 0, ← List.map_take, List.take_range, Nat.min_eq_left hn]
  rw [h, List.map_map, List.map_map]
  refine List.map_congr_left fun k _ => ?_
  simp only [Function.comp_apply, Fri.Prover.poly, hl, Plonk.value]

theorem map_poly_all (os : List Fri.Prover.Oracle) (i : ℕ) (z : QE) {l : List Fp[X]} {n : ℕ} (hn : l.length = n)
    (hl : (os.getD i ⟨[], fun _ => []⟩).polys = l) :
    (((List.range n).map (PolynomialInfo.mk i)).map fun f => (Fri.Prover.poly os f).eval₂ Fri.Prover.base z) =
      l.map (Plonk.value z) := by
  rw [map_poly os i z hn.ge hl, ← hn, List.take_length]

theorem openings_eq (ht : x.trace.Sized c) (hzs : x.zs.length = c.config.numChallenges)
    (hpps : x.pps.length = c.config.numChallenges * c.numPartialProducts)
    (hqs : x.qs.length = c.config.numChallenges * c.quotientDegreeFactor) (z : QE) (o : OpeningSet QE)
    (ho : o = Plonk.openings c x.trace x.zs x.pps x.qs z) :
    Fri.Prover.openings (oracles x) (Fri.plonkInstance c z) =
      [o.constants ++ o.plonkSigmas ++ o.wires ++ o.plonkZs ++ o.partialProducts ++ o.quotientPolys, o.plonkZsNext] := by
  subst ho
  have h0 : (x.trace.constants ++ x.trace.sigmas).length = c.numConstants + c.config.numRoutedWires := by
    rw [List.length_append, ht.constants, ht.sigmas]
  have h2 : (x.zs ++ x.pps).length = c.config.numChallenges * (1 + c.numPartialProducts) := by
    rw [List.length_append, hzs, hpps]; ring
  have h2' : c.config.numChallenges ≤ (x.zs ++ x.pps).length := by rw [h2]; exact Nat.le_mul_of_pos_right _ (by omega)
  have hz : x.zs = (x.zs ++ x.pps).take c.config.numChallenges := (List.take_left' hzs).symm
  simp only [Fri.Prover.openings, Fri.plonkInstance, Fri.oracleSizes, List.map_cons, List.map_nil, List.zipIdx_cons,
    List.zipIdx_nil, List.flatMap_cons, List.flatMap_nil, List.map_append, List.append_nil]
  rw [map_poly_all (oracles x) 0 z h0 rfl, map_poly_all (oracles x) (0 + 1) z ht.wires rfl,
    map_poly_all (oracles x) (0 + 1 + 1) z h2 rfl, map_poly_all (oracles x) (0 + 1 + 1 + 1) z hqs rfl,
    map_poly (oracles x) 2 _ h2' rfl, ← hz]
  simp [Plonk.openings]

theorem commits (hf : FriOk c) (hx : x.Ok c) (z : QE) :
    Fri.Prover.Commits c.friParams (Fri.plonkInstance c z) (oracles x) := by
  have h2 : (x.zs ++ x.pps).length = c.config.numChallenges * (1 + c.numPartialProducts) := by
    rw [List.length_append, hx.zs.2, hx.pps.2]; ring
  refine ⟨rfl, ?_, ?_⟩
  · have hw := hx.salts x.wireSalt (by simp)
    have hz := hx.salts x.zSalt (by simp)
    have hq := hx.salts x.qSalt (by simp)
    intro i o info ho hi
    rcases i with _ | _ | _ | _ | i
    all_goals
      simp only [oracles, Fri.plonkInstance, Fri.oracleSizes, List.zipWith_cons_cons, List.getElem?_cons_zero,
        List.getElem?_cons_succ, Option.some.injEq, Nat.zero_add, List.zipWith_nil_left, List.getElem?_nil, reduceCtorEq] at ho hi
    · subst ho hi
      exact ⟨by simp [circuitOracle, hx.trace.constants, hx.trace.sigmas], fun u => by simp [circuitOracle]⟩
    · subst ho hi
      exact ⟨hx.trace.wires, fun u => by simpa using hw u⟩
    · subst ho hi
      exact ⟨h2, fun u => by simpa using hz u⟩
    · subst ho hi
      exact ⟨hx.qs.2, fun u => by simpa using hq u⟩
  · intro o ho f hmem
    rw [hf.degree]
    refine natDegree_le_of_degree_le (le_of_lt ?_)
    push_cast
    simp only [oracles, circuitOracle, List.mem_cons, List.not_mem_nil, or_false] at ho
    rcases ho with rfl | rfl | rfl | rfl
    · rcases List.mem_append.1 hmem with h | h
      · exact hx.trace.low.constants f h
      · exact hx.trace.low.sigmas f h
    · exact hx.trace.low.wires f hmem
    · rcases List.mem_append.1 hmem with h | h
      · exact hx.zs.1 f h
      · exact hx.pps.1 f h
    · exact hx.qs.1 f hmem

theorem length_cap (o : Fri.Prover.Oracle) : (cap c o).length = 16 := by
  rw [cap, Fri.Prover.Oracle.cap, Merkle.treeCap_length]; norm_num

/-- The checks of the verifier hold for the proof of a good prover. -/
theorem checks {gates : List Gates.Gate} {vd : VerifierOnlyCircuitData} {h : Fin 4 → Fp} {ch : ProofChallenges Fp QE} {w : Fp}
    (hf : FriOk c) (hx : x.Ok c) (hvd : vd.constantSigmasCap = cap c (circuitOracle x.trace)) (hg : Good c x.trace ch)
    (hI : Plonk.Identity c gates ch (Plonk.openings c x.trace x.zs x.pps x.qs ch.plonkZeta) h)
    (hb : ch.friChallenges.betas.length = c.friParams.reductionArityBits.length)
    (hq : ch.friChallenges.queryIndices.length = c.config.friConfig.numQueryRounds) :
    Verifier.Checks c gates vd (proof c x ch w) h ch where
  zeta := hg.zeta
  identity := hI
  fri := by
    have hc := commits hf hx ch.plonkZeta
    have hcaps : Fri.Prover.caps c.friParams (oracles x) =
        [vd.constantSigmasCap, (proof c x ch w).wiresCap, (proof c x ch w).plonkZsPartialProductsCap,
          (proof c x ch w).quotientPolysCap] := by rw [hvd]; rfl
    have hs := C71_sizes c.friParams (Fri.plonkInstance c ch.plonkZeta) (oracles x) hc hf.domain hf.pow hf.arities
      (Fri.instance_batches _ _)
    have := Fri.accepts_honest c.friParams (Fri.plonkInstance c ch.plonkZeta) (oracles x) ch.friChallenges w hs hc hf.final
      hf.fit hb hg.betas (fun b hb u hu => ?_) hg.pow (hq.trans hf.queries.symm)
    · rw [openings_eq hx.trace.toSized hx.zs.2 hx.pps.2 hx.qs.2 ch.plonkZeta _ rfl, hcaps] at this
      exact this
    · simp only [Fri.plonkInstance, List.mem_cons, List.not_mem_nil, or_false] at hb
      rcases hb with rfl | rfl
      · exact (hg.domain u hu).1
      · exact (hg.domain u hu).2

theorem low_replicate (n : ℕ) : Plonk.Low c (List.replicate n 0) := fun f hf => by
  rw [List.eq_of_mem_replicate hf, degree_zero]
  exact (WithBot.bot_lt_coe (2 ^ c.degreeBits)).trans_eq (by push_cast; rfl)

/-- Accumulators, partial products and quotients, correct whenever no denominator vanishes. -/
theorem exists_polys {gates : List Gates.Gate} {t : Plonk.Trace} {k : ℕ → ℕ} {h : Fin 4 → Fp}
    {s : Equiv.Perm (Fin (Plonk.n c) × Fin c.config.numRoutedWires)}
    (hc : Plonk.Proper c gates) (ht : t.Fits c) (hk : t.Selects c gates k) (hs : t.Routes c s)
    (hsat : t.Satisfies c gates k s h) (bs gs : List Fp) :
    ∃ zz : List Fp[X] × List Fp[X],
      (Plonk.Low c zz.1 ∧ zz.1.length = c.config.numChallenges) ∧
      (Plonk.Low c zz.2 ∧ zz.2.length = c.config.numChallenges * c.numPartialProducts) ∧
      ∀ as : List Fp, ∃ qs : List Fp[X], (Plonk.Low c qs ∧ qs.length = c.config.numChallenges * c.quotientDegreeFactor) ∧
        ((∀ i < c.config.numChallenges, ∀ m < Plonk.n c, ∀ j < c.config.numRoutedWires,
          t.den c (bs.getD i 0) (gs.getD i 0) m j ≠ 0) → ∀ (z : QE) (fri : FriChallenges Fp QE), z ≠ 1 →
          Plonk.Identity c gates ⟨bs, gs, as, z, fri⟩ (Plonk.openings c t zz.1 zz.2 qs z) h) := by
  by_cases hnz : ∀ i < c.config.numChallenges, ∀ m < Plonk.n c, ∀ j < c.config.numRoutedWires,
      t.den c (bs.getD i 0) (gs.getD i 0) m j ≠ 0
  · obtain ⟨zs, pps, hz, hp, hz', hp', hr⟩ := Plonk.accumulators_exist hc.rows.2 hc.chunks
      ((Plonk.gatesHold_iff hc hk).2 hsat.1) hs hsat.2 bs gs hnz
    refine ⟨(zs, pps), ⟨hz, hz'⟩, ⟨hp, hp'⟩, fun as => ?_⟩
    obtain ⟨qs, hq, hq', hI⟩ := Plonk.quotients_exist hc.rows.1 hc.rows.2 hc.factor ht.low hz hp hc.degrees hr as
    exact ⟨qs, ⟨hq, hq'⟩, fun _ => hI⟩
  · exact ⟨(List.replicate _ 0, List.replicate _ 0), ⟨low_replicate _, List.length_replicate⟩,
      ⟨low_replicate _, List.length_replicate⟩, fun as => ⟨List.replicate _ 0,
        ⟨low_replicate _, List.length_replicate⟩, fun h' => absurd h' hnz⟩⟩

theorem length_queries (n q : ℕ) (d : Fr) (h : Fin 4 → Fp) (y : Proof Fp QE) :
    (challenges P n q d h y).friChallenges.queryIndices.length = q := by
  have hl : (Sponge.init.outputs P (transcript n q d h y)).length =
      3 * n + 4 + 2 * y.openingProof.commitCaps.length + (q + 1) := by rw [length_outputs, Verif.Verifier.nsq_transcript]
  unfold challenges
  generalize Sponge.init.outputs P (transcript n q d h y) = o at hl
  simp only [challengesOf, List.length_drop]
  omega

theorem complete {gates : List Gates.Gate} {t : Plonk.Trace} {k : ℕ → ℕ} {h : Fin 4 → Fp}
    {s : Equiv.Perm (Fin (Plonk.n c) × Fin c.config.numRoutedWires)}
    (hc : Plonk.Proper c gates) (hf : FriOk c) (ht : t.Fits c) (hk : t.Selects c gates k) (hs : t.Routes c s)
    (hsat : t.Satisfies c gates k s h) :
    ∃ S : Strategy, ∀ (P : (Fin 12 → Fp) → Fin 12 → Fp) (vd : VerifierOnlyCircuitData),
      vd.constantSigmasCap = cap c (circuitOracle t) → ∀ sw sz sq : ℕ → List Fp,
      (∀ s ∈ [sw, sz, sq], ∀ u, (s u).length = if c.friParams.isHiding then 4 else 0) → ∀ w : Fp,
      (∃ ch, Consistent c P vd.circuitDigest h (S.polys t sw sz sq ch) ch w) ∧
      ∀ ch, Consistent c P vd.circuitDigest h (S.polys t sw sz sq ch) ch w →
        (S.polys t sw sz sq ch).Ok c ∧ (Good c t ch → ∀ inputs, Verifier.inputsHash P inputs = h →
          Verifier.Accepts P c gates vd (proof c (S.polys t sw sz sq ch) ch w) inputs) := by
  choose Z hZ1 hZ2 Q hQ1 hQ2 using exists_polys hc ht hk hs hsat
  refine ⟨⟨fun bs gs => (Z bs gs).1, fun bs gs => (Z bs gs).2, Q⟩, fun P vd hvd sw sz sq hsalt w =>
    ⟨exists_consistent c vd.circuitDigest h t sw sz sq w _, fun ch h6 => ?_⟩⟩
  have hx : Polys.Ok c (Strategy.polys ⟨fun bs gs => (Z bs gs).1, fun bs gs => (Z bs gs).2, Q⟩ t sw sz sq ch) :=
    ⟨ht, hZ1 _ _, hZ2 _ _, hQ1 _ _ _, hsalt⟩
  refine ⟨hx, fun hg inputs hi => ?_⟩
  rw [Verifier.Accepts, hi, ← h6.2]
  refine checks hf hx hvd hg (hQ2 _ _ _ hg.denominators _ _ hg.zeta) h6.1 ?_
  rw [h6.2]
  exact length_queries _ _ _ _ _

theorem fits {gates : List Gates.Gate} {vd : VerifierOnlyCircuitData} {ch : ProofChallenges Fp QE} {w : Fp}
    (hc : Plonk.Proper c gates) (hf : FriOk c) (hx : x.Ok c) (hvd : vd.constantSigmasCap = cap c (circuitOracle x.trace)) :
    Verifier.Fits c gates vd (proof c x ch w) where
  degree := hc.rows.2
  factor := hc.factor
  chunks := hc.chunks.le
  gatesOk := by simpa only [proof, Plonk.openings, List.length_map, hx.trace.constants, hx.trace.wires] using hc.gatesOk
  counts := hc.counts
  kIs := hc.kIs
  kIsLt := hc.kIsLt
  wires := by simpa only [proof, Plonk.openings, List.length_map, hx.trace.wires] using hc.routed
  sigmas := by simp only [proof, Plonk.openings, List.length_map, hx.trace.sigmas, le_refl]
  zs := by simp only [proof, Plonk.openings, List.length_map, hx.zs.2, le_refl]
  zsNext := by simp only [proof, Plonk.openings, List.length_map, hx.zs.2, le_refl]
  partialProducts := by simp only [proof, Plonk.openings, List.length_map, hx.pps.2, le_refl]
  quotients := by simp only [proof, Plonk.openings, List.length_map, hx.qs.2, le_refl]
  domain := hf.domain
  pow := hf.pow
  arities := hf.arities
  caps := ⟨by rw [hvd, length_cap], length_cap _, length_cap _, length_cap _⟩

end Verif.Prover
