import Verif.Spec.Traps
import Verif.Properties.Soundness
import Verif.Proofs.FriExtract
import Verif.Proofs.Prover

/-!
# Soundness of all checks of the verifier
-/

set_option autoImplicit false

namespace Verif.EndToEnd

open Polynomial Spec Spec.Verifier Spec.Prover
open Spec.Plonk (Trace Proper)
open Spec.Fri (Evaluated)

variable {c : CommonCircuitData} {gates : List Gates.Gate}

theorem supported {vd : VerifierOnlyCircuitData} (hc : Proper c gates) (hf : FriOk c)
    (hvd : vd.constantSigmasCap.length = 16) : Supported c gates vd :=
  ⟨hc.rows.2, hc.factor, hc.chunks.le, hc.routed, hc.gatesOk, hc.counts, hc.kIs, hc.kIsLt, hf.domain, hf.pow, hf.arities, hvd⟩

/-- Leaf widths of the four oracles. -/
def width (c : CommonCircuitData) (i : ℕ) : ℕ := Fri.leafWidth c.friParams (Fri.plonkInstance c 0).oracles i

/-- The polynomials extracted from three caps. -/
noncomputable def polys (c : CommonCircuitData) (F : ℕ → List Fr → ℕ → Fp[X]) (t : Trace) (w z q : List Fr) : Polys where
  trace := { t with wires := (List.range c.config.numWires).map (F (width c 1) w) }
  zs := (List.range c.config.numChallenges).map (F (width c 2) z)
  pps := (List.range (c.config.numChallenges * c.numPartialProducts)).map fun j => F (width c 2) z (c.config.numChallenges + j)
  qs := (List.range (c.config.numChallenges * c.quotientDegreeFactor)).map (F (width c 3) q)
  wireSalt := fun _ => []
  zSalt := fun _ => []
  qSalt := fun _ => []

theorem getD_range_map {n i : ℕ} (hi : i < n) (f : ℕ → Fp[X]) : ((List.range n).map f).getD i 0 = f i := by
  rw [List.getD_eq_getElem _ _ (by simpa using hi)]; simp

theorem zs_pps (F : ℕ → List Fr → ℕ → Fp[X]) (t : Trace) (w z q : List Fr) :
    (polys c F t w z q).zs ++ (polys c F t w z q).pps =
      (List.range (c.config.numChallenges * (1 + c.numPartialProducts))).map (F (width c 2) z) := by
  simp only [polys]
  rw [Nat.mul_add, Nat.mul_one, List.range_add, List.map_append, List.map_map]
  rfl

/-- Correct openings are those of the extracted polynomials. -/
theorem openings_eq {t : Trace} (ht : t.Sized c) {F : ℕ → List Fr → ℕ → Fp[X]} {w z q : List Fr} {ζ : QE} {o : OpeningSet QE}
    (hF : ∀ i < c.numConstants + c.config.numRoutedWires, F (width c 0) (cap c (circuitOracle t)) i =
      (t.constants ++ t.sigmas).getD i 0) (ho : Fri.OpeningsShape c o)
    (hcor : Fri.Correct c.friParams (Fri.plonkInstance c ζ)
      [o.constants ++ o.plonkSigmas ++ o.wires ++ o.plonkZs ++ o.partialProducts ++ o.quotientPolys, o.plonkZsNext]
      [cap c (circuitOracle t), w, z, q] F)
    (hl : ∀ bo ∈ (Fri.plonkInstance c ζ).batches.zip
      [o.constants ++ o.plonkSigmas ++ o.wires ++ o.plonkZs ++ o.partialProducts ++ o.quotientPolys, o.plonkZsNext],
      bo.2.length = bo.1.polynomials.length) :
    o = Plonk.openings c (polys c F t w z q).trace (polys c F t w z q).zs (polys c F t w z q).pps (polys c F t w z q).qs ζ := by
  set x := polys c F t w z q with hx
  have hw : x.trace.Sized c := ⟨ht.constants, ht.sigmas, by simp [hx, polys]⟩
  have hzs : x.zs.length = c.config.numChallenges := by simp [hx, polys]
  have hpps : x.pps.length = c.config.numChallenges * c.numPartialProducts := by simp [hx, polys]
  have hqs : x.qs.length = c.config.numChallenges * c.quotientDegreeFactor := by simp [hx, polys]
  have h := Fri.openings_of_correct (os := oracles x) hcor (fun b hb f hf => ?_) rfl hl
  · rw [Prover.openings_eq hw hzs hpps hqs ζ _ rfl] at h
    simp only [List.cons.injEq, and_true] at h
    obtain ⟨h1, h2⟩ := h
    have l1 : x.trace.constants.length = o.constants.length := by rw [hw.constants, ho.constants]
    have l2 : x.trace.sigmas.length = o.plonkSigmas.length := by rw [hw.sigmas, ho.plonkSigmas]
    have l3 : x.trace.wires.length = o.wires.length := by rw [hw.wires, ho.wires]
    have l4 : x.zs.length = o.plonkZs.length := by rw [hzs, ho.plonkZs]
    have l5 : x.pps.length = o.partialProducts.length := by rw [hpps, ho.partialProducts]
    obtain ⟨h1, e6⟩ := List.append_inj h1 (by simp [Plonk.openings, l1, l2, l3, l4, l5])
    obtain ⟨h1, e5⟩ := List.append_inj h1 (by simp [Plonk.openings, l1, l2, l3, l4])
    obtain ⟨h1, e4⟩ := List.append_inj h1 (by simp [Plonk.openings, l1, l2, l3])
    obtain ⟨h1, e3⟩ := List.append_inj h1 (by simp [Plonk.openings, l1, l2])
    obtain ⟨e1, e2⟩ := List.append_inj h1 (by simp [Plonk.openings, l1])
    cases o
    simp only at e1 e2 e3 e4 e5 e6 h2
    rw [e1, e2, e3, e4, e5, e6, h2]
  · obtain ⟨o', h1, h2⟩ := Fri.instance_batches c ζ b hb f hf
    obtain ⟨i, j⟩ := f
    simp only [Fri.plonkInstance, Fri.oracleSizes, List.zipWith_cons_cons, List.zipWith_nil_left] at h1 h2
    rcases i with _ | _ | _ | _ | i
    all_goals
      simp only [List.getElem?_cons_zero, List.getElem?_cons_succ, List.getElem?_nil, Option.some.injEq, Nat.zero_add,
        reduceCtorEq] at h1
    all_goals
      subst h1
      simp only at h2
    · exact hF j h2
    · exact (getD_range_map h2 _).symm
    · show F (width c 2) z j = (x.zs ++ x.pps).getD j 0
      rw [hx, zs_pps, getD_range_map h2]
    · exact (getD_range_map h2 _).symm

theorem zip_lengths {o : OpeningSet QE} (ho : Fri.OpeningsShape c o) (ζ : QE) :
    ∀ bo ∈ (Fri.plonkInstance c ζ).batches.zip
      [o.constants ++ o.plonkSigmas ++ o.wires ++ o.plonkZs ++ o.partialProducts ++ o.quotientPolys, o.plonkZsNext],
      bo.2.length = bo.1.polynomials.length := by
  intro bo hbo
  simp only [Fri.plonkInstance, List.zip_cons_cons, List.zip_nil_left, List.mem_cons, List.not_mem_nil, or_false] at hbo
  rcases hbo with rfl | rfl
  · simp only [Fri.oracleSizes, List.zipIdx_cons, List.zipIdx_nil, List.flatMap_cons, List.flatMap_nil, List.length_append,
      List.length_map, List.length_range, List.length_nil, ho.constants, ho.plonkSigmas, ho.wires, ho.plonkZs,
      ho.partialProducts, ho.quotientPolys]
    ring
  · simp only [List.length_map, List.length_range, ho.plonkZsNext]

theorem numOpenings_eq {o : OpeningSet QE} (ho : Fri.OpeningsShape c o) : Fri.numOpenings
    [o.constants ++ o.plonkSigmas ++ o.wires ++ o.plonkZs ++ o.partialProducts ++ o.quotientPolys, o.plonkZsNext] =
      numOpenings c := by
  simp only [Fri.numOpenings, numOpenings, Fri.oracleSizes, List.map_cons, List.map_nil, List.sum_cons, List.sum_nil,
    List.length_append, ho.constants, ho.plonkSigmas, ho.wires, ho.plonkZs, ho.partialProducts, ho.quotientPolys,
    ho.plonkZsNext]
  ring

variable {t : Trace} {k : ℕ → ℕ} {s : Equiv.Perm (Fin (Plonk.n c) × Fin c.config.numRoutedWires)}

/-- The PLONK rounds, for a trace that may or may not be satisfied. -/
theorem plonk (hc : Proper c gates) (hl : t.AtMost (Plonk.n c)) (hk : t.Selects c gates k) (hs : t.Routes c s)
    (h : Fin 4 → Fp) :
    ∃ B : Finset Fp, B.card ≤ Plonk.n c * c.config.numRoutedWires ∧
    ∃ G : Fp → Finset Fp, (∀ b, (G b).card ≤ Plonk.n c * c.config.numRoutedWires) ∧
    ∀ bs gs : List Fp, ∀ zs pps : List Fp[X], Plonk.AtMost (Plonk.n c) zs → Plonk.AtMost (Plonk.n c) pps →
    ∃ A : Finset Fp, A.card ≤ numTerms c - 1 ∧
    ∀ (as : List Fp) (qs : List Fp[X]), Plonk.AtMost (Plonk.n c) qs →
    ∃ S : Finset QE, S.card ≤ (c.quotientDegreeFactor + 1) * Plonk.n c ∧ ∀ z, z ≠ 1 → ∀ fri : FriChallenges Fp QE,
      Plonk.Identity c gates ⟨bs, gs, as, z, fri⟩ (Plonk.openings c t zs pps qs z) h →
      t.Satisfies c gates k s h ∨ z ∈ S ∨
      ∀ i < c.config.numChallenges, bs.getD i 0 ∈ B ∨ gs.getD i 0 ∈ G (bs.getD i 0) ∨ as.getD i 0 ∈ A := by
  by_cases hsat : t.Satisfies c gates k s h
  · exact ⟨∅, by simp, fun _ => ∅, by simp, fun _ _ _ _ _ _ => ⟨∅, by simp, fun _ _ _ => ⟨∅, by simp,
      fun _ _ _ _ => Or.inl hsat⟩⟩⟩
  · have hbad : ¬ (Plonk.GatesHold c gates t h ∧ t.Copies c s) := fun h' =>
      hsat ⟨(Plonk.gatesHold_iff hc hk).1 h'.1, h'.2⟩
    obtain ⟨B, hB, G, hG, H⟩ := Plonk.sound hc.rows.1 hc.rows.2 hc.factor hc.chunks hl hc.degrees hs hc.names hbad
    refine ⟨B, hB, G, hG, fun bs gs zs pps hz hp => ?_⟩
    obtain ⟨A, hA, H⟩ := H bs gs zs pps hz hp
    refine ⟨A, hA, fun as qs hq => ?_⟩
    obtain ⟨S, hS, H⟩ := H as qs hq
    refine ⟨S, hS, fun z hz1 fri hI => Or.inr ?_⟩
    by_cases hzS : z ∈ S
    · exact Or.inl hzS
    · exact Or.inr (H z hzS hz1 fri hI)

/-- The checks of the verifier hold only for caps of satisfying wires, or if the challenges hit exceptional values. -/
theorem sound (hc : Proper c gates) (hf : FriOk c) (ht : t.Fits c) (hk : t.Selects c gates k) (hs : t.Routes c s) {e : ℕ}
    (he : 2 * e + Plonk.n c < 2 ^ (c.friParams.degreeBits + c.friParams.config.rateBits)) {H : Evaluated} (hH : H.CollisionFree)
    (hO : H.Oracle (c.friParams.degreeBits + c.friParams.config.rateBits) (circuitOracle t)) :
    ∃ wires : List Fr → List Fp[X],
      (∀ w, (wires w).length = c.config.numWires ∧ Plonk.AtMost (Plonk.n c) (wires w)) ∧
      (∀ ws salt, ws.length = c.config.numWires → Plonk.AtMost (Plonk.n c) ws →
        (∀ u, (salt u).length = if c.friParams.isHiding then 4 else 0) →
        H.Oracle (c.friParams.degreeBits + c.friParams.config.rateBits) ⟨ws, salt⟩ → wires (cap c ⟨ws, salt⟩) = ws) ∧
    ∀ h : Fin 4 → Fp, ∃ T : Traps, T.Small c e ∧
    ∀ (vd : VerifierOnlyCircuitData) (x : Proof Fp QE) (inputs : List Fp) (ch : ProofChallenges Fp QE),
      vd.constantSigmasCap = cap c (circuitOracle t) → Shaped c x inputs →
      H.Proof (c.friParams.degreeBits + c.friParams.config.rateBits) ch.friChallenges.queryIndices x.openingProof →
      Checks c gates vd x h ch →
      Trace.Satisfies c gates { t with wires := wires x.wiresCap } k s h ∨ T.Hit c x ch := by
  classical
  have hn : Plonk.n c = 2 ^ c.friParams.degreeBits := by rw [hf.degree]; rfl
  have hk4 : 4 * c.friParams.reductionArityBits.length ≤ c.friParams.degreeBits := by
    have := hf.final
    rw [List.eq_replicate_of_mem hf.arities, List.sum_replicate, smul_eq_mul, mul_comm] at this
    exact this
  have hlow := Plonk.low_atMost_n ht.low
  obtain ⟨F, bad, hF, hFP, hbad, hfri⟩ := Fri.fri_sound c.friParams hf.domain.2.1 hk4 e (by rw [← hn]; exact he) H hH
  rw [← hn] at hF hbad hfri
  have hcirc : ∀ i < c.numConstants + c.config.numRoutedWires, F (width c 0) (cap c (circuitOracle t)) i =
      (t.constants ++ t.sigmas).getD i 0 := by
    intro i hi
    refine hFP _ _ _ _ (Fri.oracle_committed hf.domain.1 (fun f hf' => ?_) (fun v => ?_) hO e ?_)
    · rw [← hn]
      rcases List.mem_append.1 hf' with h | h
      · exact hlow.constants f h
      · exact hlow.sigmas f h
    · simp [Fri.Prover.Oracle.leaf, circuitOracle, width, Fri.leafWidth, Fri.plonkInstance, Fri.oracleSizes, ht.constants, ht.sigmas]
    · simpa [circuitOracle, ht.constants, ht.sigmas] using hi
  set wires : List Fr → List Fp[X] := fun w => (List.range c.config.numWires).map (F (width c 1) w) with hwires
  have hat : ∀ (m : ℕ) (f : ℕ → Fp[X]), (∀ i, (f i).natDegree ≤ Plonk.n c) → Plonk.AtMost (Plonk.n c) ((List.range m).map f) := by
    intro m f hf' g hg
    obtain ⟨i, -, rfl⟩ := List.mem_map.1 hg
    exact hf' i
  refine ⟨wires, fun w => ⟨by simp [hwires], hat _ _ fun i => hF _ _ _⟩, fun ws salt hws hwd hsalt hOw => ?_, fun h => ?_⟩
  · refine List.ext_getElem (by simp [hwires, hws]) fun i h1 h2 => ?_
    simp only [hwires, List.getElem_map, List.getElem_range]
    rw [← List.getD_eq_getElem _ 0 h2]
    refine hFP _ _ _ _ (Fri.oracle_committed hf.domain.1 (fun f hf' => ?_) (fun v => ?_) hOw e h2)
    · rw [← hn]; exact hwd f hf'
    · simp [Fri.Prover.Oracle.leaf, width, Fri.leafWidth, Fri.plonkInstance, Fri.oracleSizes, hws, hsalt]
  have key := fun w => plonk (t := { t with wires := wires w }) hc ⟨hlow.constants, hlow.sigmas, hat _ _ fun i => hF _ _ _⟩
    (show Trace.Selects c gates _ k from hk) (show Trace.Routes c _ s from hs) h
  choose B hB G hG key using key
  have key2 := fun w bs gs z => key w bs gs (polys c F t w z []).zs (polys c F t w z []).pps (hat _ _ fun i => hF _ _ _)
    (hat _ _ fun i => hF _ _ _)
  choose A hA key2 using key2
  have key3 := fun w bs gs z as q => key2 w bs gs z as (polys c F t w z q).qs (hat _ _ fun i => hF _ _ _)
  choose S hS key3 using key3
  choose M hM hfri using hfri
  choose Q hQ hfri using hfri
  let inst : QE → InstanceInfo QE := Fri.plonkInstance c
  let ops : OpeningSet QE → List (List QE) := fun o =>
    [o.constants ++ o.plonkSigmas ++ o.wires ++ o.plonkZs ++ o.partialProducts ++ o.quotientPolys, o.plonkZsNext]
  let caps : List Fr → List Fr → List Fr → List (List Fr) := fun w z q => [cap c (circuitOracle t), w, z, q]
  refine ⟨⟨B, G, A, S, fun w z q ζ o => if Fri.OpeningsShape c o then M (inst ζ) (ops o) (caps w z q) else ∅, bad,
    fun w z q ζ o => Q (inst ζ) (ops o) (caps w z q)⟩,
    ⟨hB, hG, hA, hS, fun w z q ζ o => ?_, hbad, fun w z q ζ o => hQ (inst ζ) (ops o) (caps w z q)⟩, ?_⟩
  · dsimp only
    split_ifs with ho
    · have := hM (inst ζ) (ops o) (caps w z q)
      rwa [numOpenings_eq ho] at this
    · simp
  intro vd x inputs ch hvd hx hp hchk
  have hfits := fits_of_shaped (supported (vd := vd) hc hf (by rw [hvd, Prover.length_cap])) hx
  have hsup := Verifier.supported_of_fits hfits ch.plonkZeta
  have hz := zip_lengths hx.openings ch.plonkZeta
  have hacc := hchk.fri
  rw [hvd] at hsup hacc
  have hfri := hfri (inst ch.plonkZeta) (ops x.openings)
    (caps x.wiresCap x.plonkZsPartialProductsCap x.quotientPolysCap) _ _ _ _ ch.friChallenges x.openingProof rfl rfl rfl rfl
    hsup hz hp hacc
  rcases hfri with hcor | hα | hβ | hq
  · have ho := openings_eq ht.toSized hcirc hx.openings hcor hz
    have hI := hchk.identity
    rw [ho] at hI
    rcases key3 x.wiresCap ch.plonkBetas ch.plonkGammas x.plonkZsPartialProductsCap ch.plonkAlphas x.quotientPolysCap
      ch.plonkZeta hchk.zeta ch.friChallenges hI with h1 | h1 | h1
    · exact Or.inl h1
    · exact Or.inr (Or.inr (Or.inl h1))
    · exact Or.inr (Or.inl h1)
  · refine Or.inr (Or.inr (Or.inr (Or.inl ?_)))
    dsimp only
    rw [if_pos hx.openings]
    exact hα
  · exact Or.inr (Or.inr (Or.inr (Or.inr (Or.inl hβ))))
  · exact Or.inr (Or.inr (Or.inr (Or.inr (Or.inr hq))))

end Verif.EndToEnd
