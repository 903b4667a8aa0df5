import Verif.Proofs.RandomOracle
import Verif.Proofs.Prover

/-!
# The transcript as an oracle
-/

set_option autoImplicit false

namespace Verif.SpongeOracle

open Spec Spec.Verifier RandomOracle
open Challenger (outputs_append after_append)
open Prover (outputs_absorbs length_squeezes pairs challengesOf_eq)

variable {P : (Fin 12 → Fp) → Fin 12 → Fp} {c : CommonCircuitData}

theorem getD_squeezes (s : Sponge) {i m N : ℕ} (hi : i < m) (hm : m ≤ N) :
    (s.outputs P (squeezes N)).getD i 0 = (s.outputs P (squeezes m)).getD i 0 := by
  have : squeezes N = squeezes m ++ squeezes (N - m) := by
    rw [squeezes, squeezes, squeezes, List.replicate_append_replicate, Nat.add_sub_cancel' hm]
  rw [this, outputs_append, List.getD_append _ _ _ _ (by rw [length_squeezes]; exact hi)]

theorem getD_squeezes_add (s : Sponge) {i k m N : ℕ} (hi : i < m) (hm : k + m ≤ N) :
    (s.outputs P (squeezes N)).getD (k + i) 0 = ((s.after P (squeezes k)).outputs P (squeezes m)).getD i 0 := by
  have : squeezes N = squeezes k ++ squeezes (N - k) := by
    rw [squeezes, squeezes, squeezes, List.replicate_append_replicate, Nat.add_sub_cancel' (by omega)]
  rw [this, outputs_append, List.getD_append_right _ _ _ _ (by rw [length_squeezes]; omega), length_squeezes,
    Nat.add_sub_cancel_left, getD_squeezes _ hi (by omega)]

theorem ofFn_getD {γ : Type} {l : List γ} {m : ℕ} (h : l.length = m) (d : γ) : (List.ofFn fun i : Fin m => l.getD i d) = l := by
  subst h
  refine List.ext_getElem (by simp) fun i h1 h2 => ?_
  rw [List.getElem_ofFn, List.getD_eq_getElem _ _ h2]

theorem ofFn_squeezes (s : Sponge) {m N : ℕ} (hm : m ≤ N) :
    (List.ofFn fun i : Fin m => (s.outputs P (squeezes N)).getD i 0) = s.outputs P (squeezes m) := by
  refine Eq.trans (congrArg List.ofFn (funext fun i => getD_squeezes s i.2 hm)) (ofFn_getD (length_squeezes _ _) 0)

theorem ofFn_squeezes_add (s : Sponge) {k m N : ℕ} (hm : k + m ≤ N) :
    (List.ofFn fun i : Fin m => (s.outputs P (squeezes N)).getD (k + i) 0) = (s.after P (squeezes k)).outputs P (squeezes m) :=
  Eq.trans (congrArg List.ofFn (funext fun i => getD_squeezes_add s i.2 hm)) (ofFn_getD (length_squeezes _ _) 0)

theorem extAt_squeezes (s : Sponge) {N : ℕ} (hm : 2 ≤ N) :
    s.outputs P (squeezes 2) = [(extAt (s.outputs P (squeezes N)) 0).re, (extAt (s.outputs P (squeezes N)) 0).im] := by
  have h1 := getD_squeezes (P := P) s (show 0 < 2 by omega) hm
  have h2 := getD_squeezes (P := P) s (show 1 < 2 by omega) hm
  simp only [extAt, Nat.zero_add]
  rw [h1, h2]
  have h := length_squeezes (P := P) s 2
  match hl : s.outputs P (squeezes 2), h with
  | [a, b], _ => rfl

/-- Folding challenges, one after each cap. -/
theorem outputs_caps (s : Sponge) (caps : List (List Fr)) {N : ℕ} (hN : 2 ≤ N) :
    s.outputs P (caps.flatMap fun cap => absorbs (capElems cap) ++ squeezes 2) =
      pairs ((List.range caps.length).map fun j =>
        extAt ((s.after P ((caps.take j).flatMap (fun cap => absorbs (capElems cap) ++ squeezes 2) ++
          absorbs (capElems (caps.getD j [])))).outputs P (squeezes N)) 0) := by
  induction caps generalizing s with
  | nil => rfl
  | cons cap caps ih =>
    rw [List.flatMap_cons, outputs_append, outputs_append, outputs_absorbs, List.nil_append, ih, List.length_cons,
      List.range_succ_eq_map, List.map_cons, List.map_map, extAt_squeezes _ hN]
    simp only [pairs, List.flatMap_cons, List.take_zero, List.flatMap_nil, List.nil_append, List.getD_cons_zero,
      Function.comp_def, List.take_succ_cons, List.getD_cons_succ, after_append]

section NextQuery

variable (h : Fin 4 → Fp) (x : Proof Fp QE) {l : List (Answer c)}

theorem nextQuery_one (hl : l.length = 1) : nextQuery h x l = .alphas h x.wiresCap (answerChallenges l).plonkBetas
    (answerChallenges l).plonkGammas x.plonkZsPartialProductsCap := by
  unfold nextQuery; simp only [hl]

theorem nextQuery_two (hl : l.length = 2) : nextQuery h x l = .zeta h x.wiresCap (answerChallenges l).plonkBetas
    (answerChallenges l).plonkGammas x.plonkZsPartialProductsCap (answerChallenges l).plonkAlphas x.quotientPolysCap := by
  unfold nextQuery; simp only [hl]

theorem nextQuery_three (hl : l.length = 3) : nextQuery h x l = .mix h x.wiresCap (answerChallenges l).plonkBetas
    (answerChallenges l).plonkGammas x.plonkZsPartialProductsCap (answerChallenges l).plonkAlphas x.quotientPolysCap
    (answerChallenges l).plonkZeta x.openings := by
  unfold nextQuery; simp only [hl]

theorem nextQuery_fold {j : ℕ} (hl : l.length = 4 + j) (hj : j < c.friParams.reductionArityBits.length) :
    nextQuery h x l = .fold h x.wiresCap (answerChallenges l).plonkBetas
      (answerChallenges l).plonkGammas x.plonkZsPartialProductsCap (answerChallenges l).plonkAlphas x.quotientPolysCap
      (answerChallenges l).plonkZeta x.openings (answerChallenges l).friChallenges.alpha
      (x.openingProof.commitCaps.take (j + 1)) ((answerChallenges l).friChallenges.betas.take j) := by
  rw [Nat.add_comm] at hl
  unfold nextQuery; simp only [hl, if_pos hj]

theorem nextQuery_indices (hl : l.length = 4 + c.friParams.reductionArityBits.length) :
    nextQuery h x l = .indices h x.wiresCap (answerChallenges l).plonkBetas
      (answerChallenges l).plonkGammas x.plonkZsPartialProductsCap (answerChallenges l).plonkAlphas x.quotientPolysCap
      (answerChallenges l).plonkZeta x.openings (answerChallenges l).friChallenges.alpha
      x.openingProof.commitCaps (answerChallenges l).friChallenges.betas x.openingProof.finalPoly
      x.openingProof.powWitness := by
  rw [Nat.add_comm] at hl
  unfold nextQuery; simp only [hl, lt_irrefl, if_false]

end NextQuery

section Answers

variable {digest : Fr} {qr : Query} {s : Sponge} (hs : Sponge.init.after P (qr.events c.config.numChallenges digest) = s)
include hs

theorem answer_betas : List.ofFn (spongeOracle c P digest qr).1.1 = s.outputs P (squeezes c.config.numChallenges) := by
  subst hs; exact ofFn_squeezes _ (by omega)

theorem answer_gammas : List.ofFn (spongeOracle c P digest qr).1.2 =
    (s.after P (squeezes c.config.numChallenges)).outputs P (squeezes c.config.numChallenges) := by
  subst hs; exact ofFn_squeezes_add _ (by omega)

theorem answer_alphas : List.ofFn (spongeOracle c P digest qr).2.1 = s.outputs P (squeezes c.config.numChallenges) := by
  subst hs; exact ofFn_squeezes _ (by omega)

theorem answer_zeta : (spongeOracle c P digest qr).2.2.1 =
    extAt (s.outputs P (squeezes (2 * c.config.numChallenges + 2 + 1 + c.config.friConfig.numQueryRounds))) 0 := by
  subst hs; rfl

theorem answer_mix : (spongeOracle c P digest qr).2.2.2.1 =
    extAt (s.outputs P (squeezes (2 * c.config.numChallenges + 2 + 1 + c.config.friConfig.numQueryRounds))) 0 := by
  subst hs; rfl

theorem answer_fold : (spongeOracle c P digest qr).2.2.2.2.1 =
    extAt (s.outputs P (squeezes (2 * c.config.numChallenges + 2 + 1 + c.config.friConfig.numQueryRounds))) 0 := by
  subst hs; rfl

theorem answer_pow : (spongeOracle c P digest qr).2.2.2.2.2.1 =
    (s.outputs P (squeezes (2 * c.config.numChallenges + 2 + 1 + c.config.friConfig.numQueryRounds))).getD 0 0 := by
  subst hs; rfl

theorem answer_indices : List.ofFn (spongeOracle c P digest qr).2.2.2.2.2.2 =
    (s.after P (squeezes 1)).outputs P (squeezes c.config.friConfig.numQueryRounds) := by
  subst hs; exact ofFn_squeezes_add _ (by omega)

end Answers

/-- The challenges of the transcript are the answers of the sponge. -/
theorem challenges_eq (digest : Fr) (h : Fin 4 → Fp) (x : Proof Fp QE)
    (hx : x.openingProof.commitCaps.length = c.friParams.reductionArityBits.length) :
    oracleChallenges c (spongeOracle c P digest) h x =
      Spec.challenges P c.config.numChallenges c.config.friConfig.numQueryRounds digest h x := by
  set n := c.config.numChallenges with hn
  set q := c.config.friConfig.numQueryRounds with hq
  set k := c.friParams.reductionArityBits.length with hk
  set N := 2 * n + 2 + 1 + q with hN
  set o := x.openings with ho
  set E1 := absorbs (limbs digest ++ (List.ofFn h).map emb ++ capElems x.wiresCap) with hE1
  set s1 := Sponge.init.after P E1 with hs1
  set s2 := s1.after P (squeezes n) with hs2
  set s3 := s2.after P (squeezes n) with hs3
  set E2 := absorbs (capElems x.plonkZsPartialProductsCap) with hE2
  set s4 := s3.after P E2 with hs4
  set s5 := s4.after P (squeezes n) with hs5
  set E3 := absorbs (capElems x.quotientPolysCap) with hE3
  set s6 := s5.after P E3 with hs6
  set s7 := s6.after P (squeezes 2) with hs7
  set E4 := absorbs (coords (o.constants ++ o.plonkSigmas ++ o.wires ++ o.plonkZs ++ o.partialProducts ++ o.quotientPolys ++
    o.plonkZsNext)) with hE4
  set s8 := s7.after P E4 with hs8
  set s9 := s8.after P (squeezes 2) with hs9
  set E5 := x.openingProof.commitCaps.flatMap (fun cap => absorbs (capElems cap) ++ squeezes 2) with hE5
  set s10 := s9.after P E5 with hs10
  set E6 := absorbs (coords x.openingProof.finalPoly ++ [emb x.openingProof.powWitness]) with hE6
  set s11 := s10.after P E6 with hs11
  set betas := (List.range x.openingProof.commitCaps.length).map (fun j =>
    extAt ((s9.after P ((x.openingProof.commitCaps.take j).flatMap (fun cap => absorbs (capElems cap) ++ squeezes 2) ++
      absorbs (capElems (x.openingProof.commitCaps.getD j [])))).outputs P (squeezes N)) 0) with hbetas
  have hT : Sponge.init.outputs P (transcript n q digest h x) =
      s1.outputs P (squeezes n) ++ (s2.outputs P (squeezes n) ++ (s4.outputs P (squeezes n) ++
        ([(extAt (s6.outputs P (squeezes N)) 0).re, (extAt (s6.outputs P (squeezes N)) 0).im] ++
        ([(extAt (s8.outputs P (squeezes N)) 0).re, (extAt (s8.outputs P (squeezes N)) 0).im] ++ (pairs betas ++
        ([(s11.outputs P (squeezes N)).getD 0 0] ++ (s11.after P (squeezes 1)).outputs P (squeezes q))))))) := by
    have h1 : s11.outputs P (squeezes 1) = [(s11.outputs P (squeezes N)).getD 0 0] := by
      rw [getD_squeezes s11 (show 0 < 1 by omega) (show 1 ≤ N by omega)]
      obtain ⟨a, ha⟩ := List.length_eq_one_iff.1 (length_squeezes (P := P) s11 1)
      rw [ha]; rfl
    rw [← extAt_squeezes s6 (by omega), ← extAt_squeezes s8 (by omega), ← h1, hbetas, ← outputs_caps s9 _ (by omega)]
    show Sponge.init.outputs P (E1 ++ squeezes n ++ squeezes n ++ E2 ++ squeezes n ++ E3 ++ squeezes 2 ++ E4 ++ squeezes 2 ++
      E5 ++ E6 ++ squeezes 1 ++ squeezes q) = _
    simp only [List.append_assoc, outputs_append]
    rw [hE1, outputs_absorbs, ← hE1, ← hs1, ← hs2, ← hs3, hE2, outputs_absorbs, ← hE2, ← hs4, ← hs5,
      hE3, outputs_absorbs, ← hE3, ← hs6, ← hs7, hE4, outputs_absorbs, ← hE4, ← hs8, ← hs9, ← hE5, ← hs10, hE6,
      outputs_absorbs, ← hE6, ← hs11]
    simp only [List.nil_append]
  have hC : Spec.challenges P n q digest h x = ⟨s1.outputs P (squeezes n), s2.outputs P (squeezes n),
      s4.outputs P (squeezes n), extAt (s6.outputs P (squeezes N)) 0, ⟨extAt (s8.outputs P (squeezes N)) 0, betas,
        (s11.outputs P (squeezes N)).getD 0 0, (s11.after P (squeezes 1)).outputs P (squeezes q)⟩⟩ := by
    have hb : x.openingProof.commitCaps.length = betas.length := by rw [hbetas, List.length_map, List.length_range]
    rw [Spec.challenges, hT]
    exact (congrArg (fun m => challengesOf n m _) hb).trans (challengesOf_eq _ _ _ _ _ betas _ _ n (length_squeezes _ _)
      (length_squeezes _ _) (length_squeezes _ _))
  rw [hC]
  -- the answers
  set nx := nextQuery (c := c) h x with hnx
  set orc := spongeOracle c P digest with horc
  have hlen : ∀ j, (run orc nx j).length = j := run_length _ _
  have hval : ∀ j, j < numRounds c → (run orc nx (numRounds c)).getD j 0 = orc (nx (run orc nx j)) := by
    intro j hj; rw [run_getD _ _ hj]
  have hR : numRounds c = 5 + k := rfl
  have e0 : Sponge.init.after P ((nx (run orc nx 0)).events n digest) = s1 := rfl
  have e1 : Sponge.init.after P ((nx (run orc nx 1)).events n digest) = s4 := by
    rw [hnx, nextQuery_one h x (hlen 1), Query.events, after_append, after_append, after_append]
  have e2 : Sponge.init.after P ((nx (run orc nx 2)).events n digest) = s6 := by
    rw [hnx, nextQuery_two h x (hlen 2), Query.events, after_append, after_append, after_append, after_append, after_append]
  have hop : Sponge.init.after P (openingEvents n digest h x.wiresCap x.plonkZsPartialProductsCap x.quotientPolysCap x.openings) =
      s8 := by
    rw [openingEvents, after_append, after_append, after_append, after_append, after_append, after_append, after_append]
  have e3 : Sponge.init.after P ((nx (run orc nx 3)).events n digest) = s8 := by
    rw [hnx, nextQuery_three h x (hlen 3), Query.events, hop]
  have e4 : ∀ j < k, Sponge.init.after P ((nx (run orc nx (4 + j))).events n digest) =
      s9.after P ((x.openingProof.commitCaps.take j).flatMap (fun cap => absorbs (capElems cap) ++ squeezes 2) ++
        absorbs (capElems (x.openingProof.commitCaps.getD j []))) := by
    intro j hj
    have hjl : j < x.openingProof.commitCaps.length := hx ▸ hj
    have h1 : (x.openingProof.commitCaps.take (j + 1)).dropLast = x.openingProof.commitCaps.take j := by
      rw [List.take_succ_eq_append_getElem hjl, List.dropLast_concat]
    have h2 : (x.openingProof.commitCaps.take (j + 1)).getLastD [] = x.openingProof.commitCaps.getD j [] := by
      rw [List.take_succ_eq_append_getElem hjl, List.getLastD_concat, List.getD_eq_getElem _ _ hjl]
    rw [hnx, nextQuery_fold h x (hlen _) hj, Query.events, h1, h2, after_append, after_append, after_append, after_append, hop]
  have e5 : Sponge.init.after P ((nx (run orc nx (4 + k))).events n digest) = s11 := by
    rw [hnx, nextQuery_indices h x (hlen _), Query.events, after_append, after_append, after_append, hop]
  have hb : (List.range k).map (fun j => ((run orc nx (numRounds c)).getD (4 + j) 0).2.2.2.2.1) = betas := by
    rw [hbetas, hx]
    refine List.map_congr_left fun j hj => ?_
    have hj := List.mem_range.1 hj
    rw [hval (4 + j) (by omega)]
    exact answer_fold (e4 j hj)
  unfold oracleChallenges answerChallenges
  rw [← hnx, hb, hval 0 (by omega), hval 1 (by omega), hval 2 (by omega), hval 3 (by omega), hval (4 + k) (by omega), horc,
    answer_betas e0, answer_gammas e0, answer_alphas e1, answer_zeta e2, answer_mix e3, answer_pow e5, answer_indices e5]

end Verif.SpongeOracle
