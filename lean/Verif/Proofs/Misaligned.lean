import Verif.Proofs.HonestProof

/-!
# A proof of a false statement with opening lists of wrong lengths

The circuit of `HonestProof` with the constant 1 instead of 11: the wire must be 1 in all rows.  The prover commits to
the wire `X` instead, with `Z = 1` and quotient 1, and lists the value of sigma among the constants, that of the wire among
the sigmas, that of `Z` as the wire, that of the quotient as `Z` and zero as the quotient.
-/

set_option autoImplicit false

namespace Verif.Misaligned

open Spec.Verifier Spec.Fri HonestProof

/-- Leaf of constants and sigma at index `v`. -/
def leaf1 (v : ℕ) : List Fp := [0, 1, point v]

/-- Verifier data. -/
noncomputable def vd1 (digest : Fr) : VerifierOnlyCircuitData :=
  ⟨(List.range 16).map fun v => Spec.BN.leaf ((leaf1 v).map emb), digest⟩

/-- Cap of the polynomial `X`. -/
noncomputable def xCap : List Fr := (List.range 16).map fun v => Spec.BN.leaf [emb (point v)]

/-- Misaligned openings at `z`: two constants are expected, three are given. -/
def badOpenings (z : QE) : OpeningSet QE := ⟨[0, 1, z], [z], [1], [1], [1], [], [0]⟩

/-- The query round at index `v`. -/
def badRound (v : ℕ) : FriQueryRound Fp QE := ⟨[⟨leaf1 v, []⟩, ⟨[point v], []⟩, ⟨[1], []⟩, ⟨[1], []⟩], []⟩

/-- The proof for challenges `z` (zeta), `α` (FRI) and query index `v`. -/
noncomputable def badProof (z α : QE) (v : ℕ) (w : Fp) : Proof Fp QE :=
  ⟨xCap, constCap 1, constCap 1, badOpenings z, ⟨[], [badRound v], [α ^ 3 + α ^ 4, 0, 0, 0], w⟩⟩

theorem fits {b : ℕ} (hb : b ≤ 64) (digest : Fr) (z α : QE) (v : ℕ) (w : Fp) :
    Fits (data b) gates (vd1 digest) (badProof z α v w) where
  degree := by norm_num [data]
  factor := by norm_num [data]
  chunks := by norm_num [data]
  gatesOk := by
    intro gi hgi
    have : gi = (.constant 1, 0) := by simpa [List.zipIdx, gates] using hgi
    subst this
    exact ⟨by simp [data], by simp [data], by norm_num [data, p], by simp [data, badProof, badOpenings],
      by norm_num [Spec.Gates.Fits, data, badProof, badOpenings]⟩
  counts := by
    intro gi hgi x
    have : gi = (.constant 1, 0) := by simpa [List.zipIdx, gates] using hgi
    subst this
    simp [Spec.Gates.constraints, Spec.Gates.constant, data]
  kIs := by norm_num [data]
  kIsLt := by norm_num [data, p]
  wires := by simp [data, badProof, badOpenings]
  sigmas := by simp [data, badProof, badOpenings]
  zs := by simp [data, badProof, badOpenings]
  zsNext := by simp [data, badProof, badOpenings]
  partialProducts := by simp [data, badProof, badOpenings]
  quotients := by simp [data, badProof, badOpenings]
  domain := by norm_num [data]
  pow := hb
  arities := by simp [data]
  caps := by simp [vd1, badProof, constCap, xCap]

theorem identity (b : ℕ) (ch : ProofChallenges Fp QE) (h : Fin 4 → Fp) :
    Spec.Plonk.Identity (data b) gates ch (badOpenings ch.plonkZeta) h := by
  intro i hi
  obtain rfl : i = 0 := by simpa [data] using hi
  have h1 : Spec.Plonk.numerator (data b) ch (badOpenings ch.plonkZeta) 0 0 =
      Spec.Plonk.denominator ch (badOpenings ch.plonkZeta) 0 0 := by
    simp [Spec.Plonk.numerator, Spec.Plonk.denominator, data, badOpenings]
  have h2 : Spec.Plonk.terms (data b) gates ch (badOpenings ch.plonkZeta) h = [0, 0, 0] := by
    have e1 : Spec.Plonk.partialProduct (data b) (badOpenings ch.plonkZeta)
        (Spec.Plonk.numerator (data b) ch (badOpenings ch.plonkZeta) 0)
        (Spec.Plonk.denominator ch (badOpenings ch.plonkZeta) 0) 0 0 = 0 := by
      show 1 * (∏ j ∈ Finset.range 1, Spec.Plonk.numerator (data b) ch (badOpenings ch.plonkZeta) 0 (0 * 1 + j)) -
        1 * (∏ j ∈ Finset.range 1, Spec.Plonk.denominator ch (badOpenings ch.plonkZeta) 0 (0 * 1 + j)) = 0
      rw [Finset.prod_range_one, Finset.prod_range_one, zero_mul, add_zero, h1, sub_self]
    have e2 : Spec.Gates.combined gates (data b).selectorsInfo (Spec.Plonk.row (badOpenings ch.plonkZeta) h) 0 = 0 := by
      simp [Spec.Gates.combined, gates, Spec.Gates.constraints, Spec.Gates.constant, Spec.Gates.Row.drop,
        Spec.Plonk.row, data, badOpenings]
    have e3 : (badOpenings ch.plonkZeta).plonkZs.getD 0 0 - 1 = 0 := by simp [badOpenings]
    show [_ * ((badOpenings ch.plonkZeta).plonkZs.getD 0 0 - 1), _, _] = _
    rw [e3, mul_zero]
    exact congrArg₂ (fun a b => [0, a, b]) e1 e2
  rw [Spec.Plonk.vanishing, h2]
  simp [Spec.Plonk.quotient, data, badOpenings, Finset.sum_range_succ]

theorem batches (z α : QE) (hz : z.im ≠ 0) (v : ℕ) :
    combine α (ofBase (point v)) (roundBatches (inst z) (badRound v).initial
      ([[0, 1, z] ++ [z] ++ [1] ++ [1] ++ [] ++ [0], [(1 : QE)]].map fun l => evalPoly l α)) = α ^ 3 + α ^ 4 := by
  have hne : ofBase (point v) - z ≠ 0 := sub_ne_zero.2 (ofBase_ne hz _)
  have e1 : evalPoly [0, ofBase 1, ofBase (point v), ofBase (point v), ofBase 1, ofBase 1] α -
      evalPoly [0, 1, z, z, 1, 1, 0] α = (α ^ 2 + α ^ 3) * (ofBase (point v) - z) := by
    have h1 : ofBase 1 = 1 := by decide +kernel
    simp [evalPoly, Finset.sum_range_succ, h1]
    ring
  show α ^ 1 * ((evalPoly [0, ofBase 1, ofBase (point v), ofBase (point v), ofBase 1, ofBase 1] α -
    evalPoly [0, 1, z, z, 1, 1, 0] α) / _) + (α ^ 0 * ((evalPoly [ofBase 1] α - evalPoly [1] α) / _) + 0) = _
  have h1 : ofBase 1 = 1 := by decide +kernel
  rw [e1, mul_div_assoc, h1, sub_self, zero_div, mul_zero, add_zero, add_zero]
  show α ^ 1 * ((α ^ 2 + α ^ 3) * ((ofBase (point v) - z) / (ofBase (point v) - z))) = _
  rw [div_self hne]
  ring

theorem checks {b : ℕ} (digest : Fr) (ch : ProofChallenges Fp QE) (w : Fp) (h : Fin 4 → Fp)
    (hz : ch.plonkZeta.im ≠ 0) (hpow : ch.friChallenges.powResponse.val < 2 ^ (64 - b)) (v : Fp)
    (hv : ch.friChallenges.queryIndices = [v]) :
    Checks (data b) gates (vd1 digest) (badProof ch.plonkZeta ch.friChallenges.alpha v.val w) h ch where
  zeta := fun e => hz (by rw [e]; rfl)
  identity := identity b ch h
  fri := by
    rw [instance_eq]
    refine ⟨⟨by simp [badProof], ?_, ?_⟩, hpow, ?_, ?_, ?_⟩
    · intro r hr
      obtain rfl : r = badRound v.val := by simpa [badProof] using hr
      refine ⟨⟨rfl, ?_⟩, ⟨rfl, by simp [badRound]⟩⟩
      intro i e o he ho
      rcases i with _ | _ | _ | _ | i
      all_goals simp [badRound, inst] at he ho
      all_goals obtain rfl := he
      all_goals obtain rfl := ho
      all_goals simp [leaf1, data]
    · simp [data, badProof]
    · simp [data, badProof, hv]
    · right; simp [data]
    · intro i v' r hv' hr
      rw [hv] at hv'
      rcases i with _ | i
      · obtain rfl : v = v' := by simpa using hv'
        obtain rfl : badRound v.val = r := by simpa [badProof] using hr
        refine ⟨?_, ?_, ?_⟩
        · intro ec hec
          have hlow : bitsVal (lowBits 4 v.val) = v.val % 16 := Fri.bitsVal_lowBits 4 v.val
          have hm : v.val % 16 < 16 := Nat.mod_lt _ (by norm_num)
          have hc : ∀ a : Fp, (constCap a).getD (v.val % 16) 0 = Spec.BN.leaf [emb a] := fun a => by
            rw [constCap, List.getD_eq_getElem _ _ (by simpa using hm), List.getElem_replicate]
          have hbits : lowBits 4 (v.val % 16) = lowBits 4 v.val := by
            refine List.map_congr_left fun i hi => ?_
            rw [show 16 = 2 ^ 4 from rfl, Nat.testBit_mod_two_pow]
            simp [List.mem_range.1 hi]
          simp only [badRound, badProof, vd1, List.zip_cons_cons, List.zip_nil_left, List.mem_cons, List.not_mem_nil,
            or_false] at hec
          show Spec.Merkle.root _ _ _ = ec.2.getD (bitsVal (lowBits 4 v.val)) 0
          rw [hlow]
          rcases hec with rfl | rfl | rfl | rfl
          · rw [List.zip_nil_right, Spec.Merkle.root, List.getD_eq_getElem _ _ (by simpa using hm), List.getElem_map,
              List.getElem_range]
            rw [leaf1, leaf1, point, point, hbits]
          · rw [List.zip_nil_right, Spec.Merkle.root, xCap, List.getD_eq_getElem _ _ (by simpa using hm),
              List.getElem_map, List.getElem_range]
            rw [point, point, hbits]
            rfl
          all_goals rw [List.zip_nil_right, Spec.Merkle.root, hc]; rfl
        · intro b hb
          simp only [inst, List.mem_cons, List.not_mem_nil, or_false] at hb
          rcases hb with rfl | rfl
          · exact ofBase_ne hz _
          · exact ofBase_ne (next_im hz) _
        · show combine ch.friChallenges.alpha (ofBase (point v.val)) _ =
            evalPoly [ch.friChallenges.alpha ^ 3 + ch.friChallenges.alpha ^ 4, 0, 0, 0] (ofBase (point v.val))
          refine (batches ch.plonkZeta ch.friChallenges.alpha hz v.val).trans ?_
          simp [evalPoly, Finset.sum_range_succ]
      · simp at hv'

/-- It is accepted over the constant "permutation". -/
theorem accepts_three (digest : Fr) (w : Fp) (inputs : List Fp) :
    Accepts three (data 62) gates (vd1 digest) (badProof ⟨3, 3⟩ ⟨3, 3⟩ 3 w) inputs := by
  have hch : Spec.challenges three 1 1 digest (inputsHash three inputs) (badProof ⟨3, 3⟩ ⟨3, 3⟩ 3 w) =
      ⟨[3], [3], [3], ⟨3, 3⟩, ⟨⟨3, 3⟩, [], 3, [3]⟩⟩ := by
    rw [Spec.challenges, outputs_three, Verifier.nsq_transcript]
    rfl
  show Checks _ _ _ _ _ (Spec.challenges three 1 1 digest (inputsHash three inputs) _)
  rw [hch]
  exact checks digest ⟨[3], [3], [3], ⟨3, 3⟩, ⟨⟨3, 3⟩, [], 3, [3]⟩⟩ w _ (by decide +kernel) (by decide +kernel) 3 rfl

end Verif.Misaligned
