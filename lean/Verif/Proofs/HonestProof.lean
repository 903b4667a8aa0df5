import Verif.Proofs.Verifier

/-!
# A small circuit and its honest proofs

Four rows, one wire holding the constant 11, one routed wire (so the permutation is the identity), one challenge, one
query round, no reduction, `b` bits of proof of work.  The polynomials are: selector 0, constant 11, sigma `X`, wire 11,
`Z = 1`, quotient 0.
-/

set_option autoImplicit false

namespace Verif.HonestProof

open Spec.Verifier Spec.Fri

/-- The circuit. -/
def data (b : ℕ) : CommonCircuitData where
  config := ⟨1, 1, 1, true, 0, 1, false, 1, ⟨2, 4, b, 1⟩⟩
  friParams := ⟨⟨2, 4, b, 1⟩, false, 2, []⟩
  gateIds := ["ConstantGate { num_consts: 1 }"]
  selectorsInfo := ⟨[0], [(0, 1)]⟩
  degreeBits := 2
  quotientDegreeFactor := 1
  numGateConstraints := 1
  numConstants := 2
  numPublicInputs := 0
  kIs := [1]
  numPartialProducts := 0

/-- Its gates. -/
def gates : List Gates.Gate := [.constant 1]

/-- The point of the LDE domain at index `v`. -/
def point (v : ℕ) : Fp := queryPoint 4 (lowBits 4 v)

/-- Leaf of constants and sigma at index `v`. -/
def leaf0 (v : ℕ) : List Fp := [0, 11, point v]

/-- Verifier data. -/
noncomputable def vd (digest : Fr) : VerifierOnlyCircuitData :=
  ⟨(List.range 16).map fun v => Spec.BN.leaf ((leaf0 v).map emb), digest⟩

/-- Cap of a constant polynomial. -/
noncomputable def constCap (a : Fp) : List Fr := List.replicate 16 (Spec.BN.leaf [emb a])

/-- Openings at `z`. -/
def openings (z : QE) : OpeningSet QE := ⟨[0, 11], [z], [11], [1], [1], [], [0]⟩

/-- The query round at index `v`. -/
def round (v : ℕ) : FriQueryRound Fp QE := ⟨[⟨leaf0 v, []⟩, ⟨[11], []⟩, ⟨[1], []⟩, ⟨[0], []⟩], []⟩

/-- The honest proof for challenges `z` (zeta), `α` (FRI) and query index `v`. -/
noncomputable def proof (z α : QE) (v : ℕ) (w : Fp) : Proof Fp QE :=
  ⟨constCap 11, constCap 1, constCap 0, openings z, ⟨[], [round v], [α ^ 3, 0, 0, 0], w⟩⟩

theorem fits {b : ℕ} (hb : b ≤ 64) (digest : Fr) (z α : QE) (v : ℕ) (w : Fp) :
    Fits (data b) gates (vd digest) (proof z α v w) where
  degree := by norm_num [data]
  factor := by norm_num [data]
  chunks := by norm_num [data]
  gatesOk := by
    intro gi hgi
    have : gi = (.constant 1, 0) := by simpa [List.zipIdx, gates] using hgi
    subst this
    exact ⟨by simp [data], by simp [data], by norm_num [data, p], by simp [data, proof, openings],
      by norm_num [Spec.Gates.Fits, data, proof, openings]⟩
  counts := by
    intro gi hgi x
    have : gi = (.constant 1, 0) := by simpa [List.zipIdx, gates] using hgi
    subst this
    simp [Spec.Gates.constraints, Spec.Gates.constant, data]
  kIs := by norm_num [data]
  kIsLt := by norm_num [data, p]
  wires := by simp [data, proof, openings]
  sigmas := by simp [data, proof, openings]
  zs := by simp [data, proof, openings]
  zsNext := by simp [data, proof, openings]
  partialProducts := by simp [data, proof, openings]
  quotients := by simp [data, proof, openings]
  domain := by norm_num [data]
  pow := hb
  arities := by simp [data]
  caps := by simp [vd, proof, constCap]

theorem identity (b : ℕ) (ch : ProofChallenges Fp QE) (h : Fin 4 → Fp) :
    Spec.Plonk.Identity (data b) gates ch (openings ch.plonkZeta) h := by
  intro i hi
  obtain rfl : i = 0 := by simpa [data] using hi
  have h1 : Spec.Plonk.numerator (data b) ch (openings ch.plonkZeta) 0 0 =
      Spec.Plonk.denominator ch (openings ch.plonkZeta) 0 0 := by
    simp [Spec.Plonk.numerator, Spec.Plonk.denominator, data, openings]
  have h2 : Spec.Plonk.terms (data b) gates ch (openings ch.plonkZeta) h = [0, 0, 0] := by
    have e1 : Spec.Plonk.partialProduct (data b) (openings ch.plonkZeta)
        (Spec.Plonk.numerator (data b) ch (openings ch.plonkZeta) 0)
        (Spec.Plonk.denominator ch (openings ch.plonkZeta) 0) 0 0 = 0 := by
      show 1 * (∏ j ∈ Finset.range 1, Spec.Plonk.numerator (data b) ch (openings ch.plonkZeta) 0 (0 * 1 + j)) -
        1 * (∏ j ∈ Finset.range 1, Spec.Plonk.denominator ch (openings ch.plonkZeta) 0 (0 * 1 + j)) = 0
      rw [Finset.prod_range_one, Finset.prod_range_one, zero_mul, add_zero, h1, sub_self]
    have e2 : Spec.Gates.combined gates (data b).selectorsInfo (Spec.Plonk.row (openings ch.plonkZeta) h) 0 = 0 := by
      simp [Spec.Gates.combined, gates, Spec.Gates.constraints, Spec.Gates.constant, Spec.Gates.Row.drop,
        Spec.Plonk.row, data, openings]
    have e3 : (openings ch.plonkZeta).plonkZs.getD 0 0 - 1 = 0 := by simp [openings]
    show [_ * ((openings ch.plonkZeta).plonkZs.getD 0 0 - 1), _, _] = _
    rw [e3, mul_zero]
    exact congrArg₂ (fun a b => [0, a, b]) e1 e2
  rw [Spec.Plonk.vanishing, h2]
  simp [Spec.Plonk.quotient, data, openings, Finset.sum_range_succ]

/-- The instance of the circuit. -/
def inst (z : QE) : InstanceInfo QE :=
  ⟨[⟨3, false⟩, ⟨1, true⟩, ⟨1, true⟩, ⟨1, true⟩],
    [⟨z, [⟨0, 0⟩, ⟨0, 1⟩, ⟨0, 2⟩, ⟨1, 0⟩, ⟨2, 0⟩, ⟨3, 0⟩]⟩, ⟨ofBase (omega 2) * z, [⟨2, 0⟩]⟩]⟩

theorem instance_eq (b : ℕ) (z : QE) : plonkInstance (data b) z = inst z := rfl

theorem ofBase_ne {z : QE} (hz : z.im ≠ 0) (x : Fp) : ofBase x ≠ z := by
  rintro rfl; exact hz rfl

theorem next_im {z : QE} (hz : z.im ≠ 0) : (ofBase (omega 2) * z).im ≠ 0 := by
  have h : (ofBase (omega 2) * z).im = omega 2 * z.im := by
    simp [ofBase]
  rw [h]
  exact mul_ne_zero (pow_ne_zero _ (by decide +kernel)) hz

theorem batches (z α : QE) (hz : z.im ≠ 0) (v : ℕ) :
    combine α (ofBase (point v)) (roundBatches (inst z) (round v).initial
      ([[0, 11] ++ [z] ++ [11] ++ [1] ++ [] ++ [0], [(1 : QE)]].map fun l => evalPoly l α)) = α ^ 3 := by
  have hne : ofBase (point v) - z ≠ 0 := sub_ne_zero.2 (ofBase_ne hz _)
  have e1 : evalPoly [0, ofBase 11, ofBase (point v), ofBase 11, ofBase 1, ofBase 0] α - evalPoly [0, 11, z, 11, 1, 0] α =
      α ^ 2 * (ofBase (point v) - z) := by
    have h1 : ofBase 1 = 1 := by decide +kernel
    have h0 : ofBase 0 = 0 := by decide +kernel
    simp [evalPoly, Finset.sum_range_succ, h1, h0]
    ring
  show α ^ 1 * ((evalPoly [0, ofBase 11, ofBase (point v), ofBase 11, ofBase 1, ofBase 0] α -
    evalPoly [0, 11, z, 11, 1, 0] α) / _) + (α ^ 0 * ((evalPoly [ofBase 1] α - evalPoly [1] α) / _) + 0) = _
  have h1 : ofBase 1 = 1 := by decide +kernel
  rw [e1, mul_div_assoc, h1, sub_self, zero_div, mul_zero, add_zero, add_zero]
  show α ^ 1 * (α ^ 2 * ((ofBase (point v) - z) / (ofBase (point v) - z))) = _
  rw [div_self hne]
  ring

theorem checks {b : ℕ} (digest : Fr) (ch : ProofChallenges Fp QE) (w : Fp) (h : Fin 4 → Fp)
    (hz : ch.plonkZeta.im ≠ 0) (hpow : ch.friChallenges.powResponse.val < 2 ^ (64 - b)) (v : Fp)
    (hv : ch.friChallenges.queryIndices = [v]) :
    Checks (data b) gates (vd digest) (proof ch.plonkZeta ch.friChallenges.alpha v.val w) h ch where
  zeta := fun e => hz (by rw [e]; rfl)
  identity := identity b ch h
  fri := by
    rw [instance_eq]
    refine ⟨⟨by simp [proof], ?_, ?_⟩, hpow, ?_, ?_, ?_⟩
    · intro r hr
      obtain rfl : r = round v.val := by simpa [proof] using hr
      refine ⟨⟨rfl, ?_⟩, ⟨rfl, by simp [round]⟩⟩
      intro i e o he ho
      rcases i with _ | _ | _ | _ | i
      all_goals simp [round, inst] at he ho
      all_goals obtain rfl := he
      all_goals obtain rfl := ho
      all_goals simp [leaf0, data]
    · simp [data, proof]
    · simp [data, proof, hv]
    · right; simp [data]
    · intro i v' r hv' hr
      rw [hv] at hv'
      rcases i with _ | i
      · obtain rfl : v = v' := by simpa using hv'
        obtain rfl : round v.val = r := by simpa [proof] using hr
        refine ⟨?_, ?_, ?_⟩
        · intro ec hec
          have hlow : bitsVal (lowBits 4 v.val) = v.val % 16 := Fri.bitsVal_lowBits 4 v.val
          have hm : v.val % 16 < 16 := Nat.mod_lt _ (by norm_num)
          have hc : ∀ a : Fp, (constCap a).getD (v.val % 16) 0 = Spec.BN.leaf [emb a] := fun a => by
            rw [constCap, List.getD_eq_getElem _ _ (by simpa using hm), List.getElem_replicate]
          simp only [round, proof, vd, List.zip_cons_cons, List.zip_nil_left, List.mem_cons, List.not_mem_nil,
            or_false] at hec
          show Spec.Merkle.root _ _ _ = ec.2.getD (bitsVal (lowBits 4 v.val)) 0
          rw [hlow]
          rcases hec with rfl | rfl | rfl | rfl
          · rw [List.zip_nil_right, Spec.Merkle.root, List.getD_eq_getElem _ _ (by simpa using hm), List.getElem_map,
              List.getElem_range]
            have : lowBits 4 (v.val % 16) = lowBits 4 v.val := by
              refine List.map_congr_left fun i hi => ?_
              rw [show 16 = 2 ^ 4 from rfl, Nat.testBit_mod_two_pow]
              simp [List.mem_range.1 hi]
            rw [leaf0, leaf0, point, point, this]
          all_goals rw [List.zip_nil_right, Spec.Merkle.root, hc]; rfl
        · intro b hb
          simp only [inst, List.mem_cons, List.not_mem_nil, or_false] at hb
          rcases hb with rfl | rfl
          · exact ofBase_ne hz _
          · exact ofBase_ne (next_im hz) _
        · show combine ch.friChallenges.alpha (ofBase (point v.val)) _ =
            evalPoly [ch.friChallenges.alpha ^ 3, 0, 0, 0] (ofBase (point v.val))
          refine (batches ch.plonkZeta ch.friChallenges.alpha hz v.val).trans ?_
          simp [evalPoly, Finset.sum_range_succ]
      · simp at hv'

/-! ## Accepted with a constant "permutation" -/

/-- Not a permutation at all: its outputs are 3. -/
def three : (Fin 12 → Fp) → Fin 12 → Fp := fun _ _ => 3

theorem absorb_three (s : Fin 12 → Fp) (l : List (List Fp)) (hl : l ≠ []) : Spec.absorb three s l = fun _ => 3 := by
  induction l generalizing s with
  | nil => exact absurd rfl hl
  | cons a l ih =>
    cases l with
    | nil => rfl
    | cons b l => exact ih _ (by simp)

theorem next_three (s : Spec.Sponge) : s.next three = 3 := by
  have h : s.soaked three = fun _ => 3 := by
    unfold Spec.Sponge.soaked
    split
    · rfl
    · next h =>
      refine absorb_three _ _ fun e => ?_
      have := congrArg List.length e
      simp only [Spec.chunks, List.length_map, List.length_range, List.length_nil] at this
      have h1 := List.length_pos_iff.2 h
      omega
  rw [Spec.Sponge.next, h]
  induction s.taken / 8 with
  | zero => rfl
  | succ n ih => rw [Function.iterate_succ_apply']; rfl

theorem outputs_three (s : Spec.Sponge) (t : List Spec.Ev) :
    s.outputs three t = List.replicate (Challenger.nsq t) 3 := by
  induction t generalizing s with
  | nil => rfl
  | cons e t ih =>
    cases e with
    | absorb x => exact ih _
    | squeeze =>
      rw [Spec.Sponge.outputs, next_three, ih]
      exact (List.replicate_succ ..).symm

theorem accepts_three (digest : Fr) (w : Fp) (inputs : List Fp) :
    Accepts three (data 62) gates (vd digest) (proof ⟨3, 3⟩ ⟨3, 3⟩ 3 w) inputs := by
  have hch : Spec.challenges three 1 1 digest (inputsHash three inputs) (proof ⟨3, 3⟩ ⟨3, 3⟩ 3 w) =
      ⟨[3], [3], [3], ⟨3, 3⟩, ⟨⟨3, 3⟩, [], 3, [3]⟩⟩ := by
    rw [Spec.challenges, outputs_three, Verifier.nsq_transcript]
    rfl
  show Checks _ _ _ _ _ (Spec.challenges three 1 1 digest (inputsHash three inputs) _)
  rw [hch]
  exact checks digest ⟨[3], [3], [3], ⟨3, 3⟩, ⟨⟨3, 3⟩, [], 3, [3]⟩⟩ w _ (by decide +kernel) (by decide +kernel) 3 rfl

end Verif.HonestProof
