import Verif.Proofs.FriComplete
import Verif.Properties.Fri

/-!
# Property C71: completeness of FRI

The honest prover is the one of `Spec/FriProver.lean`: it commits to polynomials over the base field, opens them at the
points of the instance, folds their batched quotient and answers the queries.  `Supported` and `Commits` only fix sizes.
-/

set_option autoImplicit false

namespace Verif

open Circ Fri Spec.Fri Polynomial

/-- **C71** for all polynomials of degree at most `2^degreeBits`, all challenges and all query indices, the circuit accepts the
honest FRI proof of their true values, provided that no folding challenge lies in the base field and no opening point
on the evaluation domain (the code divides by zero there, `C49_beta_in_coset`, `C51_point_hit`). -/
theorem C71_fri_complete (q : FriParams) (inst : InstanceInfo QE) (os : List Prover.Oracle) (ch : FriChallenges Fp QE)
    (powWitness : Fp) (hp : Supported q inst (Prover.openings os inst) (Prover.caps q os)) (hc : Prover.Commits q inst os)
    (hsum : q.reductionArityBits.sum ≤ q.degreeBits)
    (hfit : q.reductionArityBits.sum + 4 ≤ q.degreeBits + q.config.rateBits)
    (hbetas : ch.betas.length = q.reductionArityBits.length)
    (hβ : ∀ β ∈ ch.betas, ∀ z : Fp, β ≠ ofBase z)
    (hz : ∀ b ∈ inst.batches, ∀ u < 2 ^ (q.degreeBits + q.config.rateBits),
      ofBase (7 * omega (q.degreeBits + q.config.rateBits) ^ u) ≠ b.point)
    (hpow : ch.powResponse.val < 2 ^ (64 - q.config.proofOfWorkBits))
    (hq : ch.queryIndices.length = q.config.numQueryRounds) :
    Computes (verifyFriProof q inst.enc ((Prover.openings os inst).map fun l => l.map embQ) ch.enc (Prover.caps q os)
      (Prover.proof q inst os ch powWitness).enc) () := by
  have h := C55_verifyFriProof q inst _ _ hp ch (Prover.proof q inst os ch powWitness)
  have ha := accepts_honest q inst os ch powWitness hp hc hsum hfit hbetas hβ hz hpow hq
  exact ⟨fun _ => ⟨fun _ => rfl, fun _ => h.1.2 ha⟩, h.2.2 ha⟩

/-- **C71** the sizes hold by construction: openings and caps of the honest prover are as the circuit expects. -/
theorem C71_sizes (q : FriParams) (inst : InstanceInfo QE) (os : List Prover.Oracle) (hc : Prover.Commits q inst os)
    (domain : 4 ≤ q.degreeBits + q.config.rateBits ∧ q.degreeBits + q.config.rateBits ≤ 32 ∧
      q.config.rateBits ≤ 15 ∧ q.config.capHeight = 4)
    (pow : q.config.proofOfWorkBits ≤ 64) (arities : ∀ a ∈ q.reductionArityBits, a = 4)
    (batches : ∀ b ∈ inst.batches, ∀ f ∈ b.polynomials,
      ∃ o, inst.oracles[f.oracleIndex]? = some o ∧ f.polynomialInfo < o.numPolys) :
    Supported q inst (Prover.openings os inst) (Prover.caps q os) :=
  ⟨domain, pow, arities, ⟨by rw [Prover.caps, List.length_map, hc.count], fun cap h => by
    obtain ⟨o, -, rfl⟩ := List.mem_map.1 h
    rw [Prover.Oracle.cap, Spec.Merkle.treeCap_length]; norm_num⟩, by rw [Prover.openings, List.length_map], batches⟩

/-- A circuit of degree `2^9` and blow-up 8, two reductions, three queries, two oracles, one of them salted, two
points: every hypothesis of `C71_fri_complete` holds, for all polynomials `f` of degree at most `2^9`. -/
example (f : Fp[X]) (hf : f.natDegree ≤ 512) : ∃ (q : FriParams) (inst : InstanceInfo QE) (os : List Prover.Oracle) (ch : FriChallenges Fp QE),
    q.reductionArityBits = [4, 4] ∧ inst.batches.length = 2 ∧
    Prover.poly os ⟨1, 0⟩ = f ∧ ch.queryIndices = [3, 5000000000, 77] ∧
    Computes (verifyFriProof q inst.enc ((Prover.openings os inst).map fun l => l.map embQ) ch.enc (Prover.caps q os)
      (Prover.proof q inst os ch 0).enc) () := by
  let q : FriParams := ⟨⟨3, 4, 16, 3⟩, true, 9, [4, 4]⟩
  let i0 : QE := ⟨0, 1⟩
  let inst : InstanceInfo QE := ⟨[⟨2, false⟩, ⟨1, true⟩], [⟨i0, [⟨0, 0⟩, ⟨0, 1⟩, ⟨1, 0⟩]⟩, ⟨⟨0, 2⟩, [⟨1, 0⟩]⟩]⟩
  let os : List Prover.Oracle := [⟨[X, C 3], fun _ => []⟩, ⟨[f], fun u => [u, 1, 2, 3]⟩]
  let ch : FriChallenges Fp QE := ⟨i0 + 1, [i0, ⟨2, 1⟩], 12345, [3, 5000000000, 77]⟩
  have hb : ∀ a b : Fp, a ≠ 0 → ∀ z : Fp, (⟨b, a⟩ : QE) ≠ ofBase z := fun a b ha z h => ha (congrArg QuadraticAlgebra.im h)
  have h1 : ∀ z : Fp, i0 ≠ ofBase z := hb 1 0 one_ne_zero
  have h2 : ∀ z : Fp, (⟨2, 1⟩ : QE) ≠ ofBase z := hb 1 2 one_ne_zero
  have h3 : ∀ z : Fp, (⟨0, 2⟩ : QE) ≠ ofBase z := hb 2 0 (by decide +kernel)
  have hc : Prover.Commits q inst os := by
    refine ⟨rfl, ?_, ?_⟩
    · intro i o info ho hi
      rcases i with _ | _ | i
      · simp only [os, inst, List.getElem?_cons_zero, Option.some.injEq] at ho hi
        subst ho hi; simp
      · simp only [os, inst, List.getElem?_cons_zero, List.getElem?_cons_succ, Option.some.injEq] at ho hi
        subst ho hi; simp [q]
      · simp [os] at ho
    · intro o ho g hg
      show _ ≤ 512
      simp only [os, List.mem_cons, List.not_mem_nil, or_false] at ho
      rcases ho with rfl | rfl
      · simp only [List.mem_cons, List.not_mem_nil, or_false] at hg
        rcases hg with rfl | rfl
        · rw [natDegree_X]; norm_num
        · rw [natDegree_C]; norm_num
      · simp only [List.mem_cons, List.not_mem_nil, or_false] at hg
        subst hg
        exact hf
  refine ⟨q, inst, os, ch, rfl, rfl, rfl, rfl, ?_⟩
  apply C71_fri_complete q inst os ch 0 (C71_sizes q inst os hc (by simp [q]) (by simp [q]) (by simp [q]) ?_) hc
    (by simp [q]) (by simp [q]) rfl
  · intro β hβ
    simp only [ch, List.mem_cons, List.not_mem_nil, or_false] at hβ
    rcases hβ with rfl | rfl
    · exact h1
    · exact h2
  · intro b hb' u _
    simp only [inst, List.mem_cons, List.not_mem_nil, or_false] at hb'
    rcases hb' with rfl | rfl
    · exact (h1 _).symm
    · exact (h3 _).symm
  · show (12345 : Fp).val < 2 ^ (64 - 16)
    decide
  · rfl
  · intro b hb' f' hf'
    simp only [inst, List.mem_cons, List.not_mem_nil, or_false] at hb'
    rcases hb' with rfl | rfl
    · simp only [List.mem_cons, List.not_mem_nil, or_false] at hf'
      rcases hf' with rfl | rfl | rfl <;> exact ⟨_, rfl, by norm_num⟩
    · simp only [List.mem_cons, List.not_mem_nil, or_false] at hf'
      subst hf'
      exact ⟨_, rfl, by norm_num⟩

end Verif
