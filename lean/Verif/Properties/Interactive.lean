import Verif.Proofs.Interactive
import Verif.Properties.EndToEnd
import Mathlib.Tactic.NormNum.BigOperators

/-!
# Property C77: soundness error of the interactive protocol

The challenges are drawn uniformly instead of being taken from the transcript; `Adversary` is any prover whose messages
depend on the challenges in the order of the transcript.
-/

set_option autoImplicit false

namespace Verif

open Polynomial Spec Spec.Prover Spec.Verifier
open Spec.Plonk (Trace Proper n AtMost)
open Spec.Fri (Evaluated)

variable {c : CommonCircuitData} {gates : List Gates.Gate} {t : Trace} {k : ℕ → ℕ}
  {s : Equiv.Perm (Fin (n c) × Fin c.config.numRoutedWires)}

/-- **C77** Fix a circuit, the inputs at which the hashes are evaluated, without collision, and a number of errors `e` below
half the minimum distance.  Either the wires committed to in the first message of a prover satisfy the circuit, or the
verifier accepts with probability at most `error c e` times the chance of passing the proof-of-work check. -/
theorem C77_error (hc : Proper c gates) (hf : FriOk c) (ht : t.Fits c) (hk : t.Selects c gates k) (hs : t.Routes c s) (e : ℕ)
    (he : 2 * e + n c < 2 ^ (c.friParams.degreeBits + c.friParams.config.rateBits)) (H : Evaluated) (hH : H.CollisionFree)
    (hO : H.Oracle (c.friParams.degreeBits + c.friParams.config.rateBits) (circuitOracle t)) :
    ∃ wires : List Fr → List Fp[X],
      (∀ w, (wires w).length = c.config.numWires ∧ AtMost (n c) (wires w)) ∧
      (∀ ws salt, ws.length = c.config.numWires → AtMost (n c) ws →
        (∀ u, (salt u).length = if c.friParams.isHiding then 4 else 0) →
        H.Oracle (c.friParams.degreeBits + c.friParams.config.rateBits) ⟨ws, salt⟩ → wires (cap c ⟨ws, salt⟩) = ws) ∧
    ∀ (h : Fin 4 → Fp) (vd : VerifierOnlyCircuitData) (inputs : List Fp) (A : Adversary),
      vd.constantSigmasCap = cap c (circuitOracle t) →
      Trace.Satisfies c gates { t with wires := wires A.wiresCap } k s h ∨
      prob (fun ω : Coins c => Shaped c (A.proof ω) inputs ∧
        H.Proof (c.friParams.degreeBits + c.friParams.config.rateBits) ω.challenges.friChallenges.queryIndices
          (A.proof ω).openingProof ∧
        Checks c gates vd (A.proof ω) h ω.challenges) ≤ powChance c * error c e := by
  obtain ⟨wires, h1, h2, h3⟩ := C76_sound hc hf ht hk hs e he H hH hO
  refine ⟨wires, h1, h2, fun h vd inputs A hvd => ?_⟩
  obtain ⟨T, hT, h3⟩ := h3 h
  refine or_iff_not_imp_left.2 fun hsat => (Interactive.prob_mono fun ω hω => ?_).trans (Interactive.hit_pow_le hT A)
  exact ⟨hω.2.2.fri.pow, (h3 vd _ inputs _ hvd hω.1 hω.2.1 hω.2.2).resolve_left hsat⟩

/-- **C77** the parameters of `testdata/step/common_circuit_data.json` (`testdata/decode_block` has half the rows): the error
is below `2^-23`, and below `2^-39` with the proof of work of 16 bits. -/
theorem C77_step (hc : c.config.numChallenges = 2 ∧ c.config.numRoutedWires = 80 ∧ c.config.numWires = 136 ∧
      c.config.friConfig.numQueryRounds = 28)
    (hf : c.friParams.degreeBits = 13 ∧ c.friParams.config.rateBits = 3 ∧ c.friParams.reductionArityBits = [4, 4] ∧
      c.friParams.config.proofOfWorkBits = 16)
    (hd : c.degreeBits = 13 ∧ c.quotientDegreeFactor = 8 ∧ c.numGateConstraints = 123 ∧ c.numConstants = 6 ∧
      c.numPartialProducts = 9) :
    2 * 28671 + n c < 2 ^ (c.friParams.degreeBits + c.friParams.config.rateBits) ∧ error c 28671 < 1 / 2 ^ 23 ∧
      powChance c * error c 28671 < 1 / 2 ^ 39 := by
  obtain ⟨h1, h2, h3, h4⟩ := hc
  obtain ⟨h5, h6, h7, h13⟩ := hf
  obtain ⟨h8, h9, h10, h11, h12⟩ := hd
  simp only [powChance, error, numTerms, numOpenings, Fri.oracleSizes, n, h13, h1, h2, h3, h4, h5, h6, h7, h8, h9, h10, h11, h12, p]
  norm_num

/-- The unsatisfiable circuit of C76, for which no assumption on hashes is left: no prover convinces the verifier with
probability above two thirds (there is a single query). -/
example (b : ℕ) (hb : b ≤ 64) (digest : Fr) (h : Fin 4 → Fp) (A : Adversary) :
    prob (fun ω : Coins (HonestProof.data b) => Shaped (HonestProof.data b) (A.proof ω) ([] : List Fp) ∧
      Checks (HonestProof.data b) HonestProof.gates ⟨cap (HonestProof.data b) (circuitOracle badTrace), digest⟩
        (A.proof ω) h ω.challenges) ≤ 2 / 3 := by
  obtain ⟨wires, -, -, h3⟩ := C77_error (data_proper b) (data_friOk hb) (badTrace_fits b) (badTrace_selects b)
    (badTrace_routes b) 5 (by norm_num [HonestProof.data, n]) shortLeaves shortLeaves_collisionFree
    (fun v _ => shortLeaves_path _ _ _ (by simp [Fri.Prover.Oracle.leaf, circuitOracle, badTrace]))
  refine le_trans (Interactive.prob_mono fun ω hω => ⟨hω.1, shortLeaves_proof hω.2, hω.2⟩)
    (((h3 h ⟨_, digest⟩ [] A rfl).resolve_left (badTrace_unsatisfiable b _ _)).trans ?_)
  have h1 : powChance (HonestProof.data b) ≤ 1 :=
    div_le_one_of_le₀ (Nat.cast_le.2 (min_le_left _ _)) (Nat.cast_nonneg _)
  refine (mul_le_mul_of_nonneg_right h1 ?_).trans ?_ <;>
  simp only [error, numTerms, numOpenings, Fri.oracleSizes, n, HonestProof.data, p] <;>
  norm_num

end Verif
