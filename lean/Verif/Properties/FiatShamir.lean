import Verif.Proofs.FiatShamir
import Verif.Proofs.SpongeOracle
import Verif.Properties.Interactive

/-!
# Property C79: soundness error with challenges from a random oracle

The prover chooses the public inputs and the proof after any number of queries to the oracle that the challenges are taken
from.  In the code the oracle is the duplex sponge over the Poseidon permutation (`C79_transcript`); the bound is for a
uniformly random function in its place.
-/

set_option autoImplicit false

namespace Verif

open Polynomial Spec Spec.Prover Spec.Verifier
open Spec.Plonk (Trace Proper n AtMost)
open Spec.Fri (Evaluated)

variable {c : CommonCircuitData} {gates : List Gates.Gate} {t : Trace} {k : ℕ → ℕ}
  {s : Equiv.Perm (Fin (n c) × Fin c.config.numRoutedWires)}

/-- **C79** Fix a circuit, the inputs at which the hashes are evaluated, without collision, and a number of errors `e` below
half the minimum distance.  A prover that makes `A.queries` queries to a random oracle outputs public inputs and a proof that
the verifier accepts, although the wires committed to in the proof do not satisfy the circuit for these public inputs, with
probability at most `roundError c e` for each query made by the prover or the verifier. -/
theorem C79_error (hc : Proper c gates) (hf : FriOk c) (hn : 0 < c.config.numChallenges) (ht : t.Fits c)
    (hk : t.Selects c gates k) (hs : t.Routes c s) (e : ℕ)
    (he : 2 * e + n c < 2 ^ (c.friParams.degreeBits + c.friParams.config.rateBits)) (H : Evaluated) (hH : H.CollisionFree)
    (hO : H.Oracle (c.friParams.degreeBits + c.friParams.config.rateBits) (circuitOracle t)) :
    ∃ wires : List Fr → List Fp[X],
      (∀ w, (wires w).length = c.config.numWires ∧ AtMost (n c) (wires w)) ∧
      (∀ ws salt, ws.length = c.config.numWires → AtMost (n c) ws →
        (∀ u, (salt u).length = if c.friParams.isHiding then 4 else 0) →
        H.Oracle (c.friParams.degreeBits + c.friParams.config.rateBits) ⟨ws, salt⟩ → wires (cap c ⟨ws, salt⟩) = ws) ∧
    ∀ (vd : VerifierOnlyCircuitData) (A : OracleProver c) (S : Finset Query),
      vd.constantSigmasCap = cap c (circuitOracle t) → A.Within S →
      prob (fun f : S → Answer c =>
        let (h, inputs, x) := A.output (run (oracleOf f) A.next A.queries)
        let ch := oracleChallenges c (oracleOf f) h x
        Shaped c x inputs ∧
        H.Proof (c.friParams.degreeBits + c.friParams.config.rateBits) ch.friChallenges.queryIndices x.openingProof ∧
        Checks c gates vd x h ch ∧
        ¬ Trace.Satisfies c gates { t with wires := wires x.wiresCap } k s h) ≤
      ((A.queries + numRounds c : ℕ) : ℚ) * roundError c e := by
  obtain ⟨wires, h1, h2, h3⟩ := C76_sound hc hf ht hk hs e he H hH hO
  refine ⟨wires, h1, h2, fun vd A S hvd hS => ?_⟩
  choose T hT h3 using h3
  refine (Interactive.prob_mono fun f hω => ?_).trans (FiatShamir.hit_le hT hn A S hS)
  obtain ⟨ha, hb, hC, hd⟩ := hω
  exact ⟨hC.fri.pow, (h3 _ vd _ _ _ hvd ha hb hC).resolve_left hd⟩

/-- **C79** for every prover there is a finite set of queries as the bound takes it. -/
theorem C79_finite (A : OracleProver c) : ∃ S, A.Within S := FiatShamir.within_exists A

/-- **C79** the challenges of the code's transcript are those of an oracle: the duplex sponge. -/
theorem C79_transcript (P : (Fin 12 → Fp) → Fin 12 → Fp) (digest : Fr) (h : Fin 4 → Fp) (x : Proof Fp QE)
    (hx : x.openingProof.commitCaps.length = c.friParams.reductionArityBits.length) :
    Spec.challenges P c.config.numChallenges c.config.friConfig.numQueryRounds digest h x =
      oracleChallenges c (spongeOracle c P digest) h x :=
  (SpongeOracle.challenges_eq digest h x hx).symm

/-- **C79** the parameters of `testdata/step/common_circuit_data.json`: below `2^-39` for each query. -/
theorem C79_step (hc : c.config.numChallenges = 2 ∧ c.config.numRoutedWires = 80 ∧ c.config.numWires = 136 ∧
      c.config.friConfig.numQueryRounds = 28)
    (hf : c.friParams.degreeBits = 13 ∧ c.friParams.config.rateBits = 3 ∧ c.friParams.reductionArityBits = [4, 4] ∧
      c.friParams.config.proofOfWorkBits = 16)
    (hd : c.degreeBits = 13 ∧ c.quotientDegreeFactor = 8 ∧ c.numGateConstraints = 123 ∧ c.numConstants = 6 ∧
      c.numPartialProducts = 9) :
    roundError c 28671 < 1 / 2 ^ 39 ∧ numRounds c = 7 := by
  obtain ⟨h1, h2, h3, h4⟩ := hc
  obtain ⟨h5, h6, h7, h13⟩ := hf
  obtain ⟨h8, h9, h10, h11, h12⟩ := hd
  constructor
  · simp only [roundError, powChance, numTerms, numOpenings, Fri.oracleSizes, n, h13, h1, h2, h3, h4, h5, h6, h8, h9, h10,
      h11, h12, p, max_lt_iff]
    norm_num
  · rw [numRounds, h7]; rfl

/-- The unsatisfiable circuit of C76, with 64 bits of proof of work: no prover that makes less than a billion queries convinces
the verifier with probability above `2^-20`. -/
example (digest : Fr) (A : OracleProver (HonestProof.data 64)) (hA : A.queries ≤ 10 ^ 9) (S : Finset Query) (hS : A.Within S) :
    prob (fun f : S → Answer (HonestProof.data 64) =>
      let (h, inputs, x) := A.output (run (oracleOf f) A.next A.queries)
      Shaped (HonestProof.data 64) x inputs ∧
      Checks (HonestProof.data 64) HonestProof.gates ⟨cap (HonestProof.data 64) (circuitOracle badTrace), digest⟩
        x h (oracleChallenges _ (oracleOf f) h x)) ≤ 1 / 2 ^ 20 := by
  obtain ⟨wires, -, -, h3⟩ := C79_error (data_proper 64) (data_friOk le_rfl) (by simp [HonestProof.data]) (badTrace_fits 64)
    (badTrace_selects 64) (badTrace_routes 64) 5 (by norm_num [HonestProof.data, n]) shortLeaves shortLeaves_collisionFree
    (fun v _ => shortLeaves_path _ _ _ (by simp [Fri.Prover.Oracle.leaf, circuitOracle, badTrace]))
  refine le_trans (Interactive.prob_mono fun f hω => ⟨hω.1, shortLeaves_proof hω.2, hω.2, badTrace_unsatisfiable 64 _ _⟩)
    ((h3 ⟨_, digest⟩ A S rfl hS).trans ?_)
  have h1 : roundError (HonestProof.data 64) 5 ≤ 1 / 2 ^ 56 := by
    simp only [roundError, powChance, numTerms, numOpenings, Fri.oracleSizes, n, HonestProof.data, p, max_le_iff]
    norm_num
  have h2 : numRounds (HonestProof.data 64) ≤ 10 := by simp [numRounds, HonestProof.data]
  have h4 : ((A.queries + numRounds (HonestProof.data 64) : ℕ) : ℚ) ≤ (10 ^ 9 + 10 : ℕ) := Nat.cast_le.2 (by omega)
  have h0 : 0 ≤ roundError (HonestProof.data 64) 5 := le_trans (div_nonneg (Nat.cast_nonneg _) (Nat.cast_nonneg _)) (le_max_left _ _)
  refine (mul_le_mul h4 h1 h0 (Nat.cast_nonneg _)).trans ?_
  norm_num

end Verif
