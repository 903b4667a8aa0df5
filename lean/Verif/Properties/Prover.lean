import Verif.Proofs.Prover
import Verif.Properties.Trace
import Verif.Properties.Verifier
import Verif.Proofs.Witness

/-!
# Property C74: completeness of the whole verifier

`Spec/Prover.lean` describes the honest plonky2 prover.  The challenges are those of the Fiat–Shamir transcript of the
proof itself.
-/

set_option autoImplicit false

namespace Verif

open Circ Polynomial Spec Spec.Prover PoseidonGL Verifier
open Spec.Plonk (Trace Proper n)
open Spec.Fri (omega)

variable {c : CommonCircuitData} {gates : List Gates.Gate} {t : Trace} {k : ℕ → ℕ}
  {s : Equiv.Perm (Fin (n c) × Fin c.config.numRoutedWires)} {vd : VerifierOnlyCircuitData}

theorem residue_map_emb (inputs : List Fp) : (inputs.map emb).map residue = inputs := by
  rw [List.map_map]
  conv_rhs => rw [← List.map_id inputs]
  refine List.map_congr_left fun a _ => ?_
  rw [Function.comp_apply, residue, emb_val, cast_val_fp]; rfl

/-- **C74** every satisfied trace has a proof which the circuit accepts.  There is a way to compute accumulators, partial
products and quotients from the earlier challenges such that, for every circuit digest, all salts and every proof-of-work
witness: there are challenges that agree with the transcript of the honest proof made with them, and whenever these
avoid the unlikely values excluded by `Good`, the circuit accepts when all values are computed by the code's own hint
functions, hence is satisfiable. -/
theorem C74_complete (hc : Proper c gates) (hf : FriOk c) (ht : t.Fits c) (hk : t.Selects c gates k) (hs : t.Routes c s)
    (inputs : List Fp) (hsat : t.Satisfies c gates k s (Spec.Verifier.inputsHash Spec.poseidon inputs)) :
    ∃ S : Strategy, ∀ vd : VerifierOnlyCircuitData, vd.constantSigmasCap = cap c (circuitOracle t) →
      ∀ sw sz sq : ℕ → List Fp, (∀ s ∈ [sw, sz, sq], ∀ u, (s u).length = if c.friParams.isHiding then 4 else 0) →
      ∀ w : Fp,
      (∃ ch, Consistent c Spec.poseidon vd.circuitDigest (Spec.Verifier.inputsHash Spec.poseidon inputs)
        (S.polys t sw sz sq ch) ch w) ∧
      ∀ ch, Consistent c Spec.poseidon vd.circuitDigest (Spec.Verifier.inputsHash Spec.poseidon inputs)
          (S.polys t sw sz sq ch) ch w →
        (S.polys t sw sz sq ch).Ok c ∧ (Good c t ch →
          honest (verify poseidon c gates (proof c (S.polys t sw sz sq ch) ch w).enc (inputs.map emb) vd) = some () ∧
          Sat (verify poseidon c gates (proof c (S.polys t sw sz sq ch) ch w).enc (inputs.map emb) vd) ()) := by
  obtain ⟨S, hS⟩ := Prover.complete hc hf ht hk hs hsat
  refine ⟨S, fun vd hvd sw sz sq hsalt w => ?_⟩
  obtain ⟨h1, h2⟩ := hS Spec.poseidon vd hvd sw sz sq hsalt w
  refine ⟨h1, fun ch h6 => ⟨(h2 ch h6).1, fun hg => ?_⟩⟩
  obtain ⟨h5, h7⟩ := h2 ch h6
  have hfit := fits_to_enc (Prover.fits (ch := ch) (w := w) hc hf h5 hvd)
  have hh := (C58_honest c gates vd _ hfit (inputs.map emb)).2 ⟨_, rfl, fun v hv => by
    obtain ⟨a, -, rfl⟩ := List.mem_map.1 hv
    exact (canonical_emb a).trans (by norm_num [p]), by rw [residue_map_emb]; exact h7 hg inputs rfl⟩
  exact ⟨hh, sat_of_honest hh⟩

/-- **C74** the same for any permutation circuit that computes a function `P`, with the transcript over `P`; the way the
prover computes its polynomials does not depend on `P`. -/
theorem C74_any_permutation {h : Fin 4 → Fp} (hc : Proper c gates) (hf : FriOk c) (ht : t.Fits c)
    (hk : t.Selects c gates k) (hs : t.Routes c s) (hsat : t.Satisfies c gates k s h) :
    ∃ S : Strategy, ∀ (perm : State → Circ State) (P : (Fin 12 → Fp) → Fin 12 → Fp),
      (∀ s : Fin 12 → Fp, Computes (perm fun i => emb (s i)) fun i => emb (P s i)) →
      ∀ vd : VerifierOnlyCircuitData, vd.constantSigmasCap = cap c (circuitOracle t) →
      ∀ sw sz sq : ℕ → List Fp, (∀ s ∈ [sw, sz, sq], ∀ u, (s u).length = if c.friParams.isHiding then 4 else 0) →
      ∀ w : Fp, (∃ ch, Consistent c P vd.circuitDigest h (S.polys t sw sz sq ch) ch w) ∧
      ∀ ch, Consistent c P vd.circuitDigest h (S.polys t sw sz sq ch) ch w →
        (S.polys t sw sz sq ch).Ok c ∧ (Good c t ch → ∀ inputs, Spec.Verifier.inputsHash P inputs = h →
          Computes (verify perm c gates (proof c (S.polys t sw sz sq ch) ch w).enc (inputs.map emb) vd) ()) := by
  obtain ⟨S, hS⟩ := Prover.complete hc hf ht hk hs hsat
  refine ⟨S, fun perm P hP vd hvd sw sz sq hsalt w => ?_⟩
  obtain ⟨h1, h2⟩ := hS P vd hvd sw sz sq hsalt w
  refine ⟨h1, fun ch h6 => ⟨(h2 ch h6).1, fun hg inputs hi => ?_⟩⟩
  obtain ⟨h5, h7⟩ := h2 ch h6
  have hfit := fits_to_enc (Prover.fits (ch := ch) (w := w) hc hf h5 hvd)
  have hh := C58_exact hP c gates vd _ hfit (inputs.map emb)
  refine ⟨fun _ => ⟨fun _ => rfl, fun _ => hh.1.2 ?_⟩, hh.2.2 ?_⟩
  all_goals
    exact ⟨_, rfl, fun v hv => by
      obtain ⟨a, -, rfl⟩ := List.mem_map.1 hv
      exact (canonical_emb a).trans (by norm_num [p]), by rw [residue_map_emb]; exact h7 hg inputs hi⟩

/-- Sixteen rows, blow-up 16, one reduction of arity 16, two queries, salted, 62 bits of proof of work. -/
def proverParams : FriParams := ⟨⟨4, 4, 62, 2⟩, true, 4, [4]⟩

theorem ofBase_ne_mul {a g : Fp} (ha : a ≠ 0) (hg : g ≠ 0) (z : Fp) : ofBase z ≠ ofBase g * ⟨a, a⟩ := by
  intro h
  have h := congrArg QuadraticAlgebra.im h
  simp only [ofBase, QuadraticAlgebra.im_mul, QuadraticAlgebra.re_C, QuadraticAlgebra.im_C] at h
  exact mul_ne_zero hg ha (by linear_combination -h)

/-- Over a toy permutation (whose challenges are easily computed) the honest prover's proof for the values 2, 3, 4, 10
is accepted. -/
example : ∃ (x : Polys) (ch : ProofChallenges Fp QE), x.trace = exampleTrace 4 2 3 4 10 ∧
    ch.friChallenges = ⟨⟨3, 3⟩, [⟨3, 3⟩], 3, [3, 3]⟩ ∧
    Computes (verify (fun _ => pure fun _ => emb 3) (traceData 4 proverParams) [.arithmetic 1]
      (proof (traceData 4 proverParams) x ch 0).enc ([].map emb)
      ⟨cap (traceData 4 proverParams) (circuitOracle (exampleTrace 4 2 3 4 10)), 0⟩) () := by
  have hperm : ∀ s : Fin 12 → Fp, Computes ((fun _ => pure fun _ => emb 3 : State → Circ State) fun i => emb (s i))
      fun i => emb (HonestProof.three s i) := fun s => (den_eq_pure_iff _ _).1 (den_pure _)
  have hb : 1 ≤ 4 ∧ 4 ≤ 32 := by norm_num
  obtain ⟨S, hS⟩ := C74_any_permutation (c := traceData 4 proverParams) (gates := [.arithmetic 1]) (traceData_proper hb)
    ⟨rfl, rfl, by simp [traceData, proverParams], by simp [traceData, proverParams], by simp [traceData, proverParams],
      by simp [traceData, proverParams], by simp [traceData, proverParams]⟩
    (exampleTrace_fits hb.1 2 3 4 10) (exampleTrace_selects 2 3 4 10) (exampleTrace_routes hb 2 3 4 10)
    ((exampleTrace_satisfies 2 3 4 10 (Spec.Verifier.inputsHash HonestProof.three [])).2 (by norm_num))
  obtain ⟨⟨ch, h6⟩, hS⟩ := hS (fun _ => pure fun _ => emb 3) HonestProof.three hperm
    ⟨cap (traceData 4 proverParams) (circuitOracle (exampleTrace 4 2 3 4 10)), 0⟩ rfl (fun _ => [1, 2, 3, 4])
    (fun _ => [0, 0, 0, 0]) (fun u => [u, u, u, u]) (by simp [traceData, proverParams]) 0
  obtain ⟨-, h7⟩ := hS ch h6
  have hch : ch = ⟨[3], [3], [3], ⟨3, 3⟩, ⟨⟨3, 3⟩, [⟨3, 3⟩], 3, [3, 3]⟩⟩ := by
    obtain ⟨hl, h6⟩ := h6
    have hm : ∀ x, (proof (traceData 4 proverParams) x ch 0).openingProof.commitCaps.length = 1 := fun x =>
      (Prover.length_commits _ _ _ _ _).trans hl
    rw [Spec.challenges, HonestProof.outputs_three, nsq_transcript, hm] at h6
    exact h6
  refine ⟨_, ch, rfl, by rw [hch], h7 ?_ [] rfl⟩
  have hbase : ∀ a b : Fp, a ≠ 0 → ∀ z : Fp, (⟨b, a⟩ : QE) ≠ ofBase z := fun a b ha z h =>
    ha (congrArg QuadraticAlgebra.im h)
  have h3 : (3 : Fp) ≠ 0 := by decide +kernel
  subst hch
  clear hS h6 h7
  refine ⟨?_, ?_, ?_, ?_, ?_⟩
  · have key : ∀ (m : Fin 16) (j : Fin 4), (3 : Fp) * (([1, 7, 49, 343] : List Fp).getD j 0 *
        ((17293822564807737345 : ℕ) : Fp) * ((17293822564807737345 : ℕ) : Fp) ^ (m : ℕ)) +
        ([2, 3, 4, 10] : List Fp).getD j 0 + 3 ≠ 0 := by decide +kernel
    intro i hi m hm j hj
    obtain rfl : i = 0 := by simpa [traceData] using hi
    rw [exampleTrace_den, Witness.omega_four]
    exact key ⟨m, hm⟩ ⟨j, hj⟩
  · exact fun h => h3 (congrArg QuadraticAlgebra.im h)
  · intro u _
    exact ⟨(hbase 3 3 h3 _).symm, ofBase_ne_mul h3 (Fri.omega_ne_zero _) _⟩
  · intro β hβ
    simp only [List.mem_cons, List.not_mem_nil, or_false] at hβ
    subst hβ
    exact hbase 3 3 h3
  · show (3 : Fp).val < 2 ^ (64 - 62)
    decide

end Verif
