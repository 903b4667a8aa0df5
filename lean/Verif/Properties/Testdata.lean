import Verif.Spec.Testdata
import Verif.Properties.Freedom
import Verif.Properties.FiatShamir

/-!
# Property C92: the circuits shipped with the repository

`testdata/decode_block` and `testdata/step` meet the requirements of the theorems about the verifier and its soundness.
-/

set_option autoImplicit false

namespace Verif

open Circ Polynomial Spec Spec.Prover Spec.Verifier PoseidonGL
open Spec.Plonk (Trace Proper n AtMost name)
open Spec.Fri (Evaluated)
open Spec.Testdata

/-- Positions have different names if the `2^d`-th powers of the cosets' representatives are different. -/
theorem names_injective {c : CommonCircuitData} (hd : c.degreeBits ≤ 32)
    (hk : ((List.range c.config.numRoutedWires).map fun j => c.kIs.getD j 0 ^ 2 ^ c.degreeBits % p).Nodup)
    (h0 : ∀ j < c.config.numRoutedWires, c.kIs.getD j 0 % p ≠ 0) :
    Function.Injective fun x : Fin (n c) × Fin c.config.numRoutedWires => name c x.1 x.2 := by
  rintro ⟨m, j⟩ ⟨m', j'⟩ h
  have h1 : name c m j = name c m' j' := h
  have pw : ∀ (m : ℕ) (j : ℕ), name c m j ^ 2 ^ c.degreeBits = ((c.kIs.getD j 0 ^ 2 ^ c.degreeBits : ℕ) : Fp) := by
    intro m j
    rw [name, mul_pow, ← pow_mul, Nat.mul_comm, pow_mul, Verif.Fri.omega_pow_card hd, one_pow, mul_one, Nat.cast_pow]
  have h2 := congrArg (· ^ 2 ^ c.degreeBits) h1
  simp only [pw] at h2
  rw [ZMod.natCast_eq_natCast_iff'] at h2
  have h3 : (j : ℕ) = j' := List.inj_on_of_nodup_map hk (List.mem_range.2 j.2) (List.mem_range.2 j'.2) h2
  obtain rfl := Fin.ext h3
  have hz : (c.kIs.getD j 0 : Fp) ≠ 0 := fun hz => h0 j j.2 (Nat.mod_eq_zero_of_dvd ((ZMod.natCast_eq_zero_iff _ _).1 hz))
  have h4 := mul_left_cancel₀ hz h1
  rw [Fin.ext (Plonk.omega_injOn hd (Finset.mem_coe.2 (Finset.mem_range.2 m.2)) (Finset.mem_coe.2 (Finset.mem_range.2 m'.2)) h4)]

/-- **C92** the circuit of `testdata/decode_block` is well-formed: gates fit in its wires and constants, their constraints
are counted, the degrees are within the quotient's and positions have different names. -/
theorem C92_decodeBlock_proper : Proper decodeBlock decodeBlockGates where
  rows := by decide
  factor := by decide
  chunks := by decide
  routed := by decide
  gatesOk := by
    intro gi hgi
    simp only [decodeBlockGates, List.zipIdx_cons, List.zipIdx_nil, List.mem_cons, List.not_mem_nil, or_false] at hgi
    rcases hgi with rfl | rfl | rfl | rfl | rfl | rfl | rfl | rfl | rfl | rfl | rfl | rfl | rfl <;>
    refine ⟨by decide, by decide, by decide, by decide, ?_⟩ <;>
    simp only [Spec.Gates.Fits] <;> decide +kernel
  counts := by
    intro gi hgi x
    simp only [decodeBlockGates, List.zipIdx_cons, List.zipIdx_nil, List.mem_cons, List.not_mem_nil, or_false] at hgi
    rcases hgi with rfl | rfl | rfl | rfl | rfl | rfl | rfl | rfl | rfl | rfl | rfl | rfl | rfl <;>
    exact Nat.le_of_ble_eq_true rfl
  degrees := by decide +kernel
  groups := by decide +kernel
  groupsLt := by decide +kernel
  kIs := by decide
  kIsLt := by decide +kernel
  names := names_injective (by decide) (by decide +kernel) (by decide +kernel)

/-- **C92** the circuit of `testdata/step` is well-formed. -/
theorem C92_step_proper : Proper step stepGates where
  rows := by decide
  factor := by decide
  chunks := by decide
  routed := by decide
  gatesOk := by
    intro gi hgi
    simp only [stepGates, List.zipIdx_cons, List.zipIdx_nil, List.mem_cons, List.not_mem_nil, or_false] at hgi
    rcases hgi with rfl | rfl | rfl | rfl | rfl | rfl | rfl | rfl | rfl | rfl | rfl | rfl | rfl <;>
    refine ⟨by decide, by decide, by decide, by decide, ?_⟩ <;>
    simp only [Spec.Gates.Fits] <;> decide +kernel
  counts := by
    intro gi hgi x
    simp only [stepGates, List.zipIdx_cons, List.zipIdx_nil, List.mem_cons, List.not_mem_nil, or_false] at hgi
    rcases hgi with rfl | rfl | rfl | rfl | rfl | rfl | rfl | rfl | rfl | rfl | rfl | rfl | rfl <;>
    exact Nat.le_of_ble_eq_true rfl
  degrees := by decide +kernel
  groups := by decide +kernel
  groupsLt := by decide +kernel
  kIs := by decide
  kIsLt := by decide +kernel
  names := names_injective (by decide) (by decide +kernel) (by decide +kernel)

/-- **C92** their FRI parameters are covered by the theorems. -/
theorem C92_friOk : FriOk decodeBlock ∧ FriOk step := by
  refine ⟨⟨rfl, rfl, by decide, by decide, by decide, by decide, by decide⟩, ⟨rfl, rfl, by decide, by decide, by decide, by decide, by decide⟩⟩

/-- **C92** so are the verifier data. -/
theorem C92_supported : Supported decodeBlock decodeBlockGates decodeBlockKey ∧ Supported step stepGates stepKey :=
  ⟨EndToEnd.supported C92_decodeBlock_proper C92_friOk.1 rfl, EndToEnd.supported C92_step_proper C92_friOk.2 rfl⟩

/-- The words printed for the weights in the identifiers. -/
def weightWords : List ℕ :=
  [17293822565076172801, 18374686475376656385, 18446744069413535745, 281474976645120, 17592186044416, 18446744069414584577,
    18446744000695107601, 18446744065119617025, 1152921504338411520, 72057594037927936, 18446744069415632897,
    18446462594437939201, 18446726477228539905, 18446744069414584065, 68719476720, 4294967296]

theorem identifies_of_words (ids : List String) (gates : List Gates.Gate)
    (hr : ∀ g ∈ gates, Spec.Gates.Represents weightWords g) (h : ids = gates.map (Spec.Gates.identifier weightWords)) :
    List.Forall₂ Spec.Gates.Identifies ids gates := by
  subst h
  induction gates with
  | nil => exact .nil
  | cons g gates ih =>
    exact .cons ⟨_, hr g (List.mem_cons_self ..), rfl⟩ (ih fun g h => hr g (List.mem_cons_of_mem _ h))

/-- **C92** the identifiers in the files name these gates. -/
theorem C92_ids : List.Forall₂ Spec.Gates.Identifies decodeBlock.gateIds decodeBlockGates ∧
    List.Forall₂ Spec.Gates.Identifies step.gateIds stepGates := by
  constructor <;> refine identifies_of_words _ _ ?_ (by decide +kernel) <;>
  simp only [decodeBlockGates, stepGates, List.forall_mem_cons, Spec.Gates.Represents, true_and] <;>
  exact ⟨⟨by decide +kernel, by decide +kernel⟩, fun x hx => absurd hx (List.not_mem_nil)⟩

theorem gates_ok : (∀ g ∈ decodeBlockGates, Spec.Gates.HasWeights g ∧ Spec.Gates.InRange g) ∧
    ∀ g ∈ stepGates, Spec.Gates.HasWeights g ∧ Spec.Gates.InRange g := by
  constructor <;> intro g hg <;>
  simp only [decodeBlockGates, stepGates, List.mem_cons, List.not_mem_nil, or_false] at hg <;>
  rcases hg with rfl | rfl | rfl | rfl | rfl | rfl | rfl | rfl | rfl | rfl | rfl | rfl | rfl <;>
  refine ⟨?_, by decide⟩ <;> simp [Spec.Gates.HasWeights]

/-- **C92** the circuit defined from either file is that of these gates, whatever the iteration orders of the map. -/
theorem C92_define (perm : State → Circ State) (orders : List (List Gates.Handler)) (hlen : orders.length = 13)
    (ho : ∀ o ∈ orders, o.Perm Gates.gateRegexHandlers) (proof : Proof Fr QEV) (pis : List Fr) (vd : VerifierOnlyCircuitData) :
    Verifier.define perm orders decodeBlock proof pis vd = Verifier.verify perm decodeBlock decodeBlockGates proof pis vd ∧
    Verifier.define perm orders step proof pis vd = Verifier.verify perm step stepGates proof pis vd :=
  ⟨C58_define perm orders _ _ vd proof pis C92_ids.1 hlen ho gates_ok.1,
    C58_define perm orders _ _ vd proof pis C92_ids.2 hlen ho gates_ok.2⟩

/-- **C92** the circuits made from these files (and any proof and public inputs of the sizes the files prescribe) accept the
proofs that plonky2 accepts with all hints computed by the code, and with a permutation circuit that computes `P` exactly
the proofs plonky2 accepts over `P`. -/
theorem C92_exact (orders : List (List Gates.Handler)) (hlen : orders.length = 13)
    (ho : ∀ o ∈ orders, o.Perm Gates.gateRegexHandlers) (c : CommonCircuitData) (gates : List Gates.Gate)
    (vd : VerifierOnlyCircuitData)
    (hc : (c, gates, vd) = (decodeBlock, decodeBlockGates, decodeBlockKey) ∨ (c, gates, vd) = (step, stepGates, stepKey))
    (proof : Proof Fr QEV) (pis : List Fr) (hs : Shaped c proof pis) :
    (honest (Verifier.define poseidon orders c proof pis vd) = some () ↔ ∃ x : Proof Fp QE, proof = x.enc ∧
      (∀ v ∈ pis, v.val < 2 ^ 144 * p) ∧ Accepts Spec.poseidon c gates vd x (pis.map residue)) ∧
    ∀ (perm : State → Circ State) (P : (Fin 12 → Fp) → Fin 12 → Fp),
      (∀ s : Fin 12 → Fp, Computes (perm fun i => emb (s i)) fun i => emb (P s i)) →
      Enforces (Verifier.define perm orders c proof pis vd) (∃ x : Proof Fp QE, proof = x.enc ∧
        (∀ v ∈ pis, v.val < 2 ^ 144 * p) ∧ Validates P c gates vd x (pis.map residue)) := by
  have hd : ∀ perm, Verifier.define perm orders c proof pis vd = Verifier.verify perm c gates proof pis vd := by
    intro perm
    rcases hc with hc | hc <;> cases hc
    · exact (C92_define perm orders hlen ho proof pis _).1
    · exact (C92_define perm orders hlen ho proof pis _).2
  have hsup : Supported c gates vd := by
    rcases hc with hc | hc <;> cases hc
    · exact C92_supported.1
    · exact C92_supported.2
  refine ⟨?_, fun perm P hP => ?_⟩
  · rw [hd]; exact C58_honest c gates vd proof (fits_of_shaped hsup hs) pis
  · rw [hd]; exact C68_shaped_partial hP c gates vd hsup proof pis hs

theorem error_lt : (2 * 14335 + n decodeBlock < 2 ^ 15 ∧ powChance decodeBlock * error decodeBlock 14335 < 1 / 2 ^ 39 ∧
      roundError decodeBlock 14335 < 1 / 2 ^ 39 ∧ numRounds decodeBlock = 7) ∧
    2 * 28671 + n step < 2 ^ 16 ∧ powChance step * error step 28671 < 1 / 2 ^ 39 ∧ roundError step 28671 < 1 / 2 ^ 39 ∧
      numRounds step = 7 := by
  refine ⟨⟨by decide, ?_, ?_, rfl⟩, by decide, ?_, ?_, rfl⟩ <;>
  simp only [powChance, error, roundError, numTerms, numOpenings, Fri.oracleSizes, n, decodeBlock, step, p, max_lt_iff] <;>
  norm_num

/-- **C92** soundness for these circuits, interactively: whatever constants, sigmas and selectors the rows of the circuit
have, and whatever inputs (without collision) the hashes are evaluated at, the wires committed to in a prover's first message
satisfy the circuit or the verifier accepts with probability below `2^-39`. -/
theorem C92_interactive {c : CommonCircuitData} {gates : List Gates.Gate}
    (hc : (c, gates) = (decodeBlock, decodeBlockGates) ∨ (c, gates) = (step, stepGates)) {t : Trace} {k : ℕ → ℕ}
    {s : Equiv.Perm (Fin (n c) × Fin c.config.numRoutedWires)} (ht : t.Fits c) (hk : t.Selects c gates k) (hs : t.Routes c s)
    (H : Evaluated) (hH : H.CollisionFree)
    (hO : H.Oracle (c.friParams.degreeBits + c.friParams.config.rateBits) (circuitOracle t)) :
    ∃ wires : List Fr → List Fp[X],
      (∀ w, (wires w).length = 136 ∧ AtMost (n c) (wires w)) ∧
      (∀ ws salt, ws.length = 136 → AtMost (n c) ws → (∀ u, salt u = []) →
        H.Oracle (c.friParams.degreeBits + c.friParams.config.rateBits) ⟨ws, salt⟩ → wires (cap c ⟨ws, salt⟩) = ws) ∧
    ∀ (h : Fin 4 → Fp) (vd : VerifierOnlyCircuitData) (inputs : List Fp) (A : Adversary),
      vd.constantSigmasCap = cap c (circuitOracle t) →
      Trace.Satisfies c gates { t with wires := wires A.wiresCap } k s h ∨
      prob (fun ω : Coins c => Shaped c (A.proof ω) inputs ∧
        H.Proof (c.friParams.degreeBits + c.friParams.config.rateBits) ω.challenges.friChallenges.queryIndices
          (A.proof ω).openingProof ∧
        Checks c gates vd (A.proof ω) h ω.challenges) < 1 / 2 ^ 39 := by
  rcases hc with hc | hc <;> cases hc
  · obtain ⟨wires, h1, h2, h3⟩ := C77_error C92_decodeBlock_proper C92_friOk.1 ht hk hs 14335 error_lt.1.1 H hH hO
    exact ⟨wires, h1, fun ws salt a b d => h2 ws salt a b fun u => by rw [d u]; rfl, fun h vd inputs A hv => (h3 h vd inputs A hv).imp_right fun h =>
      lt_of_le_of_lt h error_lt.1.2.1⟩
  · obtain ⟨wires, h1, h2, h3⟩ := C77_error C92_step_proper C92_friOk.2 ht hk hs 28671 error_lt.2.1 H hH hO
    exact ⟨wires, h1, fun ws salt a b d => h2 ws salt a b fun u => by rw [d u]; rfl, fun h vd inputs A hv => (h3 h vd inputs A hv).imp_right fun h =>
      lt_of_le_of_lt h error_lt.2.2.1⟩

/-- **C92** soundness for these circuits with challenges from a random oracle: a prover that makes `q` queries succeeds
with probability at most `(q + 7) / 2^39`. -/
theorem C92_oracle {c : CommonCircuitData} {gates : List Gates.Gate}
    (hc : (c, gates) = (decodeBlock, decodeBlockGates) ∨ (c, gates) = (step, stepGates)) {t : Trace} {k : ℕ → ℕ}
    {s : Equiv.Perm (Fin (n c) × Fin c.config.numRoutedWires)} (ht : t.Fits c) (hk : t.Selects c gates k) (hs : t.Routes c s)
    (H : Evaluated) (hH : H.CollisionFree)
    (hO : H.Oracle (c.friParams.degreeBits + c.friParams.config.rateBits) (circuitOracle t)) :
    ∃ wires : List Fr → List Fp[X],
      (∀ w, (wires w).length = 136 ∧ AtMost (n c) (wires w)) ∧
      (∀ ws salt, ws.length = 136 → AtMost (n c) ws → (∀ u, salt u = []) →
        H.Oracle (c.friParams.degreeBits + c.friParams.config.rateBits) ⟨ws, salt⟩ → wires (cap c ⟨ws, salt⟩) = ws) ∧
    ∀ (vd : VerifierOnlyCircuitData) (A : OracleProver c) (S : Finset Query),
      vd.constantSigmasCap = cap c (circuitOracle t) → A.Within S →
      prob (fun f : S → Answer c =>
        let (h, inputs, x) := A.output (run (oracleOf f) A.next A.queries)
        let ch := oracleChallenges c (oracleOf f) h x
        Shaped c x inputs ∧
        H.Proof (c.friParams.degreeBits + c.friParams.config.rateBits) ch.friChallenges.queryIndices x.openingProof ∧
        Checks c gates vd x h ch ∧
        ¬ Trace.Satisfies c gates { t with wires := wires x.wiresCap } k s h) ≤
      ((A.queries + 7 : ℕ) : ℚ) / 2 ^ 39 := by
  have key : ∀ (q : ℕ) {x y : ℚ}, x ≤ ((q + 7 : ℕ) : ℚ) * y → y < 1 / 2 ^ 39 → x ≤ ((q + 7 : ℕ) : ℚ) / 2 ^ 39 := by
    intro q x y h1 h2
    refine h1.trans ?_
    rw [div_eq_mul_one_div]
    exact mul_le_mul_of_nonneg_left h2.le (Nat.cast_nonneg _)
  rcases hc with hc | hc <;> cases hc
  · obtain ⟨wires, h1, h2, h3⟩ :=
      C79_error C92_decodeBlock_proper C92_friOk.1 (by decide) ht hk hs 14335 error_lt.1.1 H hH hO
    exact ⟨wires, h1, fun ws salt a b d => h2 ws salt a b fun u => by rw [d u]; rfl,
      fun vd A S hv hS => key _ (h3 vd A S hv hS) error_lt.1.2.2.1⟩
  · obtain ⟨wires, h1, h2, h3⟩ :=
      C79_error C92_step_proper C92_friOk.2 (by decide) ht hk hs 28671 error_lt.2.1 H hH hO
    exact ⟨wires, h1, fun ws salt a b d => h2 ws salt a b fun u => by rw [d u]; rfl,
      fun vd A S hv hS => key _ (h3 vd A S hv hS) error_lt.2.2.2.1⟩

end Verif
