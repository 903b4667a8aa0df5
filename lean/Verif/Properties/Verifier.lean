import Verif.Proofs.HonestProof
import Verif.Proofs.Panics
import Verif.Proofs.GateIds
import Verif.Properties.GateIds

/-!
# Properties C57-C59, C67: the verifier

Proofs and public inputs are arbitrary circuit values; `enc` turns a typed proof into canonical circuit values.
`Fits` only bounds parameters and list lengths, all fixed when the circuit is compiled.
-/

set_option autoImplicit false

namespace Verif

open Circ PoseidonGL Verifier Spec.Verifier
open Spec (residue)

/-! ## C57 -/

/-- **C57** `rangeCheckProof` accepts a proof exactly when every Goldilocks element in it is canonical. -/
theorem C57_rangeCheckProof (proof : Proof Fr QEV) : Enforces (rangeCheckProof proof) (Canonical proof) :=
  (den_eq_assert_iff _ _).1 (den_rangeCheckProof proof)

/-- **C57** hence exactly when it is the circuit form of a proof over the Goldilocks field, and then of only one. -/
theorem C57_typed (proof : Proof Fr QEV) :
    Sat (rangeCheckProof proof) () ↔ ∃! x : Proof Fp QE, proof = x.enc := by
  rw [(C57_rangeCheckProof proof).1, canonical_iff]
  constructor
  · rintro ⟨x, rfl⟩; exact ⟨x, rfl, fun y hy => (enc_injective hy).symm⟩
  · rintro ⟨x, h, _⟩; exact ⟨x, h⟩

/-- A proof with elements everywhere. -/
example : Sat (rangeCheckProof (HonestProof.proof ⟨3, 3⟩ ⟨5, 7⟩ 3 9).enc) () :=
  (C57_typed _).2 ⟨_, rfl, fun _ h => (enc_injective h).symm⟩

/-- One non-canonical coordinate of one evaluation is enough to be rejected. -/
example (x : Proof Fr QEV) : ¬ Sat (rangeCheckProof { x with
    openingProof := { x.openingProof with rounds := x.openingProof.rounds ++ [⟨[], [⟨[(0, (p : Fr))], []⟩]⟩] } }) () := by
  rw [(C57_rangeCheckProof _).1]
  intro h
  have := (h.evals ⟨[], [⟨[(0, (p : Fr))], []⟩]⟩ (by simp) ⟨[(0, (p : Fr))], []⟩ (by simp) (0, (p : Fr)) (by simp)).2
  simp only at this
  rw [val_natCast_of_lt p_lt_r] at this
  exact lt_irrefl _ this

/-! ## C58 -/

/-- **C58** with a permutation circuit that computes `P` the verifier circuit accepts exactly the canonical proofs and
bounded public inputs accepted by the plonky2 verifier over `P`. -/
theorem C58_exact {perm : State → Circ State} {P : (Fin 12 → Fp) → Fin 12 → Fp}
    (hP : ∀ s : Fin 12 → Fp, Computes (perm fun i => emb (s i)) fun i => emb (P s i))
    (c : CommonCircuitData) (gates : List Gates.Gate) (vd : VerifierOnlyCircuitData) (proof : Proof Fr QEV)
    (hf : Fits c gates vd proof) (pis : List Fr) :
    Enforces (verify perm c gates proof pis vd) (∃ x : Proof Fp QE, proof = x.enc ∧
      (∀ v ∈ pis, v.val < 2 ^ 144 * p) ∧ Accepts P c gates vd x (pis.map residue)) :=
  (den_eq_assert_iff _ _).1 (den_verify (fun s => (den_eq_pure_iff _ _).2 (hP s)) hf pis)

/-- **C58** the code's circuit is satisfiable exactly when the proof is canonical and, for *some* hash and *some*
challenges admitted by the constraints of the transcript, the PLONK and FRI checks hold. -/
theorem C58_sat (c : CommonCircuitData) (gates : List Gates.Gate) (vd : VerifierOnlyCircuitData) (proof : Proof Fr QEV)
    (hf : Fits c gates vd proof) (pis : List Fr) :
    Sat (verify poseidon c gates proof pis vd) () ↔
      ∃ (x : Proof Fp QE) (h : Fin 4 → Fp) (ch : ProofChallenges Fp QE), proof = x.enc ∧
        Sat (getPublicInputsHash poseidon pis) (fun i => emb (h i)) ∧
        Sat (getChallenges poseidon c proof (fun i => emb (h i)) vd) ch.enc ∧ Checks c gates vd x h ch :=
  sat_verify ens_poseidon hf pis

/-- **C58** an honest run of the code's circuit (all values computed by the code's own hint functions) succeeds exactly
when the plonky2 verifier, over the textbook Poseidon permutation, accepts. -/
theorem C58_honest (c : CommonCircuitData) (gates : List Gates.Gate) (vd : VerifierOnlyCircuitData)
    (proof : Proof Fr QEV) (hf : Fits c gates vd proof) (pis : List Fr) :
    honest (verify poseidon c gates proof pis vd) = some () ↔ ∃ x : Proof Fp QE, proof = x.enc ∧
      (∀ v ∈ pis, v.val < 2 ^ 144 * p) ∧ Accepts Spec.poseidon c gates vd x (pis.map residue) := by
  rw [← (ref_verify cleanPerm_ref c gates vd proof pis).2]
  exact ((den_eq_assert_iff _ _).1 (den_verify cleanPerm_exact hf pis)).2

/-- **C58** completeness: a proof accepted by the plonky2 verifier satisfies the circuit. -/
theorem C58_complete (c : CommonCircuitData) (gates : List Gates.Gate) (vd : VerifierOnlyCircuitData)
    (x : Proof Fp QE) (hf : Fits c gates vd x.enc) (inputs : List Fp)
    (h : Accepts Spec.poseidon c gates vd x inputs) :
    Sat (verify poseidon c gates x.enc (inputs.map emb) vd) () := by
  have e : (inputs.map emb).map residue = inputs := by
    rw [List.map_map]
    conv_rhs => rw [← List.map_id inputs]
    refine List.map_congr_left fun a _ => ?_
    rw [Function.comp_apply, residue, emb_val, cast_val_fp]; rfl
  refine sat_of_honest ((C58_honest c gates vd x.enc hf _).2 ⟨x, rfl, ?_, by rwa [e]⟩)
  intro v hv
  obtain ⟨a, -, rfl⟩ := List.mem_map.1 hv
  exact (canonical_emb a).trans (by norm_num [p])

/-- **C58** the circuit of `ExampleVerifierCircuit`: the gates are those named by the identifiers in the common data,
whatever the iteration order of Go's map. -/
theorem C58_define (perm : State → Circ State) (orders : List (List Gates.Handler)) (c : CommonCircuitData)
    (gates : List Gates.Gate) (vd : VerifierOnlyCircuitData) (proof : Proof Fr QEV) (pis : List Fr)
    (hids : List.Forall₂ Spec.Gates.Identifies c.gateIds gates) (hlen : orders.length = gates.length)
    (ho : ∀ o ∈ orders, o.Perm Gates.gateRegexHandlers)
    (hg : ∀ g ∈ gates, Spec.Gates.HasWeights g ∧ Spec.Gates.InRange g) :
    define perm orders c proof pis vd = verify perm c gates proof pis vd := by
  rw [define, C44_gateInstances hids hlen ho hg]

/-- **C58** an identifier of no known gate is fatal: no proof is accepted. -/
theorem C58_define_unknown (perm : State → Circ State) (orders : List (List Gates.Handler)) (c : CommonCircuitData)
    (vd : VerifierOnlyCircuitData) (proof : Proof Fr QEV) (pis : List Fr)
    (h : Gates.gateInstances (orders.zip (c.gateIds.map String.toList)) = none) :
    Panics (define perm orders c proof pis vd) := by
  rw [define, h]; trivial

/-- Sizes are met by a real circuit and proof... -/
example : Fits (HonestProof.data 16) HonestProof.gates (HonestProof.vd 1) (HonestProof.proof ⟨3, 3⟩ ⟨3, 3⟩ 3 0) :=
  HonestProof.fits (by norm_num) _ _ _ _ _

/-- ... a proof is accepted (over a toy permutation, for which challenges are easily computed)... -/
example : Sat (verify (fun _ => pure fun _ => emb 3) (HonestProof.data 62) HonestProof.gates
    (HonestProof.proof ⟨3, 3⟩ ⟨3, 3⟩ 3 0).enc [emb 5, emb 6] (HonestProof.vd 1)) () := by
  have hf := HonestProof.fits (b := 62) (by norm_num) 1 ⟨3, 3⟩ ⟨3, 3⟩ 3 0
  refine (C58_exact (P := HonestProof.three) (fun s => ?_) _ _ _ _ (fits_to_enc hf) _).1.2
    ⟨_, rfl, ?_, HonestProof.accepts_three 1 0 _⟩
  · exact (den_eq_pure_iff _ _).1 (den_pure _)
  · intro v hv
    simp only [List.mem_cons, List.not_mem_nil, or_false] at hv
    rcases hv with rfl | rfl <;> exact (canonical_emb _).trans (by norm_num [p])

/-- ... and another one is not, in any way (its proof of work is one bit short). -/
example : ¬ Sat (verify (fun _ => pure fun _ => emb 3) (HonestProof.data 63) HonestProof.gates
    (HonestProof.proof ⟨3, 3⟩ ⟨3, 3⟩ 3 0).enc [] (HonestProof.vd 1)) () := by
  have hf := HonestProof.fits (b := 63) (by norm_num) 1 ⟨3, 3⟩ ⟨3, 3⟩ 3 0
  rw [(C58_exact (P := HonestProof.three) (fun s => (den_eq_pure_iff _ _).1 (den_pure _)) _ _ _ _
    (fits_to_enc hf) _).1]
  rintro ⟨x, -, -, h⟩
  have h1 := h.fri.pow
  have h2 : (Spec.challenges HonestProof.three 1 1 (HonestProof.vd 1).circuitDigest
      (inputsHash HonestProof.three ([].map residue)) x).friChallenges.powResponse = 3 := by
    rw [Spec.challenges, HonestProof.outputs_three, nsq_transcript]
    simp [Spec.challengesOf, List.getD_eq_getElem?_getD]
  have h3 : (3 : Fp).val < 2 ^ (64 - 63) := by rw [← h2]; exact h1
  revert h3
  decide +kernel

/-! ## C59 -/

/-- **C59** public inputs with equal residues modulo `p` have the same admitted hashes, with the code's
permutation... -/
theorem C59_aliases (pis pis' : List Fr) (h : pis.map residue = pis'.map residue)
    (hb : ∀ v ∈ pis, v.val < 2 ^ 144 * p) (hb' : ∀ v ∈ pis', v.val < 2 ^ 144 * p) (y : Fin 4 → Fr) :
    Sat (getPublicInputsHash poseidon pis) y ↔ Sat (getPublicInputsHash poseidon pis') y := by
  have e : den (getPublicInputsHash poseidon pis) = den (getPublicInputsHash poseidon pis') := by
    rw [getPublicInputsHash, getPublicInputsHash, hashNoPadWith, hashNoPadWith, den_bind, den_bind,
      den_mapM_reduce_all, den_mapM_reduce_all, Den.assert_true hb, Den.assert_true hb', h]
  exact iff_of_eq (congrFun (congrArg Den.sat e) y)

/-- `7 + p, 3` and `7, 3 + 2p`. -/
example (y : Fin 4 → Fr) : Sat (getPublicInputsHash poseidon [((7 + p : ℕ) : Fr), ((3 : ℕ) : Fr)]) y ↔
    Sat (getPublicInputsHash poseidon [((7 : ℕ) : Fr), ((3 + 2 * p : ℕ) : Fr)]) y := by
  have hv : ∀ n : ℕ, n < 2 ^ 100 → ((n : ℕ) : Fr).val = n := fun n hn => val_natCast_of_lt (hn.trans (by norm_num [r]))
  refine C59_aliases _ _ ?_ ?_ ?_ y
  · simp only [List.map_cons, List.map_nil, Spec.residue, hv _ (show 7 + p < 2 ^ 100 by norm_num [p]), hv 7 (by norm_num),
      hv 3 (by norm_num), hv (3 + 2 * p) (by norm_num [p])]
    push_cast
    simp
  all_goals
    intro v h
    simp only [List.mem_cons, List.not_mem_nil, or_false] at h
    rcases h with rfl | rfl <;> rw [hv _ (by norm_num [p])] <;> norm_num [p]

/-- **C59** ... and the same verdict of the whole verifier... -/
theorem C59_aliases_verify (c : CommonCircuitData) (gates : List Gates.Gate) (vd : VerifierOnlyCircuitData)
    (proof : Proof Fr QEV) (pis pis' : List Fr) (h : pis.map residue = pis'.map residue)
    (hb : ∀ v ∈ pis, v.val < 2 ^ 144 * p) (hb' : ∀ v ∈ pis', v.val < 2 ^ 144 * p) :
    Sat (verify poseidon c gates proof pis vd) () ↔ Sat (verify poseidon c gates proof pis' vd) () := by
  rw [verify_eq, verify_eq, sat_bind, sat_bind]
  simp only [sat_bind, C59_aliases pis pis' h hb hb']

/-- **C59** ... in particular `x` and `x + p`. -/
theorem C59_add_p (pre post : List Fr) (x : ℕ) (hx : x + p < 2 ^ 144 * p)
    (hpre : ∀ v ∈ pre, v.val < 2 ^ 144 * p) (hpost : ∀ v ∈ post, v.val < 2 ^ 144 * p) :
    (((x + p : ℕ) : Fr) ≠ ((x : ℕ) : Fr)) ∧ ∀ y,
      Sat (getPublicInputsHash poseidon (pre ++ ((x + p : ℕ) : Fr) :: post)) y ↔
      Sat (getPublicInputsHash poseidon (pre ++ ((x : ℕ) : Fr) :: post)) y := by
  have hr : 2 ^ 144 * p < r := by norm_num [p, r]
  have v1 := val_natCast_of_lt (show x + p < r by omega)
  have v2 := val_natCast_of_lt (show x < r by omega)
  refine ⟨fun e => ?_, fun y => C59_aliases _ _ ?_ ?_ ?_ y⟩
  · have := congrArg ZMod.val e
    rw [v1, v2] at this
    have : 0 < p := by norm_num [p]
    omega
  · simp only [List.map_append, List.map_cons, residue, v1, v2]
    rw [Nat.cast_add, show ((p : ℕ) : Fp) = 0 from ZMod.natCast_self p, add_zero]
  · intro v hv
    rcases List.mem_append.1 hv with hv | hv
    · exact hpre v hv
    · rcases List.mem_cons.1 hv with rfl | hv
      · rw [v1]; exact hx
      · exact hpost v hv
  · intro v hv
    rcases List.mem_append.1 hv with hv | hv
    · exact hpre v hv
    · rcases List.mem_cons.1 hv with rfl | hv
      · rw [v2]; omega
      · exact hpost v hv

/-- **C59** the reduction identifies no two canonical vectors: it is the identity on them. -/
theorem C59_canonical (inputs : List Fp) : Computes ((inputs.map emb).mapM reduce) (inputs.map emb) := by
  have h : ∀ v ∈ inputs.map emb, v.val < 2 ^ 144 * p := by
    intro v hv
    obtain ⟨a, -, rfl⟩ := List.mem_map.1 hv
    exact (canonical_emb a).trans (by norm_num [p])
  refine (den_eq_pure_iff _ _).1 ?_
  rw [den_mapM_reduce_all, Den.assert_true h, pure_bind, List.map_map, List.map_map]
  refine congrArg pure (List.map_congr_left fun a _ => ?_)
  exact emb_residue (canonical_emb a)

/-- **C59** public inputs of `2^144 p` or more are rejected whatever the prover does. -/
theorem C59_too_large (pis : List Fr) (h : ¬ ∀ v ∈ pis, v.val < 2 ^ 144 * p) :
    Unsat (getPublicInputsHash poseidon pis) := by
  refine den_eq_fail ?_
  rw [getPublicInputsHash, hashNoPadWith, den_bind, den_mapM_reduce_all, Den.assert_false h]
  simp only [Den.fail_bind]

/-- `7` and `7 + p` among other public inputs. -/
example : ∀ y, Sat (getPublicInputsHash poseidon [1, ((7 + p : ℕ) : Fr), 3]) y ↔
    Sat (getPublicInputsHash poseidon [1, ((7 : ℕ) : Fr), 3]) y := by
  have h1 : ∀ n : ℕ, n < 5 → ((n : ℕ) : Fr).val < 2 ^ 144 * p := fun n hn => by
    rw [val_natCast_of_lt (hn.trans (by norm_num [r]))]; exact hn.trans (by norm_num [p])
  refine (C59_add_p [1] [3] 7 (by norm_num [p]) ?_ ?_).2
  · intro v hv
    obtain rfl : v = 1 := by simpa using hv
    exact_mod_cast h1 1 (by norm_num)
  · intro v hv
    obtain rfl : v = 3 := by simpa using hv
    exact_mod_cast h1 3 (by norm_num)

/-! ## C67 -/

/-- **C67** for a supported circuit whose gates fit the opened constants and wires, generation of the verifier circuit
succeeds exactly when every list is as long as the circuit requires: constraints, shifts and openings of the PLONK check,
the initial caps, the opening proof (exactly the sizes prescribed by the FRI parameters, as many rounds as *both* copies
of the FRI configuration say, a cap for each reduction).  In every other case it panics. -/
theorem C67_generation (c : CommonCircuitData) (gates : List Gates.Gate) (vd : VerifierOnlyCircuitData)
    (proof : Proof Fr QEV) (pis : List Fr)
    (hdeg : c.degreeBits ≤ 32) (hq : c.quotientDegreeFactor ≠ 0) (hn : c.config.numChallenges ≠ 0)
    (hg : ∀ gi ∈ gates.zipIdx, Spec.Gates.GateOk c.selectorsInfo proof.openings.constants.length
      proof.openings.wires.length gi.1 gi.2)
    (hd : 4 ≤ c.friParams.degreeBits + c.friParams.config.rateBits ∧
      c.friParams.degreeBits + c.friParams.config.rateBits ≤ 32 ∧ c.friParams.config.rateBits ≤ 15 ∧
      c.friParams.config.capHeight = 4)
    (ha : ∀ a ∈ c.friParams.reductionArityBits, a = 4) :
    Generates (verify poseidon c gates proof pis vd)
      (((∀ gi ∈ gates.zipIdx, ∀ x, (Spec.Gates.constraints gi.1 x).length ≤ c.numGateConstraints) ∧
        (c.numPartialProducts + 1) * c.quotientDegreeFactor ≤ c.config.numRoutedWires ∧
        c.config.numRoutedWires ≤ c.kIs.length ∧
        c.config.numRoutedWires ≤ proof.openings.wires.length ∧
        c.config.numRoutedWires ≤ proof.openings.plonkSigmas.length ∧
        c.config.numChallenges ≤ proof.openings.plonkZs.length ∧
        c.config.numChallenges ≤ proof.openings.plonkZsNext.length ∧
        c.config.numChallenges * c.numPartialProducts ≤ proof.openings.partialProducts.length ∧
        c.config.numChallenges * c.quotientDegreeFactor ≤ proof.openings.quotientPolys.length) ∧
      (Spec.Fri.ProofShape c.friParams (Spec.Fri.plonkInstance c 0) proof.openingProof ∧
        c.friParams.config.numQueryRounds = proof.openingProof.rounds.length ∧
        c.config.friConfig.numQueryRounds = proof.openingProof.rounds.length ∧
        (proof.openingProof.rounds = [] ∨
          c.friParams.reductionArityBits.length ≤ proof.openingProof.commitCaps.length)) ∧
      (proof.openingProof.rounds = [] ∨
        ∀ cap ∈ [vd.constantSigmasCap, proof.wiresCap, proof.plonkZsPartialProductsCap, proof.quotientPolysCap],
          cap.length = 16)) := by
  have e := generates_verify_sizes NoPanic.poseidon (vd := vd) (proof := proof) pis hdeg hq hn hg hd ha
  have hc : (∀ gi ∈ gates.zipIdx, constraintCount gi.1 ≤ c.numGateConstraints) ↔
      ∀ gi ∈ gates.zipIdx, ∀ x, (Spec.Gates.constraints gi.1 x).length ≤ c.numGateConstraints := by
    simp only [length_constraints]
    exact forall₂_congr fun gi _ => ⟨fun h _ => h, fun h => h ⟨fun _ => 0, fun _ => 0, fun _ => 0⟩⟩
  rwa [PlonkSizes, hc] at e

/-- **C67** the values do not matter: generation succeeds for a proof and public inputs exactly when it does for lists of
zeros of the same lengths and any other public inputs. -/
theorem C67_values (c : CommonCircuitData) (gates : List Gates.Gate) (vd : VerifierOnlyCircuitData)
    (proof : Proof Fr QEV) (pis pis' : List Fr)
    (hdeg : c.degreeBits ≤ 32) (hq : c.quotientDegreeFactor ≠ 0) (hn : c.config.numChallenges ≠ 0)
    (hg : ∀ gi ∈ gates.zipIdx, Spec.Gates.GateOk c.selectorsInfo proof.openings.constants.length
      proof.openings.wires.length gi.1 gi.2)
    (hd : 4 ≤ c.friParams.degreeBits + c.friParams.config.rateBits ∧
      c.friParams.degreeBits + c.friParams.config.rateBits ≤ 32 ∧ c.friParams.config.rateBits ≤ 15 ∧
      c.friParams.config.capHeight = 4)
    (ha : ∀ a ∈ c.friParams.reductionArityBits, a = 4) :
    NoPanic (verify poseidon c gates proof pis vd) ↔ NoPanic (verify poseidon c gates (zeros proof) pis' vd) := by
  rw [(C67_generation c gates vd proof pis hdeg hq hn hg hd ha).iff,
    (C67_generation c gates vd (zeros proof) pis' hdeg hq hn (by simpa [zeros] using hg) hd ha).iff, shape_zeros]
  simp [zeros]

/-- Generation succeeds for the honest proof... -/
theorem noPanic_honest : NoPanic (verify poseidon (HonestProof.data 62) HonestProof.gates (HonestProof.proof ⟨3, 3⟩ ⟨3, 3⟩ 3 0).enc
    [5, 6] (HonestProof.vd 1)) := by
  have hf := HonestProof.fits (b := 62) (by norm_num) 1 ⟨3, 3⟩ ⟨3, 3⟩ 3 0
  have hf := fits_to_enc hf
  refine (C67_generation _ _ _ _ _ hf.degree hf.factor (by simp [HonestProof.data]) hf.gatesOk hf.domain hf.arities).1
    ⟨⟨hf.counts, hf.chunks, hf.kIs, hf.wires, hf.sigmas, hf.zs, hf.zsNext, hf.partialProducts, hf.quotients⟩,
      ⟨shape_congr (by rfl) ((Fri.proofShape_enc _ _ _).2 (HonestProof.accepts_three 1 0 []).fri.shape), rfl, rfl,
        Or.inr (Nat.zero_le _)⟩, Or.inr ?_⟩
  obtain ⟨h1, h2, h3, h4⟩ := hf.caps
  simp [h1, h2, h3, h4]

/-- ... and panics when the two copies of the configuration differ. -/
example (c : CommonCircuitData) (gates : List Gates.Gate) (vd : VerifierOnlyCircuitData) (proof : Proof Fr QEV)
    (pis : List Fr) (hf : Fits c gates vd proof) (hn : c.config.numChallenges ≠ 0)
    (h : c.friParams.config.numQueryRounds ≠ c.config.friConfig.numQueryRounds) :
    Panics (verify poseidon c gates proof pis vd) :=
  (C67_generation c gates vd proof pis hf.degree hf.factor hn hf.gatesOk hf.domain hf.arities).2 fun e =>
    h (e.2.1.2.1.trans e.2.1.2.2.1.symm)

end Verif
