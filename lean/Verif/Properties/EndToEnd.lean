import Verif.Proofs.EndToEnd
import Verif.Properties.Freedom
import Verif.Properties.Prover

/-!
# Property C76: soundness of the whole verifier

`Spec/Traps.lean` says which challenges count as exceptional: sets of values of each challenge, fixed by what precedes it
in the transcript, and small.
-/

set_option autoImplicit false

namespace Verif

open Circ Polynomial Spec Spec.Prover Spec.Verifier PoseidonGL
open Spec.Plonk (Trace Proper n AtMost)
open Spec.Fri (Evaluated)

variable {c : CommonCircuitData} {gates : List Gates.Gate} {t : Trace} {k : ℕ → ℕ}
  {s : Equiv.Perm (Fin (n c) × Fin c.config.numRoutedWires)}

/-- **C76** Fix a circuit (the constants and sigmas of `t`), the inputs at which the hashes are evaluated, containing those
of the circuit's tree and no collision, and a number of errors `e` below half the minimum distance of the code.  Every cap
determines wires of degree at most `n`, the committed ones for an honest tree, and for every hash of public inputs there
are few exceptional challenges, such that the checks of the verifier hold only if the wires of the proof's cap satisfy the
circuit or the challenges are exceptional. -/
theorem C76_sound (hc : Proper c gates) (hf : FriOk c) (ht : t.Fits c) (hk : t.Selects c gates k) (hs : t.Routes c s) (e : ℕ)
    (he : 2 * e + n c < 2 ^ (c.friParams.degreeBits + c.friParams.config.rateBits)) (H : Evaluated) (hH : H.CollisionFree)
    (hO : H.Oracle (c.friParams.degreeBits + c.friParams.config.rateBits) (circuitOracle t)) :
    ∃ wires : List Fr → List Fp[X],
      (∀ w, (wires w).length = c.config.numWires ∧ AtMost (n c) (wires w)) ∧
      (∀ ws salt, ws.length = c.config.numWires → AtMost (n c) ws →
        (∀ u, (salt u).length = if c.friParams.isHiding then 4 else 0) →
        H.Oracle (c.friParams.degreeBits + c.friParams.config.rateBits) ⟨ws, salt⟩ → wires (cap c ⟨ws, salt⟩) = ws) ∧
    ∀ h : Fin 4 → Fp, ∃ T : Traps, T.Small c e ∧
    ∀ (vd : VerifierOnlyCircuitData) (x : Proof Fp QE) (inputs : List Fp) (ch : ProofChallenges Fp QE),
      vd.constantSigmasCap = cap c (circuitOracle t) → Shaped c x inputs →
      H.Proof (c.friParams.degreeBits + c.friParams.config.rateBits) ch.friChallenges.queryIndices x.openingProof →
      Checks c gates vd x h ch →
      Trace.Satisfies c gates { t with wires := wires x.wiresCap } k s h ∨ T.Hit c x ch :=
  EndToEnd.sound hc hf ht hk hs he hH hO

/-- A proof over the Goldilocks field has the sizes of its circuit form. -/
theorem shaped_of_enc {x : Proof Fp QE} {pis : List Fr} (h : Shaped c x.enc pis) : Shaped c x (pis.map residue) := by
  obtain ⟨ho, h2, h3⟩ := h
  exact ⟨⟨by simpa [Proof.enc, OpeningSet.enc] using ho.constants, by simpa [Proof.enc, OpeningSet.enc] using ho.plonkSigmas,
    by simpa [Proof.enc, OpeningSet.enc] using ho.wires, by simpa [Proof.enc, OpeningSet.enc] using ho.plonkZs,
    by simpa [Proof.enc, OpeningSet.enc] using ho.plonkZsNext, by simpa [Proof.enc, OpeningSet.enc] using ho.partialProducts,
    by simpa [Proof.enc, OpeningSet.enc] using ho.quotientPolys⟩, h2, by simpa using h3⟩

/-- **C76** the circuit, with a permutation circuit that computes `P`: whatever satisfies it is a proof over the Goldilocks
field, and either the wires of its cap satisfy the circuit it claims to satisfy, or the challenges of its own transcript
over `P` are exceptional, or its Merkle paths use evaluations outside of `H`. -/
theorem C76_circuit (hc : Proper c gates) (hf : FriOk c) (ht : t.Fits c) (hk : t.Selects c gates k) (hs : t.Routes c s) (e : ℕ)
    (he : 2 * e + n c < 2 ^ (c.friParams.degreeBits + c.friParams.config.rateBits)) (H : Evaluated) (hH : H.CollisionFree)
    (hO : H.Oracle (c.friParams.degreeBits + c.friParams.config.rateBits) (circuitOracle t)) :
    ∃ (wires : List Fr → List Fp[X]) (T : (Fin 4 → Fp) → Traps), (∀ h, (T h).Small c e) ∧
    ∀ (perm : State → Circ State) (P : (Fin 12 → Fp) → Fin 12 → Fp),
      (∀ s : Fin 12 → Fp, Computes (perm fun i => emb (s i)) fun i => emb (P s i)) →
    ∀ (vd : VerifierOnlyCircuitData) (proof : Proof Fr QEV) (pis : List Fr),
      vd.constantSigmasCap = cap c (circuitOracle t) → Shaped c proof pis →
      Sat (Verif.Verifier.verify perm c gates proof pis vd) () →
      ∃ x : Proof Fp QE, proof = x.enc ∧ Accepts P c gates vd x (pis.map residue) ∧
      let h := inputsHash P (pis.map residue)
      let ch := challenges P c.config.numChallenges c.config.friConfig.numQueryRounds vd.circuitDigest h x
      H.Proof (c.friParams.degreeBits + c.friParams.config.rateBits) ch.friChallenges.queryIndices x.openingProof →
      Trace.Satisfies c gates { t with wires := wires x.wiresCap } k s h ∨ (T h).Hit c x ch := by
  obtain ⟨wires, -, -, h⟩ := C76_sound hc hf ht hk hs e he H hH hO
  choose T hT h using h
  refine ⟨wires, T, hT, fun perm P hP vd proof pis hvd hp hsat => ?_⟩
  have hsup := EndToEnd.supported (vd := vd) hc hf (by rw [hvd, Prover.length_cap])
  obtain ⟨x, rfl, -, hx⟩ := (C58_exact hP c gates vd proof (fits_of_shaped hsup hp) pis).1.1 hsat
  exact ⟨x, rfl, hx, fun hH => h _ vd x _ _ hvd (shaped_of_enc hp) hH hx⟩

/-- **C76** the code's own circuit, whose permutation leaves some freedom (C70): the same for the hash and the challenges of
some run of the transcript with freely chosen S-boxes. -/
theorem C76_code (hc : Proper c gates) (hf : FriOk c) (ht : t.Fits c) (hk : t.Selects c gates k) (hs : t.Routes c s) (e : ℕ)
    (he : 2 * e + n c < 2 ^ (c.friParams.degreeBits + c.friParams.config.rateBits)) (H : Evaluated) (hH : H.CollisionFree)
    (hO : H.Oracle (c.friParams.degreeBits + c.friParams.config.rateBits) (circuitOracle t)) :
    ∃ (wires : List Fr → List Fp[X]) (T : (Fin 4 → Fp) → Traps), (∀ h, (T h).Small c e) ∧
    ∀ (vd : VerifierOnlyCircuitData) (proof : Proof Fr QEV) (pis : List Fr),
      vd.constantSigmasCap = cap c (circuitOracle t) → Shaped c proof pis →
      Sat (Verif.Verifier.verify poseidon c gates proof pis vd) () →
      ∃ (x : Proof Fp QE) (h : Fin 4 → Fp) (o : List Fp) (conf : Free.Conf), proof = x.enc ∧
      Free.Hash (Free.Perm Free.SBox) (pis.map residue) h ∧
      Free.Run (Free.Perm Free.SBox)
        (transcript c.config.numChallenges c.config.friConfig.numQueryRounds vd.circuitDigest h x) .init o conf ∧
      let ch := challengesOf c.config.numChallenges x.openingProof.commitCaps.length o
      (H.Proof (c.friParams.degreeBits + c.friParams.config.rateBits) ch.friChallenges.queryIndices x.openingProof →
      Trace.Satisfies c gates { t with wires := wires x.wiresCap } k s h ∨ (T h).Hit c x ch) := by
  obtain ⟨wires, -, -, h⟩ := C76_sound hc hf ht hk hs e he H hH hO
  choose T hT h using h
  refine ⟨wires, T, hT, fun vd proof pis hvd hp hsat => ?_⟩
  have hsup := EndToEnd.supported (vd := vd) hc hf (by rw [hvd, Prover.length_cap])
  obtain ⟨x, rfl, -, hh, o, conf, h1, h2, h3⟩ := (C70_exact c gates vd proof (fits_of_shaped hsup hp) pis).1 hsat
  exact ⟨x, hh, o, conf, rfl, h1, h2, fun hH => h _ vd x _ _ hvd (shaped_of_enc hp) hH h3⟩

/-! ## An unsatisfiable circuit -/

/-- The circuit of `HonestProof.data`, with other constants: in row `m` the wire must be `g^m`, but all rows are connected. -/
noncomputable def badTrace : Trace where
  constants := [C 0, X]
  sigmas := [C (Spec.Fri.omega 2) * X]
  wires := [0]

/-- Every row is connected to the next. -/
def badPerm : Equiv.Perm (Fin 4 × Fin 1) := Equiv.prodCongrLeft fun _ => Equiv.addRight 1

theorem data_proper (b : ℕ) : Proper (HonestProof.data b) HonestProof.gates := by
  have hz : ∀ gi ∈ List.zipIdx HonestProof.gates, gi = (.constant 1, 0) := by simp [List.zipIdx, HonestProof.gates]
  refine ⟨by simp [HonestProof.data], by simp [HonestProof.data], by simp [HonestProof.data], by simp [HonestProof.data],
    ?_, ?_, ?_, by simp [HonestProof.data, HonestProof.gates], by simp [HonestProof.data, HonestProof.gates],
    by simp [HonestProof.data], by norm_num [HonestProof.data, p], ?_⟩
  · rintro gi hgi
    rw [hz gi hgi]
    exact ⟨by simp [HonestProof.data], by simp [HonestProof.data], by norm_num [HonestProof.data, p],
      by simp [HonestProof.data], by norm_num [Spec.Gates.Fits, HonestProof.data]⟩
  · rintro gi hgi x
    rw [hz gi hgi]
    simp [Spec.Gates.constraints, Spec.Gates.constant, HonestProof.data]
  · rintro gi hgi
    rw [hz gi hgi]
    simp [Spec.Gates.degree, Spec.Gates.filterDegree, HonestProof.data]
  · rintro ⟨m, j⟩ ⟨m', j'⟩ h
    have hj : ∀ j : Fin 1, j = 0 := fun j => Fin.fin_one_eq_zero j
    obtain rfl : j = j' := (hj j).trans (hj j').symm
    have h : (([1].getD j 0 : ℕ) : Fp) * Spec.Fri.omega 2 ^ (m : ℕ) = (([1].getD j 0 : ℕ) : Fp) * Spec.Fri.omega 2 ^ (m' : ℕ) := h
    have h1 : (([1].getD j 0 : ℕ) : Fp) = 1 := by rw [hj j]; rfl
    rw [h1, one_mul, one_mul] at h
    have h2 := Plonk.omega_injOn (c := HonestProof.data b) (by norm_num [HonestProof.data]) (Finset.mem_coe.2 (Finset.mem_range.2 m.2))
      (Finset.mem_coe.2 (Finset.mem_range.2 m'.2)) h
    rw [Fin.ext h2]

theorem data_friOk {b : ℕ} (hb : b ≤ 64) : FriOk (HonestProof.data b) :=
  ⟨rfl, rfl, by norm_num [HonestProof.data], hb, by simp [HonestProof.data], by simp [HonestProof.data], by simp [HonestProof.data]⟩

theorem badTrace_fits (b : ℕ) : badTrace.Fits (HonestProof.data b) := by
  have h4 : ((2 : ℕ) : WithBot ℕ) ≤ (2 : WithBot ℕ) ^ 2 := by norm_num
  refine ⟨⟨rfl, rfl, rfl⟩, ⟨?_, ?_, ?_⟩⟩
  · intro f hf
    simp only [badTrace, List.mem_cons, List.not_mem_nil, or_false] at hf
    rcases hf with rfl | rfl
    · exact lt_of_lt_of_le (lt_of_le_of_lt degree_C_le (by norm_num)) h4
    · exact lt_of_lt_of_le (lt_of_le_of_lt degree_X_le (by norm_num)) h4
  · intro f hf
    simp only [badTrace, List.mem_cons, List.not_mem_nil, or_false] at hf
    subst hf
    exact lt_of_lt_of_le (lt_of_le_of_lt (degree_C_mul_X_le _) (by norm_num)) h4
  · intro f hf
    simp only [badTrace, List.mem_cons, List.not_mem_nil, or_false] at hf
    subst hf
    rw [degree_zero]
    exact WithBot.bot_lt_coe 4

theorem badTrace_selects (b : ℕ) : badTrace.Selects (HonestProof.data b) HonestProof.gates fun _ => 0 := by
  refine fun m _ => ⟨Nat.one_pos, ?_, ?_⟩
  · simp [badTrace, HonestProof.data]
  · intro s hs
    have : s = 0 := by simpa [HonestProof.data] using hs
    simp [this, HonestProof.data]

theorem badTrace_routes (b : ℕ) : badTrace.Routes (HonestProof.data b) badPerm := by
  have main : ∀ (m : Fin 4) (j : Fin 1), (badTrace.sigmas.getD j 0).eval (Spec.Fri.omega 2 ^ (m : ℕ)) =
      Plonk.name (HonestProof.data b) (badPerm (m, j)).1 (badPerm (m, j)).2 := by
    intro m j
    obtain rfl : j = 0 := Fin.fin_one_eq_zero j
    have h1 : ((badPerm (m, 0)).1 : ℕ) = (m + 1) % 4 := by
      show ((m + 1 : Fin 4) : ℕ) = _
      rw [Fin.val_add]; rfl
    have h4 : Spec.Fri.omega 2 ^ (((m : ℕ) + 1) % 4) = Spec.Fri.omega 2 ^ ((m : ℕ) + 1) := by
      have := pow_mod_orderOf (Spec.Fri.omega 2) ((m : ℕ) + 1)
      rwa [Fri.orderOf_omega (by norm_num)] at this
    have h5 : Plonk.name (HonestProof.data b) (badPerm (m, 0)).1 (badPerm (m, 0)).2 =
        ((1 : ℕ) : Fp) * Spec.Fri.omega 2 ^ ((badPerm (m, 0)).1 : ℕ) := rfl
    rw [h5, h1, h4]
    have h6 : badTrace.sigmas.getD ((0 : Fin 1) : ℕ) 0 = C (Spec.Fri.omega 2) * X := rfl
    rw [h6, eval_mul, eval_C, eval_X, Nat.cast_one, one_mul, pow_succ, mul_comm]
  exact main

/-- No wires satisfy this circuit. -/
theorem badTrace_unsatisfiable (b : ℕ) (ws : List Fp[X]) (h : Fin 4 → Fp) :
    ¬ Trace.Satisfies (HonestProof.data b) HonestProof.gates { badTrace with wires := ws } (fun _ => 0) badPerm h := by
  rintro ⟨h1, h2⟩
  have hw : ∀ m < 4, (ws.getD 0 0).eval (Spec.Fri.omega 2 ^ m) = Spec.Fri.omega 2 ^ m := by
    intro m hm
    have := h1 m hm _ rfl
    have hx : ∀ y ∈ [ofBase ((X : Fp[X]).eval (Spec.Fri.omega 2 ^ m)) - ofBase ((ws.getD 0 0).eval (Spec.Fri.omega 2 ^ m))],
      y = 0 := this
    have h := sub_eq_zero.1 (hx _ (List.mem_singleton.2 rfl))
    rw [eval_X] at h
    exact (Plonk.ofBase_inj.1 h).symm
  have h3 : ∀ (m : Fin 4) (j : Fin 1), (ws.getD j 0).eval (Spec.Fri.omega 2 ^ (m : ℕ)) =
      (ws.getD (badPerm (m, j)).2 0).eval (Spec.Fri.omega 2 ^ ((badPerm (m, j)).1 : ℕ)) := h2
  have h4 : (ws.getD 0 0).eval (Spec.Fri.omega 2 ^ 0) = (ws.getD 0 0).eval (Spec.Fri.omega 2 ^ 1) := h3 0 0
  rw [hw 0 (by norm_num), hw 1 (by norm_num)] at h4
  have := Plonk.omega_injOn (c := HonestProof.data b) (by norm_num [HonestProof.data])
    (Finset.mem_coe.2 (Finset.mem_range.2 (show 0 < 4 by norm_num))) (Finset.mem_coe.2 (Finset.mem_range.2 (show 1 < 4 by norm_num))) h4
  exact absurd this (by norm_num)

/-- All leaves that are packed without hashing. -/
def shortLeaves : Evaluated := ⟨∅, {l | l.length ≤ 3 ∧ ∀ x ∈ l, x.val < 2 ^ 64}⟩

theorem shortLeaves_collisionFree : shortLeaves.CollisionFree := by
  refine ⟨fun a ha => absurd ha (Set.notMem_empty a), fun l hl l' hl' hlen h => ?_⟩
  rw [BN.leaf, BN.leaf, if_pos hl.1, if_pos hl'.1] at h
  exact PoseidonBN.pack_inj l l' hlen hl.1 hl.2 hl'.2 h

theorem shortLeaves_path (m w : ℕ) (l : List Fp) (hl : l.length ≤ 3) : shortLeaves.Path m w (l.map emb) [] := by
  refine ⟨⟨by simpa using hl, fun x hx => ?_⟩, ?_⟩
  · obtain ⟨a, -, rfl⟩ := List.mem_map.1 hx
    exact (emb_lt a).trans (by norm_num [p])
  · rw [List.zip_nil_right]
    simp [Merkle.inputs]

theorem shortLeaves_proof {b : ℕ} {vd : VerifierOnlyCircuitData} {x : Proof Fp QE} {h : Fin 4 → Fp} {ch : ProofChallenges Fp QE}
    (hacc : Checks (HonestProof.data b) HonestProof.gates vd x h ch) :
    shortLeaves.Proof ((HonestProof.data b).friParams.degreeBits + (HonestProof.data b).friParams.config.rateBits)
      ch.friChallenges.queryIndices x.openingProof := by
  intro i z round hi hr
  have hshape := hacc.fri.shape.rounds round (List.mem_of_getElem? hr)
  refine ⟨fun e he => ?_, fun j s hs => ?_⟩
  · obtain ⟨i, hi, rfl⟩ := List.getElem_of_mem he
    have hi' : i < 4 := lt_of_lt_of_eq hi hshape.initial.1
    obtain ⟨o, ho⟩ : ∃ o, [OracleInfo.mk 3 false, ⟨1, true⟩, ⟨1, true⟩, ⟨1, true⟩][i]? = some o :=
      ⟨_, List.getElem?_eq_getElem hi'⟩
    obtain ⟨h1, h2⟩ := hshape.initial.2 i _ o (List.getElem?_eq_getElem hi) ho
    have h3 : o.numPolys ≤ 3 := by
      have := List.mem_of_getElem? ho
      simp only [List.mem_cons, List.not_mem_nil, or_false] at this
      rcases this with rfl | rfl | rfl | rfl <;> norm_num
    have h4 : round.initial[i].siblings = [] := List.eq_nil_of_length_eq_zero (by simpa [HonestProof.data] using h2)
    rw [h4]
    exact shortLeaves_path _ _ _ (by rw [h1]; simpa [HonestProof.data] using h3)
  · have : round.steps = [] := List.eq_nil_of_length_eq_zero (by simpa [HonestProof.data] using hshape.steps.1)
    simp [this] at hs

/-- No assumption on hashes is left for this circuit, whose trees consist of a cap of short leaves: whatever proof and
public inputs satisfy the verifier circuit, over whatever permutation, the challenges are exceptional. -/
example (b : ℕ) (hb : b ≤ 64) : ∃ T : (Fin 4 → Fp) → Traps, (∀ h, (T h).Small (HonestProof.data b) 5) ∧
    ∀ (perm : State → Circ State) (P : (Fin 12 → Fp) → Fin 12 → Fp),
      (∀ s : Fin 12 → Fp, Computes (perm fun i => emb (s i)) fun i => emb (P s i)) →
    ∀ (digest : Fr) (proof : Proof Fr QEV) (pis : List Fr), Shaped (HonestProof.data b) proof pis →
      Sat (Verif.Verifier.verify perm (HonestProof.data b) HonestProof.gates proof pis
        ⟨cap (HonestProof.data b) (circuitOracle badTrace), digest⟩) () →
      ∃ x : Proof Fp QE, proof = x.enc ∧ (T (inputsHash P (pis.map residue))).Hit (HonestProof.data b) x
        (challenges P 1 1 digest (inputsHash P (pis.map residue)) x) := by
  obtain ⟨wires, T, hT, h⟩ := C76_circuit (data_proper b) (data_friOk hb) (badTrace_fits b) (badTrace_selects b)
    (badTrace_routes b) 5 (by norm_num [HonestProof.data, n]) shortLeaves shortLeaves_collisionFree
    (fun v _ => shortLeaves_path _ _ _ (by simp [Fri.Prover.Oracle.leaf, circuitOracle, badTrace]))
  refine ⟨T, hT, fun perm P hP digest proof pis hp hsat => ?_⟩
  obtain ⟨x, hx, hacc, h⟩ := h perm P hP _ proof pis rfl hp hsat
  exact ⟨x, hx, (h (shortLeaves_proof hacc)).resolve_left (badTrace_unsatisfiable b _ _)⟩

end Verif
