import Verif.Proofs.HonestProof
import Verif.Proofs.ChallengerHistory

/-!
# Properties C29–C32: challenger and Fiat–Shamir challenges

Histories of API calls are lists of `Op` (`Spec/ChallengerHistory.lean`).  C32 is violated by the code (its Goldilocks permutation is not uniquely
determined); the violation is proved, the part that holds for a sound permutation is `_partial`.
-/

set_option autoImplicit false

namespace Verif

open Circ PoseidonGL Spec Challenger

/-! ## C29 -/

/-- **C29** for every history of calls whose operands are within the bounds of `Reduce`, and every permutation circuit
computing `P`: the results are the outputs of the duplex sponge over `P`. -/
theorem C29_sponge {perm : State → Circ State} {P : (Fin 12 → Fp) → Fin 12 → Fp}
    (h : ∀ s : Fin 12 → Fp, Computes (perm fun i => emb (s i)) fun i => emb (P s i))
    (ops : List Op) (hops : ∀ op ∈ ops, ∀ x ∈ op.operands, x.val < 2 ^ 144 * p) :
    Computes (do let r ← execAll perm ops newChip; pure r.1)
      ((Sponge.init.outputs P (ops.flatMap Op.events)).map emb) := by
  refine (den_eq_pure_iff _ _).1 ?_
  rw [den_bind, chip_init (P := P), (tracks_execAll (fun s => (den_eq_pure_iff _ _).2 (h s)) ops hops).2 _
    (fun x hx => absurd hx List.not_mem_nil), pure_bind, den_pure]

/-- **C29** the code's own permutation: the honest prover computes the outputs of the sponge over Poseidon. -/
theorem C29_sponge_honest (ops : List Op) (hops : ∀ op ∈ ops, ∀ x ∈ op.operands, x.val < 2 ^ 144 * p) :
    honest (do let r ← execAll poseidon ops newChip; pure r.1) =
      some ((Sponge.init.outputs Spec.poseidon (ops.flatMap Op.events)).map emb) := by
  refine (Ref.bind (ref_execAll cleanPerm_ref ops newChip) fun r => Ref.refl (pure r.1)).honest_of_den_pure ?_
  rw [den_bind, chip_init (P := Spec.poseidon), (tracks_execAll cleanPerm_exact ops hops).2 _
    (fun x hx => absurd hx List.not_mem_nil), pure_bind, den_pure]

/-- Small elements are within the bounds. -/
example : ∀ op ∈ [Op.observeElement 5, Op.observeElements [6]], ∀ x ∈ op.operands, x.val < 2 ^ 144 * p := by
  intro op hop x hx
  have : x = 5 ∨ x = 6 := by
    simp only [List.mem_cons, List.not_mem_nil, or_false] at hop
    rcases hop with rfl | rfl
    · exact .inl (List.mem_singleton.1 hx)
    · exact .inr (List.mem_singleton.1 hx)
  rcases this with rfl | rfl <;> decide +kernel

/-- **C29** how the elements are grouped into calls is invisible. -/
theorem C29_grouping {perm : State → Circ State} {P : (Fin 12 → Fp) → Fin 12 → Fp}
    (h : ∀ s : Fin 12 → Fp, Computes (perm fun i => emb (s i)) fun i => emb (P s i))
    (ops ops' : List Op) (hops : ∀ op ∈ ops, ∀ x ∈ op.operands, x.val < 2 ^ 144 * p)
    (e : ops.flatMap Op.events = ops'.flatMap Op.events) (y : List Fr) :
    Sat (do let r ← execAll perm ops newChip; pure r.1) y ↔ Sat (do let r ← execAll perm ops' newChip; pure r.1) y := by
  have hops' : ∀ op ∈ ops', ∀ x ∈ op.operands, x.val < 2 ^ 144 * p := by
    intro op hop x hx
    have hm : Ev.absorb x ∈ ops'.flatMap Op.events :=
      List.mem_flatMap.2 ⟨op, hop, List.mem_append_left _ (List.mem_map.2 ⟨x, hx, rfl⟩)⟩
    rw [← e] at hm
    obtain ⟨op', hop', hm⟩ := List.mem_flatMap.1 hm
    rcases List.mem_append.1 hm with hm | hm
    · obtain ⟨x', hx', e'⟩ := List.mem_map.1 hm
      cases e'
      exact hops op' hop' x hx'
    · exact absurd (List.eq_of_mem_replicate hm) (by simp)
  rw [(C29_sponge h ops hops).1, (C29_sponge h ops' hops').1, e]

/-- The permutation whose S-box reduces exactly, with an operand that is not canonical. -/
example : Computes (do let r ← execAll cleanPerm [.observeElements [5, (p : Fr) + 1], .getChallenge] newChip; pure r.1)
    ((Sponge.init.outputs Spec.poseidon [Ev.absorb 5, .absorb ((p : Fr) + 1), .squeeze]).map emb) := by
  refine C29_sponge (fun s => (den_eq_pure_iff _ _).1 (cleanPerm_exact s)) [.observeElements [5, (p : Fr) + 1], .getChallenge] ?_
  intro op hop x hx
  simp only [List.mem_cons, List.not_mem_nil, or_false] at hop
  rcases hop with rfl | rfl
  · simp only [Op.operands, List.mem_cons, List.not_mem_nil, or_false] at hx
    rcases hx with rfl | rfl <;> decide +kernel
  · simp [Op.operands] at hx

/-- Two groupings of the same elements. -/
example (y : List Fr) : Sat (do let r ← execAll cleanPerm [.observeElements [5, 6], .getNChallenges 2] newChip; pure r.1) y ↔
    Sat (do let r ← execAll cleanPerm [.observeElement 5, .observeElement 6, .getChallenge, .getChallenge] newChip; pure r.1) y := by
  have h := C29_grouping (P := Spec.poseidon) (fun s => (den_eq_pure_iff _ _).1 (cleanPerm_exact s))
    [.observeElements [5, 6], .getNChallenges 2] [.observeElement 5, .observeElement 6, .getChallenge, .getChallenge] ?_
    (by simp [Op.events, Op.operands, Op.results, absorbs, squeezes, List.replicate]) y
  · exact h
  intro op hop x hx
  simp only [List.mem_cons, List.not_mem_nil, or_false] at hop
  rcases hop with rfl | rfl
  · simp only [Op.operands, List.mem_cons, List.not_mem_nil, or_false] at hx
    rcases hx with rfl | rfl <;> decide +kernel
  · simp [Op.operands] at hx

/-- Nine elements observed, three challenges, one more element, one challenge: the nine elements take two blocks, the
challenges come from positions 7, 6, 5 and the next phase starts from the same state. -/
example (P : (Fin 12 → Fp) → Fin 12 → Fp) :
    Sponge.init.outputs P ([Op.observeElements [1, 2, 3, 4, 5, 6, 7, 8], .observeElement 9, .getNChallenges 2,
      .getChallenge, .observeElement 10, .getChallenge].flatMap Op.events) =
    (let s := absorb P (fun _ => 0) [[1, 2, 3, 4, 5, 6, 7, 8].map residue, [residue 9]]
     [s 7, s 6, s 5, absorb P s [[residue 10]] 7]) := by
  simp [Op.events, Op.operands, Op.results, absorbs, squeezes, List.replicate, Sponge.outputs, Sponge.step, Sponge.next,
    Sponge.soaked, Sponge.init]
  exact ⟨rfl, rfl, rfl, rfl⟩

/-! ## C30 -/

/-- **C30** in every history, with any operands and any hint values, the code's challenger does not panic and leaves
fewer than 8 elements in the input buffer and at most 8 in the output buffer. -/
theorem C30_safe (ops : List Op) :
    Safe (execAll poseidon ops newChip) fun r => r.2.inputBuffer.length < 8 ∧ r.2.outputBuffer.length ≤ 8 :=
  safe_execAll NoPanic.poseidon ops newChip bounded_newChip

/-- A history that fills both buffers. -/
example : Safe (execAll poseidon [.observeElements (List.replicate 23 (-1)), .getNChallenges 17, .observeCap [5],
    .getHash, .observeElement 3] newChip) fun r => r.2.inputBuffer.length < 8 ∧ r.2.outputBuffer.length ≤ 8 :=
  C30_safe _

/-! ## C31 -/

/-- **C31** for every shape of proof and circuit, and every permutation circuit computing `P`: the challenges are read
off the sponge over `P` run on the transcript of the plonky2 verifier (`Spec.transcript`). -/
theorem C31_transcript {perm : State → Circ State} {P : (Fin 12 → Fp) → Fin 12 → Fp}
    (h : ∀ s : Fin 12 → Fp, Computes (perm fun i => emb (s i)) fun i => emb (P s i))
    (c : CommonCircuitData) (proof : Proof Fp QE) (pih : Fin 4 → Fp) (vd : VerifierOnlyCircuitData) :
    Computes (Verifier.getChallenges perm c proof.enc (fun i => emb (pih i)) vd)
      (Spec.challenges P c.config.numChallenges c.config.friConfig.numQueryRounds vd.circuitDigest pih proof).enc :=
  (den_eq_pure_iff _ _).1 (den_getChallenges (fun s => (den_eq_pure_iff _ _).2 (h s)) c proof pih vd)

/-- **C31** the code's own permutation: the honest prover computes the challenges of the plonky2 verifier. -/
theorem C31_transcript_honest (c : CommonCircuitData) (proof : Proof Fp QE) (pih : Fin 4 → Fp)
    (vd : VerifierOnlyCircuitData) :
    honest (Verifier.getChallenges poseidon c proof.enc (fun i => emb (pih i)) vd) =
      some (Spec.challenges Spec.poseidon c.config.numChallenges c.config.friConfig.numQueryRounds vd.circuitDigest pih
        proof).enc :=
  (ref_getChallenges cleanPerm_ref c _ _ vd).honest_of_den_pure (den_getChallenges cleanPerm_exact c proof pih vd)

/-- **C31** every commitment precedes what depends on it: each group of challenges is the end of the sponge output on
the prefix of the transcript up to that group. -/
theorem C31_prefixes (P : (Fin 12 → Fp) → Fin 12 → Fp) (n q : ℕ) (digest : Fr) (pih : Fin 4 → Fp)
    (proof : Proof Fp QE) :
    let ch := Spec.challenges P n q digest pih proof
    let o := proof.openings
    let t₁ := absorbs (limbs digest ++ (List.ofFn pih).map emb ++ capElems proof.wiresCap)
    let t₂ := t₁ ++ squeezes n ++ squeezes n ++ absorbs (capElems proof.plonkZsPartialProductsCap)
    let t₃ := t₂ ++ squeezes n ++ absorbs (capElems proof.quotientPolysCap)
    let t₄ := t₃ ++ squeezes 2 ++ absorbs (coords (o.constants ++ o.plonkSigmas ++ o.wires ++ o.plonkZs ++
      o.partialProducts ++ o.quotientPolys ++ o.plonkZsNext))
    let t₅ (i : ℕ) := t₄ ++ squeezes 2 ++
      ((proof.openingProof.commitCaps.take i).flatMap fun cap => absorbs (capElems cap) ++ squeezes 2)
    let t₆ := t₅ proof.openingProof.commitCaps.length ++
      absorbs (coords proof.openingProof.finalPoly ++ [emb proof.openingProof.powWitness])
    let out (t : List Ev) (k : ℕ) := (Sponge.init.after P t).outputs P (squeezes k)
    ch.plonkBetas ++ ch.plonkGammas = out t₁ (2 * n) ∧
    ch.plonkAlphas = out t₂ n ∧
    [ch.plonkZeta.re, ch.plonkZeta.im] = out t₃ 2 ∧
    [ch.friChallenges.alpha.re, ch.friChallenges.alpha.im] = out t₄ 2 ∧
    (∀ i < proof.openingProof.commitCaps.length, ∃ b, ch.friChallenges.betas[i]? = some b ∧
      [b.re, b.im] = out (t₅ i ++ absorbs (capElems (proof.openingProof.commitCaps.getD i []))) 2) ∧
    ch.friChallenges.powResponse :: ch.friChallenges.queryIndices = out t₆ (q + 1) := by
  intro ch o t₁ t₂ t₃ t₄ t₅ t₆ out
  have hcaps : ∀ l : List (List Fr), nsq (l.flatMap fun cap => absorbs (capElems cap) ++ squeezes 2) = 2 * l.length :=
    nsq_caps
  have n1 : nsq t₁ = 0 := nsq_absorbs _
  have n2 : nsq t₂ = 2 * n := by
    simp only [t₂, nsq_append, nsq_absorbs, nsq_squeezes, n1]; omega
  have n3 : nsq t₃ = 3 * n := by
    simp only [t₃, nsq_append, nsq_absorbs, nsq_squeezes, n2]; omega
  have n4 : nsq t₄ = 3 * n + 2 := by
    simp only [t₄, nsq_append, nsq_absorbs, nsq_squeezes, n3, Nat.add_zero]
  have n5 : ∀ i, i ≤ proof.openingProof.commitCaps.length → nsq (t₅ i) = 3 * n + 4 + 2 * i := by
    intro i hi
    simp only [t₅, nsq_append, nsq_squeezes, n4, hcaps, List.length_take, Nat.min_eq_left hi]
  have n6 : nsq t₆ = 3 * n + 4 + 2 * proof.openingProof.commitCaps.length := by
    simp only [t₆, nsq_append, nsq_absorbs, n5 _ le_rfl, Nat.add_zero]
  have len : ∀ t k, (out t k).length = k := fun t k => by rw [length_outputs, nsq_squeezes]
  have T6 : Spec.transcript n q digest pih proof = t₆ ++ (squeezes 1 ++ squeezes q) := by
    simp only [Spec.transcript, t₁, t₂, t₃, t₄, t₅, t₆, List.take_length, List.append_assoc]
    rfl
  generalize hT : Spec.transcript n q digest pih proof = T at T6
  have hch : ch = Spec.challengesOf n proof.openingProof.commitCaps.length (Sponge.init.outputs P T) := by rw [← hT]; rfl
  have p6 : t₆ ++ squeezes (q + 1) <+: T := by
    rw [T6, Nat.add_comm, squeezes, List.replicate_add]
    exact List.prefix_rfl
  have p6' : t₆ <+: T := (List.prefix_append _ _).trans p6
  have p5 : t₅ proof.openingProof.commitCaps.length <+: T := (List.prefix_append _ _).trans p6'
  have p45 : ∀ i, t₄ ++ squeezes 2 <+: t₅ i := fun i => List.prefix_append _ _
  have p4 : t₄ ++ squeezes 2 <+: T := (p45 _).trans p5
  have p3 : t₃ ++ squeezes 2 <+: T := (List.prefix_append _ _).trans ((List.prefix_append _ _).trans p4)
  have p2 : t₂ ++ squeezes n <+: T := (List.prefix_append _ _).trans ((List.prefix_append _ _).trans p3)
  have p1 : t₁ ++ squeezes (2 * n) <+: T := by
    refine List.IsPrefix.trans ?_ ((List.prefix_append _ _).trans p2)
    rw [two_mul, squeezes, List.replicate_add, ← List.append_assoc]
    exact List.prefix_append _ _
  have p5' : ∀ i < proof.openingProof.commitCaps.length,
      (t₅ i ++ absorbs (capElems (proof.openingProof.commitCaps.getD i []))) ++ squeezes 2 <+: T := by
    intro i hi
    refine List.IsPrefix.trans ?_ p5
    simp only [t₅, List.append_assoc, List.prefix_append_right_inj]
    refine ⟨(proof.openingProof.commitCaps.drop (i + 1)).flatMap fun cap => absorbs (capElems cap) ++ squeezes 2, ?_⟩
    rw [List.take_length]
    conv_rhs => rw [← List.take_append_drop i proof.openingProof.commitCaps, List.flatMap_append,
      List.drop_eq_getElem_cons hi, List.flatMap_cons]
    rw [List.getD_eq_getElem?_getD, List.getElem?_eq_getElem hi]
    simp only [Option.getD_some, List.append_assoc]
  rw [hch]
  have hlen : (Sponge.init.outputs P T).length = 3 * n + 4 + 2 * proof.openingProof.commitCaps.length + (q + 1) := by
    rw [length_outputs, T6, nsq_append, n6, nsq_append, nsq_squeezes, nsq_squeezes]; omega
  have w1 := window (P := P) p1 n1
  have w2 := window (P := P) p2 n2
  have w3 := extAt_window (window (P := P) p3 n3) (len _ _)
  have w4 := extAt_window (window (P := P) p4 n4) (len _ _)
  have w5 := fun i hi => extAt_window (window (P := P) (p5' i hi)
    ((nsq_append _ _).trans (by rw [nsq_absorbs, n5 i (le_of_lt hi), Nat.add_zero]))) (len _ _)
  have w6 := window (P := P) p6 n6
  generalize Sponge.init.outputs P T = O at *
  refine ⟨?_, w2, w3, w4, fun i hi => ⟨_, ?_, w5 i hi⟩, ?_⟩
  · refine Eq.trans ?_ w1; rw [List.drop_zero, two_mul, List.take_add]; rfl
  · simp [Spec.challengesOf, hi]
  · refine Eq.trans ?_ w6
    rw [List.take_of_length_le (by rw [List.length_drop]; omega), List.drop_eq_getElem_cons (by omega)]
    simp only [Spec.challengesOf]
    rw [List.getD_eq_getElem?_getD, List.getElem?_eq_getElem (by omega)]
    rfl

/-- **C31** every part of the statement is bound: two statements with caps, openings and final polynomials of the same
lengths have the same transcript only if digest, public inputs hash, all caps, all openings, the final polynomial and the
proof-of-work witness are the same. -/
theorem C31_binding (n q : ℕ) (d d' : Fr) (pih pih' : Fin 4 → Fp) (x y : Proof Fp QE)
    (h1 : x.wiresCap.length = y.wiresCap.length)
    (h2 : x.plonkZsPartialProductsCap.length = y.plonkZsPartialProductsCap.length)
    (h3 : x.quotientPolysCap.length = y.quotientPolysCap.length)
    (h4 : x.openings.constants.length = y.openings.constants.length)
    (h5 : x.openings.plonkSigmas.length = y.openings.plonkSigmas.length)
    (h6 : x.openings.wires.length = y.openings.wires.length)
    (h7 : x.openings.plonkZs.length = y.openings.plonkZs.length)
    (h8 : x.openings.plonkZsNext.length = y.openings.plonkZsNext.length)
    (h9 : x.openings.partialProducts.length = y.openings.partialProducts.length)
    (h10 : x.openings.quotientPolys.length = y.openings.quotientPolys.length)
    (h11 : x.openingProof.commitCaps.map List.length = y.openingProof.commitCaps.map List.length)
    (h12 : x.openingProof.finalPoly.length = y.openingProof.finalPoly.length)
    (h : Spec.transcript n q d pih x = Spec.transcript n q d' pih' y) :
    d = d' ∧ pih = pih' ∧ x.wiresCap = y.wiresCap ∧ x.plonkZsPartialProductsCap = y.plonkZsPartialProductsCap ∧
    x.quotientPolysCap = y.quotientPolysCap ∧ x.openings = y.openings ∧
    x.openingProof.commitCaps = y.openingProof.commitCaps ∧ x.openingProof.finalPoly = y.openingProof.finalPoly ∧
    x.openingProof.powWitness = y.openingProof.powWitness := by
  unfold Spec.transcript at h
  simp only at h
  obtain ⟨h, -⟩ := List.append_inj' h rfl
  obtain ⟨h, -⟩ := List.append_inj' h rfl
  obtain ⟨h, e6⟩ := List.append_inj' h (by
    simp only [length_absorbs, List.length_append, length_coords, h12, List.length_cons, List.length_nil])
  obtain ⟨h, e5⟩ := List.append_inj' h (by rw [length_caps, length_caps, h11])
  obtain ⟨h, -⟩ := List.append_inj' h rfl
  obtain ⟨h, e4⟩ := List.append_inj' h (by
    simp only [length_absorbs, List.length_append, length_coords, h4, h5, h6, h7, h8, h9, h10])
  obtain ⟨h, -⟩ := List.append_inj' h rfl
  obtain ⟨h, e3⟩ := List.append_inj' h (by simp only [length_absorbs, length_capElems, h3])
  obtain ⟨h, -⟩ := List.append_inj' h rfl
  obtain ⟨h, e2⟩ := List.append_inj' h (by simp only [length_absorbs, length_capElems, h2])
  obtain ⟨h, -⟩ := List.append_inj' h rfl
  obtain ⟨h, -⟩ := List.append_inj' h rfl
  obtain ⟨h, e1⟩ := List.append_inj' (absorbs_inj h) (by simp only [length_capElems, h1])
  obtain ⟨e0, h⟩ := List.append_inj' h (by simp)
  obtain ⟨e6, e7⟩ := List.append_inj' (absorbs_inj e6) rfl
  have e4 := coords_inj (absorbs_inj e4)
  obtain ⟨e4, o8⟩ := List.append_inj' e4 h8
  obtain ⟨e4, o10⟩ := List.append_inj' e4 h10
  obtain ⟨e4, o9⟩ := List.append_inj' e4 h9
  obtain ⟨e4, o7⟩ := List.append_inj' e4 h7
  obtain ⟨e4, o6⟩ := List.append_inj' e4 h6
  obtain ⟨o4, o5⟩ := List.append_inj' e4 h5
  have hop : x.openings = y.openings := by
    generalize x.openings = a at *
    generalize y.openings = b at *
    cases a; cases b
    simp only at o4 o5 o6 o7 o8 o9 o10
    subst o4 o5 o6 o7 o8 o9 o10
    rfl
  refine ⟨limbs_inj e0, ?_, capElems_inj e1, capElems_inj (absorbs_inj e2), capElems_inj (absorbs_inj e3), hop,
    caps_inj h11 e5, coords_inj e6, ?_⟩
  · exact List.ofFn_injective ((List.map_injective_iff.2 fun _ _ => emb_inj.1) h)
  · simpa [emb_inj] using e7

/-- Two proofs that differ in the proof-of-work witness have different transcripts. -/
example : transcript 1 1 5 (fun _ => 0) (HonestProof.proof ⟨3, 3⟩ ⟨3, 3⟩ 3 0) ≠
    transcript 1 1 5 (fun _ => 0) (HonestProof.proof ⟨3, 3⟩ ⟨3, 3⟩ 3 1) := fun h => by
  have := (C31_binding 1 1 5 5 (fun _ => 0) (fun _ => 0) (HonestProof.proof ⟨3, 3⟩ ⟨3, 3⟩ 3 0) (HonestProof.proof ⟨3, 3⟩ ⟨3, 3⟩ 3 1)
    rfl rfl rfl rfl rfl rfl rfl rfl rfl rfl rfl rfl h).2.2.2.2.2.2.2.2
  revert this
  change ¬ (0 : Fp) = 1
  decide +kernel

/-! ## C32 -/

/-- **C32** violated: for *every* circuit and proof the constraints also admit challenges whose proof-of-work response
is not the one of the transcript. -/
theorem C32_violated (c : CommonCircuitData) (proof : Proof Fp QE) (pih : Fin 4 → Fp) (vd : VerifierOnlyCircuitData) :
    ∃ ch, Sat (Verifier.getChallenges poseidon c proof.enc (fun i => emb (pih i)) vd) ch ∧
      ch ≠ (Spec.challenges Spec.poseidon c.config.numChallenges c.config.friConfig.numQueryRounds vd.circuitDigest pih
        proof).enc := by
  obtain ⟨ch, h, hne⟩ := sat_getChallenges_wrong c proof pih vd
  exact ⟨ch, h, fun e => hne (by rw [e]; rfl)⟩

/-- **C32** hence the challenges are not determined by the proof. -/
theorem C32_not_unique (c : CommonCircuitData) (proof : Proof Fp QE) (pih : Fin 4 → Fp) (vd : VerifierOnlyCircuitData) :
    ∃ ch ch', ch ≠ ch' ∧ Sat (Verifier.getChallenges poseidon c proof.enc (fun i => emb (pih i)) vd) ch ∧
      Sat (Verifier.getChallenges poseidon c proof.enc (fun i => emb (pih i)) vd) ch' := by
  obtain ⟨ch, h, hne⟩ := C32_violated c proof pih vd
  exact ⟨_, _, hne, h, sat_of_honest (C31_transcript_honest c proof pih vd)⟩

/-- **C32** what holds: for every permutation circuit that computes `P` (unlike the code's) exactly one vector of
challenges satisfies the constraints.  Missing: the code's own permutation (false, `C32_violated`). -/
theorem C32_unique_partial {perm : State → Circ State} {P : (Fin 12 → Fp) → Fin 12 → Fp}
    (h : ∀ s : Fin 12 → Fp, Computes (perm fun i => emb (s i)) fun i => emb (P s i))
    (c : CommonCircuitData) (proof : Proof Fp QE) (pih : Fin 4 → Fp) (vd : VerifierOnlyCircuitData) :
    ∃! ch, Sat (Verifier.getChallenges perm c proof.enc (fun i => emb (pih i)) vd) ch := by
  have := C31_transcript h c proof pih vd
  exact ⟨_, (this.1 _).2 rfl, fun y hy => (this.1 y).1 hy⟩

/-- The hypothesis is met by the permutation whose S-box reduces exactly. -/
example (c : CommonCircuitData) (proof : Proof Fp QE) (pih : Fin 4 → Fp) (vd : VerifierOnlyCircuitData) :
    ∃! ch, Sat (Verifier.getChallenges cleanPerm c proof.enc (fun i => emb (pih i)) vd) ch :=
  C32_unique_partial (fun s => (den_eq_pure_iff _ _).1 (cleanPerm_exact s)) c proof pih vd

end Verif
