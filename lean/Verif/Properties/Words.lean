import Verif.Proofs.Verifier64
import Verif.Properties.Verifier
import Verif.Properties.Gates64

/-!
# C88: 64-bit circuit parameters

Go adds and multiplies circuit parameters as `uint64` and `int`, with wrap-around.  `maxLen` is the length beyond which
allocations panic, at most `2^58` for elements of 32 bytes.
-/

set_option autoImplicit false

namespace Verif

open Circ Spec.Words PoseidonGL Verifier Spec.Verifier

variable {perm : PoseidonGL.State → Circ PoseidonGL.State} {maxLen : ℕ} {c : CommonCircuitData} {proof : Proof Fr QEV}

/-- **C88** For all parameters and proofs with at least one query round and `degreeBits + rateBits < 2^64`, the circuit
generated with 64-bit arithmetic is the one generated with unbounded integers, or both panic. -/
theorem C88_same (hL : maxLen ≤ 2 ^ 58) (gates : List Gates64.Gate) (pis : List Fr) (vd : VerifierOnlyCircuitData)
    (hw : Parameters c) (hm : InMemory maxLen c proof)
    (hs : c.friParams.degreeBits + c.friParams.config.rateBits < 2 ^ 64) (h0 : c.friParams.config.numQueryRounds ≠ 0) :
    Verifier64.verify perm maxLen c gates proof pis vd =
        Verifier.verify perm c (gates.map Gates64.Gate.toNat) proof pis vd ∨
      Panics (Verifier64.verify perm maxLen c gates proof pis vd) ∧
        Panics (Verifier.verify perm c (gates.map Gates64.Gate.toNat) proof pis vd) :=
  Verifier64.verify_agree hL gates pis vd hw hm hs h0

/-- **C88** So what is proved about the circuit with unbounded integers holds with 64-bit ones. -/
theorem C88_enforces (hL : maxLen ≤ 2 ^ 58) (gates : List Gates64.Gate) (pis : List Fr) (vd : VerifierOnlyCircuitData)
    (hw : Parameters c) (hm : InMemory maxLen c proof)
    (hs : c.friParams.degreeBits + c.friParams.config.rateBits < 2 ^ 64) (h0 : c.friParams.config.numQueryRounds ≠ 0)
    (P : Prop) :
    Enforces (Verifier64.verify perm maxLen c gates proof pis vd) P ↔
      Enforces (Verifier.verify perm c (gates.map Gates64.Gate.toNat) proof pis vd) P := by
  rcases C88_same (perm := perm) hL gates pis vd hw hm hs h0 with e | ⟨h1, h2⟩
  · rw [e]
  · have key : ∀ {x y : Circ Unit}, Panics x → Panics y → Enforces x P → Enforces y P := by
      rintro x y hx hy ⟨ha, hb⟩
      refine ⟨?_, ?_⟩
      · exact ⟨fun h => (hy.not_sat _ h).elim, fun h => (hx.not_sat _ (ha.2 h)).elim⟩
      · exact ⟨fun h => (hy.not_sat _ (sat_of_honest h)).elim, fun h => (hx.not_sat _ (ha.2 h)).elim⟩
    exact ⟨key h1 h2, key h2 h1⟩

/-- **C88** The gates come from the identifiers of the circuit data: whatever the strings and the iteration orders, they
have 64-bit parameters, so the theorems above apply to them. -/
theorem C88_gates {ids : List (List Gates.Handler × List Char)} (ho : ∀ oi ∈ ids, oi.1.Perm Gates.gateRegexHandlers)
    {gates : List Gates.Gate} (h : Gates.gateInstances ids = some gates) :
    ∃ us : List Gates64.Gate, us.map Gates64.Gate.toNat = gates := by
  induction ids generalizing gates with
  | nil =>
    rw [Gates.gateInstances, List.mapM_nil] at h
    cases h
    exact ⟨[], rfl⟩
  | cons oi ids ih =>
    rw [Gates.gateInstances, List.mapM_cons] at h
    simp only [Option.bind_eq_bind, Option.bind_eq_some_iff] at h
    obtain ⟨g, hg, gs, hgs, h⟩ := h
    cases h
    obtain ⟨u, hu⟩ := C84_read (ho oi (by simp)) hg
    obtain ⟨us, hus⟩ := ih (fun oi h => ho oi (by simp [h])) hgs
    exact ⟨u :: us, by rw [List.map_cons, hu, hus]⟩

/-- **C88** When `degreeBits + rateBits` passes `2^64`, which the check of the rate does not exclude, the query rounds are
those for a code of rate one on `2^n` points, `n` the wrapped sum: any `2^n` values are a codeword. -/
theorem C88_wrapped {q : FriParams} (hr : 64 ≤ q.config.rateBits) (hc : q.config.capHeight ≤ 64)
    (hn : (q.degreeBits + q.config.rateBits) % 2 ^ 64 ≤ 64) (inst : InstanceInfo QEV) (ch : FriChallenges Fr QEV)
    (pre : List QEV) (caps : List (List Fr)) (fp : FriProof Fr QEV) (x : Fr) (n : ℕ) (round : FriQueryRound Fr QEV) :
    Fri64.verifyQueryRound q inst ch pre caps fp x n round =
      Fri.verifyQueryRound (rateOne q) inst ch pre caps fp x n round :=
  Fri64.verifyQueryRound_wrapped hr hc hn

/-- **C88** Such a circuit is generated, for proofs of the corresponding sizes (with a final polynomial that has more
coefficients than the last domain has points). -/
theorem C88_wrapped_generates {q : FriParams} {inst : InstanceInfo QEV} {openings : List (List QEV)}
    {ch : FriChallenges Fr QEV} {caps : List (List Fr)} {fp : FriProof Fr QEV}
    (hr : 64 ≤ q.config.rateBits)
    (hn : 4 ≤ (q.degreeBits + q.config.rateBits) % 2 ^ 64 ∧ (q.degreeBits + q.config.rateBits) % 2 ^ 64 ≤ 32)
    (hcap : q.config.capHeight = 4)
    (hd : q.degreeBits ≤ 62) (ha : ∀ a ∈ q.reductionArityBits, a = 4)
    (hfinal : 4 * q.reductionArityBits.length ≤ q.degreeBits ∧
      fp.finalPoly.length = 2 ^ (q.degreeBits - 4 * q.reductionArityBits.length))
    (hcaps : caps.length = inst.oracles.length ∧ ∀ cap ∈ caps, cap.length = 16)
    (ho : ∀ o ∈ inst.oracles, o.numPolys ≤ 2 ^ 58)
    (hy : inst.batches.length = openings.length)
    (hbat : ∀ b ∈ inst.batches, ∀ f ∈ b.polynomials,
      ∃ o, inst.oracles[f.oracleIndex]? = some o ∧ f.polynomialInfo < o.numPolys)
    (hnq : q.config.numQueryRounds = fp.rounds.length) (hlen : fp.rounds.length ≤ 2 ^ 58)
    (hi : ch.queryIndices.length = fp.rounds.length)
    (hb : q.reductionArityBits.length ≤ ch.betas.length) (hc : q.reductionArityBits.length ≤ fp.commitCaps.length)
    (hcc : ∀ cap ∈ fp.commitCaps, cap.length = 16)
    (hrs : ∀ round ∈ fp.rounds, Spec.Fri.RoundShape (rateOne q) inst round) :
    NoPanic (Fri64.verifyFriProof q inst openings ch caps fp) :=
  Fri64.wrapped_noPanic hr hn hcap hd ha hfinal hcaps ho hy hbat hnq hlen hi hb hc hcc hrs

/-! ## Cases -/

private theorem honest_parameters : Parameters (HonestProof.data 62) := by
  constructor <;> simp [HonestProof.data]

private theorem honest_inMemory : InMemory 100 (HonestProof.data 62) (HonestProof.proof ⟨3, 3⟩ ⟨3, 3⟩ 3 0).enc := by
  constructor <;> simp [HonestProof.data, HonestProof.proof, HonestProof.openings, HonestProof.round, HonestProof.leaf0,
    Proof.enc, OpeningSet.enc, FriProof.enc, FriQueryRound.enc, FriEvalProof.enc]

/-- The honest proof of the small circuit is accepted with 64-bit arithmetic. -/
example : Sat (Verifier64.verify (fun _ => pure fun _ => emb 3) 100 (HonestProof.data 62) [.constant 1]
    (HonestProof.proof ⟨3, 3⟩ ⟨3, 3⟩ 3 0).enc [emb 5, emb 6] (HonestProof.vd 1)) () := by
  have hf := HonestProof.fits (b := 62) (by norm_num) 1 ⟨3, 3⟩ ⟨3, 3⟩ 3 0
  refine ((C88_enforces (by norm_num) [.constant 1] _ _ honest_parameters honest_inMemory (by simp [HonestProof.data])
    (by simp [HonestProof.data]) _).2 (C58_exact (P := HonestProof.three) (gates := HonestProof.gates)
      (fun s => (den_eq_pure_iff _ _).1 (den_pure _)) _ _ _
      (fits_to_enc hf) _)).1.2 ⟨_, rfl, ?_, HonestProof.accepts_three 1 0 _⟩
  intro v hv
  simp only [List.mem_cons, List.not_mem_nil, or_false] at hv
  rcases hv with rfl | rfl <;> exact (canonical_emb _).trans (by norm_num [p])

/-- Polynomials of degree less than 32, `2^64 - 1` rate bits: a domain of 16 points. -/
private def wrapParams : FriParams := ⟨⟨2 ^ 64 - 1, 4, 0, 1⟩, false, 5, []⟩

private def wrapProof : FriProof Fr QEV := ⟨[], [⟨[⟨[7], []⟩], []⟩], List.replicate 32 (0, 0), 0⟩

private def wrapInst : InstanceInfo QEV := ⟨[⟨1, false⟩], [⟨(1, 1), [⟨0, 0⟩]⟩]⟩

/-- The 64-bit program generates this circuit, the one with unbounded integers panics. -/
example : NoPanic (Fri64.verifyFriProof wrapParams wrapInst [[(5, 0)]] ⟨(2, 3), [], 0, [0]⟩ [List.replicate 16 0]
      wrapProof) ∧
    Panics (Fri.verifyFriProof wrapParams wrapInst [[(5, 0)]] ⟨(2, 3), [], 0, [0]⟩ [List.replicate 16 0] wrapProof) := by
  constructor
  · refine C88_wrapped_generates (by norm_num [wrapParams]) (by norm_num [wrapParams]) rfl (by norm_num [wrapParams])
      (by simp [wrapParams]) (by simp [wrapParams, wrapProof]) (by simp [wrapInst]) (by simp [wrapInst]) rfl
      (by simp [wrapInst]) rfl (by simp [wrapProof]) rfl (by simp [wrapParams]) (by simp [wrapParams])
      (by simp [wrapProof]) ?_
    intro round hr
    simp only [wrapProof, List.mem_cons, List.not_mem_nil, or_false] at hr
    subst hr
    refine ⟨⟨rfl, ?_⟩, ⟨rfl, by simp⟩⟩
    intro i e o he ho
    rcases i with _ | i
    · simp only [wrapInst, List.getElem?_cons_zero, Option.some.injEq] at he ho
      subst he ho
      norm_num [rateOne, wrapParams]
    · simp at he
  · refine (Fri64.post_verifyFriProofNat (by norm_num [wrapParams])).panics fun h => ?_
    have := h.lde
    norm_num [wrapParams] at this

/-- Without query rounds the arities can wrap around too: their sum `2^63 + 2^63` is 0 as an `int`. -/
example : NoPanic (Fri64.validateFriProofShape ⟨[], [], [(0, 0)], 0⟩ wrapInst ⟨⟨1, 4, 0, 0⟩, false, 0, [2 ^ 63, 2 ^ 63]⟩) ∧
    Panics (Fri.validateFriProofShape ⟨[], [], [(0, 0)], 0⟩ wrapInst ⟨⟨1, 4, 0, 0⟩, false, 0, [2 ^ 63, 2 ^ 63]⟩) := by
  constructor
  · have : Fri64.finalPolyBits ⟨⟨1, 4, 0, 0⟩, false, 0, [2 ^ 63, 2 ^ 63]⟩ = 0 := by decide +kernel
    rw [Fri64.validateFriProofShape, this, if_neg (by decide), if_neg (by decide)]
    exact NoPanic.pure ()
  · trivial

/-- The range of sigmas has one element more than there are routed wires, and with words for the two numbers the function
returns their sum exactly if the sum is not the largest word or beyond and slices of that length are possible. -/
theorem C88_sigmas (c : CommonCircuitData) (hc : c.numConstants < 2 ^ 64) (hr : c.config.numRoutedWires < 2 ^ 64) :
    (c.numConstants + c.config.numRoutedWires < 2 ^ 64 - 1 ∧ c.config.numRoutedWires + 1 ≤ maxLen →
      Fri64.numPreprocessedPolys maxLen c = pure (c.numConstants + c.config.numRoutedWires)) ∧
    (¬ (c.numConstants + c.config.numRoutedWires < 2 ^ 64 - 1 ∧ c.config.numRoutedWires + 1 ≤ maxLen) →
      Panics (Fri64.numPreprocessedPolys maxLen c)) := by
  refine ⟨fun ⟨h, hL⟩ => ?_, fun h => ?_⟩
  · rw [Fri64.numPreprocessedPolys, show u64 (c.numConstants + c.config.numRoutedWires) = c.numConstants + c.config.numRoutedWires from
      Nat.mod_eq_of_lt (by omega), if_neg (by omega), if_neg (by omega), if_neg (by omega)]
  · rw [Fri64.numPreprocessedPolys]
    split_ifs with h1 h2 h3
    · trivial
    · trivial
    · trivial
    · rw [u64] at h1 h2 h3
      omega

/-- The range of sigmas has one element more than there are routed wires: without constants, slices of exactly that many
elements do not suffice. -/
example (c : CommonCircuitData) (hc : c.numConstants = 0) (hr : c.config.numRoutedWires = 80) :
    Panics (Fri64.numPreprocessedPolys 80 c) ∧ NoPanic (Fri64.numPreprocessedPolys 81 c) := by
  rw [Fri64.numPreprocessedPolys, Fri64.numPreprocessedPolys, hc, hr,
    show u64 (0 + 80) = 80 from by decide +kernel, if_neg (by norm_num), if_neg (by norm_num), if_pos (by norm_num),
    if_neg (by norm_num), if_neg (by norm_num), if_neg (by norm_num)]
  exact ⟨trivial, NoPanic.pure _⟩

end Verif
