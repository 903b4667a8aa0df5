import Verif.Properties.NativeExact

/-!
# Property C101: proofs made up without a witness, with native range checks
-/

set_option autoImplicit false

namespace Verif

open Circ PoseidonGL Verifier Spec.Verifier

namespace Native

/-- A cap all of whose entries are the root of one path. -/
noncomputable def capOf (leaf : List Fr) (bits : List Bool) (siblings : List Fr) : List Fr :=
  List.replicate 16 (Spec.Merkle.root Spec.BN.compress (Spec.BN.leaf leaf) (bits.zip siblings))

theorem opens_capOf (leaf : List Fr) (bits : List Bool) (siblings : List Fr) {i : ℕ} (h : i < 16) :
    Spec.Fri.Opens leaf bits siblings (capOf leaf bits siblings) i := by
  rw [Spec.Fri.Opens, capOf, List.getD_eq_getElem _ _ (by simpa using h), List.getElem_replicate]

/-- A leaf of zeros with a path of zeros. -/
def zeroLeaf (c : CommonCircuitData) (size : ℕ) : FriEvalProof Fp :=
  ⟨List.replicate (size + if c.friParams.isHiding then 4 else 0) 0,
    List.replicate (c.friParams.degreeBits + c.friParams.config.rateBits - 4) 0⟩

/-- A step of zeros with a path of zeros. -/
def zeroStep (c : CommonCircuitData) (j : ℕ) : FriQueryStep QE :=
  ⟨List.replicate 16 0, List.replicate (c.friParams.degreeBits + c.friParams.config.rateBits - 4 - 4 * (j + 1)) 0⟩

/-- Bits of the index at which everything is opened. -/
def bitsOf (c : CommonCircuitData) (v : ℕ) : List Bool :=
  Spec.Fri.lowBits (c.friParams.degreeBits + c.friParams.config.rateBits) v

/-- Commitment to a leaf of zeros. -/
noncomputable def zeroCap (c : CommonCircuitData) (v size : ℕ) : List Fr :=
  capOf ((zeroLeaf c size).elements.map emb) (bitsOf c v) (zeroLeaf c size).siblings

/-- A proof with given openings, final polynomial and proof-of-work witness, all commitments of which are made up; `e` opens the
constants of the circuit at index `v`. -/
noncomputable def forged (c : CommonCircuitData) (o : OpeningSet QE) (f : List QE) (w : Fp) (e : FriEvalProof Fp) (v : ℕ) : Proof Fp QE where
  wiresCap := zeroCap c v ((Spec.Fri.oracleSizes c).getD 1 0)
  plonkZsPartialProductsCap := zeroCap c v ((Spec.Fri.oracleSizes c).getD 2 0)
  quotientPolysCap := zeroCap c v ((Spec.Fri.oracleSizes c).getD 3 0)
  openings := o
  openingProof := {
    commitCaps := (List.range c.friParams.reductionArityBits.length).map fun j =>
      capOf (Spec.Fri.flatten (zeroStep c j).evals) ((bitsOf c v).drop (4 * (j + 1))) (zeroStep c j).siblings
    rounds := List.replicate c.friParams.config.numQueryRounds
      ⟨[e, zeroLeaf c ((Spec.Fri.oracleSizes c).getD 1 0), zeroLeaf c ((Spec.Fri.oracleSizes c).getD 2 0),
        zeroLeaf c ((Spec.Fri.oracleSizes c).getD 3 0)], (List.range c.friParams.reductionArityBits.length).map (zeroStep c)⟩
    finalPoly := f
    powWitness := w }

end Native

/-- **C101** with native range checks, whoever knows one opening of the constants of a circuit (public data) can make up a proof
that is accepted for all public inputs, with openings, final polynomial and proof-of-work witness of their choice: nothing about
a witness is proved. -/
theorem C101_forgery_violated (c : CommonCircuitData) (gates : List Gates.Gate) (vd : VerifierOnlyCircuitData)
    (x : Proof Fp QE) (hf : Fits c gates vd x.enc)
    (hq : c.config.friConfig.numQueryRounds = c.friParams.config.numQueryRounds)
    (hs : c.friParams.reductionArityBits.sum ≤ c.friParams.degreeBits ∧
      c.friParams.reductionArityBits.sum + 4 ≤ c.friParams.degreeBits + c.friParams.config.rateBits)
    (e : FriEvalProof Fp) (v : ℕ) (hv : v < 2 ^ (c.friParams.degreeBits + c.friParams.config.rateBits))
    (he : e.elements.length = (Spec.Fri.oracleSizes c).getD 0 0 ∧
      e.siblings.length + 4 = c.friParams.degreeBits + c.friParams.config.rateBits)
    (ho : Spec.Fri.Opens (e.elements.map emb) (Native.bitsOf c v) e.siblings vd.constantSigmasCap
      (Spec.Fri.bitsVal ((Native.bitsOf c v).drop (c.friParams.degreeBits + c.friParams.config.rateBits - 4))))
    (f : List QE) (hfl : f.length = 2 ^ (c.friParams.degreeBits - c.friParams.reductionArityBits.sum)) (w : Fp) (pis : List Fr) :
    SatWith .native (verify poseidon c gates (Native.forged c x.openings f w e v).enc pis vd) () := by
  have hf' := fits_enc hf
  have hd := hf'.domain
  have hc4 : c.friParams.config.capHeight = 4 := hd.2.2.2
  set n := c.friParams.degreeBits + c.friParams.config.rateBits with hn
  have hbl : (Native.bitsOf c v).length = n := Fri.lowBits_length _ _
  have hci : Spec.Fri.bitsVal ((Native.bitsOf c v).drop (n - 4)) < 16 := by
    refine (Fri.bitsVal_lt _).trans_le ?_
    rw [List.length_drop, hbl, show n - (n - 4) = 4 by omega]
    norm_num
  have har : c.friParams.reductionArityBits = List.replicate c.friParams.reductionArityBits.length 4 :=
    List.eq_replicate_of_mem hf'.arities
  have hsum : c.friParams.reductionArityBits.sum = 4 * c.friParams.reductionArityBits.length := by
    conv_lhs => rw [har]
    rw [List.sum_replicate, smul_eq_mul, mul_comm]
  have htake : ∀ j < c.friParams.reductionArityBits.length, (c.friParams.reductionArityBits.take (j + 1)).sum = 4 * (j + 1) := by
    intro j hj
    rw [har, List.take_replicate, List.sum_replicate, smul_eq_mul, mul_comm, Nat.min_eq_left (by omega)]
  have hfy : Fits c gates vd (Native.forged c x.openings f w e v) := by
    obtain ⟨h1, h2, h3, h4, h5, h6, h7, h8, h9, h10, h11, h12, h13, h14, h15, h16, h17⟩ := hf'
    exact ⟨h1, h2, h3, h4, h5, h6, h7, h8, h9, h10, h11, h12, h13, h14, h15, h16, h17.1, by simp [Native.forged, Native.zeroCap,
      Native.capOf], by simp [Native.forged, Native.zeroCap, Native.capOf], by simp [Native.forged, Native.zeroCap, Native.capOf]⟩
  refine (C101_exact_partial _ _ _ _ (fits_to_enc hfy) pis).2 ⟨⟨?_, ?_, hs.1, hfl⟩, ?_, ?_, ?_⟩
  · intro cap hcap
    obtain ⟨j, -, rfl⟩ := List.mem_map.1 hcap
    rw [Native.capOf, List.length_replicate, hc4]
    norm_num
  · intro round hr
    obtain rfl := List.eq_of_mem_replicate hr
    refine ⟨⟨by simp [Spec.Fri.plonkInstance, Spec.Fri.oracleSizes], ?_⟩, by simp, ?_⟩
    · intro i l o h1 h2
      match i with
      | 0 =>
        obtain rfl : e = l := Option.some.inj h1
        obtain rfl : (⟨(Spec.Fri.oracleSizes c).getD 0 0, false⟩ : OracleInfo) = o := Option.some.inj h2
        exact ⟨by simp [he.1], by rw [hc4]; exact he.2⟩
      | 1 =>
        obtain rfl : Native.zeroLeaf c ((Spec.Fri.oracleSizes c).getD 1 0) = l := Option.some.inj h1
        obtain rfl : (⟨(Spec.Fri.oracleSizes c).getD 1 0, true⟩ : OracleInfo) = o := Option.some.inj h2
        exact ⟨by simp [Native.zeroLeaf], by simp [Native.zeroLeaf]; omega⟩
      | 2 =>
        obtain rfl : Native.zeroLeaf c ((Spec.Fri.oracleSizes c).getD 2 0) = l := Option.some.inj h1
        obtain rfl : (⟨(Spec.Fri.oracleSizes c).getD 2 0, true⟩ : OracleInfo) = o := Option.some.inj h2
        exact ⟨by simp [Native.zeroLeaf], by simp [Native.zeroLeaf]; omega⟩
      | 3 =>
        obtain rfl : Native.zeroLeaf c ((Spec.Fri.oracleSizes c).getD 3 0) = l := Option.some.inj h1
        obtain rfl : (⟨(Spec.Fri.oracleSizes c).getD 3 0, true⟩ : OracleInfo) = o := Option.some.inj h2
        exact ⟨by simp [Native.zeroLeaf], by simp [Native.zeroLeaf]; omega⟩
      | i + 4 => simp at h1
    · intro j s a h1 h2
      have hj := (List.getElem?_eq_some_iff.1 h2).1
      obtain rfl : a = 4 := hf'.arities a (List.mem_of_getElem? h2)
      rw [List.getElem?_map, List.getElem?_range hj, Option.map_some, Option.some.injEq] at h1
      subst h1
      rw [htake j hj]
      refine ⟨by simp [Native.zeroStep], ?_⟩
      simp only [Native.zeroStep, List.length_replicate]
      omega
  · simp [Native.forged]
  · rw [hq]; simp [Native.forged]
  · intro round hr
    obtain rfl := List.eq_of_mem_replicate hr
    refine ⟨by simp [Native.forged], v, hv, ?_, ?_⟩
    · rw [hc4]
      intro ec hec
      simp only [List.zip_cons_cons, List.zip_nil_left, List.mem_cons, List.not_mem_nil, or_false] at hec
      rcases hec with rfl | rfl | rfl | rfl
      · exact ho
      · exact Native.opens_capOf _ _ _ hci
      · exact Native.opens_capOf _ _ _ hci
      · exact Native.opens_capOf _ _ _ hci
    · rw [hc4]
      intro j s cap h1 h2
      have hj : j < c.friParams.reductionArityBits.length := by
        have := (List.getElem?_eq_some_iff.1 h1).1
        simpa using this
      rw [List.getElem?_map, List.getElem?_range hj, Option.map_some, Option.some.injEq] at h1
      simp only [Native.forged] at h2
      rw [List.getElem?_map, List.getElem?_range hj, Option.map_some, Option.some.injEq] at h2
      subst h1 h2
      exact Native.opens_capOf _ _ _ hci

/-- For the circuit of the honest proof (whose only gate demands the wire 11), any opening of the wires and any final polynomial. -/
example (u : QE) (f : List QE) (hl : f.length = 4) (k : Fp) : ∃ y : Proof Fp QE, (∀ a ∈ y.openings.wires, a = u) ∧
    y.openings.wires ≠ [] ∧ y.openingProof.finalPoly = f ∧ y.openingProof.powWitness = k ∧ ∀ pis : List Fr,
      SatWith .native (verify poseidon (HonestProof.data 16) HonestProof.gates y.enc pis (HonestProof.vd 1)) () := by
  have hf : Fits (HonestProof.data 16) HonestProof.gates (HonestProof.vd 1) (Witness.proof 15684767761658159738 13113) :=
    HonestProof.fits (b := 16) (by norm_num) 1 Witness.zeta Witness.alpha 15684767761658159738 ((13113 : ℕ) : Fp)
  obtain ⟨hsh, -, -, h⟩ := (C101_exact_partial _ _ _ _ (fits_to_enc hf) []).1
    (Native.of_sat (C58_complete _ _ _ _ (fits_to_enc hf) [] Witness.accepts_honest))
  have hr : HonestProof.round 15684767761658159738 ∈ (Witness.proof 15684767761658159738 13113).openingProof.rounds :=
    List.mem_singleton_self _
  obtain ⟨-, v, hv, ho, -⟩ := h _ hr
  obtain ⟨⟨hi, hi2⟩, -⟩ := hsh.rounds _ hr
  obtain ⟨e, l, hel⟩ : ∃ e l, (HonestProof.round 15684767761658159738).initial = e :: l := by
    cases hc : (HonestProof.round 15684767761658159738).initial with
    | nil => rw [hc] at hi; simp [Spec.Fri.plonkInstance, Spec.Fri.oracleSizes] at hi
    | cons e l => exact ⟨e, l, rfl⟩
  have h0 := hi2 0 e ⟨_, false⟩ (by rw [hel]; rfl) rfl
  have ho := ho (e, (HonestProof.vd 1).constantSigmasCap) (by rw [hel]; exact List.mem_cons_self)
  have hw : (Native.tampered (Witness.proof 15684767761658159738 13113) u 0 0).openings.wires = [u] := rfl
  exact ⟨Native.forged (HonestProof.data 16) (Native.tampered (Witness.proof 15684767761658159738 13113) u 0 0).openings f k e v,
    fun a ha => List.mem_singleton.1 (hw ▸ ha), by simp [Native.forged, hw], rfl, rfl, fun pis =>
    C101_forgery_violated _ _ _ _ (fits_to_enc (Native.fits hf u 0 0)) rfl (by simp [HonestProof.data]) e v hv
      ⟨by simpa [Spec.Fri.oracleSizes] using h0.1, h0.2⟩ ho f (by simpa [HonestProof.data] using hl) k pis⟩

end Verif
