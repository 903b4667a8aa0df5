import Verif.Proofs.Template
import Verif.Properties.Fri
import Verif.Properties.Layout
import Verif.Properties.Soundness

/-!
# Property C91: templates of proofs
-/

set_option autoImplicit false

namespace Verif

open Circ PoseidonGL Spec.Layout Spec.Template Verifier Verif.Template

namespace Spec.Template

theorem oracle_sizes {c : CommonCircuitData} {zeta : QE} {i : ℕ} {o : OracleInfo}
    (h : (Spec.Fri.plonkInstance c zeta).oracles[i]? = some o) :
    (leafSizes c)[i]? = some (o.numPolys + if o.blinding ∧ c.friParams.isHiding then 4 else 0) := by
  simp only [Spec.Fri.plonkInstance, Spec.Fri.oracleSizes, List.zipWith_cons_cons, List.zipWith_nil_left] at h
  rcases i with _ | _ | _ | _ | i
  all_goals
    simp at h
  all_goals
    subst h
    simp [leafSizes]

/-- The sizes of a proof are determined. -/
theorem sizes_eq {c : CommonCircuitData} {x : Proof Fr QEV} {inputs : List Fr} (h : Sized c x inputs) :
    sizes x = sizes (blank c (stepDepths c.friParams)) := by
  obtain ⟨⟨ho, ⟨h1, h2, h3⟩, -⟩, hf, hr, hc⟩ := h
  have hf := hf 0
  have hcaps : x.openingProof.commitCaps.map List.length =
      (blank c (stepDepths c.friParams)).openingProof.commitCaps.map List.length := by
    rw [List.eq_replicate_of_mem (l := x.openingProof.commitCaps.map List.length) (a := 2 ^ c.friParams.config.capHeight)
      (by simpa using hf.caps), List.length_map, hc]
    simp [blank, List.map_const']
  have hrounds : ∀ y ∈ x.openingProof.rounds,
      ((y.initial.map fun z => (z.elements.length, z.siblings.length)),
        (y.steps.map fun z => (z.evals.length, z.siblings.length))) =
      ((leafSizes c).map fun n => (n, depth c.friParams),
        (c.friParams.reductionArityBits.zip (stepDepths c.friParams)).map fun ad => (2 ^ ad.1, ad.2)) := by
    intro y hy
    obtain ⟨⟨i1, i2⟩, ⟨s1, s2⟩⟩ := hf.rounds y hy
    have hlen : (Spec.Fri.plonkInstance c 0).oracles.length = 4 := rfl
    refine Prod.ext ?_ ?_
    · refine List.ext_getElem? fun i => ?_
      rcases lt_or_ge i 4 with hi | hi
      · have hi1 : i < y.initial.length := by omega
        have hi2 : i < (Spec.Fri.plonkInstance c 0).oracles.length := by omega
        obtain ⟨e1, e2⟩ := i2 i _ _ (List.getElem?_eq_getElem hi1) (List.getElem?_eq_getElem hi2)
        have e3 := oracle_sizes (List.getElem?_eq_getElem hi2)
        simp only [List.getElem?_map, List.getElem?_eq_getElem hi1, e3, Option.map_some, Option.some.injEq]
        rw [Prod.mk.injEq]
        exact ⟨e1, by rw [depth]; omega⟩
      · rw [List.getElem?_eq_none (by simp; omega), List.getElem?_eq_none (by simp [leafSizes]; omega)]
    · refine List.ext_getElem? fun i => ?_
      have hl : (stepDepths c.friParams).length = c.friParams.reductionArityBits.length := by simp [stepDepths]
      rcases lt_or_ge i c.friParams.reductionArityBits.length with hi | hi
      · have hi1 : i < y.steps.length := by omega
        obtain ⟨e1, e2⟩ := s2 i _ _ (List.getElem?_eq_getElem hi1) (List.getElem?_eq_getElem hi)
        rw [List.getElem?_map, List.getElem?_eq_getElem hi1, List.getElem?_map,
          List.getElem?_eq_getElem (by simp [hl]; omega), Option.map_some, Option.map_some, List.getElem_zip]
        simp only [stepDepths, List.getElem_map, List.getElem_range, Option.some.injEq, Prod.mk.injEq]
        exact ⟨e1, by rw [depth]; omega⟩
      · rw [List.getElem?_eq_none (by simp; omega), List.getElem?_eq_none (by simp [hl]; omega)]
  have hrounds' : (x.openingProof.rounds.map fun y =>
        (y.initial.map fun z => (z.elements.length, z.siblings.length),
          y.steps.map fun z => (z.evals.length, z.siblings.length))) =
      (blank c (stepDepths c.friParams)).openingProof.rounds.map fun y =>
        (y.initial.map fun z => (z.elements.length, z.siblings.length),
          y.steps.map fun z => (z.evals.length, z.siblings.length)) := by
    rw [List.eq_replicate_of_mem (l := x.openingProof.rounds.map _) fun b hb => by
      obtain ⟨y, hy, rfl⟩ := List.mem_map.1 hb
      exact hrounds y hy]
    simp [blank, hr, Function.comp_def]
  simp only [sizes, hcaps, hrounds', hf.final.2, ho.constants, ho.plonkSigmas, ho.wires, ho.plonkZs, ho.plonkZsNext,
    ho.partialProducts, ho.quotientPolys, h1, h2, h3]
  simp [blank, openings]

/-- Conditions on the parameters: sizes that fit, a final polynomial, and trees at least as high as the cap. -/
structure Reasonable (q : FriParams) : Prop where
  cap : q.config.capHeight < 63
  arities : ∀ a ∈ q.reductionArityBits, a < 63
  degree : q.degreeBits < 63
  final : q.reductionArityBits.sum ≤ q.degreeBits
  depth : q.config.capHeight + q.reductionArityBits.sum ≤ q.degreeBits + q.config.rateBits

theorem sized_blank {c : CommonCircuitData} (h : Reasonable c.friParams) :
    Sized c (blank c (stepDepths c.friParams)) (List.replicate c.numPublicInputs 0) := by
  refine ⟨⟨⟨?_, ?_, ?_, ?_, ?_, ?_, ?_⟩, ⟨?_, ?_, ?_⟩, ?_⟩, fun zeta => ⟨?_, ?_, h.final, ?_⟩, ?_, ?_⟩
  case refine_12 =>
    intro cap hcap
    obtain ⟨_, -, rfl⟩ := List.mem_map.1 hcap
    simp
  case refine_13 =>
    intro y hy
    obtain rfl := List.eq_of_mem_replicate hy
    refine ⟨⟨by simp [leafSizes, Spec.Fri.plonkInstance, Spec.Fri.oracleSizes], fun i e o he hio => ?_⟩, ⟨by simp [stepDepths], fun i s a hsi ha => ?_⟩⟩
    · have h1 := oracle_sizes hio
      rw [List.getElem?_map, h1, Option.map_some, Option.some.injEq] at he
      subst he
      refine ⟨by simp, ?_⟩
      have := h.depth
      simp only [List.length_replicate, Spec.Template.depth]
      omega
    · have hi : i < c.friParams.reductionArityBits.length := (List.getElem?_eq_some_iff.1 ha).1
      have ha' : c.friParams.reductionArityBits[i] = a := by simpa [hi] using ha
      rw [List.getElem?_map, List.getElem?_eq_getElem (by simp [stepDepths]; omega), Option.map_some, Option.some.injEq,
        List.getElem_zip] at hsi
      subst hsi
      simp only [stepDepths, List.getElem_map, List.getElem_range, ha', List.length_replicate]
      have h1 : (c.friParams.reductionArityBits.take (i + 1)).sum ≤ c.friParams.reductionArityBits.sum :=
        (List.take_sublist _ _).sum_le_sum (by simp)
      have := h.depth
      simp only [Spec.Template.depth]
      exact ⟨trivial, by omega⟩
  all_goals simp [blank, openings]

/-- The sizes do not depend on the point. -/
theorem shape_zeta {B E : Type} {c : CommonCircuitData} {q : FriParams} {a : QE} {x : FriProof B E}
    (h : Spec.Fri.ProofShape q (Spec.Fri.plonkInstance c a) x) (b : QE) :
    Spec.Fri.ProofShape q (Spec.Fri.plonkInstance c b) x :=
  ⟨h.caps, fun r hr => ⟨(h.rounds r hr).initial, (h.rounds r hr).steps⟩, h.final⟩

theorem shape_enc {q : FriParams} {inst : InstanceInfo QE} {x : FriProof Fp QE} (hsh : Spec.Fri.ProofShape q inst x) :
    Spec.Fri.ProofShape q inst x.enc := by
  refine ⟨hsh.caps, fun y hy => ?_, hsh.final.1, by simpa [FriProof.enc] using hsh.final.2⟩
  obtain ⟨z, hz, rfl⟩ := List.mem_map.1 hy
  obtain ⟨⟨i1, i2⟩, ⟨s1, s2⟩⟩ := hsh.rounds z hz
  refine ⟨⟨by simpa [FriQueryRound.enc] using i1, fun i e o he ho => ?_⟩,
    ⟨by simpa [FriQueryRound.enc] using s1, fun i s a hsi hia => ?_⟩⟩
  · simp only [FriQueryRound.enc, List.getElem?_map, Option.map_eq_some_iff] at he
    obtain ⟨e', he', rfl⟩ := he
    simpa [FriEvalProof.enc] using i2 i e' o he' ho
  · simp only [FriQueryRound.enc, List.getElem?_map, Option.map_eq_some_iff] at hsi
    obtain ⟨s', hs', rfl⟩ := hsi
    simpa [FriQueryStep.enc] using s2 i s' a hs' hia

end Spec.Template

/-- **C91** The constructors and the helper functions for sizes give, for reasonable parameters, a template without a panic; its
sizes are those of the circuit. -/
theorem C91_template (c : CommonCircuitData) (h : Reasonable c.friParams) :
    ∃ x, Spec.Template.proof c (stepDepths c.friParams) = pure x ∧ Sized c x (List.replicate c.numPublicInputs 0) :=
  ⟨_, proof_eq _ h.cap h.arities h.degree h.final, sized_blank h⟩

/-- **C91** There is only one choice of sizes for a circuit: a proof with the sizes of the circuit has those of the template. -/
theorem C91_sizes (c : CommonCircuitData) (h : Reasonable c.friParams) (t x : Proof Fr QEV) (inputs : List Fr)
    (ht : Spec.Template.proof c (stepDepths c.friParams) = pure t) (hx : Sized c x inputs) : sizes x = sizes t := by
  rw [proof_eq _ h.cap h.arities h.degree h.final] at ht
  cases ht
  exact sizes_eq hx

/-- **C91** The circuit compiled from the template is the circuit for every proof with the sizes of the circuit: the same hints,
constraints and range-check requests. -/
theorem C91_calls (orders : List (List Gates.Handler)) (c : CommonCircuitData) (h : Reasonable c.friParams) (t : Proof Fr QEV)
    (ht : Spec.Template.proof c (stepDepths c.friParams) = pure t) (vd : VerifierOnlyCircuitData) :
    ∃ L : List Item, (∀ l, Emits (define poseidon orders c t (List.replicate c.numPublicInputs 0) vd) l ↔ l = L) ∧
      ∀ (x : Proof Fr QEV) (inputs : List Fr) (vd' : VerifierOnlyCircuitData), Sized c x inputs →
        vd'.constantSigmasCap.length = vd.constantSigmasCap.length →
        ∀ l, Emits (define poseidon orders c x inputs vd') l ↔ l = L := by
  obtain ⟨L, hL⟩ := C89_define orders c t (List.replicate c.numPublicInputs 0) vd
  exact ⟨L, hL _ _ _ rfl rfl rfl, fun x inputs vd' hx hv =>
    hL x inputs vd' (C91_sizes c h t x inputs ht hx) (by rw [hx.shaped.inputs, List.length_replicate]) hv⟩

/-- **C91** Proofs accepted by the verifier have these sizes when their openings, caps and number of commitments do. -/
theorem C91_accepted {P : (Fin 12 → Fp) → Fin 12 → Fp} (c : CommonCircuitData) (gates : List Gates.Gate)
    (vd : VerifierOnlyCircuitData) (x : Proof Fp QE) (inputs : List Fp)
    (hx : Spec.Verifier.Validates P c gates vd x inputs)
    (hc : x.openingProof.commitCaps.length = c.friParams.reductionArityBits.length) :
    Sized c x.enc (inputs.map emb) := by
  obtain ⟨hs, ha⟩ := hx
  have ho := hs.openings
  refine ⟨⟨⟨by simpa [Proof.enc, OpeningSet.enc] using ho.constants, by simpa [Proof.enc, OpeningSet.enc] using ho.plonkSigmas,
      by simpa [Proof.enc, OpeningSet.enc] using ho.wires, by simpa [Proof.enc, OpeningSet.enc] using ho.plonkZs,
      by simpa [Proof.enc, OpeningSet.enc] using ho.plonkZsNext,
      by simpa [Proof.enc, OpeningSet.enc] using ho.partialProducts,
      by simpa [Proof.enc, OpeningSet.enc] using ho.quotientPolys⟩, hs.caps, by simpa using hs.inputs⟩, fun zeta => ?_, ?_, hc⟩
  · exact shape_enc (shape_zeta ha.fri.shape zeta)
  · simpa [Proof.enc, FriProof.enc] using ha.fri.count.1.symm

/-- **C91** With the depths in the comment at `variables/fri.go:49` the template is refused as soon as there is a query round
and a second reduction (of arity above one): the depth must be reduced by all arities so far. -/
theorem C91_comment (c : CommonCircuitData) (h : Reasonable c.friParams) (hq : c.friParams.config.numQueryRounds ≠ 0)
    (a b : ℕ) (l : List ℕ) (he : c.friParams.reductionArityBits = a :: b :: l) (ha : a ≠ 0) :
    ∃ t, Spec.Template.proof c (commentDepths c.friParams) = pure t ∧
      Panics (Fri.validateFriProofShape t.openingProof ⟨(Spec.Fri.plonkInstance c 0).oracles, []⟩ c.friParams) := by
  refine ⟨_, proof_eq _ h.cap h.arities h.degree h.final, (C56_validate _ _ _ h.cap h.arities h.degree).2 fun hs => ?_⟩
  obtain ⟨n, hn⟩ := Nat.exists_eq_succ_of_ne_zero hq
  have hr := (hs.rounds _ (by simp only [blank, hn]; exact List.mem_cons_self ..)).steps.2 1
    ⟨List.replicate (2 ^ b) 0, List.replicate (depth c.friParams - b) 0⟩ b (by simp [he, commentDepths]) (by simp [he])
  have h1 := h.depth
  rw [he] at h1
  simp only [he, List.length_replicate, depth, List.take_succ_cons, List.take_zero, List.sum_cons, List.sum_nil] at hr h1
  omega

/-- **C91** `MaxArityBits` is the largest of the arities. -/
theorem C91_maxArityBits (q : FriParams) :
    (∀ a ∈ q.reductionArityBits, a ≤ maxArityBits q) ∧
      (maxArityBits q ∈ q.reductionArityBits ∨ maxArityBits q = 0) := by
  have e : maxArityBits q = q.reductionArityBits.foldl max 0 := by
    rw [maxArityBits]
    refine congrArg (fun f => List.foldl f 0 _) (funext fun r => funext fun b => ?_)
    split_ifs <;> omega
  have key : ∀ (l : List ℕ) (r : ℕ), (∀ a ∈ l, a ≤ l.foldl max r) ∧ r ≤ l.foldl max r ∧
      (l.foldl max r ∈ l ∨ l.foldl max r = r) := by
    intro l
    induction l with
    | nil => simp
    | cons x l ih =>
      intro r
      obtain ⟨h1, h2, h3⟩ := ih (max r x)
      rw [List.foldl_cons]
      refine ⟨?_, le_trans (le_max_left _ _) h2, ?_⟩
      · rintro a (_ | ⟨_, ha⟩)
        · exact le_trans (le_max_right _ _) h2
        · exact h1 a ha
      · rcases h3 with h3 | h3
        · exact Or.inl (List.mem_cons_of_mem _ h3)
        · rcases max_choice r x with h4 | h4
          · exact Or.inr (h3.trans h4)
          · exact Or.inl (by rw [h3, h4]; exact List.mem_cons_self ..)
  rw [e]
  exact ⟨(key _ 0).1, (key _ 0).2.2⟩

/-- **C91** `LdeSize` is the size of the domain below `2^63`. -/
theorem C91_ldeSize (q : FriParams) (h : q.degreeBits + q.config.rateBits < 63) :
    ldeSize q = 2 ^ (q.degreeBits + q.config.rateBits) := by
  rw [ldeSize, FriParams.ldeBits, goShl1_eq h]; norm_cast

/-- **C91** `FinalPolyLen` panics when the reductions exceed the degree and is otherwise the length of the final polynomial. -/
theorem C91_finalPolyLen (q : FriParams) (h : q.degreeBits < 63) :
    (q.degreeBits < q.reductionArityBits.sum → Panics (finalPolyLen q)) ∧
    (q.reductionArityBits.sum ≤ q.degreeBits →
      finalPolyLen q = pure (2 ^ (q.degreeBits - q.reductionArityBits.sum))) := by
  have e : q.totalArities = q.reductionArityBits.sum := by rw [FriParams.totalArities, List.sum_eq_foldl]
  refine ⟨fun h1 => ?_, fun h1 => ?_⟩
  · rw [finalPolyLen, if_pos (by rw [FriParams.finalPolyBits, e]; omega)]
    exact trivial
  · have e2 : q.finalPolyBits = ((q.degreeBits - q.reductionArityBits.sum : ℕ) : ℤ) := by
      rw [FriParams.finalPolyBits, e]; omega
    rw [finalPolyLen, if_neg (by rw [e2]; omega), e2, Int.toNat_natCast, goShl1_eq (by omega)]
    norm_cast

/-- **C91** beyond: `1 << 63` is negative, so that `NewFriMerkleCap` panics and `LdeSize` is negative, and larger powers are
zero, so that the cap has no entries and the domain no points. -/
theorem C91_overflow (k : ℕ) (q : FriParams) :
    (k = 63 → Panics (newFriMerkleCap k)) ∧ (64 ≤ k → newFriMerkleCap k = pure []) ∧
    (q.degreeBits + q.config.rateBits = 63 → ldeSize q = -2 ^ 63) ∧
    (64 ≤ q.degreeBits + q.config.rateBits → ldeSize q = 0) := by
  have h63 : goShl1 63 = -2 ^ 63 := rfl
  have h64 : ∀ m, 64 ≤ m → goShl1 m = 0 := fun m hm => by rw [goShl1, if_neg (by omega), if_neg (by omega)]
  refine ⟨?_, fun h => ?_, fun h => ?_, fun h => ?_⟩
  · rintro rfl
    rw [newFriMerkleCap, h63, goMake, if_pos (by norm_num)]
    exact trivial
  · rw [newFriMerkleCap, h64 k h]; rfl
  · rw [ldeSize, FriParams.ldeBits, h, h63]
  · rw [ldeSize, FriParams.ldeBits, h64 _ h]

/-- The circuit of the examples, and parameters with two reductions as in the standard configuration. -/
example : Reasonable (HonestProof.data 16).friParams ∧ Reasonable ⟨⟨3, 4, 16, 28⟩, false, 12, [4, 4]⟩ ∧
    stepDepths ⟨⟨3, 4, 16, 28⟩, false, 12, [4, 4]⟩ = [7, 3] ∧ commentDepths ⟨⟨3, 4, 16, 28⟩, false, 12, [4, 4]⟩ = [7, 7] := by
  refine ⟨⟨?_, ?_, ?_, ?_, ?_⟩, ⟨?_, ?_, ?_, ?_, ?_⟩, rfl, rfl⟩ <;> simp [HonestProof.data]

end Verif
