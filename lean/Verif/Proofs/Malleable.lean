import Verif.Proofs.Bijective

/-!
# Absorbed elements can be replaced

For the S-box relation of the code: whenever an element is absorbed and something is read later, the same run exists with
another element in its place.
-/

set_option autoImplicit false

namespace Verif.Malleable

open Spec (Ev residue)
open Spec.Free Bijective

/-- One permuted block. -/
theorem block_other {s t : St} {l : List Fr} {i : ℕ} (hi : i < l.length) (h12 : i < 12)
    (h : Perm SBox (over s (l.map residue)) t) :
    ∃ v : Fp, v ≠ residue l[i] ∧ Perm SBox (over s ((l.set i (emb v)).map residue)) t := by
  obtain ⟨v, hv, hall⟩ := perm_other h
  refine ⟨v ⟨i, h12⟩, ?_, hall _ fun j => ?_⟩
  · have := hv ⟨i, h12⟩
    simpa only [over, List.getElem?_map, List.getElem?_eq_getElem hi, Option.map_some, Option.getD_some] using this
  · by_cases hj : (j : ℕ) = i
    · left
      subst hj
      simp only [over, List.getElem?_map, List.getElem?_set_self hi, Option.map_some, Option.getD_some,
        Challenger.residue_emb]
    · right
      simp only [over, List.getElem?_map, List.getElem?_set_ne (Ne.symm hj)]

/-- An element waiting to be absorbed. -/
theorem waiting_other (l : List Ev) {k k' : Conf} {o : List Fp} (hk : k.waiting.length ≤ 7) {i : ℕ}
    (hi : i < k.waiting.length) (hl : Ev.squeeze ∈ l) (h : Run (Perm SBox) l k o k') :
    ∃ v : Fp, v ≠ residue k.waiting[i] ∧
      Run (Perm SBox) l ⟨k.state, k.waiting.set i (emb v), k.left⟩ o k' := by
  induction l generalizing k o with
  | nil => simp at hl
  | cons e l ih =>
    obtain ⟨m, a, b, hs, hr, rfl⟩ := h
    cases e with
    | absorb y =>
      obtain ⟨rfl, hs⟩ := hs
      have hl : Ev.squeeze ∈ l := by simpa using hl
      split_ifs at hs with hlen
      · subst hs
        obtain ⟨v, hv, hr⟩ := ih (k := ⟨k.state, k.waiting ++ [y], 0⟩) (by simp; omega) (by simp; omega) hl hr
        refine ⟨v, ?_, _, [], b, ⟨rfl, ?_⟩, hr, rfl⟩
        · simpa only [List.getElem_append_left hi] using hv
        · rw [if_pos (by simpa using hlen)]
          simp only [List.set_append_left _ _ hi]
      · obtain ⟨t, ht, rfl⟩ := hs
        obtain ⟨v, hv, hp⟩ := block_other (i := i) (by simp; omega) (by omega) ht
        refine ⟨v, ?_, _, [], b, ⟨rfl, ?_⟩, hr, rfl⟩
        · simpa only [List.getElem_append_left hi] using hv
        · rw [if_neg (by simpa using hlen)]
          refine ⟨t, ?_, rfl⟩
          rwa [List.set_append_left _ _ hi] at hp
    | squeeze =>
      have hne : k.waiting ≠ [] := List.ne_nil_of_length_pos (by omega)
      simp only [Step] at hs
      rw [if_neg (fun h => hne h.1)] at hs
      obtain ⟨t, ht, rfl, rfl⟩ := hs
      obtain ⟨v, hv, hp⟩ := block_other hi (by omega) ht
      refine ⟨v, hv, _, [t 7], b, ?_, hr, rfl⟩
      simp only [Step]
      rw [if_neg (fun h => hne ((List.set_eq_nil_iff _ _).1 h.1))]
      exact ⟨t, hp, rfl, rfl⟩

/-- The element absorbed next. -/
theorem absorb_other (x : Fr) (l : List Ev) {k k' : Conf} {o : List Fp} (hk : k.waiting.length ≤ 7)
    (hl : Ev.squeeze ∈ l) (h : Run (Perm SBox) (.absorb x :: l) k o k') :
    ∃ v : Fp, v ≠ residue x ∧ Run (Perm SBox) (.absorb (emb v) :: l) k o k' := by
  obtain ⟨m, a, b, ⟨rfl, hs⟩, hr, rfl⟩ := h
  split_ifs at hs with hlen
  · subst hs
    obtain ⟨v, hv, hr⟩ := waiting_other l (k := ⟨k.state, k.waiting ++ [x], 0⟩) (i := k.waiting.length) (by simp; omega)
      (by simp) hl hr
    refine ⟨v, by simpa using hv, _, [], _, ⟨rfl, ?_⟩, hr, rfl⟩
    rw [if_pos hlen]
    simp
  · obtain ⟨t, ht, rfl⟩ := hs
    obtain ⟨v, hv, hp⟩ := block_other (i := k.waiting.length) (by simp) (by omega) ht
    refine ⟨v, by simpa using hv, _, [], _, ⟨rfl, ?_⟩, hr, rfl⟩
    rw [if_neg hlen]
    exact ⟨t, by simpa using hp, rfl⟩

theorem waiting_step {R : St → St → Prop} {k k' : Conf} {e : Ev} {o : List Fp}
    (h : Step R k e o k') : k'.waiting.length ≤ 7 := by
  cases e with
  | absorb x =>
    obtain ⟨-, h⟩ := h
    split_ifs at h with hlen
    · subst h; simp; omega
    · obtain ⟨t, -, rfl⟩ := h; simp
  | squeeze =>
    simp only [Step] at h
    split_ifs at h with hlen
    · rw [h.2]; simp
    · obtain ⟨t, -, -, rfl⟩ := h; simp

theorem waiting_run {R : St → St → Prop} {l : List Ev} {k k' : Conf} {o : List Fp} (hk : k.waiting.length ≤ 7)
    (h : Run R l k o k') : k'.waiting.length ≤ 7 := by
  induction l generalizing k o with
  | nil => rw [h.2]; exact hk
  | cons e l ih =>
    obtain ⟨m, a, b, h1, h2, -⟩ := h
    exact ih (waiting_step h1) h2

/-- Any absorbed element followed by a read. -/
theorem run_other (l l' : List Ev) (x : Fr) {k' : Conf} {o : List Fp} (hl : Ev.squeeze ∈ l')
    (h : Run (Perm SBox) (l ++ .absorb x :: l') .init o k') :
    ∃ v : Fp, v ≠ residue x ∧ Run (Perm SBox) (l ++ .absorb (emb v) :: l') .init o k' := by
  obtain ⟨m, a, b, h1, h2, rfl⟩ := (Freedom.run_append _ _ _ _ _).1 h
  obtain ⟨v, hv, h2⟩ := absorb_other x l' (waiting_run (by simp [Conf.init]) h1) hl h2
  exact ⟨v, hv, (Freedom.run_append _ _ _ _ _).2 ⟨m, a, b, h1, h2, rfl⟩⟩

/-! ## The proof-of-work witness -/

/-- The proof with another proof-of-work witness. -/
def withPow (x : Proof Fp QE) (w : Fp) : Proof Fp QE :=
  { x with openingProof := { x.openingProof with powWitness := w } }

theorem transcript_pow (n q : ℕ) (digest : Fr) (h : Fin 4 → Fp) (x : Proof Fp QE) :
    ∃ l, ∀ w, Spec.transcript n q digest h (withPow x w) =
      l ++ .absorb (emb w) :: (Spec.squeezes 1 ++ Spec.squeezes q) := by
  let o := x.openings
  refine ⟨Spec.absorbs (Spec.limbs digest ++ (List.ofFn h).map emb ++ Spec.capElems x.wiresCap) ++
    Spec.squeezes n ++ Spec.squeezes n ++ Spec.absorbs (Spec.capElems x.plonkZsPartialProductsCap) ++
    Spec.squeezes n ++ Spec.absorbs (Spec.capElems x.quotientPolysCap) ++ Spec.squeezes 2 ++
    Spec.absorbs (Spec.coords (o.constants ++ o.plonkSigmas ++ o.wires ++ o.plonkZs ++ o.partialProducts ++ o.quotientPolys ++
      o.plonkZsNext)) ++ Spec.squeezes 2 ++
    (x.openingProof.commitCaps.flatMap fun cap => Spec.absorbs (Spec.capElems cap) ++ Spec.squeezes 2) ++
    Spec.absorbs (Spec.coords x.openingProof.finalPoly), fun w => ?_⟩
  simp only [Spec.transcript, withPow, Spec.absorbs, List.map_append, List.map_cons, List.map_nil, List.append_assoc,
    List.cons_append, List.nil_append]
  rfl

theorem checks_pow {c : CommonCircuitData} {gates : List Gates.Gate} {vd : VerifierOnlyCircuitData} {x : Proof Fp QE}
    {h : Fin 4 → Fp} {ch : ProofChallenges Fp QE} (w : Fp) (hc : Spec.Verifier.Checks c gates vd x h ch) :
    Spec.Verifier.Checks c gates vd (withPow x w) h ch :=
  ⟨hc.zeta, hc.identity, ⟨⟨hc.fri.shape.1, hc.fri.shape.2, hc.fri.shape.3⟩, hc.fri.pow, hc.fri.count, hc.fri.enough,
    hc.fri.rounds⟩⟩

theorem accepts_pow {c : CommonCircuitData} {gates : List Gates.Gate} {vd : VerifierOnlyCircuitData} {x : Proof Fp QE}
    {inputs : List Fp} (h : Accepts SBox c gates vd x inputs) :
    ∃ w, w ≠ x.openingProof.powWitness ∧ Accepts SBox c gates vd (withPow x w) inputs := by
  obtain ⟨hh, o, k, h1, h2, h3⟩ := h
  obtain ⟨l, hl⟩ := transcript_pow c.config.numChallenges c.config.friConfig.numQueryRounds vd.circuitDigest hh x
  have e : withPow x x.openingProof.powWitness = x := rfl
  rw [← e, hl] at h2
  obtain ⟨w, hw, h2⟩ := run_other _ _ _ (by simp [Spec.squeezes]) h2
  rw [Challenger.residue_emb] at hw
  exact ⟨w, hw, hh, o, k, h1, by rw [hl]; exact h2, checks_pow w h3⟩

end Verif.Malleable
