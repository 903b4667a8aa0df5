import Verif.Proofs.PlonkTrace

/-!
# Properties C72 and C73: the PLONK part accepts exactly satisfied traces

`Spec/PlonkTrace.lean` says what it means that a trace (constants, sigmas, wires as polynomials of low degree) satisfies
a circuit: the constraints of the selected gate hold in every row, and connected wires are equal.  The challenges come in
the order of the transcript; what the prover sends in a round may depend on all earlier challenges, which is expressed by
the order of the quantifiers.
-/

set_option autoImplicit false

namespace Verif

open Circ Polynomial Spec.Plonk
open Spec.Fri (omega)

variable {c : CommonCircuitData} {gates : List Gates.Gate} {t : Trace} {k : ℕ → ℕ} {h : Fin 4 → Fp}
  {s : Equiv.Perm (Fin (n c) × Fin c.config.numRoutedWires)}

/-! ## C72 -/

/-- **C72** Every satisfied trace is accepted: for all `beta`, `gamma` without a zero denominator there are accumulators
and partial products, for all `alpha` quotient chunks, all of low degree, such that for every `zeta` other than 1 the
openings at `zeta` pass the circuit. -/
theorem C72_plonk_complete (hc : Proper c gates) (ht : t.Fits c) (hk : t.Selects c gates k) (hs : t.Routes c s)
    (hsat : t.Satisfies c gates k s h) (bs gs : List Fp) (hb : bs.length = c.config.numChallenges)
    (hg : gs.length = c.config.numChallenges)
    (hnz : ∀ i < c.config.numChallenges, ∀ m < n c, ∀ j < c.config.numRoutedWires,
      t.den c (bs.getD i 0) (gs.getD i 0) m j ≠ 0) :
    ∃ zs pps : List Fp[X], Low c zs ∧ Low c pps ∧ zs.length = c.config.numChallenges ∧
      pps.length = c.config.numChallenges * c.numPartialProducts ∧
    ∀ as : List Fp, as.length = c.config.numChallenges →
    ∃ qs : List Fp[X], Low c qs ∧ qs.length = c.config.numChallenges * c.quotientDegreeFactor ∧
    ∀ z : QE, z ≠ 1 → ∀ fri : FriChallenges Fp QE,
      Computes (Plonk.verify c gates (ProofChallenges.enc ⟨bs, gs, as, z, fri⟩) (openings c t zs pps qs z).enc
        fun i => emb (h i)) () := by
  have hgates := (Plonk.gatesHold_iff hc hk).2 hsat.1
  obtain ⟨zs, pps, hz, hp, hz', hp', hr⟩ := Plonk.accumulators_exist hc.rows.2 hc.chunks hgates hs hsat.2 bs gs hnz
  refine ⟨zs, pps, hz, hp, hz', hp', fun as ha => ?_⟩
  obtain ⟨qs, hq, hq', hI⟩ := Plonk.quotients_exist hc.rows.1 hc.rows.2 hc.factor ht.low hz hp hc.degrees hr as
  refine ⟨qs, hq, hq', fun z hz1 fri => ?_⟩
  have e := C47_verify (h := h) (Plonk.shape (z := z) (fri := fri) hc ht.toSized hb hg ha hz' hp' hq')
  have hI := hI z fri hz1
  exact ⟨fun _ => ⟨fun _ => rfl, fun _ => e.1.2 ⟨hz1, hI⟩⟩, e.2.2 ⟨hz1, hI⟩⟩

/-- **C72** For every `beta`, all but at most `n * numRoutedWires` values of `gamma` avoid zero denominators. -/
theorem C72_denominators (t : Trace) (b : Fp) :
    ∃ G : Finset Fp, G.card ≤ n c * c.config.numRoutedWires ∧
      ∀ g ∉ G, ∀ m < n c, ∀ j < c.config.numRoutedWires, t.den c b g m j ≠ 0 := by
  classical
  refine ⟨Finset.univ.image fun x : Fin (n c) × Fin c.config.numRoutedWires => - t.den c b 0 x.1 x.2,
    Finset.card_image_le.trans (by simp), fun g hg m hm j hj h0 => hg (Finset.mem_image.2
      ⟨(⟨m, hm⟩, ⟨j, hj⟩), Finset.mem_univ _, ?_⟩)⟩
  simp only [Trace.den] at h0 ⊢
  linear_combination -h0

/-! ## C73 -/

/-- **C73** A trace that does not satisfy the circuit is rejected, whatever accumulators, partial products and quotients
of degree at most `n` (which is what FRI enforces, `C75_fri_sound`) the prover sends, unless the challenges hit small sets:
either `zeta` one of at most `(quotientDegreeFactor + 1) * n`, or in every single one of the `numChallenges` repetitions
`beta` one of at most `n * numRoutedWires`, or `gamma` one of as many, or `alpha` one of fewer than the number of terms. -/
theorem C73_plonk_sound (hc : Proper c gates) (ht : t.Sized c) (hl : t.AtMost (n c)) (hk : t.Selects c gates k)
    (hs : t.Routes c s) (hbad : ¬ t.Satisfies c gates k s h) :
    ∃ B : Finset Fp, B.card ≤ n c * c.config.numRoutedWires ∧
    ∃ G : Fp → Finset Fp, (∀ b, (G b).card ≤ n c * c.config.numRoutedWires) ∧
    ∀ bs gs : List Fp, bs.length = c.config.numChallenges → gs.length = c.config.numChallenges →
    ∀ zs pps : List Fp[X], AtMost (n c) zs → AtMost (n c) pps → zs.length = c.config.numChallenges →
      pps.length = c.config.numChallenges * c.numPartialProducts →
    ∃ A : Finset Fp, A.card ≤
      c.config.numChallenges + c.config.numChallenges * (c.numPartialProducts + 1) + c.numGateConstraints - 1 ∧
    ∀ as : List Fp, as.length = c.config.numChallenges →
    ∀ qs : List Fp[X], AtMost (n c) qs → qs.length = c.config.numChallenges * c.quotientDegreeFactor →
    ∃ S : Finset QE, S.card ≤ (c.quotientDegreeFactor + 1) * n c ∧
    ∀ z ∉ S, ∀ fri : FriChallenges Fp QE,
      Sat (Plonk.verify c gates (ProofChallenges.enc ⟨bs, gs, as, z, fri⟩) (openings c t zs pps qs z).enc
        fun i => emb (h i)) () →
      ∀ i < c.config.numChallenges, bs.getD i 0 ∈ B ∨ gs.getD i 0 ∈ G (bs.getD i 0) ∨ as.getD i 0 ∈ A := by
  have hbad' : ¬ (GatesHold c gates t h ∧ t.Copies c s) := fun h' =>
    hbad ⟨(Plonk.gatesHold_iff hc hk).1 h'.1, h'.2⟩
  obtain ⟨B, hB, G, hG, H⟩ := Plonk.sound hc.rows.1 hc.rows.2 hc.factor hc.chunks hl hc.degrees hs hc.names hbad'
  refine ⟨B, hB, G, hG, fun bs gs hb hg zs pps hz hp hz' hp' => ?_⟩
  obtain ⟨A, hA, H⟩ := H bs gs zs pps hz hp
  refine ⟨A, hA, fun as ha qs hq hq' => ?_⟩
  obtain ⟨S, hS, H⟩ := H as qs hq
  refine ⟨S, hS, fun z hzS fri hsat => ?_⟩
  have e := (C47_verify (h := h) (Plonk.shape (z := z) (fri := fri) hc ht hb hg ha hz' hp' hq')).1.1 hsat
  exact H z hzS e.1 fri e.2

/-! ## A circuit -/

/-- `2^b` rows of one arithmetic gate, four routed wires in two chunks, one challenge. -/
def traceData (b : ℕ) (fp : FriParams) : CommonCircuitData where
  config := ⟨4, 4, 2, true, 0, 1, false, 2, fp.config⟩
  friParams := fp
  gateIds := ["ArithmeticGate { num_ops: 1 }"]
  selectorsInfo := ⟨[0], [(0, 1)]⟩
  degreeBits := b
  quotientDegreeFactor := 2
  numGateConstraints := 1
  numConstants := 3
  numPublicInputs := 0
  kIs := [1, 7, 49, 343]
  numPartialProducts := 1

/-- The same values in all rows; the gate computes `x * y + z`. -/
noncomputable def exampleTrace (b : ℕ) (x y z w : Fp) : Trace where
  constants := [C 0, C 1, C 1]
  sigmas := [1, 7, 49, 343].map fun k : Fp => C (k * omega b) * X
  wires := [C x, C y, C z, C w]

/-- Every wire is connected to the same wire in the next row. -/
def nextRow (b : ℕ) : Equiv.Perm (Fin (2 ^ b) × Fin 4) := Equiv.prodCongrLeft fun _ => Equiv.addRight 1

variable {b : ℕ} {fp : FriParams}

theorem name_traceData (m j : ℕ) :
    name (traceData b fp) m j = (([1, 7, 49, 343].getD j 0 : ℕ) : Fp) * omega b ^ m := rfl

theorem cosets_distinct (j j' : Fin 4)
    (h : (([1, 7, 49, 343].getD j 0 : ℕ) : Fp) ^ 2 ^ 32 = (([1, 7, 49, 343].getD j' 0 : ℕ) : Fp) ^ 2 ^ 32) : j = j' := by
  have hp : ∀ a : ℕ, ((a : ℕ) : Fp) ^ 2 ^ 32 = ((powMod 33 a (2 ^ 32) p : ℕ) : Fp) := by
    intro a
    rw [powMod_eq 33 _ _ _ (by norm_num), ← Nat.cast_pow]
    exact (ZMod.natCast_mod _ _).symm
  rw [hp, hp] at h
  revert h
  revert j j'
  decide +kernel

theorem traceData_proper (hb : 1 ≤ b ∧ b ≤ 32) : Proper (traceData b fp) [.arithmetic 1] := by
  have hz : ∀ gi ∈ List.zipIdx [Gates.Gate.arithmetic 1], gi = (.arithmetic 1, 0) := by simp [List.zipIdx]
  refine ⟨hb, by simp [traceData], by simp [traceData], by simp [traceData], ?_, ?_, ?_, by simp [traceData],
    by simp [traceData], by simp [traceData], by norm_num [traceData, p], ?_⟩
  · rintro gi hgi
    rw [hz gi hgi]
    exact ⟨by simp [traceData], by simp [traceData], by norm_num [traceData, p], by simp [traceData],
      by norm_num [Spec.Gates.Fits, traceData]⟩
  · rintro gi hgi x
    rw [hz gi hgi]
    simp [Spec.Gates.constraints, Spec.Gates.arithmetic, traceData]
  · rintro gi hgi
    rw [hz gi hgi]
    simp [Spec.Gates.degree, Spec.Gates.filterDegree, traceData]
  · rintro ⟨m, j⟩ ⟨m', j'⟩ h
    have h : (([1, 7, 49, 343].getD j 0 : ℕ) : Fp) * omega b ^ (m : ℕ) =
      (([1, 7, 49, 343].getD j' 0 : ℕ) : Fp) * omega b ^ (m' : ℕ) := h
    have hone : ∀ m : ℕ, (omega b ^ m) ^ 2 ^ 32 = 1 := by
      intro m
      rw [← pow_mul, mul_comm, pow_mul, show 2 ^ 32 = 2 ^ b * 2 ^ (32 - b) by rw [← pow_add]; congr 1; omega, pow_mul,
        Fri.omega_pow_card hb.2, one_pow, one_pow]
    have h1 := congrArg (· ^ 2 ^ 32) h
    simp only [mul_pow, hone, mul_one] at h1
    obtain rfl := cosets_distinct j j' h1
    have hne : (([1, 7, 49, 343].getD j 0 : ℕ) : Fp) ≠ 0 := by
      have : ∀ j : Fin 4, (([1, 7, 49, 343].getD j 0 : ℕ) : Fp) ≠ 0 := by decide +kernel
      exact this j
    have h2 := Plonk.omega_injOn (c := traceData b fp) hb.2 (Finset.mem_coe.2 (Finset.mem_range.2 m.2))
      (Finset.mem_coe.2 (Finset.mem_range.2 m'.2)) (mul_left_cancel₀ hne h)
    rw [Fin.ext h2]

theorem exampleTrace_fits (hb : 1 ≤ b) (x y z w : Fp) : (exampleTrace b x y z w).Fits (traceData b fp) := by
  have h4 : ((2 : ℕ) : WithBot ℕ) ≤ (2 : WithBot ℕ) ^ b := by
    have : 2 ≤ 2 ^ b := by calc 2 = 2 ^ 1 := rfl
      _ ≤ 2 ^ b := Nat.pow_le_pow_right (by norm_num) hb
    exact_mod_cast this
  have hC : ∀ a : Fp, (C a).degree < (2 : WithBot ℕ) ^ b := fun a =>
    lt_of_lt_of_le (lt_of_le_of_lt degree_C_le (by norm_num)) h4
  refine ⟨⟨rfl, rfl, rfl⟩, ⟨?_, ?_, ?_⟩⟩
  · intro f hf
    simp only [exampleTrace, List.mem_cons, List.not_mem_nil, or_false] at hf
    rcases hf with rfl | rfl | rfl <;> exact hC _
  · intro f hf
    simp only [exampleTrace, List.mem_map] at hf
    obtain ⟨k, -, rfl⟩ := hf
    exact lt_of_lt_of_le (lt_of_le_of_lt (degree_C_mul_X_le _) (by norm_num)) h4
  · intro f hf
    simp only [exampleTrace, List.mem_cons, List.not_mem_nil, or_false] at hf
    rcases hf with rfl | rfl | rfl | rfl <;> exact hC _

theorem exampleTrace_selects (x y z w : Fp) :
    (exampleTrace b x y z w).Selects (traceData b fp) [.arithmetic 1] fun _ => 0 := by
  refine fun m _ => ⟨Nat.one_pos, ?_, ?_⟩
  · simp [exampleTrace, traceData]
  · intro s hs
    have : s = 0 := by simpa [traceData] using hs
    simp [this, traceData]

theorem exampleTrace_den (x y z w beta gamma : Fp) (m j : ℕ) :
    (exampleTrace b x y z w).den (traceData b fp) beta gamma m j =
      beta * (([1, 7, 49, 343] : List Fp).getD j 0 * omega b * omega b ^ m) + ([x, y, z, w] : List Fp).getD j 0 + gamma := by
  have h0 : (0 : Fp[X]) = (fun k : Fp => C (k * omega b) * X) 0 := by simp
  have h1 : (0 : Fp[X]) = (fun k : Fp => C k) 0 := by simp
  have hw : (exampleTrace b x y z w).wires = [x, y, z, w].map fun k : Fp => C k := rfl
  rw [Trace.den, Trace.wire, hw]
  nth_rw 1 [h0]
  rw [exampleTrace, List.getD_map, h1, List.getD_map, eval_mul, eval_C, eval_X, eval_C]
  rfl

theorem exampleTrace_routes (hb : 1 ≤ b ∧ b ≤ 32) (x y z w : Fp) :
    (exampleTrace b x y z w).Routes (traceData b fp) (nextRow b) := by
  have hj : ∀ j, (exampleTrace b x y z w).sigmas.getD j 0 = C ((([1, 7, 49, 343] : List Fp).getD j 0) * omega b) * X := by
    intro j
    have h0 : (0 : Fp[X]) = (fun k : Fp => C (k * omega b) * X) 0 := by simp
    rw [h0, exampleTrace, List.getD_map]
  have main : ∀ (m : Fin (2 ^ b)) (j : Fin 4), ((exampleTrace b x y z w).sigmas.getD j 0).eval (omega b ^ (m : ℕ)) =
      name (traceData b fp) (nextRow b (m, j)).1 (nextRow b (m, j)).2 := by
    intro m j
    have h1 : ((nextRow b (m, j)).1 : ℕ) = (m + 1) % 2 ^ b := by
      show ((m + 1 : Fin (2 ^ b)) : ℕ) = _
      have h2 : 1 < 2 ^ b := Nat.one_lt_two_pow (by omega)
      rw [Fin.val_add, Fin.val_one', Nat.mod_eq_of_lt h2]
    have h4 : omega b ^ (((m : ℕ) + 1) % 2 ^ b) = omega b ^ ((m : ℕ) + 1) := by
      have := pow_mod_orderOf (omega b) ((m : ℕ) + 1)
      rwa [Fri.orderOf_omega hb.2] at this
    rw [hj, eval_mul, eval_C, eval_X, name_traceData, h1, h4]
    have h3 : (([1, 7, 49, 343].getD (nextRow b (m, j)).2 0 : ℕ) : Fp) = ([1, 7, 49, 343] : List Fp).getD j 0 := by
      show (([1, 7, 49, 343].getD j 0 : ℕ) : Fp) = _
      have : ∀ j : Fin 4, (([1, 7, 49, 343].getD j 0 : ℕ) : Fp) = ([1, 7, 49, 343] : List Fp).getD j 0 := by decide +kernel
      exact this j
    rw [h3]
    ring
  exact main

/-- The trace satisfies the circuit exactly if `w = x * y + z`. -/
theorem exampleTrace_satisfies (x y z w : Fp) (h : Fin 4 → Fp) :
    (exampleTrace b x y z w).Satisfies (traceData b fp) [.arithmetic 1] (fun _ => 0) (nextRow b) h ↔ w = x * y + z := by
  have hcopy : (exampleTrace b x y z w).Copies (traceData b fp) (nextRow b) := by
    have : ∀ (m : Fin (2 ^ b)) (j : Fin 4), (exampleTrace b x y z w).wire (traceData b fp) m j =
        (exampleTrace b x y z w).wire (traceData b fp) (nextRow b (m, j)).1 (nextRow b (m, j)).2 := by
      intro m j
      have h2 : (nextRow b (m, j)).2 = j := rfl
      rw [h2]
      fin_cases j <;> simp [Trace.wire, exampleTrace]
    exact this
  have hrow : ∀ m, Spec.Gates.Vanish (Spec.Gates.constraints (.arithmetic 1)
      (((exampleTrace b x y z w).row (traceData b fp) h m).drop (traceData b fp).selectorsInfo.groups.length)) ↔
        w = x * y + z := by
    intro m
    simp [Spec.Gates.Vanish, Spec.Gates.constraints, Spec.Gates.arithmetic, Trace.row, exampleTrace, Spec.Gates.Row.drop,
      traceData]
    rw [sub_eq_zero, ← Fri.ofBase_mul, ← QuadraticAlgebra.C_add]
    exact Plonk.ofBase_inj
  refine (and_iff_left hcopy).trans ?_
  constructor
  · intro H
    exact (hrow 0).1 (H 0 (Nat.two_pow_pos b) _ rfl)
  · intro H m _ g hg
    obtain rfl : Gates.Gate.arithmetic 1 = g := by simpa using hg
    exact (hrow m).2 H

/-- Completeness for this circuit: every `beta`, some `gamma`, every `alpha` and every `zeta` other than 1. -/
example (hb : 1 ≤ b ∧ b ≤ 32) (x y z beta : Fp) : ∃ (g : Fp) (zs pps : List Fp[X]), ∀ a : Fp, ∃ qs : List Fp[X],
    ∀ ζ : QE, ζ ≠ 1 → ∀ fri : FriChallenges Fp QE,
    Computes (Plonk.verify (traceData b fp) [.arithmetic 1] (ProofChallenges.enc ⟨[beta], [g], [a], ζ, fri⟩)
      (openings (traceData b fp) (exampleTrace b x y z (x * y + z)) zs pps qs ζ).enc fun _ => emb 0) () := by
  obtain ⟨G, hG, H⟩ := C72_denominators (c := traceData b fp) (exampleTrace b x y z (x * y + z)) beta
  have hG : G.card ≤ 2 ^ b * 4 := hG
  obtain ⟨g, hg⟩ : ∃ g, g ∉ G := by
    by_contra hno
    push Not at hno
    have : G = Finset.univ := Finset.eq_univ_iff_forall.2 hno
    rw [this, Finset.card_univ, ZMod.card] at hG
    have := hG.trans (Nat.mul_le_mul_right 4 (Nat.pow_le_pow_right (by norm_num) hb.2))
    norm_num [p] at this
  obtain ⟨zs, pps, -, -, -, -, H⟩ := C72_plonk_complete (h := fun _ => 0) (traceData_proper hb)
    (exampleTrace_fits hb.1 x y z (x * y + z)) (exampleTrace_selects x y z _) (exampleTrace_routes hb x y z _)
    ((exampleTrace_satisfies x y z _ _).2 rfl) [beta] [g] rfl rfl (fun i hi m hm j hj => by
      obtain rfl : i = 0 := by simpa [traceData] using hi
      exact H g hg m hm j hj)
  refine ⟨g, zs, pps, fun a => ?_⟩
  obtain ⟨qs, -, -, H⟩ := H [a] rfl
  exact ⟨qs, H⟩

/-- Soundness for this circuit: the wrong value is caught except for `4 * 2^b` values of `beta` and of `gamma`, 3 of
`alpha` and `3 * 2^b` of `zeta`. -/
example (hb : 1 ≤ b ∧ b ≤ 32) (x y z w : Fp) (hw : w ≠ x * y + z) :
    ∃ B : Finset Fp, B.card ≤ 2 ^ b * 4 ∧ ∀ beta ∉ B, ∃ G : Finset Fp, G.card ≤ 2 ^ b * 4 ∧ ∀ g ∉ G,
    ∀ Z pp : Fp[X], AtMost (2 ^ b) [Z] → AtMost (2 ^ b) [pp] → ∃ A : Finset Fp, A.card ≤ 3 ∧ ∀ a ∉ A,
    ∀ q₀ q₁ : Fp[X], AtMost (2 ^ b) [q₀, q₁] → ∃ S : Finset QE, S.card ≤ 3 * 2 ^ b ∧ ∀ ζ ∉ S,
    ∀ fri : FriChallenges Fp QE,
    ¬ Sat (Plonk.verify (traceData b fp) [.arithmetic 1] (ProofChallenges.enc ⟨[beta], [g], [a], ζ, fri⟩)
      (openings (traceData b fp) (exampleTrace b x y z w) [Z] [pp] [q₀, q₁] ζ).enc fun _ => emb 0) () := by
  obtain ⟨B, hB, G, hG, H⟩ := C73_plonk_sound (h := fun _ => 0) (traceData_proper (fp := fp) hb)
    (exampleTrace_fits hb.1 x y z w).toSized (Plonk.low_atMost_n (exampleTrace_fits hb.1 x y z w).low)
    (exampleTrace_selects x y z w) (exampleTrace_routes hb x y z w) (mt (exampleTrace_satisfies x y z w _).1 hw)
  refine ⟨B, hB, fun beta hb => ⟨G beta, hG beta, fun g hg Z pp hZ hpp => ?_⟩⟩
  obtain ⟨A, hA, H⟩ := H [beta] [g] rfl rfl [Z] [pp] hZ hpp rfl rfl
  refine ⟨A, hA, fun a ha q₀ q₁ hq => ?_⟩
  obtain ⟨S, hS, H⟩ := H [a] rfl [q₀, q₁] hq rfl
  exact ⟨S, hS, fun ζ hζ fri hsat => by simpa [hb, hg, ha] using H ζ hζ fri hsat 0 Nat.one_pos⟩

end Verif
