import Verif.Proofs.FriLaw
import Verif.Proofs.Panics

/-!
# Properties C48-C56, C62, C63: FRI

`emb`, `embQ` and the `enc` functions turn field elements and typed proofs into canonical circuit values.
-/

set_option autoImplicit false

namespace Verif

open Circ Fri Spec.Fri Polynomial

/-! ## C48 -/

/-- **C48** exponentiation of a constant by boolean bits, up to 63 bits. -/
theorem C48_expFromBits (base : Fp) (hb : base ≠ 0) (bits : List Bool) (hl : bits.length ≤ 63) :
    Computes (expFromBitsConstBase base (bits.map bitF)) (emb (base ^ bitsVal bits)) :=
  (den_eq_pure_iff _ _).1 (den_expFromBits hb bits hl)

/-- **C48** for the bases the verifier uses (elements of two-power order), any number of bits. -/
theorem C48_expFromBits_root (base : Fp) (hb : base ^ 2 ^ 32 = 1) (bits : List Bool) :
    Computes (expFromBitsConstBase base (bits.map bitF)) (emb (base ^ bitsVal bits)) :=
  (den_eq_pure_iff _ _).1 (den_expFromBits' (by rintro rfl; simp at hb) bits (Or.inr hb))

/-- **C48** the query point of index `v` in a domain of size `2^n` is `7 ω^(bit reversal of v)`. -/
theorem C48_queryPoint (n v : ℕ) (hn : n ≤ 32) :
    Computes (calculateSubgroupX ((lowBits n v).map bitF) n) (emb (7 * omega n ^ bitRev n v)) :=
  (den_eq_pure_iff _ _).1 (den_calculateSubgroupX (lowBits n v) hn)

/-- **C48** `omega n` generates the subgroup of order `2^n`. -/
theorem C48_omega (n : ℕ) (hn : n ≤ 32) : orderOf (omega n) = 2 ^ n := orderOf_omega hn

/-- **C48** bit reversal is an involution on `n`-bit numbers, so different indices get different points. -/
theorem C48_points_distinct (n v w : ℕ) (hn : n ≤ 32) (hv : v < 2 ^ n) (hw : w < 2 ^ n)
    (h : (7 : Fp) * omega n ^ bitRev n v = 7 * omega n ^ bitRev n w) : v = w := by
  have h1 := mul_left_cancel₀ (by decide +kernel) h
  have h2 : bitRev n v = bitRev n w :=
    pow_injOn_Iio_orderOf (by simpa [orderOf_omega hn] using bitRev_lt n v)
      (by simpa [orderOf_omega hn] using bitRev_lt n w) h1
  rw [← bitRev_bitRev hv, h2, bitRev_bitRev hw]

/-- The bits of 6, lowest first, and base 3; the query point of index 6 among 16. -/
example : Computes (expFromBitsConstBase 3 ([false, true, true].map bitF)) (emb (3 ^ 6)) :=
  C48_expFromBits 3 (by decide +kernel) [false, true, true] (by norm_num)
example : Computes (expFromBitsConstBase (omega 4) ([false, true, true].map bitF)) (emb (omega 4 ^ 6)) := by
  refine C48_expFromBits_root (omega 4) ?_ [false, true, true]
  rw [show 2 ^ 32 = 2 ^ 4 * 2 ^ 28 by norm_num, pow_mul, ← C48_omega 4 (by norm_num), pow_orderOf_eq_one, one_pow]
example : Computes (calculateSubgroupX ((lowBits 4 1).map bitF) 4) (emb (7 * omega 4 ^ 8)) :=
  C48_queryPoint 4 1 (by norm_num)

example : bitRev 4 1 = 8 ∧ bitRev 4 6 = 6 ∧ bitRev 5 6 = 12 := by decide
example : bitsVal [true, false, true, true] = 13 := by decide

/-! ## C49 -/

/-- **C49** for `β` outside the coset, `computeEvaluation` yields the value at `β` of the polynomial of degree below
the arity that takes the given values on the coset (bit-reversed order). -/
theorem C49_computeEvaluation (a : ℕ) (ha : a ≤ 7) (x : Fp) (hx : x ≠ 0) (bits : List Bool) (evals : List QE)
    (hl : evals.length = 2 ^ a) (β : QE) (hβ : ∀ i < 2 ^ a, β ≠ cosetPoint a x bits i)
    (P : QE[X]) (hd : P.degree < 2 ^ a) (he : ∀ i < 2 ^ a, P.eval (cosetPoint a x bits i) = evals.getD i 0) :
    Computes (computeEvaluation (emb x) (bits.map bitF) a (evals.map embQ) (embQ β)) (embQ (P.eval β)) := by
  rw [← den_eq_pure_iff, den_computeEvaluation ha hx bits evals hl, Den.assert_true hβ, pure_bind,
    fold_eq_eval (by omega) hx bits evals β P hd he]

/-- **C49** such a polynomial always exists. -/
theorem C49_interpolant_exists (a : ℕ) (ha : a ≤ 7) (x : Fp) (hx : x ≠ 0) (bits : List Bool) (evals : List QE) :
    ∃ P : QE[X], P.degree < 2 ^ a ∧ ∀ i < 2 ^ a, P.eval (cosetPoint a x bits i) = evals.getD i 0 := by
  have h := cosetPoint_injOn (show a ≤ 32 by omega) hx bits
  refine ⟨Lagrange.interpolate (Finset.range (2 ^ a)) (cosetPoint a x bits) fun i => evals.getD i 0, ?_,
    fun i hi => Lagrange.eval_interpolate_at_node _ h (by simpa using hi)⟩
  simpa using Lagrange.degree_interpolate_lt (fun i => evals.getD i 0) h

/-- **C49** folding law: if the values come from `Σ_j X^j c_j(X^(2^a))`, the result is `Σ_j β^j c_j(x^(2^a))`. -/
theorem C49_fold (a : ℕ) (ha : a ≤ 7) (x : Fp) (hx : x ≠ 0) (bits : List Bool) (evals : List QE)
    (hl : evals.length = 2 ^ a) (β : QE) (hβ : ∀ i < 2 ^ a, β ≠ cosetPoint a x bits i) (c : ℕ → QE[X])
    (he : ∀ i < 2 ^ a, evals.getD i 0 = ∑ j ∈ Finset.range (2 ^ a),
      cosetPoint a x bits i ^ j * (c j).eval (cosetPoint a x bits i ^ 2 ^ a)) :
    Computes (computeEvaluation (emb x) (bits.map bitF) a (evals.map embQ) (embQ β))
      (embQ (∑ j ∈ Finset.range (2 ^ a), β ^ j * (c j).eval (ofBase x ^ 2 ^ a))) := by
  rw [← den_eq_pure_iff, den_computeEvaluation ha hx bits evals hl, Den.assert_true hβ, pure_bind,
    fold_split (by omega) hx bits evals β c he]

/-- **C49** if `β` is one of the coset points, no witness satisfies the constraints (the lookup meant to handle this
case is never reached). -/
theorem C49_beta_in_coset (a : ℕ) (ha : a ≤ 7) (x : Fp) (hx : x ≠ 0) (bits : List Bool) (evals : List QE)
    (hl : evals.length = 2 ^ a) (i : ℕ) (hi : i < 2 ^ a) :
    Unsat (computeEvaluation (emb x) (bits.map bitF) a (evals.map embQ) (embQ (cosetPoint a x bits i))) := by
  apply den_eq_fail
  rw [den_computeEvaluation ha hx bits evals hl, Den.assert_false fun h => h i hi rfl, Den.fail_bind]

/-- **C49** the query point itself is the coset point at its own position. -/
theorem C49_own_position (a : ℕ) (x : Fp) (bits : List Bool) (hb : bits.length = a) :
    cosetPoint a x bits (bitsVal bits) = ofBase x := by
  subst hb
  have h := lowBits_bitsVal bits
  rw [cosetPoint, bitRev, h, mul_div_assoc, div_self (pow_ne_zero _ (omega_ne_zero _)), mul_one]

/-- The values of `X` itself on a coset of size 4 are folded to `β`. -/
example (x : Fp) (hx : x ≠ 0) (bits : List Bool) : Computes (computeEvaluation (emb x) (bits.map bitF) 2
    (((List.range 4).map (cosetPoint 2 x bits)).map embQ) (embQ ⟨0, 1⟩)) (embQ ⟨0, 1⟩) := by
  have h := C49_computeEvaluation 2 (by norm_num) x hx bits ((List.range 4).map (cosetPoint 2 x bits)) (by simp) ⟨0, 1⟩
    (fun i _ h => one_ne_zero (congrArg QuadraticAlgebra.im h)) X (by rw [degree_X]; norm_num) (fun i hi => by
      rw [eval_X, List.getD_eq_getElem _ _ (by simpa using hi)]; simp)
  rwa [eval_X] at h

/-- The same by the folding law. -/
example (x : Fp) (hx : x ≠ 0) (bits : List Bool) : Computes (computeEvaluation (emb x) (bits.map bitF) 2
    (((List.range 4).map (cosetPoint 2 x bits)).map embQ) (embQ ⟨0, 1⟩)) (embQ ⟨0, 1⟩) := by
  have h := C49_fold 2 (by norm_num) x hx bits ((List.range 4).map (cosetPoint 2 x bits)) (by simp) ⟨0, 1⟩
    (fun i _ h => one_ne_zero (congrArg QuadraticAlgebra.im h)) (fun j => if j = 1 then 1 else 0) (fun i hi => by
      rw [List.getD_eq_getElem _ _ (by simpa using hi), List.getElem_map, List.getElem_range]
      simp [Finset.sum_range_succ])
  simpa [Finset.sum_range_succ] using h

example (x : Fp) (hx : x ≠ 0) : Unsat (computeEvaluation (emb x) ([true, false].map bitF) 2
    ([1, 2, 3, 4].map embQ) (embQ (ofBase x))) := by
  have h := C49_beta_in_coset 2 (by norm_num) x hx [true, false] [1, 2, 3, 4] rfl 1 (by norm_num)
  rwa [show cosetPoint 2 x [true, false] 1 = ofBase x from C49_own_position 2 x [true, false] rfl] at h

/-- A `β` outside the base field is never in the coset. -/
example (a : ℕ) (x : Fp) (bits : List Bool) (i : ℕ) : (⟨0, 1⟩ : QE) ≠ cosetPoint a x bits i := by
  intro h
  exact one_ne_zero (congrArg QuadraticAlgebra.im h)

/-! ## C50 -/

/-- **C50** fails at `arityBits = 8`, which the guard admits: the loop over 256 evaluations with a `uint8` counter
never ends. -/
theorem C50_arity8_diverges {E : Type} (evals : List E) (hl : evals.length = 2 ^ 8) (fuel : ℕ) (acc : List E) :
    permuteLoop evals 8 fuel 0 acc = none := permuteLoop_diverges evals hl 8 fuel 0 (by norm_num) acc

/-- **C50** for all smaller arities it ends, with the bit-reversed permutation of the evaluations. Missing: arity 256,
where the claim is false. -/
theorem C50_terminates_partial (a : ℕ) (ha : a ≤ 7) (evals : List QE) (hl : evals.length = 2 ^ a) :
    ∃ fuel, permuteLoop (evals.map embQ) a fuel 0 ((evals.map embQ).map fun _ => (0, 0)) =
      some ((List.range (2 ^ a)).map fun i => embQ (evals.getD (bitRev a i) 0)) :=
  ⟨1000, permuteLoop_eq evals ha hl⟩

example : permuteLoop [10, 11, 12, 13] 2 1000 0 [0, 0, 0, 0] = some [10, 12, 11, 13] := by decide

/-! ## C51 -/

/-- **C51** the batched DEEP quotient, for every list of batches, provided that the query point is none of the opening
points; otherwise the constraints are unsatisfiable (`C51_point_hit`). -/
theorem C51_friCombineInitial (inst : InstanceInfo QE) (initial : List (FriEvalProof Fp)) (α x : QE) (y : List QE)
    (hl : inst.batches.length = y.length)
    (hp : ∀ b ∈ inst.batches, ∀ q ∈ b.polynomials,
      ∃ e, initial[q.oracleIndex]? = some e ∧ q.polynomialInfo < e.elements.length)
    (hx : ∀ b ∈ inst.batches, x ≠ b.point) :
    Computes (friCombineInitial inst.enc (initial.map FriEvalProof.enc) (embQ α) (embQ x) (y.map embQ))
      (embQ (combine α x (roundBatches inst initial y))) := by
  rw [← den_eq_pure_iff, den_friCombineInitial inst initial α x y hl hp, Den.assert_true hx, pure_bind]

/-- **C51** a query point equal to an opening point is rejected. -/
theorem C51_point_hit (inst : InstanceInfo QE) (initial : List (FriEvalProof Fp)) (α x : QE) (y : List QE)
    (hl : inst.batches.length = y.length)
    (hp : ∀ b ∈ inst.batches, ∀ q ∈ b.polynomials,
      ∃ e, initial[q.oracleIndex]? = some e ∧ q.polynomialInfo < e.elements.length)
    (hx : ∃ b ∈ inst.batches, x = b.point) :
    Unsat (friCombineInitial inst.enc (initial.map FriEvalProof.enc) (embQ α) (embQ x) (y.map embQ)) := by
  obtain ⟨b, hb, e⟩ := hx
  apply den_eq_fail
  rw [den_friCombineInitial inst initial α x y hl hp, Den.assert_false fun h => h b hb e, Den.fail_bind]

/-- **C51** the reduced openings that are subtracted are the same combination `Σ_i α^i y_i` of the claimed values. -/
theorem C51_reducedOpenings (openings : List (List QE)) (α : QE) :
    Computes (fromOpeningsAndAlpha (openings.map fun l => l.map embQ) (embQ α))
      ((openings.map fun l => evalPoly l α).map embQ) :=
  (den_eq_pure_iff _ _).1 (den_fromOpenings openings α)

/-- One oracle with two polynomials, opened at a point outside the base field. -/
example (α y : QE) (x : Fp) :
    Computes (friCombineInitial (InstanceInfo.enc ⟨[⟨2, false⟩], [⟨⟨0, 1⟩, [⟨0, 0⟩, ⟨0, 1⟩]⟩]⟩)
      ([(⟨[5, 6], []⟩ : FriEvalProof Fp)].map FriEvalProof.enc) (embQ α) (embQ (ofBase x)) ([y].map embQ))
      (embQ ((5 + 6 * α - y) / (ofBase x - ⟨0, 1⟩))) := by
  have h := C51_friCombineInitial ⟨[⟨2, false⟩], [⟨⟨0, 1⟩, [⟨0, 0⟩, ⟨0, 1⟩]⟩]⟩ [⟨[5, 6], []⟩] α (ofBase x) [y] rfl
    (by simp) (by
      intro b hb h
      rw [List.mem_singleton] at hb
      subst hb
      exact one_ne_zero (congrArg QuadraticAlgebra.im h).symm)
  have e : combine α (ofBase x) (roundBatches ⟨[⟨2, false⟩], [⟨⟨0, 1⟩, [⟨0, 0⟩, ⟨0, 1⟩]⟩]⟩ [⟨[5, 6], []⟩] [y]) =
      (5 + 6 * α - y) / (ofBase x - ⟨0, 1⟩) := by
    simp [combine, roundBatches, evalPoly, Finset.sum_range_succ, opened]
  rwa [e] at h

/-- The formula for two batches, the first with two polynomials, the second with one. -/
example (α x f0 f1 g z w y0 y1 : QE) :
    combine α x [⟨z, [f0, f1], y0⟩, ⟨w, [g], y1⟩] =
      α * ((f0 + f1 * α - y0) / (x - z)) + (g - y1) / (x - w) := by
  simp [combine, evalPoly, Finset.sum_range_succ]

/-! ## C52 -/

/-- **C52** the final polynomial is evaluated as `Σ_i c_i x^i`. -/
theorem C52_finalPolyEval (coeffs : List QE) (x : QE) :
    Computes (finalPolyEval (coeffs.map embQ) (embQ x))
      (embQ (∑ i ∈ Finset.range coeffs.length, coeffs.getD i 0 * x ^ i)) :=
  (den_eq_pure_iff _ _).1 (den_finalPolyEval coeffs x)

example (a b x : QE) : Computes (finalPolyEval [embQ a, embQ b] (embQ x)) (embQ (a + b * x)) := by
  simpa [Finset.sum_range_succ] using C52_finalPolyEval [a, b] x

/-! ## C53 -/

/-- **C53** proof of work: the response, as a 64-bit number, has at least `proofOfWorkBits` leading zeros. -/
theorem C53_pow (w : Fr) (cfg : FriConfig) (h : cfg.proofOfWorkBits ≤ 64) :
    Enforces (assertLeadingZeros w cfg) (w.val < 2 ^ (64 - cfg.proofOfWorkBits)) := by
  have e : (64 + 2 ^ 64 - cfg.proofOfWorkBits % 2 ^ 64) % 2 ^ 64 = 64 - cfg.proofOfWorkBits := by omega
  rw [← den_eq_guard_iff, assertLeadingZeros, e, rangeCheckWithMaxBits, den_rangeCheckerCheck]

example : Sat (assertLeadingZeros 65535 ⟨3, 4, 48, 28⟩) () := (C53_pow 65535 ⟨3, 4, 48, 28⟩ (by norm_num)).1.2 (by decide)
example : ¬ Sat (assertLeadingZeros 65536 ⟨3, 4, 48, 28⟩) () := fun h =>
  absurd ((C53_pow 65536 ⟨3, 4, 48, 28⟩ (by norm_num)).1.1 h) (by decide)

/-! ## C54, C55 -/

/-- **C54** a query round is accepted exactly when it is consistent: all leaves authentic under their caps, query point
outside the opening points, and the batched quotient folding step by step to the final polynomial. -/
theorem C54_queryRound (q : FriParams) (inst : InstanceInfo QE) (ch : FriChallenges Fp QE) (y : List QE)
    (caps : List (List Fr)) (proof : FriProof Fp QE) (round : FriQueryRound Fp QE)
    (hf : RoundFits q inst ch y caps proof round) (v : Fp) :
    Enforces (verifyQueryRound q inst.enc ch.enc (y.map embQ) caps proof.enc (emb v)
      (q.degreeBits + q.config.rateBits) round.enc) (RoundOk q inst ch y caps proof v.val round) :=
  (den_eq_assert_iff _ _).1 (den_verifyQueryRound hf v)

/-- The sizes of a round with one oracle of one polynomial and one reduction. -/
example (α β z y e0 : QE) (f : Fp) (s0 : Fr) : RoundFits ⟨⟨3, 4, 16, 1⟩, false, 5, [4]⟩ ⟨[⟨1, false⟩], [⟨z, [⟨0, 0⟩]⟩]⟩
    ⟨α, [β], 0, [77]⟩ [y] [List.replicate 16 s0] ⟨[List.replicate 16 s0], [], [e0, 0], 0⟩
    ⟨[⟨[f], [s0, s0, s0, s0]⟩], [⟨List.replicate 16 e0, []⟩]⟩ where
  domain := by norm_num
  initial := by simp
  batches := by simp
  arities := by simp
  steps := by simp
  commitCaps := by simp

/-- **C55** a FRI proof is accepted exactly when its shape is right, the proof of work is done, and every query round
is consistent at its own index. -/
theorem C55_verifyFriProof (q : FriParams) (inst : InstanceInfo QE) (openings : List (List QE))
    (caps : List (List Fr)) (hp : Supported q inst openings caps) (ch : FriChallenges Fp QE) (proof : FriProof Fp QE) :
    Enforces (verifyFriProof q inst.enc (openings.map fun l => l.map embQ) ch.enc caps proof.enc)
      (Accepts q inst openings ch caps proof) :=
  (den_eq_assert_iff _ _).1 (den_verifyFriProof hp ch proof)

/-- Parameters, instance and openings as used by plonky2's standard recursion configuration (here with degree `2^5`,
one reduction, one query round, and one oracle with two polynomials). -/
example : ∃ (q : FriParams) (inst : InstanceInfo QE) (openings : List (List QE)) (caps : List (List Fr))
    (ch : FriChallenges Fp QE) (proof : FriProof Fp QE), Supported q inst openings caps ∧ proof.rounds.length = 1 ∧
      q.reductionArityBits = [4] ∧ Accepts q inst openings ch caps proof := by
  let q : FriParams := ⟨⟨3, 4, 16, 1⟩, false, 5, [4]⟩
  let i0 : QE := ⟨0, 1⟩
  let inst : InstanceInfo QE := ⟨[⟨2, false⟩], [⟨i0, [⟨0, 0⟩, ⟨0, 1⟩]⟩]⟩
  let sibs : List Fr := [1, 2, 3, 4]
  let bits := lowBits 8 (77 : Fp).val
  let root := Spec.Merkle.root Spec.BN.compress (Spec.BN.leaf [emb 0, emb 0]) (bits.zip sibs)
  let root2 := Spec.BN.leaf (flatten (List.replicate 16 0))
  let round : FriQueryRound Fp QE := ⟨[⟨[0, 0], sibs⟩], [⟨List.replicate 16 0, []⟩]⟩
  let proof : FriProof Fp QE := ⟨[List.replicate 16 root2], [round], [0, 0], 0⟩
  let ch : FriChallenges Fp QE := ⟨1, [i0], 12345, [77]⟩
  have hi0 : ∀ z : Fp, i0 ≠ ofBase z := fun z h => one_ne_zero (congrArg QuadraticAlgebra.im h)
  refine ⟨q, inst, [[0, 0]], [List.replicate 16 root], ch, proof, ⟨by simp [q], by simp [q], by simp [q],
    by simp [inst], by simp [inst], ?_⟩, rfl, rfl, ⟨⟨?_, ?_, ?_⟩, ?_, ?_, ?_, ?_⟩⟩
  · intro b hb f hf
    simp only [inst, List.mem_singleton] at hb
    subst hb
    simp only [List.mem_cons, List.not_mem_nil, or_false] at hf
    rcases hf with rfl | rfl <;> exact ⟨_, rfl, by norm_num⟩
  · simp [proof, q]
  · intro r hr
    simp only [proof, List.mem_singleton] at hr
    subst hr
    refine ⟨⟨rfl, ?_⟩, ⟨rfl, ?_⟩⟩
    · intro i e o he ho
      cases i with
      | zero =>
        simp only [round, inst, List.getElem?_cons_zero, Option.some.injEq] at he ho
        subst he ho
        simp [sibs, q]
      | succ i => simp [round] at he
    · intro i s a he ho
      cases i with
      | zero =>
        simp only [round, q, List.getElem?_cons_zero, Option.some.injEq] at he ho
        subst he ho
        simp [q]
      | succ i => simp [round] at he
  · simp [q, proof]
  · show (12345 : Fp).val < 2 ^ (64 - 16)
    decide
  · simp [q, proof, ch]
  · right; simp [q, proof, ch]
  · intro i v r hv hr
    cases i with
    | succ i => simp [ch] at hv
    | zero =>
      simp only [ch, proof, List.getElem?_cons_zero, Option.some.injEq] at hv hr
      subst hv hr
      refine ⟨?_, ?_, ?_, ?_, ?_, ?_⟩
      · intro ec hec
        simp only [round, List.zip_cons_cons, List.zip_nil_left, List.mem_singleton] at hec
        subst hec
        have hlt : ∀ k, k < 16 → (List.replicate 16 root).getD k 0 = root := by
          intro k hk; rw [List.getD_eq_getElem _ _ (by simpa using hk), List.getElem_replicate]
        rw [Opens, hlt]
        · rfl
        · have := bitsVal_lt ((lowBits 8 (77 : Fp).val).drop 4)
          rw [List.length_drop, lowBits_length] at this
          exact this
      · intro b hb
        simp only [inst, List.mem_singleton] at hb
        subst hb
        exact (hi0 _).symm
      · have hop : ∀ f, opened round.initial f = 0 := by
          rintro ⟨o, k⟩
          rcases o with _ | o
          · rcases k with _ | _ | k <;> rfl
          · rfl
        have : (List.replicate 16 (0 : QE)).getD (bitsVal ((lowBits 8 (77 : Fp).val).take 4)) 0 = 0 := by
          rw [List.getD_eq_getElem?_getD, List.getElem?_replicate]; split_ifs <;> rfl
        refine this.trans ?_
        simp [roundBatches, inst, combine, hop, evalPoly]
      · intro i _
        exact hi0 _
      · have hlt : ∀ k, k < 16 → (List.replicate 16 root2).getD k 0 = root2 := by
          intro k hk; rw [List.getD_eq_getElem _ _ (by simpa using hk), List.getElem_replicate]
        rw [Opens, hlt]
        · simp [Spec.Merkle.root, root2]
        · have := bitsVal_lt ((lowBits 8 (77 : Fp).val).drop 4)
          rw [List.length_drop, lowBits_length] at this
          exact this
      · have h0 : (fun i => (List.replicate 16 (0 : QE)).getD i 0) = 0 := by
          funext i; rw [List.getD_eq_getElem?_getD, List.getElem?_replicate]; split_ifs <;> rfl
        show fold 4 _ _ (List.replicate 16 0) i0 = evalPoly [0, 0] _
        rw [fold, h0, map_zero, eval_zero]
        simp [evalPoly, Finset.sum_range_succ]

/-! ## C56 -/

/-- **C56** shape validation emits no constraint; it lets a proof pass exactly when every length is the prescribed one,
and panics otherwise (shift counts below 63, as in any real parameters). -/
theorem C56_validate (proof : FriProof Fr QEV) (inst : InstanceInfo QEV) (q : FriParams)
    (hc : q.config.capHeight < 63) (hs : ∀ a ∈ q.reductionArityBits, a < 63) (hd : q.degreeBits < 63) :
    (ProofShape q inst proof → validateFriProofShape proof inst q = pure ()) ∧
    (¬ ProofShape q inst proof → Panics (validateFriProofShape proof inst q)) :=
  decides_shape proof inst q hc hs hd

/-- **C56** fails in one place: the number of commit-phase caps is not validated. With fewer caps than reductions a
query round indexes out of range and generation panics. -/
theorem C56_missing_caps (q : FriParams) (inst : InstanceInfo QEV) (ch : FriChallenges Fr QEV)
    (y : List QEV) (caps : List (List Fr)) (proof : FriProof Fr QEV) (v : Fr) (n : ℕ) (round : FriQueryRound Fr QEV)
    (h : proof.commitCaps.length < q.reductionArityBits.length) :
    Panics (verifyQueryRound q inst ch y caps proof v n round) :=
  verifyQueryRound_panics (Or.inr h)

/-- Two reductions, one cap. -/
example (inst : InstanceInfo QEV) (ch : FriChallenges Fr QEV) (y : List QEV) (caps : List (List Fr)) (v : Fr) (round : FriQueryRound Fr QEV) :
    Panics (verifyQueryRound ⟨⟨3, 4, 16, 1⟩, false, 12, [4, 4]⟩ inst ch y caps ⟨[List.replicate 16 0], [round], [], 0⟩ v 15 round) :=
  C56_missing_caps _ _ _ _ _ _ _ _ _ (by simp)

/-- **C56** apart from that, a validated proof makes no query round panic: it is enough that there are as many caps and
challenges as reductions. -/
theorem C56_rounds_partial (q : FriParams) (inst : InstanceInfo QEV) (ch : FriChallenges Fr QEV) (y : List QEV)
    (caps : List (List Fr)) (proof : FriProof Fr QEV)
    (hd : 4 ≤ q.degreeBits + q.config.rateBits ∧ q.degreeBits + q.config.rateBits ≤ 32 ∧
      q.config.rateBits ≤ 15 ∧ q.config.capHeight = 4)
    (ha : ∀ a ∈ q.reductionArityBits, a = 4)
    (hcaps : caps.length = inst.oracles.length ∧ ∀ cap ∈ caps, cap.length = 16)
    (hy : inst.batches.length = y.length)
    (hbat : ∀ b ∈ inst.batches, ∀ f ∈ b.polynomials,
      ∃ o, inst.oracles[f.oracleIndex]? = some o ∧ f.polynomialInfo < o.numPolys)
    (hv : ProofShape q inst proof)
    (hb : q.reductionArityBits.length ≤ ch.betas.length) (hc : q.reductionArityBits.length ≤ proof.commitCaps.length) :
    ∀ round ∈ proof.rounds, ∀ v : Fr, NoPanic (verifyQueryRound q inst ch y caps proof v
      (q.degreeBits + q.config.rateBits) round) :=
  fun round hr v => NoPanic.verifyQueryRound hd ha hcaps hy hbat hv.caps (hv.rounds round hr) hb hc

/-- **C56** generation of the FRI circuit succeeds exactly for validated proofs with the number of rounds of the
parameters, an index for each of them, enough caps and challenges, and initial caps of 16 entries; otherwise it panics. -/
theorem C56_generation (q : FriParams) (inst : InstanceInfo QEV) (openings : List (List QEV)) (ch : FriChallenges Fr QEV)
    (caps : List (List Fr)) (proof : FriProof Fr QEV)
    (hd : 4 ≤ q.degreeBits + q.config.rateBits ∧ q.degreeBits + q.config.rateBits ≤ 32 ∧
      q.config.rateBits ≤ 15 ∧ q.config.capHeight = 4)
    (ha : ∀ a ∈ q.reductionArityBits, a = 4)
    (hcaps : caps.length = inst.oracles.length)
    (hy : inst.batches.length = openings.length)
    (hbat : ∀ b ∈ inst.batches, ∀ f ∈ b.polynomials,
      ∃ o, inst.oracles[f.oracleIndex]? = some o ∧ f.polynomialInfo < o.numPolys) :
    Generates (verifyFriProof q inst openings ch caps proof)
      ((ProofShape q inst proof ∧ q.config.numQueryRounds = proof.rounds.length ∧
        ch.queryIndices.length = proof.rounds.length ∧
        (proof.rounds = [] ∨ (q.reductionArityBits.length ≤ ch.betas.length ∧
          q.reductionArityBits.length ≤ proof.commitCaps.length))) ∧
        (proof.rounds = [] ∨ ∀ cap ∈ caps, cap.length = 16)) :=
  generates_fri hd ha hcaps hy hbat

/-- Parameters with one reduction, an instance with one polynomial, and a proof with one round and `caps`. -/
def smallParams : FriParams := ⟨⟨3, 4, 16, 1⟩, false, 5, [4]⟩

@[inherit_doc smallParams]
def smallInstance : InstanceInfo QEV := ⟨[⟨1, false⟩], [⟨(3, 3), [⟨0, 0⟩]⟩]⟩

@[inherit_doc smallParams]
def smallProof (caps : List (List Fr)) : FriProof Fr QEV :=
  ⟨caps, [⟨[⟨[5], [0, 0, 0, 0]⟩], [⟨List.replicate 16 (5, 0), []⟩]⟩], [(0, 0), (0, 0)], 0⟩

theorem smallProof_shape (caps : List (List Fr)) (h : ∀ cap ∈ caps, cap.length = 16) :
    ProofShape smallParams smallInstance (smallProof caps) := by
  refine ⟨fun cap hc => by rw [h cap hc]; rfl, ?_, by simp [smallParams, smallProof]⟩
  intro round hr
  simp only [smallProof, List.mem_singleton] at hr
  subst hr
  refine ⟨⟨rfl, ?_⟩, ⟨rfl, ?_⟩⟩
  · intro i e o he ho
    match i, he, ho with
    | 0, he, ho =>
      simp only [smallInstance, List.getElem?_cons_zero, Option.some.injEq] at he ho
      subst he ho
      simp [smallParams]
    | i + 1, he, ho => simp at he
  · intro i st a hs ha
    match i, hs, ha with
    | 0, hs, ha =>
      simp only [smallParams, List.getElem?_cons_zero, Option.some.injEq] at hs ha
      subst hs ha
      simp [smallParams]
    | i + 1, hs, ha => simp at hs

/-- **C56** a proof that passes validation and nevertheless makes generation panic. -/
theorem C56_violated : ∃ (q : FriParams) (inst : InstanceInfo QEV) (proof : FriProof Fr QEV),
    validateFriProofShape proof inst q = pure () ∧
    ∀ (openings : List (List QEV)) (ch : FriChallenges Fr QEV) (caps : List (List Fr)), openings.length = 1 →
      caps = [List.replicate 16 0] → Panics (verifyFriProof q inst openings ch caps proof) := by
  refine ⟨smallParams, smallInstance, smallProof [], ?_, fun openings ch caps ho hc => ?_⟩
  · exact (C56_validate _ _ _ (by norm_num [smallParams]) (by norm_num [smallParams]) (by norm_num [smallParams])).1
      (smallProof_shape [] (by simp))
  · subst hc
    refine (C56_generation _ _ _ _ _ _ (by norm_num [smallParams]) (by norm_num [smallParams])
      (by simp [smallInstance]) (by rw [ho]; rfl) ?_).2 ?_
    · simp [smallInstance]
    · simp [smallProof, smallParams]

/-- With one cap generation succeeds. -/
example : NoPanic (verifyFriProof smallParams smallInstance [[(1, 1)]] ⟨(2, 2), [(3, 4)], 6, [7]⟩ [List.replicate 16 0]
    (smallProof [List.replicate 16 0])) :=
  (C56_generation _ _ _ _ _ _ (by norm_num [smallParams]) (by norm_num [smallParams]) (by simp [smallInstance]) rfl
    (by simp [smallInstance])).1 ⟨⟨smallProof_shape _ (by simp), rfl, rfl, by simp [smallParams, smallProof]⟩, by simp⟩

/-! ## C62 -/

/-- **C62** the guard on non-canonical indices panics exactly for 16 to 63 rate bits. -/
theorem C62_noncanonical (q : FriParams) :
    (16 ≤ q.config.rateBits ∧ q.config.rateBits < 64 → Panics (assertNoncanonicalIndicesOK q)) ∧
    (¬ (16 ≤ q.config.rateBits ∧ q.config.rateBits < 64) → assertNoncanonicalIndicesOK q = pure ()) := by
  have h15 : (2 ^ 32 - 1) * 10 ^ 5 * 2 ^ 15 < p := by norm_num [p]
  have h16 : p ≤ (2 ^ 32 - 1) * 10 ^ 5 * 2 ^ 16 := by norm_num [p]
  constructor
  · rintro ⟨h1, h2⟩
    rw [assertNoncanonicalIndicesOK, if_pos]
    · trivial
    · exact ⟨h2, h16.trans (Nat.mul_le_mul_left _ (Nat.pow_le_pow_right (by norm_num) h1))⟩
  · intro h
    rw [assertNoncanonicalIndicesOK, if_neg]
    rintro ⟨h1, h2⟩
    have h3 : q.config.rateBits ≤ 15 := by omega
    have h4 : (2 ^ 32 - 1) * 10 ^ 5 * 2 ^ q.config.rateBits ≤ (2 ^ 32 - 1) * 10 ^ 5 * 2 ^ 15 :=
      Nat.mul_le_mul_left _ (Nat.pow_le_pow_right (by norm_num) h3)
    omega

/-- **C62** rounding is irrelevant: the floating-point comparison of the code, in any arithmetic with relative error
at most 1/1000 per operation, agrees with the exact one for fewer than 64 rate bits. -/
theorem C62_rounding (fl : ℚ → ℚ) (hfl : ∀ x, |fl x - x| ≤ |x| / 1000) (rateBits : ℕ) :
    fl (fl (1 / fl (2 ^ rateBits)) * fl (1 / 10 ^ 5)) ≤ fl (fl (2 ^ 32 - 1) / fl (p : ℚ)) ↔
      p ≤ (2 ^ 32 - 1) * 10 ^ 5 * 2 ^ rateBits := by
  rw [float_test hfl]
  constructor
  · intro h
    exact le_trans (by norm_num [p]) (Nat.mul_le_mul_left _ (Nat.pow_le_pow_right (by norm_num) h))
  · intro h
    by_contra hk
    have h4 : (2 ^ 32 - 1) * 10 ^ 5 * 2 ^ rateBits ≤ (2 ^ 32 - 1) * 10 ^ 5 * 2 ^ 15 :=
      Nat.mul_le_mul_left _ (Nat.pow_le_pow_right (by norm_num) (by omega))
    have h15 : (2 ^ 32 - 1) * 10 ^ 5 * 2 ^ 15 < p := by norm_num [p]
    omega

/-- With exact arithmetic. -/
example : ¬ ((1 / 2 ^ 3 : ℚ) * (1 / 10 ^ 5) ≤ (2 ^ 32 - 1) / (p : ℚ)) := by
  have h := C62_rounding id (fun x => by simp; positivity) 3
  simp only [id] at h
  rw [h]
  norm_num [p]

/-! ## C63 -/

/-- **C63** the FRI instance: oracle sizes, the polynomials of both batches and their points `zeta`, `g zeta`. -/
theorem C63_instance (c : CommonCircuitData) (hd : c.degreeBits ≤ 32) (zeta : QE) :
    Computes (getInstance c (embQ zeta)) (plonkInstance c zeta).enc :=
  (den_eq_pure_iff _ _).1 (den_getInstance c hd zeta)

/-- **C63** the openings of the first batch are, in order, the openings at `zeta` of the polynomials of the batch. -/
theorem C63_zeta_batch {E : Type} (c : CommonCircuitData) (o : OpeningSet E) (h : OpeningsShape c o) (zeta : QE) :
    ∃ l, (toOpenings o)[0]? = some l ∧ ∃ b, (plonkInstance c zeta).batches[0]? = some b ∧
      b.polynomials.map (openingAt o) = l.map some := by
  refine ⟨_, rfl, _, rfl, ?_⟩
  have h1 := allPolys_openings h
  have h2 := congrArg (fun i => i.batches.map BatchInfo.polynomials) (instanceAt_eq c zeta)
  simp only [instanceAt, plonkInstance, List.map_cons, List.map_nil, List.cons.injEq] at h2
  rw [← h2.1]
  exact h1

/-- **C63** the openings of the second batch are the openings at `g zeta` of the polynomials of the batch. -/
theorem C63_next_batch {E : Type} (c : CommonCircuitData) (o : OpeningSet E) (h : OpeningsShape c o) (zeta : QE) :
    ∃ l, (toOpenings o)[1]? = some l ∧ ∃ b, (plonkInstance c zeta).batches[1]? = some b ∧
      b.polynomials.map (openingNext o) = l.map some := by
  refine ⟨_, rfl, _, rfl, ?_⟩
  have h1 := zsPolys_openings h
  have h2 := congrArg (fun i => i.batches.map BatchInfo.polynomials) (instanceAt_eq c zeta)
  simp only [instanceAt, plonkInstance, List.map_cons, List.map_nil, List.cons.injEq, and_true] at h2
  rw [← h2.2]
  exact h1

/-- **C63** every polynomial of the instance exists in its oracle. -/
theorem C63_polys_in_oracles (c : CommonCircuitData) (zeta : QE) :
    ∀ b ∈ (plonkInstance c zeta).batches, ∀ f ∈ b.polynomials,
      ∃ o, (plonkInstance c zeta).oracles[f.oracleIndex]? = some o ∧ f.polynomialInfo < o.numPolys :=
  instance_batches c zeta

/-- Opening sets of the right shape exist for every circuit. -/
example (c : CommonCircuitData) : OpeningsShape c (⟨List.replicate c.numConstants 1,
    List.replicate c.config.numRoutedWires 2, List.replicate c.config.numWires 3,
    List.replicate c.config.numChallenges 4, List.replicate c.config.numChallenges 5,
    List.replicate (c.config.numChallenges * c.numPartialProducts) 6,
    List.replicate (c.config.numChallenges * c.quotientDegreeFactor) 7⟩ : OpeningSet QE) := by
  constructor <;> simp

end Verif
