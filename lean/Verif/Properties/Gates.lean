import Verif.Proofs.GatesInterp
import Verif.Proofs.Panics

/-!
# Properties C22, C33–C41: gate constraints

Each theorem has two parts: the circuit code returns, for every satisfying assignment and for the honest prover,
the canonical encoding of the constraint polynomials of the gate evaluated on the row (`Computes`), and these
constraints all vanish exactly when the wires satisfy the relation the gate stands for.
`v.row.w i`, `v.row.c i` are wire and constant `i`, `v.row.a i` the extension-algebra element in wires `i, i + 1`.
-/

set_option autoImplicit false

namespace Verif

open Circ Spec.Gates
open Gates (EvaluationVars)

variable {v : EvaluationVars Fp QE}

/-! ## C33 -/

/-- **C33** ArithmeticGate. -/
theorem C33_arithmetic {n : ℕ} (hc : 2 ≤ v.localConstants.length) (hw : 4 * n ≤ v.localWires.length) :
    Computes (Gates.arithmetic n v.enc) ((arithmetic n v.row).map embQ) ∧
    (Vanish (arithmetic n v.row) ↔ ∀ i < n, v.row.w (4 * i + 3) =
      v.row.c 0 * v.row.w (4 * i) * v.row.w (4 * i + 1) + v.row.c 1 * v.row.w (4 * i + 2)) :=
  ⟨(den_eq_pure_iff _ _).1 (Gates.den_arithmetic hc hw), vanish_arithmetic⟩

/-- **C33** ArithmeticExtensionGate. -/
theorem C33_arithmeticExtension {n : ℕ} (hc : 2 ≤ v.localConstants.length) (hw : 8 * n ≤ v.localWires.length) :
    Computes (Gates.arithmeticExtension n v.enc) ((arithmeticExtension n v.row).map embQ) ∧
    (Vanish (arithmeticExtension n v.row) ↔ ∀ i < n, v.row.a (8 * i + 6) =
      ofExt (v.row.c 0) * v.row.a (8 * i) * v.row.a (8 * i + 2) + ofExt (v.row.c 1) * v.row.a (8 * i + 4)) :=
  ⟨(den_eq_pure_iff _ _).1 (Gates.den_arithmeticExtension hc hw), vanish_arithmeticExtension⟩

/-- `10 = 1 * 2 * 3 + 1 * 4` is accepted, `11` is not. -/
example : Vanish (arithmetic 1 (EvaluationVars.row ⟨[1, 1], [2, 3, 4, 10], fun _ => 0⟩)) ∧
    ¬ Vanish (arithmetic 1 (EvaluationVars.row ⟨[1, 1], [2, 3, 4, 11], fun _ => 0⟩)) := by
  constructor
  · rw [vanish_arithmetic]; intro i hi; obtain rfl : i = 0 := by omega
    norm_num [EvaluationVars.row]
  · rw [vanish_arithmetic]; intro h
    have := congrArg QuadraticAlgebra.re (h 0 (by norm_num))
    simp [EvaluationVars.row] at this
    exact absurd this (by decide)

/-! ## C34 -/

/-- **C34** ConstantGate. -/
theorem C34_constant {n : ℕ} (hc : n ≤ v.localConstants.length) (hw : n ≤ v.localWires.length) :
    Computes (Gates.constant n v.enc) ((constant n v.row).map embQ) ∧
    (Vanish (constant n v.row) ↔ ∀ i < n, v.row.w i = v.row.c i) :=
  ⟨(den_eq_pure_iff _ _).1 (Gates.den_constant hc hw), vanish_constant⟩

/-- **C34** PublicInputGate. -/
theorem C34_publicInput (hw : 4 ≤ v.localWires.length) :
    Computes (Gates.publicInput v.enc) ((publicInput v.row).map embQ) ∧
    (Vanish (publicInput v.row) ↔ ∀ i : Fin 4, v.row.w i = ofBase (v.publicInputsHash i)) :=
  ⟨(den_eq_pure_iff _ _).1 (Gates.den_publicInput hw), vanish_publicInput⟩

/-- **C34** NoopGate has no constraint, whatever the wires. -/
theorem C34_noop (vars : Gates.Vars) : Computes (Gates.noop vars) [] :=
  (den_eq_pure_iff _ _).1 (den_pure _)

example : Vanish (publicInput (EvaluationVars.row ⟨[], [5, 6, 7, 8], ![5, 6, 7, 8]⟩)) := by
  rw [vanish_publicInput]
  intro i; fin_cases i <;> rfl

/-! ## C35 -/

/-- **C35** BaseSumGate. -/
theorem C35_baseSum {n B : ℕ} (hB : B < p) (hw : n + 1 ≤ v.localWires.length) :
    Computes (Gates.baseSum n B v.enc) ((baseSum n B v.row).map embQ) ∧
    (Vanish (baseSum n B v.row) ↔
      v.row.w 0 = ∑ i ∈ Finset.range n, v.row.w (1 + i) * (B : QE) ^ i ∧
      ∀ i < n, ∃ k < B, v.row.w (1 + i) = (k : QE)) :=
  ⟨(den_eq_pure_iff _ _).1 (Gates.den_baseSum hB hw), vanish_baseSum⟩

/-- `6 = 0 + 1 * 2 + 1 * 4`. -/
example : Vanish (baseSum 3 2 (EvaluationVars.row ⟨[], [6, 0, 1, 1], fun _ => 0⟩)) := by
  rw [vanish_baseSum]
  constructor
  · norm_num [EvaluationVars.row, Finset.sum_range_succ]
  · intro i hi
    obtain rfl | rfl | rfl : i = 0 ∨ i = 1 ∨ i = 2 := by omega
    · exact ⟨0, by norm_num, by simp [EvaluationVars.row]⟩
    · exact ⟨1, by norm_num, by simp [EvaluationVars.row]⟩
    · exact ⟨1, by norm_num, by simp [EvaluationVars.row]⟩

/-! ## C36 -/

/-- **C36** ExponentiationGate: on boolean power bits (which always encode some `e < 2^n`) the constraints vanish
iff the intermediate wires are the powers of the prefixes of `e` and the output is `base ^ e`. -/
theorem C36_exponentiation {n : ℕ} (hn : n ≠ 0) (hw : 2 * n + 2 ≤ v.localWires.length) :
    Computes (Gates.exponentiation n v.enc) ((exponentiation n v.row).map embQ) ∧
    ((∀ i < n, v.row.w (1 + i) = 0 ∨ v.row.w (1 + i) = 1) →
      ∃ e : ℕ, e < 2 ^ n ∧ (∀ i < n, v.row.w (1 + i) = if e.testBit i then 1 else 0) ∧
        (e : QE) = ∑ i ∈ Finset.range n, v.row.w (1 + i) * 2 ^ i ∧
        (Vanish (exponentiation n v.row) ↔
          (∀ i < n, v.row.w (2 + n + i) = v.row.w 0 ^ (e / 2 ^ (n - 1 - i))) ∧ v.row.w (1 + n) = v.row.w 0 ^ e)) := by
  refine ⟨(den_eq_pure_iff _ _).1 (Gates.den_exponentiation hn hw), fun hb => ?_⟩
  obtain ⟨e, he, hbits⟩ := bits_exist n (fun i => v.row.w (1 + i)) hb
  refine ⟨e, he, hbits, ?_, vanish_exponentiation hn he hbits⟩
  rw [← sum_bits n e he]
  exact Finset.sum_congr rfl fun i hi => by rw [hbits i (Finset.mem_range.1 hi)]

/-- **C36** with zero power bits compilation aborts. -/
theorem C36_exponentiation_zero (vars : Gates.Vars) : Panics (Gates.exponentiation 0 vars) :=
  panics_exponentiation_zero vars

/-- `3 ^ 2 = 9`: bits `0, 1`; intermediate values `3, 9`. -/
example : Vanish (exponentiation 2 (EvaluationVars.row ⟨[], [3, 0, 1, 9, 3, 9], fun _ => 0⟩)) := by
  rw [vanish_exponentiation (e := 2) (by norm_num) (by norm_num)]
  · constructor
    · intro i hi
      obtain rfl | rfl : i = 0 ∨ i = 1 := by omega
      · norm_num [EvaluationVars.row]
      · norm_num [EvaluationVars.row]
    · norm_num [EvaluationVars.row]
  · intro i hi
    obtain rfl | rfl : i = 0 ∨ i = 1 := by omega
    · rfl
    · rfl

/-! ## C37 -/

/-- **C37** RandomAccessGate. -/
theorem C37_randomAccess {b copies extra : ℕ} (hb : b < 64) (hc : extra ≤ v.localConstants.length)
    (hw : (2 + 2 ^ b) * copies + extra + copies * b ≤ v.localWires.length) :
    Computes (Gates.randomAccess b copies extra v.enc) ((randomAccess b copies extra v.row).map embQ) ∧
    (Vanish (randomAccess b copies extra v.row) ↔
      (∀ k < copies, ∃ n : ℕ, n < 2 ^ b ∧
        v.row.w ((2 + 2 ^ b) * k) = (n : QE) ∧
        v.row.w ((2 + 2 ^ b) * k + 1) = v.row.w ((2 + 2 ^ b) * k + 2 + n) ∧
        ∀ i < b, v.row.w ((2 + 2 ^ b) * copies + extra + k * b + i) = if n.testBit i then 1 else 0) ∧
      ∀ i < extra, v.row.w ((2 + 2 ^ b) * copies + i) = v.row.c i) :=
  ⟨(den_eq_pure_iff _ _).1 (Gates.den_randomAccess hb hc hw), vanish_randomAccess⟩

/-- **C37** a vector size not representable in 64 bits always aborts. -/
theorem C37_randomAccess_too_wide {b copies extra : ℕ} (hb : 64 ≤ b) (hc : copies ≠ 0) (vars : Gates.Vars) :
    Panics (Gates.randomAccess b copies extra vars) := panics_randomAccess_wide hb hc vars

/-- Index 2 of `[10, 11, 12, 13]` is 12. -/
example : Vanish (randomAccess 2 1 0 (EvaluationVars.row ⟨[], [2, 12, 10, 11, 12, 13, 0, 1], fun _ => 0⟩)) := by
  rw [vanish_randomAccess]
  refine ⟨fun k hk => ⟨2, by norm_num, ?_, ?_, ?_⟩, fun i hi => by omega⟩
  · obtain rfl : k = 0 := by omega
    rfl
  · obtain rfl : k = 0 := by omega
    rfl
  · obtain rfl : k = 0 := by omega
    intro i hi
    obtain rfl | rfl : i = 0 ∨ i = 1 := by omega
    · rfl
    · rfl

/-! ## C38 -/

/-- **C38** ReducingGate: every accumulator is the Horner value of the coefficients so far. -/
theorem C38_reducing {n : ℕ} (hw : 6 + n + 2 * (n - 1) ≤ v.localWires.length) :
    Computes (Gates.reducing n v.enc) ((reducing n v.row).map embQ) ∧
    (Vanish (reducing n v.row) ↔ ∀ i < n,
      (if i + 1 = n then v.row.a 0 else v.row.a (6 + n + 2 * i)) = v.row.a 4 * v.row.a 2 ^ (i + 1) +
        ∑ j ∈ Finset.range (i + 1), ofExt (v.row.w (6 + j)) * v.row.a 2 ^ (i - j)) :=
  ⟨(den_eq_pure_iff _ _).1 (Gates.den_reducing hw), vanish_reducing⟩

/-- **C38** ReducingExtensionGate. -/
theorem C38_reducingExtension {n : ℕ} (hw : 6 + 2 * n + 2 * (n - 1) ≤ v.localWires.length) :
    Computes (Gates.reducingExtension n v.enc) ((reducingExtension n v.row).map embQ) ∧
    (Vanish (reducingExtension n v.row) ↔ ∀ i < n,
      (if i + 1 = n then v.row.a 0 else v.row.a (6 + 2 * n + 2 * i)) = v.row.a 4 * v.row.a 2 ^ (i + 1) +
        ∑ j ∈ Finset.range (i + 1), v.row.a (6 + 2 * j) * v.row.a 2 ^ (i - j)) :=
  ⟨(den_eq_pure_iff _ _).1 (Gates.den_reducingExtension hw), vanish_reducingExtension⟩

/-- **C38** the output wire of a satisfied row. -/
theorem C38_reducing_output {n : ℕ} (hn : n ≠ 0) :
    (Vanish (reducing n v.row) → v.row.a 0 = v.row.a 4 * v.row.a 2 ^ n +
      ∑ j ∈ Finset.range n, ofExt (v.row.w (6 + j)) * v.row.a 2 ^ (n - 1 - j)) ∧
    (Vanish (reducingExtension n v.row) → v.row.a 0 = v.row.a 4 * v.row.a 2 ^ n +
      ∑ j ∈ Finset.range n, v.row.a (6 + 2 * j) * v.row.a 2 ^ (n - 1 - j)) := by
  have e : n - 1 + 1 = n := by omega
  constructor
  · intro h
    have := vanish_reducing.1 h (n - 1) (by omega)
    rwa [acc, e, if_pos rfl] at this
  · intro h
    have := vanish_reducingExtension.1 h (n - 1) (by omega)
    rwa [acc, e, if_pos rfl] at this

/-- `5 * 2^2 + 3 * 2 + 4 = 30` with intermediate accumulator `13`. -/
example : Vanish (reducing 2 (EvaluationVars.row ⟨[], [30, 0, 2, 0, 5, 0, 3, 4, 13, 0], fun _ => 0⟩)) := by
  rw [vanish_reducing]
  intro i hi
  obtain rfl | rfl : i = 0 ∨ i = 1 := by omega
  · decide +kernel
  · decide +kernel

/-! ## C39 -/

/-- **C39** MultiplicationExtensionGate. -/
theorem C39_mulExtension {n : ℕ} (hc : 1 ≤ v.localConstants.length) (hw : 6 * n ≤ v.localWires.length) :
    Computes (Gates.mulExtension n v.enc) ((mulExtension n v.row).map embQ) ∧
    (Vanish (mulExtension n v.row) ↔ ∀ i < n,
      v.row.a (6 * i + 4) = ofExt (v.row.c 0) * v.row.a (6 * i) * v.row.a (6 * i + 2)) :=
  ⟨(den_eq_pure_iff _ _).1 (Gates.den_mulExtension hc hw), vanish_mulExtension⟩

/-- `2 * (1 + X) * (3 + X) = 2 * (10 + 4 X)` where `X^2 = 7`. -/
example : Vanish (mulExtension 1 (EvaluationVars.row ⟨[2], [1, 1, 3, 1, 20, 8], fun _ => 0⟩)) := by
  rw [vanish_mulExtension]
  intro i hi
  obtain rfl : i = 0 := by omega
  decide +kernel

/-! ## C40 -/

open Spec.Gates.Coset Polynomial in
/-- **C40** CosetInterpolationGate: when the weights are the barycentric weights of the subgroup `1, g, .., g^(2^b-1)`,
the shift is non-zero and `P` is a polynomial (over the extension algebra) of degree `< 2^b` with the given values
on the coset `shift * g^i`, the constraints vanish iff the auxiliary wires hold `point / shift` and the partial
barycentric sums and products, and the result wires hold `P(point)`. -/
theorem C40_cosetInterpolation {b d : ℕ} {g : Fp} {wt : List Fp} (hb : b ≤ 32) (hd : 2 ≤ d) (hdN : d ≤ 2 ^ b)
    (hg : primitiveRootOfUnity b = some g) (hwt : wt.length = 2 ^ b)
    (hw : 1 + 2 * 2 ^ b + 4 + 4 * numInter b d + 2 ≤ v.localWires.length) :
    Computes (Gates.cosetInterpolation b d wt v.enc)
      ((cosetInterpolation b d g (fun i => wt.getD i 0) v.row).map embQ) ∧
    ((∀ i < 2 ^ b, wt.getD i 0 = baryWeight (2 ^ b) (fun i => g ^ i) i) → shift v.row ≠ 0 →
      ∀ P : QA[X], P.degree < (2 ^ b : ℕ) →
      (∀ i < 2 ^ b, P.eval (ofExt (shift v.row) * ofExt (ofBase (g ^ i))) = value v.row i) →
      (Vanish (cosetInterpolation b d g (fun i => wt.getD i 0) v.row) ↔
        unshifted b d v.row = ofExt (shift v.row)⁻¹ * point b v.row ∧
        (∀ k < numInter b d,
          interEval b v.row k = partialEval b d g (fun i => wt.getD i 0) v.row (chunkStart d k) ∧
          interProd b d v.row k = partialProd b d g v.row (chunkStart d k)) ∧
        result b v.row = P.eval (point b v.row))) := by
  refine ⟨(den_eq_pure_iff _ _).1 (Gates.den_cosetInterpolation hb hd hdN hg hwt hw), fun hW hs P hP hv => ?_⟩
  obtain ⟨g', h1, h2⟩ := primitiveRoot_order hb
  obtain rfl : g = g' := by rw [hg] at h1; exact Option.some.inj h1
  have hinv : ofExt (shift v.row) * ofExt (shift v.row)⁻¹ = 1 := by
    rw [← QuadraticAlgebra.C_mul, mul_inv_cancel₀ hs]; rfl
  rw [vanish_iff_partial hd hdN, partialEval_poly h2 hW hP hv]
  constructor
  · rintro ⟨h1, h2, h3⟩
    refine ⟨?_, h2, by rw [h3, h1]⟩
    rw [h1, ← mul_assoc, mul_comm (ofExt _⁻¹), hinv, one_mul]
  · rintro ⟨h1, h2, h3⟩
    have : point b v.row = ofExt (shift v.row) * unshifted b d v.row := by
      rw [h1, ← mul_assoc, hinv, one_mul]
    exact ⟨this, h2, by rw [h3, ← this]⟩

open Spec.Gates.Coset Polynomial in
/-- **C40** the polynomial of the previous theorem always exists. -/
theorem C40_interpolant_exists {b : ℕ} {g : Fp} (hb : b ≤ 32) (hg : primitiveRootOfUnity b = some g)
    (s : QE) (hs : s ≠ 0) (val : ℕ → QA) :
    ∃ P : QA[X], P.degree < (2 ^ b : ℕ) ∧ ∀ i < 2 ^ b, P.eval (ofExt s * ofExt (ofBase (g ^ i))) = val i := by
  obtain ⟨g', h1, h2⟩ := primitiveRoot_order hb
  obtain rfl : g = g' := by rw [hg] at h1; exact Option.some.inj h1
  have hinj : Set.InjOn (fun i : ℕ => s * ofBase (g ^ i)) (Finset.range (2 ^ b)) := by
    intro i hi j hj h
    exact injOn_pow h2 hi hj (QuadraticAlgebra.C_injective (mul_left_cancel₀ hs h))
  obtain ⟨P, h3, h4⟩ := lagrange_exists (algebraMap QE QA) hinj val
  refine ⟨P, h3, fun i hi => ?_⟩
  rw [← h4 i hi]
  exact congrArg (fun z => P.eval z) (QuadraticAlgebra.C_mul _ _).symm

open Spec.Gates.Coset Polynomial in
/-- Two points, shift 1: the line through `(1, 1)` and `(-1, 3)` takes the value `-3` at `5`. -/
example : Vanish (cosetInterpolation 1 2 (-1) (fun i => [2⁻¹, -2⁻¹].getD i 0)
    (EvaluationVars.row ⟨[], [1, 1, 0, 3, 0, 5, 0, -3, 0, 5, 0], fun _ => 0⟩)) := by
  let v : EvaluationVars Fp QE := ⟨[], [1, 1, 0, 3, 0, 5, 0, -3, 0, 5, 0], fun _ => 0⟩
  have hg : primitiveRootOfUnity 1 = some (-1) := by decide +kernel
  refine ((C40_cosetInterpolation (v := v) (b := 1) (d := 2) (wt := [2⁻¹, -2⁻¹]) (by norm_num) (by norm_num)
    (by norm_num) hg rfl (by decide)).2 ?_ ?_ (C 2 - X) ?_ ?_).2 ⟨?_, ?_, ?_⟩
  · intro i hi
    obtain rfl | rfl : i = 0 ∨ i = 1 := by omega
    · decide +kernel
    · decide +kernel
  · exact one_ne_zero
  · refine lt_of_le_of_lt (degree_sub_le _ _) (max_lt ?_ ?_)
    · exact lt_of_le_of_lt degree_C_le (by norm_num)
    · exact lt_of_le_of_lt degree_X_le (by norm_num)
  · intro i hi
    rw [eval_sub, eval_C, eval_X]
    obtain rfl | rfl : i = 0 ∨ i = 1 := by omega
    · decide +kernel
    · decide +kernel
  · decide +kernel
  · intro k hk; exact absurd hk (Nat.not_lt_zero k)
  · rw [eval_sub, eval_C, eval_X]
    decide +kernel

/-! ## C41 -/

/-- **C41** PoseidonMdsGate. -/
theorem C41_poseidonMds (hw : 48 ≤ v.localWires.length) :
    Computes (Gates.poseidonMds v.enc) ((poseidonMds v.row).map embQ) ∧
    (Vanish (poseidonMds v.row) ↔
      ∀ i : Fin 12, v.row.a (2 * (12 + i)) = ∑ j : Fin 12, (Spec.mds i j : QA) * v.row.a (2 * j)) :=
  ⟨(den_eq_pure_iff _ _).1 (Gates.den_poseidonMds hw), vanish_poseidonMds⟩

/-- A row of 48 wires. -/
example : 48 ≤ (⟨[], List.replicate 48 ⟨1, 0⟩, fun _ => 0⟩ : EvaluationVars Fp QE).localWires.length := by simp

/-! ## C22 -/

/-- **C22** PoseidonGate: the constraints vanish iff the swap flag is boolean, the deltas are `swap * (rhs - lhs)`,
the wires hold the S-box inputs of the textbook permutation of the (swapped) input, and the output wires
hold its result. -/
theorem C22_poseidonGate (hw : 135 ≤ v.localWires.length) :
    Computes (Gates.poseidon v.enc) ((poseidon v.row).map embQ) ∧
    (Vanish (poseidon v.row) ↔
      (v.row.w 24 = 0 ∨ v.row.w 24 = 1) ∧
      (∀ i : Fin 4, v.row.w (25 + i) = v.row.w 24 * (v.row.w (i + 4) - v.row.w i)) ∧
      (∀ r, 1 ≤ r → r < 30 → Poseidon.Stored v.row r) ∧
      ∀ i : Fin 12, v.row.w (12 + i) = Spec.poseidon (Poseidon.input v.row) i) :=
  ⟨(den_eq_pure_iff _ _).1 (Gates.den_poseidon hw), Poseidon.vanish_iff⟩

/-- **C22** the permutation's input on a satisfied row: wires 0–3 and 4–7 exchanged iff the swap flag is 1. -/
theorem C22_input (h : Vanish (poseidon v.row)) (i : Fin 12) :
    Poseidon.input v.row i =
      if v.row.w 24 = 1 then
        (if (i : ℕ) < 4 then v.row.w (i + 4) else if (i : ℕ) < 8 then v.row.w (i - 4) else v.row.w i)
      else v.row.w i := by
  obtain ⟨h0, hd, _, _⟩ := Poseidon.vanish_iff.1 h
  rw [Poseidon.input]
  split_ifs with h1 h2 h3 h4 h5
  · have := hd ⟨i, h1⟩
    simp only at this
    rw [this, h2]; ring
  · have := hd ⟨i, h1⟩
    simp only at this
    rw [this, h0.resolve_right h2]; ring
  · have := hd ⟨i - 4, by omega⟩
    simp only at this
    rw [this, h4, show (i : ℕ) - 4 + 4 = i by omega]; ring
  · have := hd ⟨i - 4, by omega⟩
    simp only at this
    rw [this, h0.resolve_right h4]; ring
  · rfl
  · rfl

/-- A satisfied row exists for every input (without swap). -/
example (s : Fin 12 → QE) : ∃ x : Row, Vanish (poseidon x) ∧ ∀ i : Fin 12, x.w i = s i := by
  let w : ℕ → QE := fun j =>
    if j < 12 then s (Fin.ofNat 12 j) else if j < 24 then Spec.poseidon s (Fin.ofNat 12 (j - 12))
    else if j < 29 then 0
    else if j < 65 then Poseidon.stateAt s (1 + (j - 29) / 12) (Fin.ofNat 12 ((j - 29) % 12)) +
      (Spec.rc (1 + (j - 29) / 12) (Fin.ofNat 12 ((j - 29) % 12)) : QE)
    else if j < 87 then Poseidon.stateAt s (4 + (j - 65)) 0 + (Spec.rc (4 + (j - 65)) 0 : QE)
    else Poseidon.stateAt s (26 + (j - 87) / 12) (Fin.ofNat 12 ((j - 87) % 12)) +
      (Spec.rc (26 + (j - 87) / 12) (Fin.ofNat 12 ((j - 87) % 12)) : QE)
  have hof : ∀ (i : Fin 12) (n : ℕ), n = i → Fin.ofNat 12 n = i := by
    rintro i n rfl; exact Fin.ext (Nat.mod_eq_of_lt i.2)
  have h0 : ∀ i : Fin 12, w i = s i := fun i => by
    have := i.2
    simp only [w, if_pos this, hof i _ rfl]
  have hz : ∀ i, 24 ≤ i → i < 29 → w i = 0 := fun i h1 h2 => by
    simp only [w, if_neg (show ¬ i < 12 by omega), if_neg (show ¬ i < 24 by omega), if_pos h2]
  have hin : Poseidon.input ⟨fun _ => 0, w, fun _ => 0⟩ = s := by
    funext i
    have := i.2
    simp only [Poseidon.input]
    split_ifs
    · rw [hz (25 + i) (by omega) (by omega), h0, add_zero]
    · rw [hz (25 + (i - 4)) (by omega) (by omega), h0, sub_zero]
    · exact h0 i
  refine ⟨⟨fun _ => 0, w, fun _ => 0⟩, Poseidon.vanish_iff.2 ⟨Or.inl (hz 24 (by norm_num) (by norm_num)), fun i => ?_, ?_, fun i => ?_⟩, h0⟩
  · have := i.2
    simp only
    rw [hz 24 (by norm_num) (by norm_num), hz (25 + i) (by omega) (by omega), zero_mul]
  · intro r h1 h2 i hi
    rw [hin]
    have := i.2
    show w _ = _
    rw [Poseidon.sboxWire]
    split_ifs with h3 h4
    · simp only [w, if_neg (show ¬ 29 + (r - 1) * 12 + (i : ℕ) < 12 by omega),
        if_neg (show ¬ 29 + (r - 1) * 12 + (i : ℕ) < 24 by omega),
        if_neg (show ¬ 29 + (r - 1) * 12 + (i : ℕ) < 29 by omega),
        if_pos (show 29 + (r - 1) * 12 + (i : ℕ) < 65 by omega)]
      rw [show 1 + (29 + (r - 1) * 12 + (i : ℕ) - 29) / 12 = r by omega, hof i _ (by omega)]
    · obtain rfl := hi ⟨by omega, h4⟩
      simp only [w, if_neg (show ¬ 65 + (r - 4) < 12 by omega), if_neg (show ¬ 65 + (r - 4) < 24 by omega),
        if_neg (show ¬ 65 + (r - 4) < 29 by omega), if_neg (show ¬ 65 + (r - 4) < 65 by omega),
        if_pos (show 65 + (r - 4) < 87 by omega)]
      rw [show 4 + (65 + (r - 4) - 65) = r by omega]
    · simp only [w, if_neg (show ¬ 87 + (r - 26) * 12 + (i : ℕ) < 12 by omega),
        if_neg (show ¬ 87 + (r - 26) * 12 + (i : ℕ) < 24 by omega),
        if_neg (show ¬ 87 + (r - 26) * 12 + (i : ℕ) < 29 by omega),
        if_neg (show ¬ 87 + (r - 26) * 12 + (i : ℕ) < 65 by omega),
        if_neg (show ¬ 87 + (r - 26) * 12 + (i : ℕ) < 87 by omega)]
      rw [show 26 + (87 + (r - 26) * 12 + (i : ℕ) - 87) / 12 = r by omega, hof i _ (by omega)]
  · have := i.2
    show w _ = _
    rw [hin]
    simp only [w, if_neg (show ¬ 12 + (i : ℕ) < 12 by omega), if_pos (show 12 + (i : ℕ) < 24 by omega)]
    rw [hof i _ (by omega)]

end Verif
