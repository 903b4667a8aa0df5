import Verif.Proofs.Plonk
import Verif.Proofs.Panics

/-!
# Properties C42, C43, C45–C47: selectors and the PLONK identity
-/

set_option autoImplicit false

namespace Verif

open Circ Spec.Gates Spec.Plonk
open Gates (EvaluationVars Gate)

/-! ## C42 -/

/-- **C42** The filter of gate `row` in `group` is the product over the other gates of the group (and the unused
marker), and is nonzero exactly when the selector is neither. -/
theorem C42_computeFilter {row : ℕ} {group : ℕ × ℕ} (hg : group.2 ≤ p) (s : QE) (many : Bool) :
    Computes (Gates.computeFilter row group (embQ s) many) (embQ (filter row group many s)) ∧
    (filter row group many s ≠ 0 ↔
      (∀ i, group.1 ≤ i → i < group.2 → i ≠ row → s ≠ (i : QE)) ∧ (many = true → s ≠ 2 ^ 32 - 1)) :=
  ⟨(den_eq_pure_iff _ _).1 (Gates.den_computeFilter hg s many), Gates.filter_ne_zero⟩

/-- **C42** On a row selecting gate `k` (its selector holds `k`, the others the unused marker) the filter of gate `k`
is nonzero and all other filters vanish, so the combined constraints are those of gate `k` up to a nonzero factor. -/
theorem C42_selects {si : SelectorsInfo} {x : Row} {gates : List Gate} {k : ℕ} (hk : k < gates.length)
    (hsel : ∀ i < gates.length, si.selectorIndices.getD i 0 < si.groups.length)
    (hin : ∀ i < gates.length, (si.groups.getD (si.selectorIndices.getD i 0) (0, 0)).1 ≤ i ∧
      i < (si.groups.getD (si.selectorIndices.getD i 0) (0, 0)).2)
    (hle : ∀ i < gates.length, (si.groups.getD (si.selectorIndices.getD i 0) (0, 0)).2 ≤ 2 ^ 32 - 1)
    (hx : x.c (si.selectorIndices.getD k 0) = (k : QE))
    (hun : ∀ s < si.groups.length, s ≠ si.selectorIndices.getD k 0 → x.c s = 2 ^ 32 - 1) :
    (∀ i < gates.length, gateFilter si x i ≠ 0 ↔ i = k) ∧
    (∀ j, combined gates si x j = gateFilter si x k * (constraints gates[k] (x.drop si.groups.length)).getD j 0) ∧
    ((∀ j, combined gates si x j = 0) ↔ Vanish (constraints gates[k] (x.drop si.groups.length))) := by
  have h1 := fun i hi => Gates.gateFilter_selects (x := x) hk hsel hin hle hx hun (i := i) hi
  have h2 := fun j => Gates.combined_selects (x := x) hk h1 j
  refine ⟨h1, h2, fun h y hy => ?_, fun h j => ?_⟩
  · obtain ⟨j, hj, rfl⟩ := List.getElem_of_mem hy
    have := h j
    rw [h2, mul_eq_zero, List.getD_eq_getElem _ _ hj] at this
    exact this.resolve_left ((h1 k hk).2 rfl)
  · rw [h2]
    by_cases hj : j < (constraints gates[k] (x.drop si.groups.length)).length
    · rw [List.getD_eq_getElem _ _ hj, h _ (List.getElem_mem hj), mul_zero]
    · rw [List.getD_eq_default _ _ (not_lt.1 hj), mul_zero]

/-- Two gates in one group, the row selects the second. -/
example (x : Row) (hx : x.c 0 = 1) :
    (∀ j, combined [.constant 1, .arithmetic 1] ⟨[0, 0], [(0, 2)]⟩ x j = 0) ↔
      Vanish (constraints (.arithmetic 1) (x.drop 1)) := by
  refine (C42_selects (si := ⟨[0, 0], [(0, 2)]⟩) (x := x) (gates := [.constant 1, .arithmetic 1]) (k := 1) (by simp)
    ?_ ?_ ?_ (by simpa using hx) ?_).2.2
  · intro i hi
    have : i = 0 ∨ i = 1 := by simp at hi; omega
    rcases this with rfl | rfl <;> simp
  · intro i hi
    have : i = 0 ∨ i = 1 := by simp at hi; omega
    rcases this with rfl | rfl <;> simp
  · intro i hi
    have : i = 0 ∨ i = 1 := by simp at hi; omega
    rcases this with rfl | rfl <;> simp
  · intro s hs h
    simp at hs h
    omega

/-- Group `[1, 4)`, gate 2: `(1 - s)(3 - s)`, which is nonzero at 2 and zero at 3. -/
example : filter 2 (1, 4) false 2 = -1 ∧ filter 2 (1, 4) false 3 = 0 ∧ filter 2 (1, 4) true (2 ^ 32 - 1) = 0 := by
  decide +kernel

/-! ## C43 -/

/-- **C43** Slot `j` of the result is the sum over the gates of filter times constraint `j`. -/
theorem C43_evaluateGateConstraints {v : EvaluationVars Fp QE} {si : SelectorsInfo} {m : ℕ} {gates : List Gate}
    (h : ∀ gi ∈ gates.zipIdx, GateOk si v.localConstants.length v.localWires.length gi.1 gi.2)
    (hc : ∀ gi ∈ gates.zipIdx, (constraints gi.1 (v.row.drop si.groups.length)).length ≤ m) :
    Computes (Gates.evaluateGateConstraints gates m si v.enc) (((List.range m).map (combined gates si v.row)).map embQ) :=
  (den_eq_pure_iff _ _).1 (Gates.den_evaluateGateConstraints h hc)

/-- **C43** When selectors and openings suffice for every gate, the circuit is generated exactly if no gate has more
constraints than `NumGateConstraints`; otherwise generation panics. -/
theorem C43_generation {v : Gates.Vars} {si : SelectorsInfo} {m : ℕ} {gates : List Gate}
    (h : ∀ gi ∈ gates.zipIdx, GateOk si v.localConstants.length v.localWires.length gi.1 gi.2) :
    Generates (Gates.evaluateGateConstraints gates m si v)
      (∀ gi ∈ gates.zipIdx, ∀ x, (constraints gi.1 x).length ≤ m) := by
  have e := generates_evaluateGateConstraints (n := m) h
  have : (∀ gi ∈ gates.zipIdx, constraintCount gi.1 ≤ m) ↔
      ∀ gi ∈ gates.zipIdx, ∀ x, (constraints gi.1 x).length ≤ m := by
    simp only [length_constraints]
    exact forall₂_congr fun gi _ => ⟨fun h _ => h, fun h => h ⟨fun _ => 0, fun _ => 0, fun _ => 0⟩⟩
  rwa [Generates, this] at e

/-- **C43** Every gate needs a selector, a group, an opened selector constant and a slot for each constraint;
otherwise nothing satisfies the circuit. For arbitrary circuit values. -/
theorem C43_indices {vars : Gates.Vars} {si : SelectorsInfo} {m : ℕ} {gates : List Gate} {y : List QEV}
    (h : Sat (Gates.evaluateGateConstraints gates m si vars) y) : ∀ gi ∈ gates.zipIdx,
    ∃ sel group, si.selectorIndices[gi.2]? = some sel ∧ si.groups[sel]? = some group ∧ sel < vars.localConstants.length ∧
      si.groups.length ≤ vars.localConstants.length ∧
      ∃ cs, Sat (Gates.evalFiltered gi.1 vars gi.2 sel group si.groups.length) cs ∧ cs.length ≤ m :=
  Gates.evaluateGateConstraints_sat h

/-- A circuit with two gates in one group: a constant gate and an arithmetic gate, one selector. -/
def exampleSelectors : SelectorsInfo := ⟨[0, 0], [(0, 2)]⟩
def exampleGates : List Gate := [.constant 1, .arithmetic 1]
/-- The row selects gate 1 and has wires `2, 3, 4, 10` with constants 1, 1. -/
def exampleVars : EvaluationVars Fp QE := ⟨[1, 1, 1], [2, 3, 4, 10], fun _ => 0⟩

example : ∀ gi ∈ exampleGates.zipIdx,
    GateOk exampleSelectors exampleVars.localConstants.length exampleVars.localWires.length gi.1 gi.2 ∧
    (constraints gi.1 (exampleVars.row.drop exampleSelectors.groups.length)).length ≤ 1 := by
  intro gi hgi
  have : gi = (.constant 1, 0) ∨ gi = (.arithmetic 1, 1) := by
    simpa [exampleGates, List.zipIdx] using hgi
  rcases this with rfl | rfl
  · exact ⟨⟨by decide, by decide, by norm_num [exampleSelectors, p], by decide,
      by norm_num [Fits, exampleSelectors, exampleVars]⟩, by simp [constraints, constant]⟩
  · exact ⟨⟨by decide, by decide, by norm_num [exampleSelectors, p], by decide,
      by norm_num [Fits, exampleSelectors, exampleVars]⟩, by simp [constraints, arithmetic]⟩

example : combined exampleGates exampleSelectors exampleVars.row 0 = 0 := by decide +kernel
example : combined exampleGates exampleSelectors
    (EvaluationVars.row ⟨[1, 1, 1], [2, 3, 4, 11], fun _ => 0⟩) 0 ≠ 0 := by decide +kernel

/-! ## C45 -/

variable {c : CommonCircuitData}

/-- **C45** The terms are the differences between consecutive accumulators times chunk products, from `Z(x)` to `Z(gx)`,
for any number of chunks and any chunk size; when they vanish, `Z(x) ∏ num = Z(gx) ∏ den`. -/
theorem C45_checkPartialProducts {o : OpeningSet QE} {nu de : List QE} {i : ℕ} (hq : c.quotientDegreeFactor ≠ 0)
    (hN : nu.length = (c.numPartialProducts + 1) * c.quotientDegreeFactor) (hM : de.length = nu.length)
    (hz : i < o.plonkZs.length) (hzn : i < o.plonkZsNext.length)
    (hpp : (i + 1) * c.numPartialProducts ≤ o.partialProducts.length) :
    Computes (Plonk.checkPartialProducts c (nu.map embQ) (de.map embQ) i o.enc)
      (((List.range (c.numPartialProducts + 1)).map fun k =>
        acc c o i k * (∏ j ∈ Finset.range c.quotientDegreeFactor, nu.getD (k * c.quotientDegreeFactor + j) 0) -
        acc c o i (k + 1) * (∏ j ∈ Finset.range c.quotientDegreeFactor, de.getD (k * c.quotientDegreeFactor + j) 0)).map
          embQ) ∧
    ((∀ k ≤ c.numPartialProducts, acc c o i k *
        (∏ j ∈ Finset.range c.quotientDegreeFactor, nu.getD (k * c.quotientDegreeFactor + j) 0) =
      acc c o i (k + 1) * (∏ j ∈ Finset.range c.quotientDegreeFactor, de.getD (k * c.quotientDegreeFactor + j) 0)) →
      o.plonkZs.getD i 0 * nu.prod = o.plonkZsNext.getD i 0 * de.prod) := by
  constructor
  · rw [← den_eq_pure_iff]
    conv_lhs => rw [Fri.list_eq_range_getD nu 0, Fri.list_eq_range_getD de 0]
    exact Plonk.den_checkPartialProducts hq hN.ge (hM ▸ hN.ge) hz hzn hpp
  · intro h
    have := Plonk.partialProduct_telescope (c := c) (o := o) (nu := fun j => nu.getD j 0) (de := fun j => de.getD j 0)
      (i := i) (fun k hk => sub_eq_zero.2 (h k hk))
    have hp : ∀ l : List QE, ∏ j ∈ Finset.range l.length, l.getD j 0 = l.prod := by
      intro l
      conv_rhs => rw [Fri.list_eq_range_getD l 0]
      rw [Finset.prod_range, ← List.prod_ofFn]
      congr 1
      refine List.ext_getElem (by simp) fun j h1 h2 => ?_
      simp [List.getD_eq_getElem?_getD, List.getElem?_eq_getElem (show j < l.length by simpa using h2)]
    rw [← hp nu, ← hp de, hM, hN]
    exact this

/-- **C45** The accumulators are `Z(x)`, the partial products of the challenge in order, `Z(gx)`. -/
theorem C45_accumulators {o : OpeningSet QE} {i : ℕ} :
    acc c o i 0 = o.plonkZs.getD i 0 ∧
    (∀ k < c.numPartialProducts, acc c o i (k + 1) = o.partialProducts.getD (i * c.numPartialProducts + k) 0) ∧
    acc c o i (c.numPartialProducts + 1) = o.plonkZsNext.getD i 0 :=
  ⟨rfl, fun k hk => by rw [Spec.Plonk.acc, if_neg (by omega), if_pos (by omega), Nat.add_sub_cancel],
    by rw [Spec.Plonk.acc, if_neg (by omega), if_neg (by omega)]⟩

/-- **C45** Fewer numerators or denominators than chunks times chunk size: the code runs out of range. -/
theorem C45_short {nu de : List QEV} {i : ℕ} {o : OpeningSet QEV} (hq : c.quotientDegreeFactor ≠ 0)
    (hN : nu.length < (c.numPartialProducts + 1) * c.quotientDegreeFactor ∨
      de.length < (c.numPartialProducts + 1) * c.quotientDegreeFactor) :
    Panics (Plonk.checkPartialProducts c nu de i o) :=
  (post_checkPartialProducts hq).panics (by omega)

/-- Two chunks of two factors, one challenge. -/
example (d : CommonCircuitData) (h1 : d.quotientDegreeFactor = 2) (h2 : d.numPartialProducts = 1) (n0 n1 n2 n3 d0 d1 d2 d3 z m w : QE)
    (e1 : z * (n0 * n1) = m * (d0 * d1)) (e2 : m * (n2 * n3) = w * (d2 * d3)) :
    Computes (Plonk.checkPartialProducts d ([n0, n1, n2, n3].map embQ) ([d0, d1, d2, d3].map embQ) 0
      (OpeningSet.enc ⟨[], [], [], [z], [w], [m], []⟩)) ([0, 0].map embQ) ∧
    z * [n0, n1, n2, n3].prod = w * [d0, d1, d2, d3].prod := by
  obtain ⟨h, h'⟩ := C45_checkPartialProducts (c := d) (o := ⟨[], [], [], [z], [w], [m], []⟩) (nu := [n0, n1, n2, n3])
    (de := [d0, d1, d2, d3]) (i := 0) (by omega) (by simp [h1, h2]) rfl (by simp) (by simp) (by simp [h2])
  refine ⟨?_, h' fun k hk => ?_⟩
  · rw [h1, h2] at h
    convert h using 2
    simp [List.range_succ, Spec.Plonk.acc, h2, Finset.prod_range_succ, e1, e2]
  · have : k = 0 ∨ k = 1 := by omega
    rcases this with rfl | rfl <;> simp [Spec.Plonk.acc, h1, h2, Finset.prod_range_succ, e1, e2]

/-! ## C46 -/

/-- **C46** `evalL0` admits exactly `(ζ^n - 1) / (n (ζ - 1))`, the first Lagrange basis polynomial of any group of `n`
roots of unity at `ζ`. -/
theorem C46_evalL0 (h : c.degreeBits < 63) {x : QE} (hx : x ≠ 1) :
    Computes (Plonk.evalL0 c (embQ x) (embQ (x ^ n c))) (embQ ((x ^ n c - 1) / ((n c : QE) * (x - 1)))) ∧
    ∀ ω : QE, orderOf ω = n c →
      (Lagrange.basis (Finset.range (n c)) (fun i => ω ^ i) 0).eval x = (x ^ n c - 1) / ((n c : QE) * (x - 1)) :=
  ⟨(den_eq_pure_iff _ _).1 (Plonk.den_evalL0 h hx), fun _ hω => Plonk.lagrange_basis_zero hω hx⟩

/-- The point `X` outside the base field. -/
example (c : CommonCircuitData) (h : c.degreeBits = 12) : Computes (Plonk.evalL0 c (embQ ⟨0, 1⟩) (embQ (⟨0, 1⟩ ^ n c)))
    (embQ ((⟨0, 1⟩ ^ n c - 1) / ((n c : QE) * (⟨0, 1⟩ - 1)))) := by
  refine (C46_evalL0 (by omega) fun h => ?_).1
  exact absurd (congrArg QuadraticAlgebra.im h : (1 : Fp) = 0) one_ne_zero

/-- **C46** At `ζ = 1` nothing satisfies the constraints. -/
theorem C46_evalL0_one (h : c.degreeBits < 63) (y : QE) : Unsat (Plonk.evalL0 c (embQ 1) (embQ y)) :=
  den_eq_fail_iff _ |>.1 (Plonk.den_evalL0_one h y)

/-- **C46** `expPowerOf2Extension` computes `x^n`. -/
theorem C46_expPowerOf2 (x : QE) :
    Computes (Plonk.expPowerOf2Extension c (embQ x)) (embQ (x ^ 2 ^ c.degreeBits)) :=
  (den_eq_pure_iff _ _).1 (Plonk.den_expPowerOf2 x)

/-! ## C47 -/

/-- **C47** `plonk.Verify` is satisfiable exactly when `ζ ≠ 1` and, for every challenge, the random linear combination
of `L0 (Z - 1)`, the partial product checks and the gate constraints is `Z_H(ζ)` times the quotient. -/
theorem C47_verify {gates : List Gate} {ch : ProofChallenges Fp QE} {o : OpeningSet QE} {h : Fin 4 → Fp}
    (hs : Shape c gates ch o) :
    Enforces (Plonk.verify c gates ch.enc o.enc (fun i => emb (h i))) (ch.plonkZeta ≠ 1 ∧ Identity c gates ch o h) :=
  (den_eq_assert_iff _ _).1 (Plonk.den_verify hs)

/-- **C47** The identity spelled out: `Σ_j α_i^j term_j = (ζ^n - 1) Σ_k ζ^(n k) quotient_{i,k}`. -/
theorem C47_terms {gates : List Gate} {ch : ProofChallenges Fp QE} {o : OpeningSet QE} {h : Fin 4 → Fp} :
    Identity c gates ch o h ↔ ∀ i < c.config.numChallenges,
      ∑ j ∈ Finset.range (terms c gates ch o h).length,
        (terms c gates ch o h).getD j 0 * ofBase (ch.plonkAlphas.getD i 0) ^ j =
      (ch.plonkZeta ^ 2 ^ c.degreeBits - 1) * ∑ k ∈ Finset.range c.quotientDegreeFactor,
        o.quotientPolys.getD (i * c.quotientDegreeFactor + k) 0 * ch.plonkZeta ^ (2 ^ c.degreeBits * k) := by
  simp only [Identity, vanishing, quotient, n, ← pow_mul]

/-- **C47** `NumRoutedWires` smaller than the number of chunks times `QuotientDegreeFactor` (for instance when the
factor does not divide it and the number of partial products is rounded up, as plonky2 does): generation panics. -/
theorem C47_uneven_chunks {gates : List Gate} {ch : ProofChallenges Fr QEV} {o : OpeningSet QEV} {h : Fin 4 → Fr}
    (hq : c.quotientDegreeFactor ≠ 0) (hc : c.config.numChallenges ≠ 0)
    (hN : c.config.numRoutedWires < (c.numPartialProducts + 1) * c.quotientDegreeFactor) :
    Panics (Plonk.verify c gates ch o h) :=
  panics_plonkVerify_chunks hq hc hN

/-! A small circuit: one constant gate, one challenge, four rows. -/

def exampleData : CommonCircuitData where
  config := ⟨1, 1, 1, true, 0, 1, false, 1, ⟨3, 0, 0, 1⟩⟩
  friParams := ⟨⟨3, 0, 0, 1⟩, false, 2, []⟩
  gateIds := ["ConstantGate { num_consts: 1 }"]
  selectorsInfo := ⟨[0], [(0, 1)]⟩
  degreeBits := 2
  quotientDegreeFactor := 1
  numGateConstraints := 1
  numConstants := 2
  numPublicInputs := 0
  kIs := [1]
  numPartialProducts := 0

def exampleCh : ProofChallenges Fp QE := ⟨[3], [5], [2], 7, ⟨0, [], 0, []⟩⟩

/-- Openings with wire value `w`. -/
def exampleOpenings (w : QE) : OpeningSet QE := ⟨[0, 11], [7], [w], [1], [1], [], [0]⟩

example (w : QE) : Shape exampleData [.constant 1] exampleCh (exampleOpenings w) where
  degree := by decide
  factor := by decide
  chunks := by decide
  gatesOk := by
    intro gi hgi
    have : gi = (.constant 1, 0) := by simpa [List.zipIdx] using hgi
    subst this
    exact ⟨by decide, by decide, by norm_num [exampleData, p], by simp [exampleData, exampleOpenings],
      by norm_num [Fits, exampleData, exampleOpenings]⟩
  counts := by
    intro gi hgi x
    have : gi = (.constant 1, 0) := by simpa [List.zipIdx] using hgi
    subst this
    simp [constraints, constant, exampleData]
  kIs := by decide
  kIsLt := by norm_num [exampleData, p]
  betas := by decide
  gammas := by decide
  alphas := by decide
  wires := by simp [exampleData, exampleOpenings]
  sigmas := by simp [exampleData, exampleOpenings]
  zs := by simp [exampleData, exampleOpenings]
  zsNext := by simp [exampleData, exampleOpenings]
  partialProducts := by simp [exampleData, exampleOpenings]
  quotients := by simp [exampleData, exampleOpenings]

example : exampleCh.plonkZeta ≠ 1 ∧ Identity exampleData [.constant 1] exampleCh (exampleOpenings 11) (fun _ => 0) := by
  refine ⟨by decide +kernel, fun i hi => ?_⟩
  obtain rfl : i = 0 := by simpa [exampleData] using hi
  decide +kernel

example : ¬ Identity exampleData [.constant 1] exampleCh (exampleOpenings 12) (fun _ => 0) := by
  intro h
  have := h 0 (by decide)
  revert this
  decide +kernel

end Verif
