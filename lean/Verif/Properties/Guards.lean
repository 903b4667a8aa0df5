import Verif.Proofs.Guards

/-!
# Property C80: exactly when the functions of `fri/fri.go` panic

`C67` says when the whole program runs to its end.  Here the same is stated for single functions and for all arguments,
also for those that the whole program never passes: the function completes if the condition holds, and otherwise panics
(or, for `computeEvaluation` with 256 values, does not end) on every path.  So no length check is missing or too strict.
-/

set_option autoImplicit false

namespace Verif

open Circ Fri

/-- A Merkle path can be walked to the cap: an index bit for every sibling, four bits for the cap of sixteen digests. -/
def PathFits (bits capBits cap siblings : List Fr) : Prop :=
  siblings.length ≤ bits.length ∧ capBits.length = 4 ∧ cap.length = 16

/-- **C80** `verifyMerkleProofToCapWithCapIndex`. -/
theorem C80_merkle (leaf bits capBits cap siblings : List Fr) :
    Generates (verifyMerkleProofToCap leaf bits capBits cap siblings) (PathFits bits capBits cap siblings) :=
  Guards.merkle leaf bits capBits cap siblings

/-- **C80** `verifyInitialProof`: as many evaluation proofs as caps, and every path fits. -/
theorem C80_initial (bits : List Fr) (proof : List (FriEvalProof Fr)) (caps : List (List Fr)) (capBits : List Fr) :
    Generates (verifyInitialProof bits proof caps capBits)
      (proof.length = caps.length ∧ ∀ ec ∈ proof.zip caps, PathFits bits capBits ec.2 ec.1.siblings) :=
  Guards.initial bits proof caps capBits

/-- **C80** `calculateSubgroupX`: Goldilocks has roots of unity of order `2 ^ n` for `n` up to 32. -/
theorem C80_subgroup (bits : List Fr) (n : ℕ) : Generates (calculateSubgroupX bits n) (n ≤ 32) := Guards.subgroupX bits n

/-- **C80** `GetInstance`. -/
theorem C80_instance (c : CommonCircuitData) (zeta : QEV) : Generates (getInstance c zeta) (c.degreeBits ≤ 32) :=
  Guards.instance_ c zeta

/-- **C80** `friCombineInitial`: one reduced opening for each batch, and the leaves contain every polynomial of every
batch. -/
theorem C80_combine (inst : InstanceInfo QEV) (proof : List (FriEvalProof Fr)) (alpha x : QEV) (y : List QEV) :
    Generates (friCombineInitial inst proof alpha x y) (inst.batches.length = y.length ∧
      ∀ b ∈ inst.batches, ∀ f ∈ b.polynomials,
        ∃ t, proof[f.oracleIndex]? = some t ∧ f.polynomialInfo < t.elements.length) :=
  Guards.combine inst proof alpha x y

/-- **C80** `interpolate`: three slices of one length. -/
theorem C80_interpolate (x : QEV) (xs ys ws : List QEV) :
    Generates (interpolate x xs ys ws) (xs.length = ys.length ∧ xs.length = ws.length) :=
  Guards.interpolation x xs ys ws

/-- **C80** `computeEvaluation`: `2 ^ a` values with `a` at most 7. The check of the code admits `a = 8`, for which the
loop with its `uint8` counter does not end (`C50`). -/
theorem C80_evaluation (x : Fr) (bits : List Fr) (a : ℕ) (evals : List QEV) (beta : QEV) :
    Generates (computeEvaluation x bits a evals beta) (a ≤ 7 ∧ evals.length = 2 ^ a) :=
  Guards.evaluation x bits a evals beta

/-- **C80** The lookup of the previous evaluation in `verifyQueryRound`: four bits and sixteen values. -/
theorem C80_lookup (bits : List Fr) (evals : List QEV) :
    Generates (evalLookup bits evals) (4 ≤ bits.length ∧ 16 ≤ evals.length) :=
  Guards.lookup16 bits evals

/-- **C80** `PartialInterpolateExtAlgebra`: some values, and as many domain points and weights. -/
theorem C80_partialInterpolate (d : List Fp) (v : List QAV) (w : List Fp) (pt e0 p0 : QAV) :
    Generates (partialInterpolate d v w pt e0 p0) (v ≠ [] ∧ v.length = d.length ∧ v.length = w.length) :=
  Guards.partialInterpolation d v w pt e0 p0

/-- A path of two siblings with two index bits fits, with one it does not. -/
example : NoPanic (verifyMerkleProofToCap [1] [0, 1] [0, 1, 1, 0] (List.replicate 16 7) [3, 4]) ∧
    Panics (verifyMerkleProofToCap [1] [0] [0, 1, 1, 0] (List.replicate 16 7) [3, 4]) :=
  ⟨(C80_merkle _ _ _ _ _).1 (by simp [PathFits]), (C80_merkle _ _ _ _ _).2 (by simp [PathFits])⟩

/-- Two values can be folded, three cannot. -/
example (x : Fr) (b : QEV) : NoPanic (computeEvaluation x [1] 1 [(1, 0), (2, 5)] b) ∧
    Panics (computeEvaluation x [1] 1 [(1, 0), (2, 5), (3, 3)] b) :=
  ⟨(C80_evaluation _ _ _ _ _).1 (by simp), (C80_evaluation _ _ _ _ _).2 (by simp)⟩

/-- A batch of one polynomial in one oracle, with a leaf that has it and one that has not. -/
example (a x y : QEV) : NoPanic (friCombineInitial ⟨[⟨1, false⟩], [⟨(5, 1), [⟨0, 1⟩]⟩]⟩ [⟨[4, 9], []⟩] a x [y]) ∧
    Panics (friCombineInitial ⟨[⟨1, false⟩], [⟨(5, 1), [⟨0, 1⟩]⟩]⟩ [⟨[4], []⟩] a x [y]) :=
  ⟨(C80_combine _ _ _ _ _).1 (by simp), (C80_combine _ _ _ _ _).2 (by simp)⟩

end Verif
