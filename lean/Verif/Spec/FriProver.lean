import Verif.Spec.Fri
import Mathlib.Algebra.Polynomial.Div

/-!
# Specification: the honest FRI prover

Merkle trees, the batched quotient of the committed polynomials, the folded layers of the commit phase, the final
polynomial and the answers to the queries.  Reductions have arity 16, caps have height 4.  Nothing here mentions
circuits or the verifier.
-/

set_option autoImplicit false

namespace Verif.Spec.Merkle

variable {α : Type}

/-- Node number `j` at height `h` of the tree over the digests `leaf`. -/
def treeNode (C : α → α → α) (leaf : ℕ → α) : ℕ → ℕ → α
  | 0, j => leaf j
  | h + 1, j => C (treeNode C leaf h (2 * j)) (treeNode C leaf h (2 * j + 1))

/-- The `2 ^ k` nodes at height `h`. -/
def treeCap (C : α → α → α) (leaf : ℕ → α) (h k : ℕ) : List α := (List.range (2 ^ k)).map (treeNode C leaf h)

/-- Number of the other child of the parent of node `j`. -/
def sibling (j : ℕ) : ℕ := if j % 2 = 1 then j - 1 else j + 1

/-- Siblings of the nodes above leaf `v`, up to height `h`. -/
def treePath (C : α → α → α) (leaf : ℕ → α) (h v : ℕ) : List α :=
  (List.range h).map fun i => treeNode C leaf i (sibling (v / 2 ^ i))

end Verif.Spec.Merkle

namespace Verif.Spec.Fri.Prover

open Polynomial Merkle

/-- Inclusion of the base field in the extension. -/
noncomputable def base : Fp →+* QE := algebraMap Fp QE

/-- Point number `u` (bit-reversed order) of the coset `s * <omega m>`. -/
def domain (s : Fp) (m u : ℕ) : Fp := s * omega m ^ bitRev m u

/-- A committed oracle: its polynomials, and the salt added to each leaf (empty unless hiding). -/
structure Oracle where
  polys : List Fp[X]
  salt : ℕ → List Fp

/-- Leaf `u`: the values of all polynomials at point `u` of the domain of size `2^n`. -/
noncomputable def Oracle.leaf (o : Oracle) (n u : ℕ) : List Fp := o.polys.map (eval (domain 7 n u)) ++ o.salt u

/-- Digest of leaf `u`. -/
noncomputable def Oracle.digest (o : Oracle) (n u : ℕ) : Fr := BN.leaf ((o.leaf n u).map emb)

/-- The commitment: 16 nodes of the tree. -/
noncomputable def Oracle.cap (o : Oracle) (n : ℕ) : List Fr := treeCap BN.compress (o.digest n) (n - 4) 4

/-- The answer to a query at index `v`. -/
noncomputable def Oracle.answer (o : Oracle) (n v : ℕ) : FriEvalProof Fp :=
  ⟨o.leaf n v, treePath BN.compress (o.digest n) (n - 4) v⟩

/-- The polynomial `f` of the instance. -/
noncomputable def poly (os : List Oracle) (f : PolynomialInfo) : Fp[X] :=
  (os.getD f.oracleIndex ⟨[], fun _ => []⟩).polys.getD f.polynomialInfo 0

/-- The true values of the polynomials at the points of the instance. -/
noncomputable def openings (os : List Oracle) (inst : InstanceInfo QE) : List (List QE) :=
  inst.batches.map fun b => b.polynomials.map fun f => (poly os f).eval₂ base b.point

/-- `Σ_i α^i f_i`. -/
noncomputable def batchPoly (α : QE) (fs : List Fp[X]) : QE[X] :=
  ∑ i ∈ Finset.range fs.length, C (α ^ i) * (fs.getD i 0).map base

/-- `(g - g(z)) / (X - z)`. -/
noncomputable def deep (z : QE) (g : QE[X]) : QE[X] := (g - C (g.eval z)) /ₘ (X - C z)

/-- The polynomial whose low degree is tested. -/
noncomputable def quotient (α : QE) (os : List Oracle) : List (BatchInfo QE) → QE[X]
  | [] => 0
  | b :: l => C (α ^ (l.map fun b' => b'.polynomials.length).sum) * deep b.point (batchPoly α (b.polynomials.map (poly os))) +
      quotient α os l

/-- Value at `x` of the polynomial with the first `N` coefficients `c`. -/
def value (N : ℕ) (c : ℕ → QE) (x : QE) : QE := ∑ k ∈ Finset.range N, c k * x ^ k

/-- Coefficients of the folded polynomial: `Σ_i β^i f_i` for `f = Σ_i X^i f_i(X^16)`. -/
def foldCoeffs (β : QE) (c : ℕ → QE) (k : ℕ) : QE := ∑ i ∈ Finset.range 16, c (16 * k + i) * β ^ i

/-- Leaf `w` of a layer: the values on the `w`-th coset of order 16. -/
def layer (s : Fp) (m N : ℕ) (c : ℕ → QE) (w : ℕ) : List QE :=
  (List.range 16).map fun i => value N c (ofBase (domain s m (16 * w + i)))

/-- Digest of leaf `w` of a layer. -/
noncomputable def layerDigest (s : Fp) (m N : ℕ) (c : ℕ → QE) (w : ℕ) : Fr := BN.leaf (flatten (layer s m N c w))

/-- Commitments to the layers. -/
noncomputable def commits : List QE → Fp → ℕ → ℕ → (ℕ → QE) → List (List Fr)
  | [], _, _, _, _ => []
  | β :: l, s, m, N, c => treeCap BN.compress (layerDigest s m N c) (m - 8) 4 ::
      commits l (s ^ 16) (m - 4) (N / 16) (foldCoeffs β c)

/-- Answers of the layers to a query at index `v`. -/
noncomputable def steps : List QE → Fp → ℕ → ℕ → (ℕ → QE) → ℕ → List (FriQueryStep QE)
  | [], _, _, _, _, _ => []
  | β :: l, s, m, N, c, v => ⟨layer s m N c (v / 16), treePath BN.compress (layerDigest s m N c) (m - 8) (v / 16)⟩ ::
      steps l (s ^ 16) (m - 4) (N / 16) (foldCoeffs β c) (v / 16)

/-- Coefficients of the last folded polynomial. -/
def final : List QE → ℕ → (ℕ → QE) → List QE
  | [], N, c => (List.range N).map c
  | β :: l, N, c => final l (N / 16) (foldCoeffs β c)

/-- The answer to the query `v`. -/
noncomputable def round (q : FriParams) (os : List Oracle) (betas : List QE) (c : ℕ → QE) (v : ℕ) : FriQueryRound Fp QE :=
  let n := q.degreeBits + q.config.rateBits
  ⟨os.map fun o => o.answer n (v % 2 ^ n), steps betas 7 n (2 ^ q.degreeBits) c (v % 2 ^ n)⟩

/-- The honest FRI proof for the challenges `ch`. -/
noncomputable def proof (q : FriParams) (inst : InstanceInfo QE) (os : List Oracle) (ch : FriChallenges Fp QE)
    (powWitness : Fp) : FriProof Fp QE :=
  let c := (quotient ch.alpha os inst.batches).coeff
  ⟨commits ch.betas 7 (q.degreeBits + q.config.rateBits) (2 ^ q.degreeBits) c,
    ch.queryIndices.map fun v => round q os ch.betas c v.val, final ch.betas (2 ^ q.degreeBits) c, powWitness⟩

/-- The commitments to the oracles. -/
noncomputable def caps (q : FriParams) (os : List Oracle) : List (List Fr) :=
  os.map fun o => o.cap (q.degreeBits + q.config.rateBits)

/-- The oracles are those of the instance. -/
structure Commits (q : FriParams) (inst : InstanceInfo QE) (os : List Oracle) : Prop where
  count : os.length = inst.oracles.length
  /-- Numbers of polynomials and of salts. -/
  sizes : ∀ (i : ℕ) (o : Oracle) (info : OracleInfo), os[i]? = some o → inst.oracles[i]? = some info →
    o.polys.length = info.numPolys ∧ ∀ u, (o.salt u).length = if info.blinding ∧ q.isHiding then 4 else 0
  /-- Degree bound.  The quotients by linear factors, whose degree is tested, are then of degree below `2^degreeBits`. -/
  degree : ∀ o ∈ os, ∀ f ∈ o.polys, f.natDegree ≤ 2 ^ q.degreeBits

end Verif.Spec.Fri.Prover
