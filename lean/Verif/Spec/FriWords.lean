import Verif.Spec.FriProver
import Mathlib.Data.Fintype.Prod

/-!
# Specification: what a FRI prover is committed to

`Evaluated` is a set of inputs at which the two hash functions have been evaluated.  Proofs whose Merkle paths only use
these evaluations open every position of a tree to a single leaf, unless there is a collision among the evaluations.
-/

set_option autoImplicit false

namespace Verif.Spec.Fri

instance : Fintype QE := Fintype.ofEquiv (Fp × Fp) ⟨fun a => ⟨a.1, a.2⟩, fun a => (a.re, a.im), fun _ => rfl, fun _ => rfl⟩

/-- Inputs of the compression and of the leaf hash. -/
structure Evaluated where
  pairs : Set (Fr × Fr)
  leaves : Set (List Fr)

/-- No two evaluated pairs, and no two evaluated leaves of the same length, have the same hash. -/
structure Evaluated.CollisionFree (H : Evaluated) : Prop where
  pairs : ∀ a ∈ H.pairs, ∀ b ∈ H.pairs, BN.compress a.1 a.2 = BN.compress b.1 b.2 → a = b
  leaves : ∀ l ∈ H.leaves, ∀ l' ∈ H.leaves, l.length = l'.length → BN.leaf l = BN.leaf l' → l = l'

/-- The path from position `w` of a tree with `2^m` leaves only uses the given evaluations. -/
structure Evaluated.Path (H : Evaluated) (m w : ℕ) (leaf siblings : List Fr) : Prop where
  mem : leaf ∈ H.leaves
  pairs : ∀ ab ∈ Merkle.inputs BN.compress (BN.leaf leaf) ((lowBits m w).zip siblings), ab ∈ H.pairs

/-- The cap (of height 4) of a tree with `2^m` leaves opens to `leaf` at position `w`. -/
def Evaluated.Opens (H : Evaluated) (m w : ℕ) (cap leaf : List Fr) : Prop :=
  ∃ siblings : List Fr, siblings.length + 4 = m ∧ H.Path m w leaf siblings ∧
    Merkle.root BN.compress (BN.leaf leaf) ((lowBits m w).zip siblings) = cap.getD (w / 2 ^ (m - 4)) 0

/-- All paths of a query round at position `v` only use the given evaluations. -/
structure Evaluated.Round (H : Evaluated) (n v : ℕ) (round : FriQueryRound Fp QE) : Prop where
  initial : ∀ t ∈ round.initial, H.Path n v (t.elements.map emb) t.siblings
  steps : ∀ (j : ℕ) (s : FriQueryStep QE), round.steps[j]? = some s →
    H.Path (n - 4 * (j + 1)) (v / 16 ^ (j + 1)) (flatten s.evals) s.siblings

/-- All paths of a proof only use the given evaluations. -/
def Evaluated.Proof (H : Evaluated) (n : ℕ) (indices : List Fp) (proof : FriProof Fp QE) : Prop :=
  ∀ (i : ℕ) (z : Fp) (round : FriQueryRound Fp QE), indices[i]? = some z → proof.rounds[i]? = some round →
    H.Round n (z.val % 2 ^ n) round

/-- All hashes in the tree of an honest oracle are among the given evaluations. -/
def Evaluated.Oracle (H : Evaluated) (n : ℕ) (o : Prover.Oracle) : Prop :=
  ∀ v < 2 ^ n, H.Path n v ((o.leaf n v).map emb) (Merkle.treePath BN.compress (o.digest n) (n - 4) v)

/-- Leaf width of an oracle: one element per polynomial, and four salts when it is blinded and hiding. -/
def leafWidth (q : FriParams) (oracles : List OracleInfo) (i : ℕ) : ℕ :=
  match oracles[i]? with
  | some o => o.numPolys + (if o.blinding ∧ q.isHiding then 4 else 0)
  | none => 0

/-- The cap opens, at all but `e` positions, to leaves of the given width with the values of `P` in column `i`. -/
def Committed (H : Evaluated) (q : FriParams) (e width : ℕ) (cap : List Fr) (i : ℕ) (P : Polynomial Fp) : Prop :=
  P.natDegree ≤ 2 ^ q.degreeBits ∧ ∃ R : Finset ℕ, R.card ≤ e ∧
    ∀ v < 2 ^ (q.degreeBits + q.config.rateBits), v ∉ R → ∃ l : List Fp, l.length = width ∧
      H.Opens (q.degreeBits + q.config.rateBits) v cap (l.map emb) ∧
      l.getD i 0 = P.eval (Prover.domain 7 (q.degreeBits + q.config.rateBits) v)

/-- The claimed openings of an instance are values of the polynomials `F` gives for leaf widths, caps and columns. -/
def Correct (q : FriParams) (inst : InstanceInfo QE) (openings : List (List QE)) (caps : List (List Fr))
    (F : ℕ → List Fr → ℕ → Polynomial Fp) : Prop :=
  ∀ bo ∈ inst.batches.zip openings, ∀ fy ∈ bo.1.polynomials.zip bo.2,
    (F (leafWidth q inst.oracles fy.1.oracleIndex) (caps.getD fy.1.oracleIndex []) fy.1.polynomialInfo).eval₂ Prover.base
      bo.1.point = fy.2

/-- Number of claimed openings. -/
def numOpenings (openings : List (List QE)) : ℕ := (openings.map List.length).sum

end Verif.Spec.Fri
