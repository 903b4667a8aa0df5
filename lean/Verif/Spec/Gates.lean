import Verif.Spec.PoseidonGL
import Verif.Model.ExtAlgebra

/-!
# Specification: plonky2 gate constraints as polynomials in the wires

A `Row` gives the values of the constant and wire columns at a point of the extension field `QE` (columns beyond
the opened ones read as zero and are excluded by the theorems' length hypotheses).  For each gate:
the list of constraint values (plonky2's `eval_unfiltered`: order and sign matter for the combined vanishing
polynomial) and, separately, the relation between the wires the gate stands for.
-/

set_option autoImplicit false

namespace Verif.Spec.Gates

/-- Values of constant columns, wire columns, and the public-input hash. -/
structure Row where
  c : ℕ → QE
  w : ℕ → QE
  h : Fin 4 → Fp

/-- The extension-algebra element held by the wires `i`, `i + 1`. -/
def Row.a (x : Row) (i : ℕ) : QA := ⟨x.w i, x.w (i + 1)⟩

/-- The two coordinates of an extension-algebra element. -/
def coords (a : QA) : List QE := [a.re, a.im]

/-- Every constraint in the list is zero. -/
def Vanish (l : List QE) : Prop := ∀ y ∈ l, y = 0

/-! ## Arithmetic gates -/

def arithmetic (n : ℕ) (x : Row) : List QE :=
  (List.range n).map fun i =>
    x.w (4 * i + 3) - (x.c 0 * (x.w (4 * i) * x.w (4 * i + 1)) + x.c 1 * x.w (4 * i + 2))

def arithmeticExtension (n : ℕ) (x : Row) : List QE :=
  (List.range n).flatMap fun i =>
    coords (x.a (8 * i + 6) - (ofExt (x.c 0) * (x.a (8 * i) * x.a (8 * i + 2)) + ofExt (x.c 1) * x.a (8 * i + 4)))

def mulExtension (n : ℕ) (x : Row) : List QE :=
  (List.range n).flatMap fun i =>
    coords (x.a (6 * i + 4) - ofExt (x.c 0) * (x.a (6 * i) * x.a (6 * i + 2)))

/-! ## Simple gates -/

def baseSum (n B : ℕ) (x : Row) : List QE :=
  (∑ i ∈ Finset.range n, x.w (1 + i) * (B : QE) ^ i - x.w 0) ::
    (List.range n).map fun i => ∏ k ∈ Finset.range B, (x.w (1 + i) - (k : QE))

def constant (n : ℕ) (x : Row) : List QE := (List.range n).map fun i => x.c i - x.w i

def publicInput (x : Row) : List QE := List.ofFn fun i : Fin 4 => x.w i - ofBase (x.h i)

/-! ## Exponentiation: bits at `1 + i`, output at `1 + n`, intermediate values at `2 + n + i` -/

def exponentiation (n : ℕ) (x : Row) : List QE :=
  (List.range n).map (fun i =>
    (if i = 0 then 1 else x.w (2 + n + (i - 1)) ^ 2) * (x.w (n - i) * x.w 0 + (1 - x.w (n - i))) - x.w (2 + n + i))
  ++ [x.w (1 + n) - x.w (2 + n + (n - 1))]

/-- The intermediate values computed from the bits, most significant first. -/
def expInter (n : ℕ) (x : Row) : ℕ → QE
  | 0 => 1
  | i + 1 => expInter n x i ^ 2 * (if x.w (n - i) = 1 then x.w 0 else 1)

/-! ## Random access: copy `k` has its index at `(2 + 2^b) k`, claimed element at `+ 1`, items from `+ 2` -/

/-- Multilinear extension of `v : {0,1}^b → R` (index read in little-endian order) at `β`. -/
def multilinear {R : Type} [CommRing R] (b : ℕ) (v β : ℕ → R) : R :=
  ∑ j ∈ Finset.range (2 ^ b), v j * ∏ i ∈ Finset.range b, (if j.testBit i then β i else 1 - β i)

/-- Wire of bit `i` of copy `k`. -/
def raBit (b copies extra k i : ℕ) : ℕ := (2 + 2 ^ b) * copies + extra + k * b + i

def randomAccess (b copies extra : ℕ) (x : Row) : List QE :=
  (List.range copies).flatMap (fun k =>
    (List.range b).map (fun i => x.w (raBit b copies extra k i) ^ 2 - x.w (raBit b copies extra k i)) ++
    [∑ i ∈ Finset.range b, x.w (raBit b copies extra k i) * 2 ^ i - x.w ((2 + 2 ^ b) * k),
     multilinear b (fun j => x.w ((2 + 2 ^ b) * k + 2 + j)) (fun i => x.w (raBit b copies extra k i))
       - x.w ((2 + 2 ^ b) * k + 1)])
  ++ (List.range extra).map fun i => x.c i - x.w ((2 + 2 ^ b) * copies + i)

/-! ## Reducing gates: output at 0, `alpha` at 2, old accumulator at 4 -/

/-- Accumulator `i`, with coefficients occupying `m` wires. -/
def acc (n m : ℕ) (x : Row) (i : ℕ) : QA := if i + 1 = n then x.a 0 else x.a (6 + m + 2 * i)

/-- Accumulator before coefficient `i`. -/
def prevAcc (n m : ℕ) (x : Row) (i : ℕ) : QA := if i = 0 then x.a 4 else acc n m x (i - 1)

def reducing (n : ℕ) (x : Row) : List QE :=
  (List.range n).flatMap fun i =>
    coords (prevAcc n n x i * x.a 2 + ofExt (x.w (6 + i)) - acc n n x i)

def reducingExtension (n : ℕ) (x : Row) : List QE :=
  (List.range n).flatMap fun i =>
    coords (prevAcc n (2 * n) x i * x.a 2 + x.a (6 + 2 * i) - acc n (2 * n) x i)

/-! ## Coset interpolation -/

/-- Barycentric sum over the points `s, .., e - 1`, started from `(e0, p0)`. -/
def baryEval {R : Type} [CommRing R] (t f : ℕ → R) (e0 p0 : R) (s e : ℕ) : R :=
  e0 * ∏ i ∈ Finset.Ico s e, t i + p0 * ∑ i ∈ Finset.Ico s e, f i * ∏ j ∈ (Finset.Ico s e).erase i, t j

/-- Number of intermediate values for `2^b` points and degree `d`. -/
def numInter (b d : ℕ) : ℕ := (2 ^ b - 2) / (d - 1)

/-- Index of the first point of chunk `k + 1` (the first chunk has `d` points, the following ones `d - 1`). -/
def chunkStart (d k : ℕ) : ℕ := 1 + (d - 1) * (k + 1)

/-- Barycentric weight of node `i`. -/
noncomputable def baryWeight {F : Type} [Field F] (N : ℕ) (t : ℕ → F) (i : ℕ) : F := (∏ j ∈ (Finset.range N).erase i, (t i - t j))⁻¹

namespace Coset

variable (b d : ℕ) (g : Fp) (wt : ℕ → Fp) (x : Row)

/-- Shift, a field element. -/
def shift : QE := x.w 0
/-- Interpolated values. -/
def value (i : ℕ) : QA := x.a (1 + 2 * i)
/-- Evaluation point. -/
def point : QA := x.a (1 + 2 * 2 ^ b)
/-- Claimed evaluation. -/
def result : QA := x.a (1 + 2 * 2 ^ b + 2)
/-- Intermediate evaluations and products. -/
def interEval (k : ℕ) : QA := x.a (1 + 2 * 2 ^ b + 4 + 2 * k)
def interProd (k : ℕ) : QA := x.a (1 + 2 * 2 ^ b + 4 + 2 * (numInter b d + k))
/-- Evaluation point divided by the shift. -/
def unshifted : QA := x.a (1 + 2 * 2 ^ b + 4 + 4 * numInter b d)

/-- `y - g^i`. -/
def term (i : ℕ) : QA := unshifted b d x - ofExt (ofBase (g ^ i))
/-- `w_i v_i`. -/
def weighted (i : ℕ) : QA := ofExt (ofBase (wt i)) * value x i

/-- Evaluation and product computed by chunk `k` from the preceding intermediate wires. -/
def chunkEval (k : ℕ) : QA :=
  if k = 0 then baryEval (term b d g x) (weighted wt x) 0 1 0 d
  else baryEval (term b d g x) (weighted wt x) (interEval b x (k - 1)) (interProd b d x (k - 1))
    (chunkStart d (k - 1)) (min (chunkStart d k) (2 ^ b))

def chunkProd (k : ℕ) : QA :=
  if k = 0 then ∏ i ∈ Finset.Ico 0 d, term b d g x i
  else interProd b d x (k - 1) *
    ∏ i ∈ Finset.Ico (chunkStart d (k - 1)) (min (chunkStart d k) (2 ^ b)), term b d g x i

/-- Partial barycentric sum over the first `e` points. -/
def partialEval (e : ℕ) : QA :=
  ∑ i ∈ Finset.range e, weighted wt x i * ∏ j ∈ (Finset.range e).erase i, term b d g x j

/-- Product over the first `e` points. -/
def partialProd (e : ℕ) : QA := ∏ i ∈ Finset.range e, term b d g x i

end Coset

open Coset in
def cosetInterpolation (b d : ℕ) (g : Fp) (wt : ℕ → Fp) (x : Row) : List QE :=
  coords (point b x - ofExt (shift x) * unshifted b d x) ++
  (List.range (numInter b d)).flatMap (fun k =>
    coords (interEval b x k - chunkEval b d g wt x k) ++ coords (interProd b d x k - chunkProd b d g x k)) ++
  coords (result b x - chunkEval b d g wt x (numInter b d))

/-! ## Poseidon gates -/

def poseidonMds (x : Row) : List QE :=
  (List.ofFn fun i : Fin 12 => x.a (2 * (12 + i)) - mix (fun j : Fin 12 => x.a (2 * j)) i).flatMap coords

namespace Poseidon

/-- Wire holding the S-box input `i` of round `r` (`1 ≤ r < 30`); partial rounds only store element 0. -/
def sboxWire (r i : ℕ) : ℕ :=
  if r < 4 then 29 + (r - 1) * 12 + i else if r < 26 then 65 + (r - 4) else 87 + (r - 26) * 12 + i

/-- Permutation input: the two halves exchanged by `delta`. -/
def input (x : Row) (i : Fin 12) : QE :=
  if (i : ℕ) < 4 then x.w i + x.w (25 + i)
  else if (i : ℕ) < 8 then x.w i - x.w (25 + (i - 4))
  else x.w i

/-- State before round `r`, computed with the S-box inputs read from the wires. -/
def wired (x : Row) : ℕ → Fin 12 → QE
  | 0 => input x
  | r + 1 => mix fun i =>
      if r = 0 then (wired x r i + (rc r i : QE)) ^ 7
      else if 4 ≤ r ∧ r < 26 ∧ i ≠ 0 then wired x r i + (rc r i : QE)
      else x.w (sboxWire r i) ^ 7

/-- Difference between S-box input `i` of round `r` and its wire. -/
def diff (x : Row) (r : ℕ) (i : Fin 12) : QE := wired x r i + (rc r i : QE) - x.w (sboxWire r i)

/-- Textbook state before round `r` from the input `s`. -/
def stateAt (s : Fin 12 → QE) : ℕ → Fin 12 → QE
  | 0 => s
  | r + 1 => if 4 ≤ r ∧ r < 26 then partialRound (stateAt s r) r else fullRound (stateAt s r) r

/-- The S-box inputs of round `r` stored in wires are those of the textbook permutation. -/
def Stored (x : Row) (r : ℕ) : Prop := ∀ i : Fin 12, (4 ≤ r ∧ r < 26 → i = 0) →
  x.w (sboxWire r i) = stateAt (input x) r i + (rc r i : QE)

end Poseidon

open Poseidon in
def poseidon (x : Row) : List QE :=
  (x.w 24 * (x.w 24 - 1)) ::
  List.ofFn (fun i : Fin 4 => x.w 24 * (x.w (i + 4) - x.w i) - x.w (25 + i)) ++
  [1, 2, 3].flatMap (fun r => List.ofFn (diff x r)) ++
  (List.range 22).map (fun r => diff x (4 + r) 0) ++
  [26, 27, 28, 29].flatMap (fun r => List.ofFn (diff x r)) ++
  List.ofFn fun i : Fin 12 => wired x 30 i - x.w (12 + i)

end Verif.Spec.Gates
