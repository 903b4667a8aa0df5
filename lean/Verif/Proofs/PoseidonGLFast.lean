import Verif.Spec.PoseidonGL
import Verif.Proofs.PoseidonGLTables
import Mathlib.Data.Matrix.Mul
import Mathlib.Algebra.Algebra.Basic
import Mathlib.Tactic.Abel

/-!
# The fast partial rounds equal the textbook partial rounds

The tables `auxP`, `auxD` are witnesses; the identities they satisfy are checked in the kernel over
all 22 rounds and lifted to every state over every `Fp`-algebra.
-/

set_option autoImplicit false

namespace Verif.PoseidonGL

open Matrix

/-- Explicit sum, cheap for the kernel. -/
def sum12 (f : Fin 12 → ℕ) : ℕ :=
  f 0 + f 1 + f 2 + f 3 + f 4 + f 5 + f 6 + f 7 + f 8 + f 9 + f 10 + f 11

theorem sum12_eq (f : Fin 12 → ℕ) : sum12 f = ∑ i, f i := by
  simp only [sum12, Fin.sum_univ_succ, Fin.sum_univ_zero]
  simp only [Fin.succ_zero_eq_one, Fin.succ_one_eq_two]
  simp only [add_zero, add_assoc]
  rfl

/-- Entry `(r,c)` of the matrix of the `i`-th fast partial layer. -/
def fEnt (i : ℕ) (r c : Fin 12) : ℕ :=
  match r.val, c.val with
  | 0, 0 => 25
  | 0, k + 1 => (FAST_PARTIAL_ROUND_W_HATS.getD i []).getD k 0
  | k + 1, 0 => (FAST_PARTIAL_ROUND_VS.getD i []).getD k 0
  | k + 1, l + 1 => if k = l then 1 else 0

/-- Entry of the initial matrix. -/
def iEnt (r c : Fin 12) : ℕ :=
  match r.val, c.val with
  | 0, 0 => 1
  | 0, _ + 1 => 0
  | _ + 1, 0 => 0
  | k + 1, l + 1 => (FAST_PARTIAL_ROUND_INITIAL_MATRIX.getD l []).getD k 0

def pEnt (i : ℕ) (r c : Fin 12) : ℕ := ((auxP.getD i []).getD r []).getD c 0
def dEnt (i : ℕ) (r : Fin 12) : ℕ := (auxD.getD i []).getD r 0
/-- Constants added in textbook partial round `i`; none in round 22. -/
def cEnt (i : ℕ) (r : Fin 12) : ℕ := if i < 22 then Spec.rc (4 + i) r else 0
def fcEnt (i : ℕ) : ℕ := FAST_PARTIAL_ROUND_CONSTANTS.getD i 0
def firstEnt (k : Fin 12) : ℕ := FAST_PARTIAL_FIRST_ROUND_CONSTANT.getD k 0

theorem check_mul : ∀ i < 22, ∀ r c : Fin 12,
    sum12 (fun k => fEnt i r k * pEnt i k c) % p =
      sum12 (fun k => pEnt (i + 1) r k * Spec.mds k c) % p := by decide +kernel

theorem check_block : ∀ i < 23, ∀ k : Fin 12,
    pEnt i 0 k = (if k = 0 then 1 else 0) ∧ pEnt i k 0 = (if k = 0 then 1 else 0) := by
  decide +kernel

theorem check_d0 : ∀ i < 22, dEnt i 0 = 0 := by decide +kernel

theorem check_offset : ∀ i < 22, ∀ r : Fin 12,
    sum12 (fun k => fEnt i r k * (dEnt i k + if k = 0 then fcEnt i else 0)) % p =
      (dEnt (i + 1) r + sum12 (fun k => pEnt (i + 1) r k * cEnt (i + 1) k)) % p := by
  decide +kernel

theorem check_init : ∀ r c : Fin 12, pEnt 0 r c = iEnt r c := by decide +kernel

theorem check_first : ∀ r : Fin 12,
    sum12 (fun k => iEnt r k * firstEnt k) % p =
      (dEnt 0 r + sum12 (fun k => pEnt 0 r k * cEnt 0 k)) % p := by decide +kernel

theorem check_last : ∀ r : Fin 12, dEnt 22 r = 0 ∧ ∀ c, pEnt 22 r c = if r = c then 1 else 0 := by
  decide +kernel

/-! ## Lifting to an arbitrary `Fp`-algebra -/

section
variable {R : Type} [CommRing R] [Algebra Fp R]

theorem cast_eq_of_mod {a b : ℕ} (h : a % p = b % p) : (a : R) = (b : R) := by
  have h1 : (a : Fp) = (b : Fp) := (ZMod.natCast_eq_natCast_iff' a b p).2 h
  have := congrArg (algebraMap Fp R) h1
  simpa using this

/-- A table of naturals as a matrix over `R`. -/
def matR (t : Fin 12 → Fin 12 → ℕ) : Matrix (Fin 12) (Fin 12) R := fun i j => (t i j : R)
/-- A table of naturals as a vector over `R`. -/
def vecR (t : Fin 12 → ℕ) : Fin 12 → R := fun i => (t i : R)

theorem fp_mul (i : ℕ) (hi : i < 22) :
    matR (R := R) (fEnt i) * matR (pEnt i) = matR (pEnt (i + 1)) * matR Spec.mds := by
  ext r c
  have := cast_eq_of_mod (R := R) (check_mul i hi r c)
  simpa [sum12_eq, Matrix.mul_apply, matR] using this

theorem f_offset (i : ℕ) (hi : i < 22) :
    matR (R := R) (fEnt i) *ᵥ (vecR (dEnt i) + Pi.single 0 (fcEnt i : R)) =
      vecR (dEnt (i + 1)) + matR (pEnt (i + 1)) *ᵥ vecR (cEnt (i + 1)) := by
  ext r
  have := cast_eq_of_mod (R := R) (check_offset i hi r)
  simp only [sum12_eq] at this
  push_cast at this
  simp only [Matrix.mulVec, dotProduct, Pi.add_apply, matR, vecR, Pi.single_apply]
  exact this

omit [Algebra Fp R] in
theorem p_row0 (i : ℕ) (hi : i < 23) (v : Fin 12 → R) : (matR (pEnt i) *ᵥ v) 0 = v 0 := by
  have h := fun k => (check_block i hi k).1
  simp [Matrix.mulVec, dotProduct, matR, h]

/-- S-box on the first element. -/
def sb0 (s : Fin 12 → R) : Fin 12 → R := fun k => if k = 0 then s k ^ 7 else s k

omit [Algebra Fp R] in
theorem p_sb0 (i : ℕ) (hi : i < 22) (v : Fin 12 → R) :
    sb0 (matR (pEnt i) *ᵥ v + vecR (dEnt i)) = matR (pEnt i) *ᵥ sb0 v + vecR (dEnt i) := by
  have hd : vecR (R := R) (dEnt i) 0 = 0 := by simp [vecR, check_d0 i hi]
  ext r
  by_cases hr : r = 0
  · subst hr
    simp only [sb0, if_true, Pi.add_apply, p_row0 i (by omega), hd, add_zero]
  · simp only [sb0, hr, if_false, Pi.add_apply]
    congr 1
    simp only [Matrix.mulVec, dotProduct]
    refine Finset.sum_congr rfl fun k _ => ?_
    by_cases hk : k = 0
    · subst hk
      have := (check_block i (by omega) r).2
      simp [matR, this, hr]
    · show _ = _ * (if k = 0 then _ else _)
      rw [if_neg hk]

/-- Fast partial rounds over `R`: initial layer. -/
def fastInit (s : Fin 12 → R) : Fin 12 → R := matR iEnt *ᵥ (s + vecR firstEnt)

/-- Fast partial rounds over `R`: round `i`. -/
def fastRound (s : Fin 12 → R) (i : ℕ) : Fin 12 → R :=
  matR (fEnt i) *ᵥ (sb0 s + Pi.single 0 (fcEnt i : R))

omit [Algebra Fp R] in
theorem mix_eq (s : Fin 12 → R) : Spec.mix s = matR Spec.mds *ᵥ s := by
  ext i; simp [Spec.mix, Matrix.mulVec, dotProduct, matR]

omit [Algebra Fp R] in
theorem partialRound_eq (s : Fin 12 → R) (i : ℕ) (hi : i < 22) :
    Spec.partialRound s (4 + i) = matR Spec.mds *ᵥ sb0 (s + vecR (cEnt i)) := by
  rw [Spec.partialRound, mix_eq]
  congr 1
  ext k
  simp [sb0, vecR, cEnt, hi]

/-- Relation between textbook state `x` and fast state before round `i`. -/
def fastOf (i : ℕ) (x : Fin 12 → R) : Fin 12 → R :=
  matR (pEnt i) *ᵥ (x + vecR (cEnt i)) + vecR (dEnt i)

theorem fastRound_fastOf (i : ℕ) (hi : i < 22) (x : Fin 12 → R) :
    fastRound (fastOf i x) i = fastOf (i + 1) (Spec.partialRound x (4 + i)) := by
  rw [fastRound, fastOf, p_sb0 i hi, add_assoc, Matrix.mulVec_add, f_offset i hi, Matrix.mulVec_mulVec,
    fp_mul i hi, partialRound_eq x i hi, fastOf, Matrix.mulVec_add, ← Matrix.mulVec_mulVec]
  abel

theorem fastInit_fastOf (x : Fin 12 → R) : fastInit x = fastOf 0 x := by
  have hp : matR (R := R) iEnt = matR (pEnt 0) := by ext r c; simp [matR, check_init r c]
  have : matR (R := R) iEnt *ᵥ vecR firstEnt =
      vecR (dEnt 0) + matR (pEnt 0) *ᵥ vecR (cEnt 0) := by
    ext r
    have := cast_eq_of_mod (R := R) (check_first r)
    simp only [sum12_eq] at this
    push_cast at this
    simp only [Matrix.mulVec, dotProduct, Pi.add_apply, matR, vecR]
    exact this
  rw [fastInit, Matrix.mulVec_add, this, fastOf, Matrix.mulVec_add, hp]
  abel

omit [Algebra Fp R] in
theorem fastOf_last (x : Fin 12 → R) : fastOf 22 x = x := by
  have h1 : matR (R := R) (pEnt 22) = 1 := by
    ext r c; simp [matR, (check_last r).2 c, Matrix.one_apply]
  have h2 : vecR (R := R) (dEnt 22) = 0 := by ext r; simp [vecR, (check_last r).1]
  have h3 : vecR (R := R) (cEnt 22) = 0 := by ext r; simp [vecR, cEnt]
  rw [fastOf, h1, h2, h3]; simp

theorem fast_rounds (n : ℕ) (hn : n ≤ 22) (x : Fin 12 → R) :
    (List.range n).foldl fastRound (fastOf 0 x) =
      fastOf n ((List.range n).foldl (fun s i => Spec.partialRound s (4 + i)) x) := by
  induction n with
  | zero => simp
  | succ n ih =>
    rw [List.range_succ, List.foldl_append, List.foldl_append, ih (by omega)]
    simp only [List.foldl_cons, List.foldl_nil]
    exact fastRound_fastOf n (by omega) _

/-- Fast partial rounds = textbook partial rounds. -/
theorem fast_eq_textbook (x : Fin 12 → R) :
    (List.range 22).foldl fastRound (fastInit x) =
      (List.range' 4 22).foldl Spec.partialRound x := by
  rw [fastInit_fastOf, fast_rounds 22 le_rfl, fastOf_last, List.range'_eq_map_range, List.foldl_map]

end

end Verif.PoseidonGL
