import Verif.Proofs.PoseidonGLSponge
import Verif.Proofs.PoseidonGLExt

/-!
# Properties C19–C21, C23: Poseidon over Goldilocks

C19 and C20 (uniqueness part) are violated by the code; the violation is proved, the part that holds is
`_partial`.
-/

set_option autoImplicit false

namespace Verif

open Circ PoseidonGL

/-! ## C19 -/

/-- **C19** violated: for *every* canonical `x` the constraints of the base-field S-box also admit values
different from `x^7`. -/
theorem C19_sbox_violated (a : Fp) :
    ∃ y, Sat (sBoxMonomial (emb a)) y ∧ y.val < p ∧ y ≠ emb (a ^ 7) := by
  refine ⟨_, sat_sBoxMonomial_wrong a (k := 1) (by norm_num), emb_lt _, ?_⟩
  rw [Ne, emb_inj, Nat.cast_one, one_mul, add_eq_left]
  exact r_fp_ne_zero

/-- **C19** the exact set of accepted results. -/
theorem C19_sbox_exact (a : Fp) (y : Fr) :
    Sat (sBoxMonomial (emb a)) y ↔ ∃ (t : Fp) (k k' : ℕ),
      (a.val ^ 3 + k * r) / p < 2 ^ 192 ∧ t = a ^ 3 + k * (r : Fp) ∧
      (a.val * t.val ^ 2 + k' * r) / p < 2 ^ 192 ∧ y = emb (a * t ^ 2 + k' * (r : Fp)) :=
  sat_sBoxMonomial a y

/-- **C19** what holds: the honest prover gets `x^7`, it is accepted, and any accepted value is canonical. -/
theorem C19_sbox_partial (a : Fp) :
    honest (sBoxMonomial (emb a)) = some (emb (a ^ 7)) ∧
    Sat (sBoxMonomial (emb a)) (emb (a ^ 7)) ∧
    ∀ y, Sat (sBoxMonomial (emb a)) y → y.val < p := by
  refine ⟨honest_sBoxMonomial a, sat_of_honest (honest_sBoxMonomial a), fun y hy => ?_⟩
  obtain ⟨t, k, k', _, _, _, rfl⟩ := (sat_sBoxMonomial a y).1 hy
  exact emb_lt _

/-- **C19** the S-box over the extension field is uniquely determined. -/
theorem C19_sbox_extension (a : QE) : Computes (sBoxMonomialExt (embQ a)) (embQ (a ^ 7)) :=
  (den_eq_pure_iff _ _).1 (den_sBoxMonomialExt a)

/-- The S-box of 2: 128 is computed, and `128 + r mod p` is accepted as well. -/
example : Sat (sBoxMonomial (emb 2)) (emb 128) ∧ Sat (sBoxMonomial (emb 2)) (emb (128 + r)) := by
  constructor
  · have := (C19_sbox_partial 2).2.1
    norm_num at this
    exact this
  · have := sat_sBoxMonomial_wrong 2 (k := 1) (by norm_num)
    norm_num at this
    exact this

/-! ## C20 -/

/-- **C20** violated: for every canonical state some state differing from the Poseidon permutation
(in every coordinate) is accepted. -/
theorem C20_poseidon_violated (s : Fin 12 → Fp) :
    ∃ y : Fin 12 → Fp, Sat (poseidon fun i => emb (s i)) (fun i => emb (y i)) ∧
      ∀ i, y i ≠ Spec.poseidon s i := by
  refine ⟨fun i => Spec.poseidon s i + (Spec.mds i 0 : Fp) * ((1 : ℕ) * (r : Fp)),
    sat_poseidon_wrong s (k := 1) (by norm_num), fun i h => ?_⟩
  simp only at h
  rw [add_eq_left, Nat.cast_one, one_mul, mul_eq_zero] at h
  rcases h with h | h
  · rw [ZMod.natCast_eq_zero_iff] at h
    revert h; revert i; decide +kernel
  · exact r_fp_ne_zero h

/-- **C20** what holds: the honest run returns the textbook permutation, for every canonical state. -/
theorem C20_poseidon_honest_partial (s : Fin 12 → Fp) :
    honest (poseidon fun i => emb (s i)) = some fun i => emb (Spec.poseidon s i) :=
  honest_poseidon s

/-- **C20** what holds: with an S-box step that has no freedom, the circuit (fast partial rounds and all)
computes the textbook permutation uniquely. -/
theorem C20_poseidon_computes_partial {sbox : Fr → Circ Fr}
    (hs : ∀ a : Fp, Computes (sbox (emb a)) (emb (a ^ 7))) (s : Fin 12 → Fp) :
    Computes (poseidonWith sbox fun i => emb (s i)) fun i => emb (Spec.poseidon s i) :=
  (den_eq_pure_iff _ _).1 (den_poseidonWith (fun a => (den_eq_pure_iff _ _).2 (hs a)) s)

/-- **C20** the optimised partial rounds are the textbook ones in any commutative ring containing GF(p). -/
theorem C20_fast_partial_rounds {R : Type} [CommRing R] [Algebra Fp R] (x : Fin 12 → R) :
    (List.range 22).foldl fastRound (fastInit x) = (List.range' 4 22).foldl Spec.partialRound x :=
  fast_eq_textbook x

/-- The hypothesis is met by the S-box with 3 fully reduced multiplications. -/
example : ∀ a : Fp, Computes (do
    let x2 ← mul (emb a) (emb a)
    let x4 ← mul x2 x2
    let x6 ← mul x4 x2
    mul x6 (emb a)) (emb (a ^ 7)) := by
  intro a
  rw [← den_eq_pure_iff]
  simp only [den_bind, den_mul, pure_bind]
  congr 2; ring

/-! ## C21 -/

/-- **C21** `HashNToMNoPad` on canonical inputs with a permutation without freedom is the rate-8 overwrite
sponge, for any number of inputs and any positive number of outputs. -/
theorem C21_hashNToM_partial {perm : State → Circ State} {P : (Fin 12 → Fp) → Fin 12 → Fp}
    (h : ∀ s : Fin 12 → Fp, Computes (perm fun i => emb (s i)) fun i => emb (P s i))
    (l : List Fp) {n : ℕ} (hn : n ≠ 0) :
    Computes (hashNToMNoPadWith perm (l.map emb) n) ((Spec.hash P l n).map emb) :=
  (den_eq_pure_iff _ _).1 (den_hashNToMNoPad (fun s => (den_eq_pure_iff _ _).2 (h s)) l hn)

/-- **C21** `HashNoPad` reduces its (possibly non-canonical) inputs first, then squeezes four elements. -/
theorem C21_hashNoPad_partial {perm : State → Circ State} {P : (Fin 12 → Fp) → Fin 12 → Fp}
    (h : ∀ s : Fin 12 → Fp, Computes (perm fun i => emb (s i)) fun i => emb (P s i))
    (l : List ℕ) (hl : ∀ n ∈ l, n < 2 ^ 144 * p) :
    Computes (hashNoPadWith perm (l.map fun n : ℕ => (n : Fr)))
      fun i : Fin 4 => emb ((Spec.hash P (l.map fun n : ℕ => (n : Fp)) 4).getD i 0) :=
  (den_eq_pure_iff _ _).1 (den_hashNoPad (fun s => (den_eq_pure_iff _ _).2 (h s)) l hl)

/-- **C21** the code's own `HashNToMNoPad`: honest run. -/
theorem C21_hashNToM_honest (l : List Fp) {n : ℕ} (hn : n ≠ 0) :
    honest (hashNToMNoPad (l.map emb) n) = some ((Spec.hash Spec.poseidon l n).map emb) :=
  (Ref.hashNToMNoPadWith cleanPerm_ref _ _).honest_of_den_pure (den_hashNToMNoPad cleanPerm_exact l hn)

/-- **C21** the code's own `HashNoPad`: honest run. -/
theorem C21_hashNoPad_honest (l : List ℕ) (hl : ∀ n ∈ l, n < 2 ^ 144 * p) :
    honest (hashNoPad (l.map fun n : ℕ => (n : Fr))) =
      some fun i : Fin 4 => emb ((Spec.hash Spec.poseidon (l.map fun n : ℕ => (n : Fp)) 4).getD i 0) :=
  (Ref.hashNoPadWith cleanPerm_ref _).honest_of_den_pure (den_hashNoPad cleanPerm_exact l hl)

/-- Nine inputs: two chunks, the second one short. -/
example (P : (Fin 12 → Fp) → Fin 12 → Fp) : Spec.hash P [1, 2, 3, 4, 5, 6, 7, 8, 9] 1 =
    [P (fun j => if j = 0 then 9 else
      P (fun j => ([1, 2, 3, 4, 5, 6, 7, 8][(j : ℕ)]?).getD 0) j) 0] := by
  have h : ∀ (s : Fin 12 → Fp), (fun j : Fin 12 => (([9] : List Fp)[(j : ℕ)]?).getD (s j)) =
      fun j => if j = 0 then 9 else s j := by
    intro s; funext j
    refine Fin.cases ?_ (fun i => ?_) j
    · rfl
    · rw [if_neg (Fin.succ_ne_zero i)]; rfl
  have h2 : Spec.chunks ([1, 2, 3, 4, 5, 6, 7, 8, 9] : List Fp) =
      [[1, 2, 3, 4, 5, 6, 7, 8], [9]] := rfl
  rw [Spec.hash, h2, Spec.absorb]
  simp only [List.foldl_cons, List.foldl_nil, h]
  rfl

/-! ## C23 -/

/-- **C23** the two copies of each table agree and every constant is canonical. -/
theorem C23_tables :
    MDS_MATRIX_CIRC_VARS = MDS_MATRIX_CIRC ∧ MDS_MATRIX_DIAG_VARS = MDS_MATRIX_DIAG ∧
    FAST_PARTIAL_ROUND_W_HATS_VARS = FAST_PARTIAL_ROUND_W_HATS ∧ MDS0TO0_VAR = MDS0TO0 ∧
    (∀ n ∈ ALL_ROUND_CONSTANTS ++ MDS_MATRIX_CIRC ++ MDS_MATRIX_DIAG ++
      FAST_PARTIAL_FIRST_ROUND_CONSTANT ++ FAST_PARTIAL_ROUND_CONSTANTS, n < p) ∧
    (∀ l ∈ FAST_PARTIAL_ROUND_VS ++ FAST_PARTIAL_ROUND_W_HATS ++ FAST_PARTIAL_ROUND_INITIAL_MATRIX,
      ∀ n ∈ l, n < p) ∧
    ALL_ROUND_CONSTANTS.length = 360 ∧ MDS_MATRIX_CIRC.length = 12 ∧ MDS_MATRIX_DIAG.length = 12 ∧
    FAST_PARTIAL_FIRST_ROUND_CONSTANT.length = 12 ∧ FAST_PARTIAL_ROUND_CONSTANTS.length = 22 ∧
    FAST_PARTIAL_ROUND_CONSTANTS.getD 21 1 = 0 ∧
    FAST_PARTIAL_ROUND_VS.map List.length = List.replicate 22 11 ∧
    FAST_PARTIAL_ROUND_W_HATS.map List.length = List.replicate 22 11 ∧
    FAST_PARTIAL_ROUND_INITIAL_MATRIX.map List.length = List.replicate 11 11 := by decide +kernel

/-- **C23** base-field and extension-field MDS layers act as the same matrix on all canonical states. -/
theorem C23_mdsLayers (s : Fin 12 → Fp) (t : Fin 12 → QE) :
    Computes (mdsLayer fun i => emb (s i)) (fun i => emb (Spec.mix s i)) ∧
    Computes (mdsLayerExt fun i => embQ (t i)) (fun i => embQ (Spec.mix t i)) :=
  ⟨(den_eq_pure_iff _ _).1 (den_mdsLayer s), (den_eq_pure_iff _ _).1 (den_mdsLayerExt t)⟩

/-- **C23** the same for the remaining linear layers: both versions are the same affine maps. -/
theorem C23_otherLayers (s : Fin 12 → Fp) (t : Fin 12 → QE) (i : ℕ) :
    Computes (constantLayer (fun k => emb (s k)) i) (fun k => emb (s k + (Spec.rc i k : Fp))) ∧
    Computes (constantLayerExt (fun k => embQ (t k)) i) (fun k => embQ (t k + (Spec.rc i k : QE))) ∧
    Computes (partialFirstConstantLayer fun k => emb (s k))
      (fun k => emb ((s + vecR firstEnt : Fin 12 → Fp) k)) ∧
    Computes (partialFirstConstantLayerExt fun k => embQ (t k))
      (fun k => embQ ((t + vecR firstEnt : Fin 12 → QE) k)) ∧
    Computes (mdsPartialLayerInit fun k => emb (s k)) (fun k => emb ((matR iEnt).mulVec s k)) ∧
    Computes (mdsPartialLayerInitExt fun k => embQ (t k)) (fun k => embQ ((matR iEnt).mulVec t k)) ∧
    Computes (mdsPartialLayerFast (fun k => emb (s k)) i) (fun k => emb ((matR (fEnt i)).mulVec s k)) ∧
    Computes (mdsPartialLayerFastExt (fun k => embQ (t k)) i)
      (fun k => embQ ((matR (fEnt i)).mulVec t k)) :=
  ⟨(den_eq_pure_iff _ _).1 (den_constantLayer s i), (den_eq_pure_iff _ _).1 (den_constantLayerExt t i),
   (den_eq_pure_iff _ _).1 (den_partialFirstConstantLayer s),
   (den_eq_pure_iff _ _).1 (den_partialFirstConstantLayerExt t),
   (den_eq_pure_iff _ _).1 (den_mdsPartialLayerInit s),
   (den_eq_pure_iff _ _).1 (den_mdsPartialLayerInitExt t),
   (den_eq_pure_iff _ _).1 (den_mdsPartialLayerFast s i),
   (den_eq_pure_iff _ _).1 (den_mdsPartialLayerFastExt t i)⟩

end Verif
