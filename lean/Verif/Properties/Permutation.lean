import Verif.Proofs.Bijective
import Verif.Properties.PoseidonBN
import Verif.Properties.PoseidonGL

/-!
# Property C96: both Poseidon permutations are permutations
-/

set_option autoImplicit false

namespace Verif

open Circ PoseidonGL

/-- **C96** the S-boxes of both fields are bijective. -/
theorem C96_sboxes : Function.Bijective (fun x : Fp => x ^ 7) ∧ Function.Bijective fun x : Fr => x ^ 5 :=
  ⟨Finite.injective_iff_bijective.1 Bijective.sbox7, Finite.injective_iff_bijective.1 Bijective.sbox5⟩

/-- **C96** so are both linear layers. -/
theorem C96_matrices : Function.Bijective (Spec.mix : (Fin 12 → Fp) → _) ∧ Function.Bijective Spec.BN.mix :=
  ⟨Finite.injective_iff_bijective.1 Bijective.mixGL, Finite.injective_iff_bijective.1 Bijective.mixBN⟩

/-- **C96** Goldilocks Poseidon is bijective. -/
theorem C96_goldilocks : Function.Bijective (Spec.poseidon : (Fin 12 → Fp) → Fin 12 → Fp) :=
  Finite.injective_iff_bijective.1 Bijective.injGL

/-- **C96** the code's BN254 Poseidon is bijective. -/
theorem C96_bn254 : Function.Bijective PoseidonBN.poseidon := by
  rw [show PoseidonBN.poseidon = Spec.BN.poseidon from funext C24_poseidon]
  exact Finite.injective_iff_bijective.1 Bijective.injBN

/-- **C96** with honest hints the code's Goldilocks circuit maps different states to different states, and every state is
reached. -/
theorem C96_circuit : (∀ s s' : Fin 12 → Fp,
      honest (poseidon fun i => emb (s i)) = honest (poseidon fun i => emb (s' i)) ↔ s = s') ∧
    ∀ t : Fin 12 → Fp, ∃ s : Fin 12 → Fp, honest (poseidon fun i => emb (s i)) = some fun i => emb (t i) := by
  constructor
  · intro s s'
    rw [C20_poseidon_honest_partial, C20_poseidon_honest_partial]
    refine ⟨fun h => C96_goldilocks.1 (funext fun i => emb_inj.1 (congrFun (Option.some.inj h) i)), fun h => by rw [h]⟩
  · intro t
    obtain ⟨s, rfl⟩ := C96_goldilocks.2 t
    exact ⟨s, C20_poseidon_honest_partial s⟩

/-- **C96** sponge over Goldilocks: for lists of the same length, equal final states of different lists need two different
prefixes of full blocks whose states agree on the four positions that are never overwritten. -/
theorem C96_inner (l l' : List Fp) (hl : l.length = l'.length) (hne : l ≠ l') (s : Fin 12 → Fp)
    (h : Spec.absorb Spec.poseidon s (Spec.chunks l) = Spec.absorb Spec.poseidon s (Spec.chunks l')) :
    ∃ k, 8 * k < l.length ∧ l.take (8 * k) ≠ l'.take (8 * k) ∧ ∀ j : Fin 12, 8 ≤ (j : ℕ) →
      Spec.absorb Spec.poseidon s (Spec.chunks (l.take (8 * k))) j =
        Spec.absorb Spec.poseidon s (Spec.chunks (l'.take (8 * k))) j :=
  Bijective.absorb_inner C96_goldilocks.1 l l' hl hne s h

/-- **C96** hence lists of at most one block never lead to the same state. -/
theorem C96_one_block (l l' : List Fp) (hl : l.length = l'.length) (h8 : l.length ≤ 8) (s : Fin 12 → Fp)
    (h : Spec.absorb Spec.poseidon s (Spec.chunks l) = Spec.absorb Spec.poseidon s (Spec.chunks l')) : l = l' := by
  by_contra hne
  obtain ⟨k, hk, ht, -⟩ := C96_inner l l' hl hne s h
  obtain rfl : k = 0 := by omega
  simp at ht

/-- **C96** `TwoToOne` over BN254: the state it reads its result from determines both arguments. -/
theorem C96_twoToOne (a b a' b' : Fr) :
    PoseidonBN.poseidon ![0, 0, a, b] = PoseidonBN.poseidon ![0, 0, a', b'] ↔ a = a' ∧ b = b' := by
  refine ⟨fun h => ?_, by rintro ⟨rfl, rfl⟩; rfl⟩
  have := C96_bn254.1 h
  exact ⟨congrFun this 2, congrFun this 3⟩

/-- **C96** a set of states has as many preimages as elements: a uniformly distributed state stays so. -/
theorem C96_uniform (A : Set (Fin 12 → Fp)) (B : Set (Fin 4 → Fr)) :
    {s : Fin 12 → Fp | Spec.poseidon s ∈ A}.ncard = A.ncard ∧ {s | PoseidonBN.poseidon s ∈ B}.ncard = B.ncard :=
  ⟨Set.ncard_preimage_of_injective_subset_range C96_goldilocks.1 fun _ _ => C96_goldilocks.2 _,
    Set.ncard_preimage_of_injective_subset_range C96_bn254.1 fun _ _ => C96_bn254.2 _⟩

/-- **C96** the same formulas over the quadratic extension (where `PoseidonGate` is evaluated) do not give a bijection:
7 divides `p + 1`, and `x^7` is not injective there. -/
theorem C96_extension : 7 ∣ p + 1 ∧ ¬ Function.Injective (fun x : QE => x ^ 7) ∧
    ¬ Function.Injective (Spec.poseidon : (Fin 12 → QE) → Fin 12 → QE) :=
  ⟨by norm_num [p], fun h => Bijective.seventh_ne (h (by simp [Bijective.seventh_pow])), Bijective.not_inj_QE⟩

/-- An S-box with an exponent that is not prime to the order is not injective. -/
example : ¬ Function.Injective fun x : Fp => x ^ 6 := fun h =>
  absurd (h (show (1 : Fp) ^ 6 = (-1) ^ 6 by norm_num)) (by decide +kernel)

/-- The length is needed: a block and the block with a zero appended have the same state. -/
example (a : Fp) : Spec.absorb Spec.poseidon (fun _ => 0) (Spec.chunks [a]) =
    Spec.absorb Spec.poseidon (fun _ => 0) (Spec.chunks [a, 0]) := by
  rw [Challenger.chunks_short _ (by simp) (by simp), Challenger.chunks_short _ (by simp) (by simp)]
  simp only [Spec.absorb, List.foldl_cons, List.foldl_nil]
  refine congrArg _ (funext fun j => ?_)
  match j with
  | ⟨0, _⟩ => rfl
  | ⟨1, _⟩ => rfl
  | ⟨n + 2, h⟩ => simp

/-- The two orders of two children are told apart by the state. -/
example : PoseidonBN.poseidon ![0, 0, 1, 2] ≠ PoseidonBN.poseidon ![0, 0, 2, 1] := fun h =>
  absurd ((C96_twoToOne _ _ _ _).1 h).1 (by decide +kernel)

end Verif
