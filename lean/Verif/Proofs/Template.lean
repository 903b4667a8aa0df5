import Verif.Proofs.FriShape
import Verif.Spec.Layout
import Verif.Spec.Template

/-!
# Templates of proofs
-/

set_option autoImplicit false

namespace Verif.Spec.Template

open Verif Circ Verif.Template

theorem goShl1_eq {n : ℕ} (h : n < 63) : goShl1 n = ((2 ^ n : ℕ) : ℤ) := by simp [goShl1, h]

theorem goMake_eq {α : Type} (z : α) (n : ℕ) : goMake z (n : ℤ) = pure (List.replicate n z) := by
  simp [goMake]

theorem mapM_pure {α β : Type} (f : α → β) (l : List α) :
    l.mapM (fun x => (pure (f x) : Circ β)) = pure (l.map f) := by
  induction l with
  | nil => rfl
  | cons x l ih => rw [List.mapM_cons, ih]; rfl

/-- What the program builds. -/
def blank (c : CommonCircuitData) (depths : List ℕ) : Proof Fr QEV where
  wiresCap := List.replicate (2 ^ c.friParams.config.capHeight) 0
  plonkZsPartialProductsCap := List.replicate (2 ^ c.friParams.config.capHeight) 0
  quotientPolysCap := List.replicate (2 ^ c.friParams.config.capHeight) 0
  openings := openings c
  openingProof := {
    commitCaps := c.friParams.reductionArityBits.map fun _ => List.replicate (2 ^ c.friParams.config.capHeight) 0
    rounds := List.replicate c.friParams.config.numQueryRounds
      ⟨(leafSizes c).map fun n => ⟨List.replicate n 0, List.replicate (depth c.friParams) 0⟩,
        (c.friParams.reductionArityBits.zip depths).map fun ad => ⟨List.replicate (2 ^ ad.1) 0, List.replicate ad.2 0⟩⟩
    finalPoly := List.replicate (2 ^ (c.friParams.degreeBits - c.friParams.reductionArityBits.sum)) 0
    powWitness := 0 }

theorem proof_eq {c : CommonCircuitData} (depths : List ℕ) (hc : c.friParams.config.capHeight < 63)
    (hs : ∀ a ∈ c.friParams.reductionArityBits, a < 63) (hd : c.friParams.degreeBits < 63)
    (hf : c.friParams.reductionArityBits.sum ≤ c.friParams.degreeBits) :
    proof c depths = pure (blank c depths) := by
  have hcap : newFriMerkleCap c.friParams.config.capHeight =
      pure (List.replicate (2 ^ c.friParams.config.capHeight) 0) := by
    rw [newFriMerkleCap, goShl1_eq hc, goMake_eq]
  have hround : round c depths = pure ⟨(leafSizes c).map fun n => ⟨List.replicate n 0, List.replicate (depth c.friParams) 0⟩,
      (c.friParams.reductionArityBits.zip depths).map fun ad =>
        ⟨List.replicate (2 ^ ad.1) 0, List.replicate ad.2 0⟩⟩ := by
    have h1 : (leafSizes c).mapM (evalProof c.friParams) =
        pure ((leafSizes c).map fun n => ⟨List.replicate n 0, List.replicate (depth c.friParams) 0⟩) := by
      rw [← mapM_pure]
      refine congrArg (fun f => List.mapM f _) (funext fun n => ?_)
      rw [evalProof, newFriMerkleProof, goMake_eq]; rfl
    have h2 : (c.friParams.reductionArityBits.zip depths).mapM (fun ad => newFriQueryStep ad.1 ad.2) =
        pure ((c.friParams.reductionArityBits.zip depths).map fun ad =>
          ⟨List.replicate (2 ^ ad.1) 0, List.replicate ad.2 0⟩) := by
      have : ∀ l : List (ℕ × ℕ), (∀ ad ∈ l, ad.1 < 63) → l.mapM (fun ad => newFriQueryStep ad.1 ad.2) =
          pure (l.map fun ad => ⟨List.replicate (2 ^ ad.1) 0, List.replicate ad.2 0⟩) := by
        intro l
        induction l with
        | nil => intro _; rfl
        | cons x l ih =>
          intro h
          rw [List.mapM_cons, ih fun y hy => h y (List.mem_cons_of_mem _ hy), newFriQueryStep, newFriMerkleProof,
            goShl1_eq (h x (List.mem_cons_self ..)), goMake_eq, goMake_eq]
          rfl
      exact this _ fun ad had => hs _ (List.of_mem_zip had).1
    rw [round, h1, h2]; rfl
  have hfin : finalPolyLen c.friParams =
      pure ((2 ^ (c.friParams.degreeBits - c.friParams.reductionArityBits.sum) : ℕ) : ℤ) := by
    have e : c.friParams.totalArities = c.friParams.reductionArityBits.sum := by
      rw [FriParams.totalArities, List.sum_eq_foldl]
    have e2 : c.friParams.finalPolyBits = ((c.friParams.degreeBits - c.friParams.reductionArityBits.sum : ℕ) : ℤ) := by
      rw [FriParams.finalPolyBits, e]; omega
    rw [finalPolyLen, if_neg (by rw [e2]; omega), e2, Int.toNat_natCast, goShl1_eq (by omega)]
  rw [proof, friProof, hcap, hround, hfin, mapM_pure, mapM_pure]
  simp only [pure_bind, newPolynomialCoeffs, Int.toNat_natCast, goMake_eq, List.map_const', List.length_replicate]
  simp [blank]

end Verif.Spec.Template
