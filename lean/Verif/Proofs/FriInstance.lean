import Verif.Proofs.FriShape

/-!
# FRI: the instance of a PLONK proof and its openings
-/

set_option autoImplicit false

namespace Verif.Fri

open Circ Spec.Fri

theorem numPreprocessedPolys_eq (c : CommonCircuitData) :
    numPreprocessedPolys c = c.numConstants + c.config.numRoutedWires := by
  rw [numPreprocessedPolys, sigmasRange, List.getLastD_eq_getLast?, List.getLast?_range']
  simp

theorem range_map_getElem? {E : Type} (l : List E) : (List.range' 0 l.length).map (fun i => l[i]?) = l.map some := by
  apply List.ext_getElem
  · simp
  · intro i h1 h2
    simp at h1 h2 ⊢

theorem polys_map {E : Type} (k n : ℕ) (l : List E) (f : PolynomialInfo → Option E)
    (hf : ∀ i, f ⟨k, i⟩ = l[i]?) (hl : l.length = n) :
    (polynomialInfoFromRange k 0 n).map f = l.map some := by
  rw [polynomialInfoFromRange, List.map_map, Nat.sub_zero, ← hl, ← range_map_getElem?]
  exact List.map_congr_left fun i _ => hf i

theorem allPolys_openings {E : Type} {c : CommonCircuitData} {o : OpeningSet E} (h : OpeningsShape c o) :
    (friAllPolys c).map (openingAt o) = ((toOpenings o).getD 0 []).map some := by
  rw [friAllPolys, List.map_append, List.map_append, List.map_append, friPreprocessedPolys, friWirePolys,
    friZSPartialProductsPolys, friQuotientPolys,
    polys_map 0 _ (o.constants ++ o.plonkSigmas) _ (fun i => by simp [openingAt, oracleOpenings])
      (by rw [List.length_append, h.constants, h.plonkSigmas, numPreprocessedPolys_eq]),
    polys_map 1 _ o.wires _ (fun i => by simp [openingAt, oracleOpenings]) h.wires,
    polys_map 2 _ (o.plonkZs ++ o.partialProducts) _ (fun i => by simp [openingAt, oracleOpenings])
      (by rw [List.length_append, h.plonkZs, h.partialProducts, numZSPartialProductsPolys, mul_add, mul_one]),
    polys_map 3 _ o.quotientPolys _ (fun i => by simp [openingAt, oracleOpenings])
      (by rw [h.quotientPolys, numQuotientPolys])]
  simp [toOpenings]

theorem zsPolys_openings {E : Type} {c : CommonCircuitData} {o : OpeningSet E} (h : OpeningsShape c o) :
    (friZSPolys c).map (openingNext o) = ((toOpenings o).getD 1 []).map some := by
  rw [friZSPolys, polys_map 2 _ o.plonkZsNext _ (fun i => by simp [openingNext]) h.plonkZsNext]
  simp [toOpenings]

/-- The instance with field elements for points. -/
def instanceAt (c : CommonCircuitData) (zeta : QE) : InstanceInfo QE :=
  ⟨friOracles c, [⟨zeta, friAllPolys c⟩, ⟨ofBase (omega c.degreeBits) * zeta, friZSPolys c⟩]⟩

theorem polys_eq (k n : ℕ) : polynomialInfoFromRange k 0 n = (List.range n).map (PolynomialInfo.mk k) := by
  rw [polynomialInfoFromRange, Nat.sub_zero, List.range_eq_range']

theorem instanceAt_eq (c : CommonCircuitData) (zeta : QE) : instanceAt c zeta = plonkInstance c zeta := by
  simp only [instanceAt, plonkInstance, friOracles, friAllPolys, friPreprocessedPolys, friWirePolys,
    friZSPartialProductsPolys, friQuotientPolys, friZSPolys, polys_eq, numPreprocessedPolys_eq,
    numZSPartialProductsPolys, numQuotientPolys, oracleSizes, List.zipIdx_cons, List.zipIdx_nil, List.flatMap_cons,
    List.flatMap_nil, List.append_assoc, List.append_nil, List.zipWith_cons_cons, List.zipWith_nil_left, Nat.zero_add]

theorem den_getInstance (c : CommonCircuitData) (hd : c.degreeBits ≤ 32) (zeta : QE) :
    den (getInstance c (embQ zeta)) = pure (plonkInstance c zeta).enc := by
  rw [getInstance, den_bind, primitiveRoot_eq hd, den_orPanic_some, pure_bind, den_bind, toQE_emb, den_mulExt,
    pure_bind, den_pure, ← instanceAt_eq]
  rfl

theorem mem_polys {k n : ℕ} {f : PolynomialInfo} (h : f ∈ polynomialInfoFromRange k 0 n) :
    f.oracleIndex = k ∧ f.polynomialInfo < n := by
  rw [polynomialInfoFromRange, List.mem_map] at h
  obtain ⟨i, hi, rfl⟩ := h
  rw [List.mem_range'_1] at hi
  refine ⟨rfl, ?_⟩
  show i < n
  omega

theorem instance_batches (c : CommonCircuitData) (zeta : QE) :
    ∀ b ∈ (plonkInstance c zeta).batches, ∀ f ∈ b.polynomials,
      ∃ o, (plonkInstance c zeta).oracles[f.oracleIndex]? = some o ∧ f.polynomialInfo < o.numPolys := by
  rw [← instanceAt_eq]
  intro b hb f hf
  simp only [instanceAt, List.mem_cons, List.not_mem_nil, or_false] at hb
  rcases hb with rfl | rfl
  · simp only [friAllPolys, List.mem_append] at hf
    rcases hf with ((hf | hf) | hf) | hf
    all_goals
      obtain ⟨h1, h2⟩ := mem_polys hf
      rw [h1]
      exact ⟨_, rfl, h2⟩
  · obtain ⟨h1, h2⟩ := mem_polys hf
    rw [h1]
    refine ⟨_, rfl, h2.trans_le ?_⟩
    show _ ≤ numZSPartialProductsPolys c
    rw [numZSPartialProductsPolys, mul_add, mul_one]
    exact Nat.le_add_right _ _

theorem toOpenings_enc (o : OpeningSet QE) : toOpenings o.enc = (toOpenings o).map fun l => l.map embQ := by
  simp [toOpenings, OpeningSet.enc]

end Verif.Fri
