import Verif.Proofs.PlonkSound
import Verif.Properties.Plonk

/-!
# Traces and the circuit
-/

set_option autoImplicit false

namespace Verif.Plonk

open Polynomial Spec.Plonk
open Spec.Fri (omega)

variable {c : CommonCircuitData} {t : Trace} {gates : List Verif.Gates.Gate}

theorem gatesHold_iff (hc : Proper c gates) {k : ℕ → ℕ} (hk : t.Selects c gates k) {h : Fin 4 → Fp} :
    GatesHold c gates t h ↔ ∀ m < n c, ∀ g, gates[k m]? = some g →
      Spec.Gates.Vanish (Spec.Gates.constraints g ((t.row c h m).drop c.selectorsInfo.groups.length)) := by
  refine forall₂_congr fun m hm => ?_
  obtain ⟨h1, h2, h3⟩ := hk m hm
  have hz : ∀ i (hi : i < gates.length), (gates[i], i) ∈ gates.zipIdx := fun i hi =>
    List.mem_zipIdx_iff_getElem?.2 (List.getElem?_eq_getElem hi)
  obtain ⟨-, e, f⟩ := C42_selects (si := c.selectorsInfo) (x := t.row c h m) h1
    (fun i hi => (hc.gatesOk _ (hz i hi)).group) hc.groups hc.groupsLt
    (by show ofBase _ = _; rw [h2]; exact map_natCast Spec.Fri.Prover.base (k m))
    (fun s hs hne => by
      show ofBase _ = _
      rw [h3 s hs hne]
      exact (map_sub Spec.Fri.Prover.base _ _).trans (by rw [map_pow, map_ofNat, map_one]))
  have hg : ∀ P : Verif.Gates.Gate → Prop, (∀ g, gates[k m]? = some g → P g) ↔ P gates[k m] := fun P =>
    ⟨fun h => h _ (List.getElem?_eq_getElem h1), fun h g e => by
      rw [List.getElem?_eq_getElem h1, Option.some.injEq] at e
      exact e ▸ h⟩
  rw [hg, ← f]
  refine ⟨fun h j => ?_, fun h j _ => h j⟩
  by_cases hj : j < c.numGateConstraints
  · exact h j hj
  · rw [e, List.getD_eq_default, mul_zero]
    exact (hc.counts _ (hz _ h1) _).trans (not_lt.1 hj)

theorem shape (hc : Proper c gates) (ht : t.Sized c) {bs gs as : List Fp} {zs pps qs : List Fp[X]} {z : QE}
    {fri : FriChallenges Fp QE} (hb : bs.length = c.config.numChallenges) (hg : gs.length = c.config.numChallenges)
    (ha : as.length = c.config.numChallenges) (hz : zs.length = c.config.numChallenges)
    (hp : pps.length = c.config.numChallenges * c.numPartialProducts)
    (hq : qs.length = c.config.numChallenges * c.quotientDegreeFactor) :
    Shape c gates ⟨bs, gs, as, z, fri⟩ (openings c t zs pps qs z) where
  degree := by have := hc.rows; omega
  factor := hc.factor
  chunks := hc.chunks.le
  gatesOk := by simpa only [openings, List.length_map, ht.constants, ht.wires] using hc.gatesOk
  counts := hc.counts
  kIs := hc.kIs
  kIsLt := hc.kIsLt
  betas := hb.ge
  gammas := hg.ge
  alphas := ha.ge
  wires := by simpa only [openings, List.length_map, ht.wires] using hc.routed
  sigmas := by simp only [openings, List.length_map, ht.sigmas, le_refl]
  zs := by simp only [openings, List.length_map, hz, le_refl]
  zsNext := by simp only [openings, List.length_map, hz, le_refl]
  partialProducts := by simp only [openings, List.length_map, hp, le_refl]
  quotients := by simp only [openings, List.length_map, hq, le_refl]

end Verif.Plonk
