import Verif.Proofs.GateIdStrings
import Verif.Properties.GateIds

/-!
# Property C85: the identifiers returned by the gates
-/

set_option autoImplicit false

namespace Verif

open Spec.Gates
open Gates (Gate Handler gateRegexHandlers gateInstanceFromId)

/-- **C85** For all gates but three kinds, `GateInstanceFromId(g.Id())` is `g` again, whatever the iteration order of the map. -/
theorem C85_roundtrip_partial (render : List Fp → String) {g : Gate} (h : ¬ Lost g) (hr : InRange g) {order : List Handler}
    (ho : order.Perm gateRegexHandlers) : gateInstanceFromId order (g.id render).toList = some g :=
  (Gates.kept_parse render h ho).trans (if_pos hr)

/-- **C85** the claim is false for the other three kinds: `GateInstanceFromId(g.Id())` panics for every
interpolation, exponentiation and random-access gate, however the weights are printed (with digits, brackets and spaces). -/
theorem C85_lost (render : List Fp → String) (hr : ∀ w, ∀ c ∈ (render w).toList, c.isAlpha = false ∧ c ≠ '<') {g : Gate}
    (h : Lost g) {order : List Handler} (ho : order.Perm gateRegexHandlers) :
    gateInstanceFromId order (g.id render).toList = none := Gates.lost_none hr h ho

/-- **C85** The identifier is the one plonky2 writes into the circuit data exactly for the gates without phantom
parameter; for the others it differs whatever the parameters are. -/
theorem C85_plonky2 (render : List Fp → String) (hr : ∀ w, ∀ c ∈ (render w).toList, c.isAlpha = false ∧ c ≠ '<') (g : Gate) :
    Identifies (g.id render) g ↔ ¬ Lost g ∧ g ≠ .poseidon ∧ g ≠ .poseidonMds := by
  constructor
  · rintro ⟨ws, -, h⟩
    refine ⟨fun hl => (Gates.lost_id hr hl).1 ?_, ?_, ?_⟩
    · rw [h]
      have k : '<' ∈ "], _phantom: PhantomData<plonky2_field::goldilocks_field::GoldilocksField> }<D=2>".toList ∧
        '<' ∈ ", _phantom: PhantomData<plonky2_field::goldilocks_field::GoldilocksField> }<D=2>".toList := by decide +kernel
      cases g <;> simp only [Lost] at hl
      · rw [Gates.toList_coset]; simp only [List.mem_append, k.1, or_true]
      · rw [Gates.toList_exponentiation]; simp only [List.mem_append, k.2, or_true]
      · rw [Gates.toList_randomAccess]; simp only [List.mem_append, k.2, or_true]
    · rintro rfl
      have h : "PoseidonGate" = "PoseidonGate(PhantomData<plonky2_field::goldilocks_field::GoldilocksField>)<WIDTH=12>" := h
      exact absurd h (by decide +kernel)
    · rintro rfl
      have h : "PoseidonMdsGate" = "PoseidonMdsGate(PhantomData<plonky2_field::goldilocks_field::GoldilocksField>)<WIDTH=12>" := h
      exact absurd h (by decide +kernel)
  · rintro ⟨h1, h2, h3⟩
    exact ⟨_, Gates.represents_reduced g, (Gates.kept_id render h1).resolve_right fun h => h.elim h2 h3⟩

/-- **C85** The identifiers of distinct gates with parsable identifiers are distinct. -/
theorem C85_injective (render : List Fp → String) {g g' : Gate} (h : ¬ Lost g) (h' : ¬ Lost g') (hr : InRange g) (hr' : InRange g')
    (he : g.id render = g'.id render) : g = g' := by
  have h1 := C85_roundtrip_partial render h hr (List.Perm.refl _)
  rw [he, C85_roundtrip_partial render h' hr' (List.Perm.refl _)] at h1
  exact (Option.some.inj h1).symm

/-- A gate with two parameters makes the round trip, for any order of the map. -/
example : gateInstanceFromId gateRegexHandlers.reverse (Gate.id (fun _ => "[]") (.baseSum 63 2)).toList = some (.baseSum 63 2) :=
  C85_roundtrip_partial _ (by simp [Lost]) (by simp [InRange]) (List.reverse_perm _)

/-- The random-access gate of the test circuits does not. -/
example : gateInstanceFromId gateRegexHandlers (Gate.id (fun _ => "[]") (.randomAccess 4 4 2)).toList = none :=
  C85_lost (g := .randomAccess 4 4 2) _ (fun _ => by decide +kernel) trivial (List.Perm.refl _)

end Verif
