import Verif.Model.Helpers
import Verif.Proofs.Deserialize

/-!
# Property C99: helpers not called by the verifier
-/

set_option autoImplicit false

namespace Verif

open Deserialize JsonModel Spec.Deserialize Helpers

/-- **C99** decimal strings are converted one by one; a malformed one panics. -/
theorem C99_bigInts_partial (l : List String) :
    (∀ zs, strArrayToBigIntArray l = some zs ↔ l.Forall₂ Decimal zs) ∧
    (strArrayToBigIntArray l = none ↔ ∃ s ∈ l, ∀ z, ¬ Decimal s z) := by
  have h : ∀ zs, strArrayToBigIntArray l = some zs ↔ l.Forall₂ Decimal zs := fun zs => mapM_iff bigSetString_iff l zs
  refine ⟨h, ?_⟩
  rw [Option.eq_none_iff_forall_ne_some]
  constructor
  · intro hn
    by_contra hc
    push Not at hc
    choose! f hf using hc
    refine hn (l.map f) ((h _).2 ?_)
    rw [List.forall₂_map_right_iff, List.forall₂_same]
    exact hf
  · rintro ⟨s, hs, hz⟩ zs e
    obtain ⟨i, hi, rfl⟩ := List.mem_iff_getElem.1 hs
    have := (h zs).1 e
    exact hz _ (this.get hi (by rw [← this.length_eq]; exact hi))

/-- **C99** `DeserializeMerkleProof` accepts exactly lists of structs of `uint64`s, and stores their elements. -/
theorem C99_merkleProof_partial (l : List Value) (s : List Sibling) : deserializeMerkleProof l = some s ↔
    l.Forall₂ (fun v x => ∃ e, v = .elements e ∧ x = .slice (e.map fun n : ℕ => (n : Fr))) s :=
  mapM_iff (fun v x => by
    cases v with
    | decoded j => simp
    | elements e => simp [uint64ArrayToVariableArray, eq_comm]) l s

/-- **C99** `DeserializeMerkleProof` panics on any value that `encoding/json` has put into the `[]interface{}`, and never
produces a proof whose siblings are hashes, except for the empty one. -/
theorem C99_merkleProof_violated (l : List Value) :
    ((∃ j, .decoded j ∈ l) → deserializeMerkleProof l = none) ∧
    (∀ s, deserializeMerkleProof l = some s → s.length = l.length ∧ (s ≠ [] → hashes s = none)) := by
  have key : ∀ s, deserializeMerkleProof l = some s →
      l.Forall₂ (fun v x => ∃ e, v = .elements e ∧ x = .slice (e.map fun n : ℕ => (n : Fr))) s := fun s =>
    (C99_merkleProof_partial l s).1
  refine ⟨?_, fun s hs => ⟨(key s hs).length_eq.symm, fun hne => ?_⟩⟩
  · rintro ⟨j, hj⟩
    rw [Option.eq_none_iff_forall_ne_some]
    intro s hs
    obtain ⟨i, hi, e⟩ := List.mem_iff_getElem.1 hj
    have h := key s hs
    obtain ⟨a, ha, -⟩ := h.get hi (by rw [← h.length_eq]; exact hi)
    rw [List.get_eq_getElem, e] at ha
    cases ha
  · match l, s, key s hs, hne with
    | _, _, .cons ⟨e, _, hx⟩ _, _ =>
      rw [hashes, List.mapM_cons, hx]
      rfl

/-- Strings with and without an error; siblings of the expected dynamic type, of a decoded one, none. -/
example : strArrayToBigIntArray ["1", "-20"] = some [1, -20] ∧ strArrayToBigIntArray ["1", "x"] = none ∧
    deserializeMerkleProof [.elements [1, 2]] = some [.slice [1, 2]] ∧
    deserializeMerkleProof [.elements [1, 2], .decoded (.str "3")] = none ∧ deserializeMerkleProof [] = some [] := by
  refine ⟨by decide +kernel, by decide +kernel, ?_, rfl, rfl⟩
  simp [deserializeMerkleProof, uint64ArrayToVariableArray]

end Verif
