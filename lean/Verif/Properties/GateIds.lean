import Verif.Proofs.GateIds

/-!
# Property C44: gate identifiers
-/

set_option autoImplicit false

namespace Verif

open Spec.Gates
open Gates (Gate Handler gateRegexHandlers gateInstanceFromId findSubmatch gateInstances)

/-- **C44** Whatever the iteration order of the map, an identifier of a gate is read as that gate, and panics for
parameters out of the range of Go's numbers.  The weights may be printed reduced or not. -/
theorem C44_parses {g : Gate} {id : String} (hid : Identifies id g) (hw : HasWeights g) {order : List Handler}
    (ho : order.Perm gateRegexHandlers) :
    gateInstanceFromId order id.toList = if InRange g then some g else none := by
  obtain ⟨ws, hr, rfl⟩ := hid
  exact Gates.instance_identifier hr hw ho

/-- **C44** The identifier with reduced weights is one. -/
theorem C44_reduced (g : Gate) : Identifies (gateId g) g := ⟨_, Gates.represents_reduced g, rfl⟩

/-- **C44** Exactly one of the registered patterns matches the identifier. -/
theorem C44_unique {g : Gate} {id : String} (hid : Identifies id g) (hw : HasWeights g) :
    ∃ h ∈ gateRegexHandlers, findSubmatch h.regex id.toList ≠ none ∧
      ∀ h' ∈ gateRegexHandlers, findSubmatch h'.regex id.toList ≠ none → h' = h := by
  obtain ⟨ws, hr, rfl⟩ := hid
  obtain ⟨caps, h1, _⟩ := Gates.own_match hr hw
  refine ⟨Gates.handlerOf g, Gates.handlerOf_mem g, by rw [h1]; simp, fun h' hh hm => ?_⟩
  exact (Gates.other_none hr hw h' hh).resolve_right hm

/-- **C44** A string that contains the name of no gate panics, whatever the iteration order. -/
theorem C44_unknown {id : List Char} (h : ∀ N ∈ names, ¬ N.toList <:+: id) {order : List Handler}
    (ho : order.Perm gateRegexHandlers) : gateInstanceFromId order id = none := by
  refine Gates.instance_none fun x hx => ?_
  obtain ⟨N, hN, h1, _⟩ := Gates.handler_name x (ho.subset hx)
  by_contra hc
  exact h N hN (Gates.infix_of_find h1 hc)

/-- **C44** Distinct in-range gates have distinct identifiers. -/
theorem C44_injective {g g' : Gate} (hw : HasWeights g) (hw' : HasWeights g') (hr : InRange g) (hr' : InRange g')
    {id : String} (h : Identifies id g) (h' : Identifies id g') : g = g' := by
  have h1 := C44_parses h hw (List.Perm.refl gateRegexHandlers)
  have h2 := C44_parses h' hw' (List.Perm.refl gateRegexHandlers)
  rw [if_pos hr, h2, if_pos hr'] at h1
  exact (Option.some.inj h1).symm

/-- Only the arithmetic gate has this identifier; a lookup gate has none of the names. -/
example {g : Gate} (hw : HasWeights g) (hr : InRange g) (h : Identifies "ArithmeticGate { num_ops: 20 }" g) : g = .arithmetic 20 :=
  C44_injective hw trivial hr (by norm_num [InRange]) h ⟨[], trivial, by decide +kernel⟩
example : gateInstanceFromId gateRegexHandlers "LookupGate { num_slots: 3 }".toList = none :=
  C44_unknown (by decide +kernel) (List.Perm.refl _)

/-- **C44** The gates of a circuit are recovered from their identifiers, in order, whatever the iteration orders. -/
theorem C44_gateInstances {gates : List Gate} {ids : List String} {orders : List (List Handler)}
    (hids : List.Forall₂ Identifies ids gates) (hlen : orders.length = gates.length)
    (ho : ∀ o ∈ orders, o.Perm gateRegexHandlers) (hg : ∀ g ∈ gates, HasWeights g ∧ InRange g) :
    gateInstances (orders.zip (ids.map String.toList)) = some gates := by
  induction hids generalizing orders with
  | nil => rw [List.length_eq_zero_iff.1 hlen]; rfl
  | @cons id g ids gates hid _ ih =>
    match orders, hlen with
    | o :: orders, hlen =>
      have h1 := C44_parses hid (hg g (List.mem_cons_self ..)).1 (ho o (List.mem_cons_self ..))
      rw [if_pos (hg g (List.mem_cons_self ..)).2] at h1
      have h2 := ih (orders := orders) (by simpa using hlen) (fun o h => ho o (List.mem_cons_of_mem _ h))
        fun g h => hg g (List.mem_cons_of_mem _ h)
      rw [List.map_cons, List.zip_cons_cons, gateInstances, List.mapM_cons, h1]
      rw [gateInstances] at h2
      rw [h2]; rfl

/-- **C44** The patterns are not anchored: a string that is no identifier can be accepted, and the gate it is parsed to
can depend on the iteration order of the map. -/
theorem C44_order_dependent : ∃ id : List Char, ∃ o₁ o₂ : List Handler, o₁.Perm gateRegexHandlers ∧
    o₂.Perm gateRegexHandlers ∧ gateInstanceFromId o₁ id = some .noop ∧ gateInstanceFromId o₂ id = some .publicInput :=
  ⟨"NoopGatePublicInputGate".toList, gateRegexHandlers, gateRegexHandlers.reverse, List.Perm.refl _,
    List.reverse_perm _, rfl, rfl⟩

/-- **C44** An interpolation gate without weights has an identifier no pattern accepts; it panics. -/
theorem C44_no_weights : ∀ order : List Handler, order.Perm gateRegexHandlers →
    gateInstanceFromId order (gateId (.cosetInterpolation 0 2 [])).toList = none := by
  have h : ∀ i : Fin 14,
      findSubmatch (gateRegexHandlers.get i).regex (gateId (.cosetInterpolation 0 2 [])).toList = none := by
    decide +kernel
  intro order ho
  refine Gates.instance_none fun x hx => ?_
  obtain ⟨i, rfl⟩ := List.get_of_mem (ho.subset hx)
  exact h i

/-- The hypotheses hold for a gate with three parameters, one of them a list. -/
example : gateInstanceFromId gateRegexHandlers.reverse
    "CosetInterpolationGate { subgroup_bits: 1, degree: 2, barycentric_weights: [17, 5], _phantom: PhantomData<plonky2_field::goldilocks_field::GoldilocksField> }<D=2>".toList =
    some (.cosetInterpolation 1 2 [17, 5]) := by
  have e : gateId (.cosetInterpolation 1 2 [17, 5]) =
    "CosetInterpolationGate { subgroup_bits: 1, degree: 2, barycentric_weights: [17, 5], _phantom: PhantomData<plonky2_field::goldilocks_field::GoldilocksField> }<D=2>" := by
    decide +kernel
  rw [← e]
  exact (C44_parses (C44_reduced (.cosetInterpolation 1 2 [17, 5])) (show ([17, 5] : List Fp) ≠ [] by simp)
    (List.reverse_perm _)).trans (if_pos (by decide))

/-- A weight that is not reduced, as in the test data: `p + 256` stands for 256. -/
example : gateInstanceFromId gateRegexHandlers
    "CosetInterpolationGate { subgroup_bits: 0, degree: 2, barycentric_weights: [18446744069414584577], _phantom: PhantomData<plonky2_field::goldilocks_field::GoldilocksField> }<D=2>".toList =
    some (.cosetInterpolation 0 2 [256]) :=
  (C44_parses (g := .cosetInterpolation 0 2 [256]) ⟨[18446744069414584577], ⟨by decide +kernel, by decide +kernel⟩, by decide +kernel⟩
    (show ([256] : List Fp) ≠ [] by simp) (List.Perm.refl _)).trans (if_pos (by decide))

/-- A parameter of `2^63` panics. -/
example : gateInstanceFromId gateRegexHandlers (gateId (.arithmetic (2 ^ 63))).toList = none :=
  (C44_parses (C44_reduced (.arithmetic (2 ^ 63))) trivial (List.Perm.refl _)).trans (if_neg (by decide))

/-- The identifier of a lookup gate contains none of the names. -/
example : ∀ N ∈ names, ¬ N.toList <:+: "LookupGate {num_slots: 40, lut_hash: [0]}".toList := by decide +kernel

end Verif
