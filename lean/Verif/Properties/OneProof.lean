import Verif.Proofs.WitnessSecond
import Verif.Properties.Benchmark
import Verif.Properties.Binding

/-!
# Property C102: the keys made by the command-line program and other proofs

In `ExampleVerifierCircuit` (`verifier/util.go:10-17`) the plonky2 proof is a constant of the circuit.
-/

set_option autoImplicit false

namespace Verif

open Benchmark Spec.Benchmark Verifier Spec.Verifier
open Spec (residue)

/-- **C102** what holds: with an ideal proof system, the constraint system compiled from a proof serves the public inputs for
which plonky2 accepts that very proof, and no others. -/
theorem C102_served_partial {b : Backend} (hb : Ideal b) {orders : List (List Gates.Handler)} {c : CommonCircuitData}
    {gates : List Gates.Gate} {vd : VerifierOnlyCircuitData} {x : Proof Fp QE}
    (hids : List.Forall₂ Spec.Gates.Identifies c.gateIds gates) (hlen : orders.length = gates.length)
    (ho : ∀ o ∈ orders, o.Perm Gates.gateRegexHandlers) (hgates : ∀ g ∈ gates, Spec.Gates.HasWeights g ∧ Spec.Gates.InRange g)
    (hf : Fits c gates vd x.enc) (pis : List Fr) (cs : b.CS) (pk : b.PK) (w : b.W)
    (hcs : b.compile (fun pis => define PoseidonGL.poseidon orders c x.enc pis vd) pis.length = .ok cs)
    (hw : b.witness pis = some w) :
    (b.prove cs pk w).isSome ↔
      (∀ v ∈ pis, v.val < 2 ^ 144 * p) ∧ Accepts Spec.poseidon c gates vd x (pis.map residue) := by
  rw [hb.prove _ _ _ pk _ hcs hw, C58_define PoseidonGL.poseidon orders c gates vd x.enc pis hids hlen ho hgates,
    C58_honest c gates vd x.enc hf]
  exact ⟨fun ⟨y, hy, h⟩ => by obtain rfl := enc_injective hy; exact h, fun h => ⟨x, rfl, h⟩⟩

/-- **C102** two proofs of one circuit, each accepted by plonky2 for its public input: whatever the ideal proof system and the
keys, the constraint system compiled from the first proof does not serve the public input of the second, although that compiled
from the second does. -/
theorem C102_violated : ∃ (c : CommonCircuitData) (gates : List Gates.Gate) (vd : VerifierOnlyCircuitData) (x y : Proof Fp QE)
    (i j : Fp), Supported c gates vd ∧ Validates Spec.poseidon c gates vd x [i] ∧ Validates Spec.poseidon c gates vd y [j] ∧
      ∀ (b : Backend) (orders : List (List Gates.Handler)), Ideal b → orders.length = gates.length →
        (∀ o ∈ orders, o.Perm Gates.gateRegexHandlers) → ∀ (w : b.W) (pk : b.PK), b.witness [emb j] = some w →
        (∀ cs, b.compile (fun pis => define PoseidonGL.poseidon orders c x.enc pis vd) 1 = .ok cs → b.prove cs pk w = none) ∧
        ∃ cs, b.compile (fun pis => define PoseidonGL.poseidon orders c y.enc pis vd) 1 = .ok cs ∧
          (b.prove cs pk w).isSome := by
  have hfx : Fits WitnessSecond.data HonestProof.gates (HonestProof.vd 1) WitnessInputs.proof.enc :=
    WitnessSecond.fits WitnessInputs.zeta WitnessInputs.alpha 17136421660873736037 ((33965 : ℕ) : Fp)
  have hfy : Fits WitnessSecond.data HonestProof.gates (HonestProof.vd 1) WitnessSecond.proof.enc :=
    WitnessSecond.fits WitnessSecond.zeta WitnessSecond.alpha WitnessSecond.index ((WitnessSecond.nonce : ℕ) : Fp)
  have hids : List.Forall₂ Spec.Gates.Identifies WitnessSecond.data.gateIds HonestProof.gates :=
    .cons ⟨[], trivial, by decide +kernel⟩ .nil
  have hg : ∀ g ∈ HonestProof.gates, Spec.Gates.HasWeights g ∧ Spec.Gates.InRange g := by
    intro g hg
    obtain rfl := List.mem_singleton.1 hg
    exact ⟨trivial, by decide⟩
  refine ⟨WitnessSecond.data, HonestProof.gates, HonestProof.vd 1, WitnessInputs.proof, WitnessSecond.proof, 1,
    (WitnessInputs.other : Fp), ?_, ⟨WitnessSecond.shaped _ _ _ _ _, WitnessSecond.of_data WitnessInputs.accepts⟩,
    ⟨WitnessSecond.shaped _ _ _ _ _, WitnessSecond.accepts⟩, ?_⟩
  · have h := supported_data (vd := HonestProof.vd 1) (by simp [HonestProof.vd])
    exact ⟨h.1, h.2, h.3, h.4, h.5, h.6, h.7, h.8, h.9, h.10, h.11, h.12⟩
  intro b orders hb hlen ho w pk hw
  have hs : ∀ v ∈ [emb (WitnessInputs.other : Fp)], v.val < 2 ^ 144 * p := fun v hv => by
    rw [List.mem_singleton.1 hv]
    exact Challenger.small_emb _
  have he : [emb (WitnessInputs.other : Fp)].map residue = [(WitnessInputs.other : Fp)] := by
    rw [List.map_singleton, Challenger.residue_emb]
  refine ⟨fun cs hcs => ?_, ?_⟩
  · rw [← Option.not_isSome_iff_eq_none, C102_served_partial hb hids hlen ho hg hfx [emb (WitnessInputs.other : Fp)] cs pk w hcs hw, he]
    exact fun h => WitnessInputs.rejects (WitnessSecond.to_data h.2)
  · have hh : Circ.honest (define PoseidonGL.poseidon orders WitnessSecond.data WitnessSecond.proof.enc
        [emb (WitnessInputs.other : Fp)] (HonestProof.vd 1)) = some () := by
      rw [C58_define PoseidonGL.poseidon orders _ _ _ _ _ hids hlen ho hg, C58_honest _ _ _ _ hfy]
      exact ⟨_, rfl, hs, he ▸ WitnessSecond.accepts⟩
    obtain ⟨cs, hcs⟩ := hb.compile (fun pis => define PoseidonGL.poseidon orders WitnessSecond.data WitnessSecond.proof.enc pis
      (HonestProof.vd 1)) _ hh
    refine ⟨cs, hcs, ?_⟩
    rw [C102_served_partial hb hids hlen ho hg hfy [emb (WitnessInputs.other : Fp)] cs pk w hcs hw, he]
    exact ⟨hs, WitnessSecond.accepts⟩

/-- There is an ideal proof system, and the constraint system compiled from the second proof serves its public input. -/
example : (toyBackend.prove (fun pis => define PoseidonGL.poseidon [Gates.gateRegexHandlers] WitnessSecond.data WitnessSecond.proof.enc
    pis (HonestProof.vd 1)) () [emb (WitnessInputs.other : Fp)]).isSome := by
  refine (C102_served_partial toyBackend_ideal (b := toyBackend) (orders := [Gates.gateRegexHandlers]) (c := WitnessSecond.data)
    (gates := HonestProof.gates) (.cons ⟨[], trivial, by decide +kernel⟩ .nil) rfl
    (fun o ho => List.mem_singleton.1 ho ▸ List.Perm.refl _)
    (fun g hg => by obtain rfl := List.mem_singleton.1 hg; exact ⟨trivial, by decide⟩)
    (WitnessSecond.fits WitnessSecond.zeta WitnessSecond.alpha WitnessSecond.index ((WitnessSecond.nonce : ℕ) : Fp))
    [emb (WitnessInputs.other : Fp)] _ () _ rfl rfl).2 ⟨fun v hv => ?_, ?_⟩
  · rw [List.mem_singleton.1 hv]
    exact Challenger.small_emb _
  · rw [List.map_singleton, Challenger.residue_emb]
    exact WitnessSecond.accepts

end Verif
