import Verif.Proofs.Verifier
import Verif.Proofs.WitnessInputs

/-!
# A proof for the other public input

The circuit is that of `WitnessInputs`, with the number of public inputs set to one.
-/

set_option autoImplicit false

namespace Verif.WitnessSecond

open Spec Spec.Verifier Evaluate Witness WitnessInputs

/-- The circuit. -/
def data : CommonCircuitData := { HonestProof.data 16 with numPublicInputs := 1 }

theorem of_data {x : Proof Fp QE} {inputs : List Fp}
    (h : Accepts Spec.poseidon (HonestProof.data 16) HonestProof.gates (HonestProof.vd 1) x inputs) :
    Accepts Spec.poseidon data HonestProof.gates (HonestProof.vd 1) x inputs :=
  ⟨h.zeta, h.identity, h.fri⟩

theorem to_data {x : Proof Fp QE} {inputs : List Fp}
    (h : Accepts Spec.poseidon data HonestProof.gates (HonestProof.vd 1) x inputs) :
    Accepts Spec.poseidon (HonestProof.data 16) HonestProof.gates (HonestProof.vd 1) x inputs :=
  ⟨h.zeta, h.identity, h.fri⟩

theorem fits (z α : QE) (v : ℕ) (w : Fp) : Fits data HonestProof.gates (HonestProof.vd 1) (HonestProof.proof z α v w).enc := by
  have h := Verifier.fits_to_enc (HonestProof.fits (b := 16) (by norm_num) 1 z α v w)
  exact ⟨h.1, h.2, h.3, h.4, h.5, h.6, h.7, h.8, h.9, h.10, h.11, h.12, h.13, h.14, h.15, h.16, h.17⟩

theorem shaped (z α : QE) (v : ℕ) (w i : Fp) : Shaped data (HonestProof.proof z α v w) [i] :=
  ⟨⟨rfl, rfl, rfl, rfl, rfl, rfl, rfl⟩, ⟨by simp [HonestProof.proof, data, HonestProof.data, HonestProof.constCap],
    by simp [HonestProof.proof, data, HonestProof.data, HonestProof.constCap],
    by simp [HonestProof.proof, data, HonestProof.data, HonestProof.constCap]⟩, rfl⟩

/-- Zeta, FRI alpha and its cube. -/
def zeta : QE := ⟨(11816847772565519395 : ℕ), (2782614118115084753 : ℕ)⟩
def alpha : QE := ⟨(15485085391938622723 : ℕ), (16341842827089102596 : ℕ)⟩

theorem alpha_cube : alpha ^ 3 = ⟨(14047681490560538236 : ℕ), (11239504894714718683 : ℕ)⟩ := by
  decide +kernel

/-- Query index and proof-of-work witness. -/
abbrev index : ℕ := 17527191157103179837
abbrev nonce : ℕ := 201172

/-- The proof. -/
noncomputable def proof : Proof Fp QE := HonestProof.proof zeta alpha index (nonce : Fp)

/-- Coordinates of its openings. -/
def openN : List ℕ := [0, 0, 11, 0, 11816847772565519395, 2782614118115084753, 11, 0, 1, 0, 0, 0, 1, 0]

/-- Coordinates of its final polynomial. -/
def finN : List ℕ := [14047681490560538236, 11239504894714718683, 0, 0, 0, 0, 0, 0]

/-- What is absorbed. -/
def absorbedN : List (List ℕ × ℕ) :=
  phasesOf hashOther (List.replicate 16 11) (List.replicate 16 1) (List.replicate 16 0) openN finN nonce

theorem coords_openings : (coords ([0, 11] ++ [zeta] ++ [11] ++ [1] ++ [] ++ [0] ++ [1])).map residue =
    openN.map ((↑) : ℕ → Fp) := by
  simp only [coords, List.cons_append, List.nil_append, List.flatMap_cons, List.flatMap_nil, List.map_cons, List.map_nil,
    Challenger.residue_emb, openN]
  decide +kernel

theorem coords_final : (coords [alpha ^ 3, 0, 0, 0]).map residue = finN.map ((↑) : ℕ → Fp) := by
  rw [alpha_cube]
  simp only [coords, List.cons_append, List.nil_append, List.flatMap_cons, List.flatMap_nil, List.map_cons, List.map_nil,
    Challenger.residue_emb, finN]
  decide +kernel

set_option maxRecDepth 100000 in
theorem out_second : outN permN (List.replicate 12 0) absorbedN =
    [16374446047415995038, 4868484827950198952, 15175426943177115162, 11816847772565519395, 2782614118115084753,
    15485085391938622723, 16341842827089102596, 139922879029835, 17527191157103179837] := by
  decide +kernel

theorem challenges_proof : challenges Spec.poseidon 1 1 1 (inputsHash Spec.poseidon [(other : Fp)]) proof =
    challengesOf 1 0 ([16374446047415995038, 4868484827950198952, 15175426943177115162, 11816847772565519395, 2782614118115084753,
    15485085391938622723, 16341842827089102596, 139922879029835, 17527191157103179837].map ((↑) : ℕ → Fp)) := by
  refine outputs_proof_of runs_permN _ _ hashOther (List.replicate 16 11) (List.replicate 16 1) (List.replicate 16 0) openN
    finN nonce hash_other ?_ ?_ ?_ coords_openings coords_final rfl rfl (by decide +kernel) (by decide +kernel) _ out_second
  · have := constCap_eq 11 (by norm_num [p])
    rwa [show ((11 : ℕ) : Fp) = 11 from rfl] at this
  · have := constCap_eq 1 (by norm_num [p])
    rwa [Nat.cast_one] at this
  · have := constCap_eq 0 (by norm_num [p])
    rwa [Nat.cast_zero] at this

/-- The textbook verifier accepts the proof for the other public input. -/
theorem accepts : Accepts Spec.poseidon data HonestProof.gates (HonestProof.vd 1) proof [(other : Fp)] := by
  refine of_data ?_
  show Checks _ _ _ _ (inputsHash Spec.poseidon [(other : Fp)])
    (challenges Spec.poseidon 1 1 1 (inputsHash Spec.poseidon [(other : Fp)]) _)
  rw [challenges_proof]
  have hv : ((index : ℕ) : Fp).val = index := ZMod.val_natCast_of_lt (by norm_num [p])
  have := HonestProof.checks (b := 16) 1 (challengesOf 1 0 (List.map ((↑) : ℕ → Fp)
    [16374446047415995038, 4868484827950198952, 15175426943177115162, 11816847772565519395, 2782614118115084753,
    15485085391938622723, 16341842827089102596, 139922879029835, 17527191157103179837])) ((nonce : ℕ) : Fp)
    (inputsHash Spec.poseidon [(other : Fp)]) (by decide +kernel) (by decide +kernel) ((index : ℕ) : Fp) rfl
  rw [hv] at this
  exact this

end Verif.WitnessSecond
