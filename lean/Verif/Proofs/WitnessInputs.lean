import Verif.Proofs.Witness
import Verif.Proofs.Bijective

/-!
# A proof for the public input 1 that satisfies the code's circuit with another public input

The circuit of `HonestProof` with 16 bits of proof of work; the circuit does not use its public input.
-/

set_option autoImplicit false

namespace Verif.WitnessInputs

open Spec Spec.Verifier Evaluate Witness

/-- The other public input. -/
def other : ℕ := 8446580567931850634

/-- Hashes of both. -/
def hash1 : List ℕ := [15020833855946683413, 2541896837400596712, 5158482081674306993, 15736419290823331982]
def hashOther : List ℕ := [7420661290639522155, 709789459590991238, 11875496558279601580, 11134895646274024226]

theorem inputsHash_one (n : ℕ) (hn : n < p) (h : List ℕ) (hh : (permN (n :: List.replicate 11 0)).take 4 = h) :
    List.ofFn (inputsHash Spec.poseidon [(n : Fp)]) = h.map ((↑) : ℕ → Fp) := by
  have hc : Canon (n :: List.replicate 11 0) := ⟨rfl, by
    intro x hx
    rcases List.mem_cons.1 hx with rfl | hx
    · exact hn
    · rw [List.eq_of_mem_replicate hx]; norm_num [p]⟩
  obtain ⟨hl, he⟩ := runs_permN _ hc
  have hs : Spec.absorb Spec.poseidon (fun _ => 0) (Spec.chunks [(n : Fp)]) = toSt (permN (n :: List.replicate 11 0)) := by
    rw [he, Challenger.chunks_short _ (by simp) (by simp)]
    simp only [Spec.absorb, List.foldl_cons, List.foldl_nil]
    refine congrArg _ (funext fun j => ?_)
    match j with
    | ⟨0, _⟩ => rfl
    | ⟨k + 1, hk⟩ =>
      show ((([] : List Fp)[k]?).getD 0) = (((0 :: List.replicate 10 0).getD k 0 : ℕ) : Fp)
      rw [show (0 :: List.replicate 10 0 : List ℕ) = List.replicate 11 0 from rfl, List.getD_replicate _ (by omega : k < 11)]
      simp
  refine List.ext_getElem (by rw [← hh, List.length_map, List.length_take, hl.length, List.length_ofFn]; rfl) fun i h1 h2 => ?_
  have hi : i < 4 := by simpa using h1
  rw [List.getElem_ofFn, List.getElem_map, inputsHash, Spec.hash, hs]
  simp only [List.getD_eq_getElem?_getD, List.getElem?_map, List.getElem?_range hi, Option.map_some, Option.getD_some,
    Spec.squeeze, Nat.div_eq_of_lt (show i < 8 by omega), Nat.mod_eq_of_lt (show i < 8 by omega), Function.iterate_zero, id]
  subst hh
  rw [toSt, List.getElem_take, Fin.val_ofNat, Nat.mod_eq_of_lt (by omega), List.getD_eq_getElem]

/-- Zeta, FRI alpha and its cube. -/
def zeta : QE := ⟨(17676334645411510829 : ℕ), (12079439762223289844 : ℕ)⟩
def alpha : QE := ⟨(6604673926781406951 : ℕ), (726663456494119419 : ℕ)⟩

theorem alpha_cube : alpha ^ 3 = ⟨(10503851145395408810 : ℕ), (9187975674571863215 : ℕ)⟩ := by
  decide +kernel

/-- The proof. -/
noncomputable def proof : Proof Fp QE := HonestProof.proof zeta alpha 17136421660873736037 ((33965 : ℕ) : Fp)

/-- Coordinates of its openings. -/
def openN : List ℕ := [0, 0, 11, 0, 17676334645411510829, 12079439762223289844, 11, 0, 1, 0, 0, 0, 1, 0]

/-- Coordinates of its final polynomial. -/
def finN : List ℕ := [10503851145395408810, 9187975674571863215, 0, 0, 0, 0, 0, 0]

/-- What is absorbed. -/
def absorbedN (hn : List ℕ) : List (List ℕ × ℕ) :=
  phasesOf hn (List.replicate 16 11) (List.replicate 16 1) (List.replicate 16 0) openN finN 33965

theorem coords_openings : (coords ([0, 11] ++ [zeta] ++ [11] ++ [1] ++ [] ++ [0] ++ [1])).map residue =
    openN.map ((↑) : ℕ → Fp) := by
  simp only [coords, List.cons_append, List.nil_append, List.flatMap_cons, List.flatMap_nil, List.map_cons, List.map_nil,
    Challenger.residue_emb, openN]
  decide +kernel

theorem coords_final : (coords [alpha ^ 3, 0, 0, 0]).map residue = finN.map ((↑) : ℕ → Fp) := by
  rw [alpha_cube]
  simp only [coords, List.cons_append, List.nil_append, List.flatMap_cons, List.flatMap_nil, List.map_cons, List.map_nil,
    Challenger.residue_emb, finN]
  decide +kernel

theorem challenges_proof (pih : Fin 4 → Fp) (hn : List ℕ) (h0 : List.ofFn pih = hn.map ((↑) : ℕ → Fp))
    (hl : ∀ a ∈ absorbedN hn, a.1 ≠ [] ∧ 0 < a.2 ∧ a.2 ≤ 8 ∧ ∀ x ∈ a.1, x < p) (out : List ℕ)
    (ho : outN permN (List.replicate 12 0) (absorbedN hn) = out) :
    challenges Spec.poseidon 1 1 1 pih proof = challengesOf 1 0 (out.map ((↑) : ℕ → Fp)) := by
  refine outputs_proof_of runs_permN _ pih hn (List.replicate 16 11) (List.replicate 16 1) (List.replicate 16 0) openN
    finN 33965 h0 ?_ ?_ ?_ coords_openings coords_final rfl rfl (by decide +kernel) hl out ho
  · have := constCap_eq 11 (by norm_num [p])
    rwa [show ((11 : ℕ) : Fp) = 11 from rfl] at this
  · have := constCap_eq 1 (by norm_num [p])
    rwa [Nat.cast_one] at this
  · have := constCap_eq 0 (by norm_num [p])
    rwa [Nat.cast_zero] at this

set_option maxRecDepth 100000 in
theorem out_one : outN permN (List.replicate 12 0) (absorbedN hash1) =
    [3910204982719713263, 17358163989117054086, 7312707062953442083, 17676334645411510829, 12079439762223289844,
    6604673926781406951, 726663456494119419, 230126151954915, 17136421660873736037] := by
  decide +kernel

set_option maxRecDepth 100000 in
theorem out_other : outN permN (List.replicate 12 0) (absorbedN hashOther) =
    [16374446047415995038, 4868484827950198952, 15175426943177115162, 11816847772565519395, 2782614118115084753,
    14014616744712821515, 1352291182247652957, 7218672017263923221, 6729408266706953721] := by
  decide +kernel

set_option maxRecDepth 100000 in
theorem hash_one : List.ofFn (inputsHash Spec.poseidon [1]) = hash1.map ((↑) : ℕ → Fp) := by
  have := inputsHash_one 1 (by norm_num [p]) hash1 (by decide +kernel)
  rwa [Nat.cast_one] at this

set_option maxRecDepth 100000 in
theorem hash_other : List.ofFn (inputsHash Spec.poseidon [(other : Fp)]) = hashOther.map ((↑) : ℕ → Fp) :=
  inputsHash_one other (by norm_num [p, other]) hashOther (by decide +kernel)

/-- The textbook verifier accepts the proof for the public input 1. -/
theorem accepts : Accepts Spec.poseidon (HonestProof.data 16) HonestProof.gates (HonestProof.vd 1) proof [1] := by
  show Checks _ _ _ _ (inputsHash Spec.poseidon [1]) (challenges Spec.poseidon 1 1 1 (inputsHash Spec.poseidon [1]) _)
  rw [challenges_proof _ _ hash_one (by decide +kernel) _ out_one]
  have hv : ((17136421660873736037 : ℕ) : Fp).val = 17136421660873736037 :=
    ZMod.val_natCast_of_lt (by norm_num [p])
  have := HonestProof.checks (b := 16) 1 (challengesOf 1 0 (List.map ((↑) : ℕ → Fp)
    [3910204982719713263, 17358163989117054086, 7312707062953442083, 17676334645411510829, 12079439762223289844,
    6604673926781406951, 726663456494119419, 230126151954915, 17136421660873736037])) ((33965 : ℕ) : Fp)
    (inputsHash Spec.poseidon [1]) (by decide +kernel) (by decide +kernel) ((17136421660873736037 : ℕ) : Fp) rfl
  rw [hv] at this
  exact this

/-- It rejects it for the other one: not enough proof of work. -/
theorem rejects : ¬ Accepts Spec.poseidon (HonestProof.data 16) HonestProof.gates (HonestProof.vd 1) proof
    [(other : Fp)] := by
  intro h
  have h1 : (challenges Spec.poseidon 1 1 1 (inputsHash Spec.poseidon [(other : Fp)]) proof).friChallenges.powResponse.val <
    2 ^ (64 - 16) := h.fri.pow
  rw [challenges_proof _ _ hash_other (by decide +kernel) _ out_other] at h1
  revert h1
  decide +kernel

/-- The S-box admits the value for 1 also for the other public input. -/
theorem sbox : Free.SBox ((other : Fp) + (Spec.rc 0 0 : Fp)) ((1 + (Spec.rc 0 0 : Fp)) ^ 7) :=
  ⟨0, 1, by norm_num, by norm_num, by decide +kernel⟩

/-- Hence it admits the hash of 1 as a hash of the other one; this and the next for any S-box with these two values. -/
theorem hash_shared_of {S : Fp → Fp → Prop} (hm : ∀ x y : Fp, y = x ^ 7 → S x y)
    (hs : S ((other : Fp) + (Spec.rc 0 0 : Fp)) ((1 + (Spec.rc 0 0 : Fp)) ^ 7)) :
    Free.Hash (Free.Perm S) [(other : Fp)] (inputsHash Spec.poseidon [1]) := by
  obtain ⟨t, ⟨m, ⟨a, b, ⟨m', ⟨u, hu, rfl⟩, h1⟩, h2, h3⟩, ht⟩, ho⟩ := (Freedom.hash_graph [1] _).2 rfl
  refine ⟨t, ⟨m, ⟨a, b, ⟨_, ⟨u, fun j => ?_, rfl⟩, Freedom.rounds_mono (fun i s t => Freedom.fullRound_mono hm) h1⟩,
    Freedom.rounds_mono (fun i s t => Freedom.partialRound_mono hm) h2,
    Freedom.rounds_mono (fun i s t => Freedom.fullRound_mono hm) h3⟩, Freedom.absorb_mono
      (fun s t => Freedom.perm_mono hm) ht⟩, ho⟩
  by_cases hj : j = 0
  · subst hj
    rw [hu 0]
    exact hs
  · have e : Free.over (fun _ => 0) [(other : Fp)] j = Free.over (fun _ => 0) [(1 : Fp)] j := by
      match j, hj with
      | ⟨0, _⟩, hj => exact absurd rfl hj
      | ⟨k + 1, hk⟩, _ => rfl
    have := hm _ _ (hu j)
    change S (Free.over (fun _ => 0) [(1 : Fp)] j + _) _ at this
    change S (Free.over (fun _ => 0) [(other : Fp)] j + _) _
    rwa [e]

theorem free_accepts_of {S : Fp → Fp → Prop} (hm : ∀ x y : Fp, y = x ^ 7 → S x y)
    (hs : S ((other : Fp) + (Spec.rc 0 0 : Fp)) ((1 + (Spec.rc 0 0 : Fp)) ^ 7)) :
    Free.Accepts S (HonestProof.data 16) HonestProof.gates (HonestProof.vd 1) proof [(other : Fp)] := by
  obtain ⟨h, o, k, hh, hr, hc⟩ := (Freedom.accepts_graph _ _ _ _ _).2 accepts
  obtain rfl := (Freedom.hash_graph _ _).1 hh
  exact ⟨_, o, k, hash_shared_of hm hs, Freedom.run_mono (fun s t => Freedom.perm_mono hm) hr, hc⟩

/-- The code's circuit admits the proof for the other public input. -/
theorem free_accepts : Free.Accepts Free.SBox (HonestProof.data 16) HonestProof.gates (HonestProof.vd 1) proof
    [(other : Fp)] :=
  free_accepts_of (fun x y h => ⟨0, 0, by norm_num, by norm_num, by rw [h]; push_cast; ring⟩) sbox

end Verif.WitnessInputs
