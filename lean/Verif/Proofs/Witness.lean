import Verif.Proofs.Evaluate
import Verif.Proofs.Forged
import Verif.Proofs.Misaligned

/-!
# Concrete proofs with the transcripts of the Poseidon permutation

The circuit of `HonestProof` with 16 bits of proof of work: an honest proof, one that the textbook verifier rejects although
it satisfies the code's circuit, and a proof of a false statement with misaligned openings.
-/

set_option autoImplicit false

namespace Verif.Witness

open Spec Spec.Verifier Evaluate

/-! ## Transcripts of the proofs -/

/-- Absorbed values: hash of the public inputs, three caps, coordinates of openings and final polynomial, proof-of-work
witness. -/
def phasesOf (hn wc zc qc o fin : List ℕ) (w : ℕ) : List (List ℕ × ℕ) :=
  [(limbsN 1 ++ hn ++ wc.flatMap limbsN, 2), (zc.flatMap limbsN, 1), (qc.flatMap limbsN, 2), (o, 2),
    (fin ++ [w], 2)]

theorem outputs_proof_of {f : List ℕ → List ℕ} {P : (Fin 12 → Fp) → Fin 12 → Fp} (hf : Runs f P)
    (x : Proof Fp QE) (pih : Fin 4 → Fp) (hn wc zc qc o fin : List ℕ) (w : ℕ)
    (h0 : List.ofFn pih = hn.map ((↑) : ℕ → Fp))
    (h1 : x.wiresCap = wc.map ((↑) : ℕ → Fr)) (h2 : x.plonkZsPartialProductsCap = zc.map ((↑) : ℕ → Fr))
    (h3 : x.quotientPolysCap = qc.map ((↑) : ℕ → Fr))
    (h4 : (coords (x.openings.constants ++ x.openings.plonkSigmas ++ x.openings.wires ++ x.openings.plonkZs ++
      x.openings.partialProducts ++ x.openings.quotientPolys ++ x.openings.plonkZsNext)).map residue =
        o.map ((↑) : ℕ → Fp))
    (h5 : (coords x.openingProof.finalPoly).map residue = fin.map ((↑) : ℕ → Fp)) (h6 : x.openingProof.powWitness = w)
    (h7 : x.openingProof.commitCaps = []) (hr : ∀ h ∈ wc ++ zc ++ qc, h < r)
    (hl : ∀ a ∈ phasesOf hn wc zc qc o fin w, a.1 ≠ [] ∧ 0 < a.2 ∧ a.2 ≤ 8 ∧ ∀ x ∈ a.1, x < p) (out : List ℕ)
    (ho : outN f (List.replicate 12 0) (phasesOf hn wc zc qc o fin w) = out) :
    challenges P 1 1 1 pih x = challengesOf 1 0 (out.map ((↑) : ℕ → Fp)) := by
  have ht : transcript 1 1 1 pih x = events
      [(limbs 1 ++ (List.ofFn pih).map emb ++ capElems x.wiresCap, 2),
        (capElems x.plonkZsPartialProductsCap, 1), (capElems x.quotientPolysCap, 2),
        (coords (x.openings.constants ++ x.openings.plonkSigmas ++ x.openings.wires ++ x.openings.plonkZs ++
          x.openings.partialProducts ++ x.openings.quotientPolys ++ x.openings.plonkZsNext), 2),
        (coords x.openingProof.finalPoly ++ [emb x.openingProof.powWitness], 2)] := by
    have e : squeezes 2 = squeezes 1 ++ squeezes 1 := rfl
    rw [transcript, h7]
    simp only [events, List.flatMap_cons, List.flatMap_nil, List.append_nil, List.append_assoc]
    conv_rhs => rw [e]
    simp only [List.append_assoc]
    rfl
  rw [challenges, h7, ht, outputs_init hf _ (phasesOf hn wc zc qc o fin w) ?_ hl, ho]
  · rfl
  · have e1 : (limbs 1).map residue = (limbsN 1).map ((↑) : ℕ → Fp) := by
      have := limbs_natCast (h := 1) (by norm_num [r])
      rwa [Nat.cast_one] at this
    have e2 : ((List.ofFn pih).map emb).map residue = hn.map ((↑) : ℕ → Fp) := by
      rw [← h0, List.map_map]
      exact (List.map_congr_left fun x _ => Challenger.residue_emb x).trans (List.map_id _)
    have c1 := capElems_natCast (l := wc) fun h hh => hr h (by simp [hh])
    have c2 := capElems_natCast (l := zc) fun h hh => hr h (by simp [hh])
    have c3 := capElems_natCast (l := qc) fun h hh => hr h (by simp [hh])
    simp only [phasesOf, List.map_cons, List.map_nil, List.map_append, h1, h2, h3, h4, h5, h6, e1, e2, c1, c2, c3,
      Challenger.residue_emb]

/-- The same without public inputs. -/
abbrev phases (wc zc qc o fin : List ℕ) (w : ℕ) : List (List ℕ × ℕ) := phasesOf [0, 0, 0, 0] wc zc qc o fin w

theorem outputs_proof {f : List ℕ → List ℕ} {P : (Fin 12 → Fp) → Fin 12 → Fp} (hf : Runs f P)
    (x : Proof Fp QE) (wc zc qc o fin : List ℕ) (w : ℕ)
    (h1 : x.wiresCap = wc.map ((↑) : ℕ → Fr)) (h2 : x.plonkZsPartialProductsCap = zc.map ((↑) : ℕ → Fr))
    (h3 : x.quotientPolysCap = qc.map ((↑) : ℕ → Fr))
    (h4 : (coords (x.openings.constants ++ x.openings.plonkSigmas ++ x.openings.wires ++ x.openings.plonkZs ++
      x.openings.partialProducts ++ x.openings.quotientPolys ++ x.openings.plonkZsNext)).map residue =
        o.map ((↑) : ℕ → Fp))
    (h5 : (coords x.openingProof.finalPoly).map residue = fin.map ((↑) : ℕ → Fp)) (h6 : x.openingProof.powWitness = w)
    (h7 : x.openingProof.commitCaps = []) (hr : ∀ h ∈ wc ++ zc ++ qc, h < r)
    (hl : ∀ a ∈ phases wc zc qc o fin w, a.1 ≠ [] ∧ 0 < a.2 ∧ a.2 ≤ 8 ∧ ∀ x ∈ a.1, x < p) (out : List ℕ)
    (ho : outN f (List.replicate 12 0) (phases wc zc qc o fin w) = out) :
    challenges P 1 1 1 (fun _ => 0) x = challengesOf 1 0 (out.map ((↑) : ℕ → Fp)) :=
  outputs_proof_of hf x _ _ wc zc qc o fin w (by simp [List.ofFn_succ]) h1 h2 h3 h4 h5 h6 h7 hr hl out ho

theorem leaf_one (a : Fp) : BN.leaf [emb a] = ((a.val : ℕ) : Fr) := by
  rw [BN.leaf, if_pos (by simp), BN.pack]
  simp [emb]

theorem inputsHash_nil (P : (Fin 12 → Fp) → Fin 12 → Fp) : inputsHash P [] = fun _ => 0 := by
  funext i
  fin_cases i <;> rfl

/-! ## The honest circuit -/

/-- Zeta, FRI alpha and its cube. -/
def zeta : QE := ⟨(7184712200184408494 : ℕ), (17878802511388038936 : ℕ)⟩
def alpha : QE := ⟨(4769185440936456846 : ℕ), (8504986764584718177 : ℕ)⟩

theorem alpha_cube : alpha ^ 3 = ⟨(10831128567697802375 : ℕ), (4139155901351739155 : ℕ)⟩ := by
  decide +kernel

/-- A proof for the query index `v` and the witness `w` of the proof of work. -/
noncomputable def proof (v w : ℕ) : Proof Fp QE := HonestProof.proof zeta alpha v (w : Fp)

/-- Coordinates of its openings. -/
def openN : List ℕ := [0, 0, 11, 0, 7184712200184408494, 17878802511388038936, 11, 0, 1, 0, 0, 0, 1, 0]

/-- Coordinates of its final polynomial. -/
def finN : List ℕ := [10831128567697802375, 4139155901351739155, 0, 0, 0, 0, 0, 0]

/-- What is absorbed. -/
def absorbedN (w : ℕ) : List (List ℕ × ℕ) :=
  phases (List.replicate 16 11) (List.replicate 16 1) (List.replicate 16 0) openN finN w

theorem constCap_eq (a : ℕ) (h : a < p) :
    HonestProof.constCap (a : Fp) = (List.replicate 16 a).map ((↑) : ℕ → Fr) := by
  rw [HonestProof.constCap, leaf_one, ZMod.val_natCast_of_lt h, List.map_replicate]

theorem coords_openings : (coords ([0, 11] ++ [zeta] ++ [11] ++ [1] ++ [] ++ [0] ++ [1])).map residue =
    openN.map ((↑) : ℕ → Fp) := by
  simp only [coords, List.cons_append, List.nil_append, List.flatMap_cons, List.flatMap_nil, List.map_cons, List.map_nil,
    Challenger.residue_emb, openN]
  decide +kernel

theorem coords_final : (coords [alpha ^ 3, 0, 0, 0]).map residue = finN.map ((↑) : ℕ → Fp) := by
  rw [alpha_cube]
  simp only [coords, List.cons_append, List.nil_append, List.flatMap_cons, List.flatMap_nil, List.map_cons, List.map_nil,
    Challenger.residue_emb, finN]
  decide +kernel

theorem finN_lt : ∀ x ∈ finN, x < p := by decide +kernel

theorem challenges_proof {f : List ℕ → List ℕ} {P : (Fin 12 → Fp) → Fin 12 → Fp} (hf : Runs f P) (v w : ℕ) (hw : w < p)
    (out : List ℕ) (ho : outN f (List.replicate 12 0) (absorbedN w) = out) :
    challenges P 1 1 1 (fun _ => 0) (proof v w) = challengesOf 1 0 (out.map ((↑) : ℕ → Fp)) := by
  refine outputs_proof hf _ (List.replicate 16 11) (List.replicate 16 1) (List.replicate 16 0) openN finN w ?_ ?_ ?_
    coords_openings coords_final rfl rfl ?_ ?_ out ho
  · have := constCap_eq 11 (by norm_num [p])
    rwa [show ((11 : ℕ) : Fp) = 11 from rfl] at this
  · have := constCap_eq 1 (by norm_num [p])
    rwa [Nat.cast_one] at this
  · have := constCap_eq 0 (by norm_num [p])
    rwa [Nat.cast_zero] at this
  · decide +kernel
  · intro a ha
    simp only [phases, phasesOf, List.mem_cons, List.not_mem_nil, or_false] at ha
    rcases ha with rfl | rfl | rfl | rfl | rfl
    · decide +kernel
    · decide +kernel
    · decide +kernel
    · decide +kernel
    · refine ⟨by simp, by norm_num, by norm_num, fun x hx => ?_⟩
      rcases List.mem_append.1 hx with hx | hx
      · exact finN_lt x hx
      · rw [List.mem_singleton.1 hx]; exact hw

set_option maxRecDepth 100000 in
theorem out_honest : outN permN (List.replicate 12 0) (absorbedN 13113) =
    [5862334263952356564, 7949305291151115394, 4593859063405505687, 7184712200184408494, 17878802511388038936,
    4769185440936456846, 8504986764584718177, 163362155925363, 15684767761658159738] := by
  decide +kernel

set_option maxRecDepth 100000 in
theorem out_rejected : outN permN (List.replicate 12 0) (absorbedN 2771) =
    [5862334263952356564, 7949305291151115394, 4593859063405505687, 7184712200184408494, 17878802511388038936,
    4769185440936456846, 8504986764584718177, 3159011499705051827, 3767518617905052558] := by
  decide +kernel

/-- The last state permuted in the transcript of the second proof. -/
def lastN : List ℕ :=
  [2771, 4909568903719483622, 12134056831599836333, 8809727073632577756, 15438663849522849363, 9671527981417168488,
  12755120476334427411, 452632286981822201, 2824617515824691955, 7230014388228701293, 8873029121960574676,
  16812728096485436993]

/-- An admitted output for it. -/
def wrongN : List ℕ :=
  [4467799413147958368, 18160073653449073741, 7945663996827501485, 6938535910799298215, 3300423472376663627,
  7333722244297286505, 14818387758930944266, 257548154887652, 11905869456688201045, 17508815982200507737,
  7191038003525060274, 17215181329451262425]

theorem canon_last : Canon lastN := ⟨rfl, by decide +kernel⟩
theorem canon_wrong : Canon wrongN := ⟨rfl, by decide +kernel⟩

set_option maxRecDepth 100000 in
theorem out_forged : outN (permN' lastN wrongN) (List.replicate 12 0) (absorbedN 2771) =
    [5862334263952356564, 7949305291151115394, 4593859063405505687, 7184712200184408494, 17878802511388038936,
    4769185440936456846, 8504986764584718177, 257548154887652, 14818387758930944266] := by
  decide +kernel

set_option maxRecDepth 100000 in
theorem wrong_eq (i : Fin 12) :
    toSt wrongN i = Spec.poseidon (toSt lastN) i + (mds i 0 : Fp) * ((4 : ℕ) * (r : Fp)) := by
  have h : ∀ i : Fin 12, wrongN.getD i 0 = ((permN lastN).getD i 0 + mds i 0 * (4 * r)) % p := by decide +kernel
  rw [← (toSt_permN canon_last.length).2, toSt, toSt, h i, ZMod.natCast_mod]
  push_cast
  rfl

theorem perm'_sat (s : Fin 12 → Fp) :
    Circ.Sat (PoseidonGL.poseidon fun i => emb (s i)) fun i => emb (perm' lastN wrongN s i) := by
  by_cases h : s = toSt lastN
  · subst h
    have := PoseidonGL.sat_poseidon_wrong (toSt lastN) (k := 4) (le_refl 4)
    rw [perm', if_pos rfl]
    simpa only [wrong_eq] using this
  · rw [perm', if_neg h]
    have := PoseidonGL.sat_poseidon_wrong s (k := 0) (by norm_num)
    simpa only [Nat.cast_zero, zero_mul, mul_zero, add_zero] using this

/-- The first proof is accepted by the textbook verifier. -/
theorem accepts_honest :
    Accepts Spec.poseidon (HonestProof.data 16) HonestProof.gates (HonestProof.vd 1) (proof 15684767761658159738 13113)
      [] := by
  show Checks _ _ _ _ (inputsHash Spec.poseidon []) (challenges Spec.poseidon 1 1 1 (inputsHash Spec.poseidon []) _)
  rw [inputsHash_nil, challenges_proof runs_permN _ _ (by norm_num [p]) _ out_honest]
  have hv : ((15684767761658159738 : ℕ) : Fp).val = 15684767761658159738 :=
    ZMod.val_natCast_of_lt (by norm_num [p])
  have := HonestProof.checks (b := 16) 1 (challengesOf 1 0 (List.map ((↑) : ℕ → Fp)
    [5862334263952356564, 7949305291151115394, 4593859063405505687, 7184712200184408494, 17878802511388038936,
    4769185440936456846, 8504986764584718177, 163362155925363, 15684767761658159738])) ((13113 : ℕ) : Fp)
    (fun _ => 0) (by decide +kernel) (by decide +kernel) ((15684767761658159738 : ℕ) : Fp) rfl
  rw [hv] at this
  exact this

/-- The second proof is accepted if the permutation has the wrong output for the last state. -/
theorem accepts_forged :
    Accepts (perm' lastN wrongN) (HonestProof.data 16) HonestProof.gates (HonestProof.vd 1)
      (proof 14818387758930944266 2771) [] := by
  show Checks _ _ _ _ (inputsHash (perm' lastN wrongN) [])
    (challenges (perm' lastN wrongN) 1 1 1 (inputsHash (perm' lastN wrongN) []) _)
  rw [inputsHash_nil, challenges_proof (runs_permN' canon_last canon_wrong) _ _ (by norm_num [p]) _ out_forged]
  have hv : ((14818387758930944266 : ℕ) : Fp).val = 14818387758930944266 :=
    ZMod.val_natCast_of_lt (by norm_num [p])
  have := HonestProof.checks (b := 16) 1 (challengesOf 1 0 (List.map ((↑) : ℕ → Fp)
    [5862334263952356564, 7949305291151115394, 4593859063405505687, 7184712200184408494, 17878802511388038936,
    4769185440936456846, 8504986764584718177, 257548154887652, 14818387758930944266])) ((2771 : ℕ) : Fp)
    (fun _ => 0) (by decide +kernel) (by decide +kernel) ((14818387758930944266 : ℕ) : Fp) rfl
  rw [hv] at this
  exact this

/-- It is rejected by the textbook verifier, whatever the query index: not enough proof of work. -/
theorem rejected (v : ℕ) :
    ¬ Accepts Spec.poseidon (HonestProof.data 16) HonestProof.gates (HonestProof.vd 1) (proof v 2771) [] := by
  intro h
  have h1 : (challenges Spec.poseidon 1 1 1 (inputsHash Spec.poseidon []) (proof v 2771)).friChallenges.powResponse.val <
    2 ^ (64 - 16) := h.fri.pow
  rw [inputsHash_nil, challenges_proof runs_permN _ _ (by norm_num [p]) _ out_rejected] at h1
  revert h1
  decide +kernel

/-! ## Misaligned openings -/

/-- Zeta and FRI alpha. -/
def zeta1 : QE := ⟨(13986927006387446012 : ℕ), (8677834525950471285 : ℕ)⟩
def alpha1 : QE := ⟨(5102323245961647108 : ℕ), (7484750760766489245 : ℕ)⟩

theorem alpha1_pow : alpha1 ^ 3 + alpha1 ^ 4 = ⟨(10520355621130844792 : ℕ), (17847633388808201873 : ℕ)⟩ := by
  decide +kernel

/-- Domain points. -/
def pointsN : List ℕ :=
  [7, 18446744069414584314, 1970324836974592, 18444773744577609729, 18446744069297143809, 117440512,
  18446736372833191681, 7696581392640, 10376293537166655489, 8070450532247928832, 28672, 18446744069414555649,
  31525197384253440, 18415218872030330881, 18446743588378247169, 481036337152]

theorem omega_four : Spec.Fri.omega 4 = ((17293822564807737345 : ℕ) : Fp) := by
  have h : powMod 29 1753635133440165772 (2 ^ 28) p = 17293822564807737345 := by decide +kernel
  rw [powMod_eq 29 _ _ _ (by norm_num)] at h
  rw [← h, ZMod.natCast_mod, Nat.cast_pow]
  rfl

theorem points_eq : (List.range 16).map (fun v => (HonestProof.point v).val) = pointsN := by
  simp only [HonestProof.point, Spec.Fri.queryPoint, omega_four]
  decide +kernel

theorem xCap_eq : Misaligned.xCap = pointsN.map ((↑) : ℕ → Fr) := by
  rw [← points_eq, List.map_map, Misaligned.xCap]
  exact List.map_congr_left fun v _ => leaf_one _

/-- The proof. -/
noncomputable def badProof : Proof Fp QE := Misaligned.badProof zeta1 alpha1 4343995409236136498 ((64011 : ℕ) : Fp)

/-- Coordinates of its openings. -/
def openN1 : List ℕ := [0, 0, 1, 0, 13986927006387446012, 8677834525950471285, 13986927006387446012, 8677834525950471285,
  1, 0, 1, 0, 0, 0, 1, 0]

/-- Coordinates of its final polynomial. -/
def finN1 : List ℕ := [10520355621130844792, 17847633388808201873, 0, 0, 0, 0, 0, 0]

theorem coords_openings1 : (coords ([0, 1, zeta1] ++ [zeta1] ++ [1] ++ [1] ++ [] ++ [0] ++ [1])).map residue =
    openN1.map ((↑) : ℕ → Fp) := by
  simp only [coords, List.cons_append, List.nil_append, List.flatMap_cons, List.flatMap_nil, List.map_cons, List.map_nil,
    Challenger.residue_emb, openN1]
  decide +kernel

theorem coords_final1 : (coords [alpha1 ^ 3 + alpha1 ^ 4, 0, 0, 0]).map residue = finN1.map ((↑) : ℕ → Fp) := by
  rw [alpha1_pow]
  simp only [coords, List.cons_append, List.nil_append, List.flatMap_cons, List.flatMap_nil, List.map_cons, List.map_nil,
    Challenger.residue_emb, finN1]
  decide +kernel

set_option maxRecDepth 100000 in
theorem out_bad : outN permN (List.replicate 12 0)
    (phases pointsN (List.replicate 16 1) (List.replicate 16 1) openN1 finN1 64011) =
    [5512988680099129739, 4628508896493908347, 1068858905608548680, 13986927006387446012, 8677834525950471285,
    5102323245961647108, 7484750760766489245, 276007650639319, 4343995409236136498] := by
  decide +kernel

theorem challenges_bad : challenges Spec.poseidon 1 1 1 (fun _ => 0) badProof = challengesOf 1 0 (List.map ((↑) : ℕ → Fp)
    [5512988680099129739, 4628508896493908347, 1068858905608548680, 13986927006387446012, 8677834525950471285,
    5102323245961647108, 7484750760766489245, 276007650639319, 4343995409236136498]) := by
  have h1 := constCap_eq 1 (by norm_num [p])
  rw [Nat.cast_one] at h1
  refine outputs_proof runs_permN _ pointsN (List.replicate 16 1) (List.replicate 16 1) openN1 finN1 64011 xCap_eq h1 h1
    coords_openings1 coords_final1 rfl rfl ?_ ?_ _ out_bad
  · decide +kernel
  · decide +kernel

/-- It is accepted, although the committed wire is `X`. -/
theorem accepts_bad :
    Accepts Spec.poseidon (HonestProof.data 16) HonestProof.gates (Misaligned.vd1 1) badProof [] := by
  show Checks _ _ _ _ (inputsHash Spec.poseidon []) (challenges Spec.poseidon 1 1 1 (inputsHash Spec.poseidon []) _)
  rw [inputsHash_nil, challenges_bad]
  have hv : ((4343995409236136498 : ℕ) : Fp).val = 4343995409236136498 := ZMod.val_natCast_of_lt (by norm_num [p])
  have := Misaligned.checks (b := 16) 1 (challengesOf 1 0 (List.map ((↑) : ℕ → Fp)
    [5512988680099129739, 4628508896493908347, 1068858905608548680, 13986927006387446012, 8677834525950471285,
    5102323245961647108, 7484750760766489245, 276007650639319, 4343995409236136498])) ((64011 : ℕ) : Fp)
    (fun _ => 0) (by decide +kernel) (by decide +kernel) ((4343995409236136498 : ℕ) : Fp) rfl
  rw [hv] at this
  exact this

end Verif.Witness
