import Verif.Proofs.NativeFree
import Verif.Proofs.FriComplete

/-!
# Property C101: exactly what the verifier enforces with native range checks
-/

set_option autoImplicit false

namespace Verif

open Circ PoseidonGL Challenger Verifier Spec.Verifier

namespace Native

variable {α β σ τ : Type}

/-! ## All challenges can be one -/

/-- Only ones wait to be squeezed. -/
def Ones (c : Chip) : Prop := c.inputBuffer.length < 8 ∧ ∀ x ∈ c.outputBuffer, x = 1

/-- The method can return `a`. -/
def OneM (m : ChipM α) (a : α) : Prop := ∀ c, Ones c → ∃ d, Ones d ∧ SatWith .native (m c) (a, d)

theorem OneM.pure (a : α) : OneM (pure a) a := fun c h => ⟨c, h, sat_pure _⟩

theorem OneM.bind {m : ChipM α} {f : α → ChipM β} {a : α} {b : β} (h : OneM m a) (hf : OneM (f a) b) :
    OneM (m >>= f) b := fun c hc => by
  obtain ⟨d, hd, h1⟩ := h c hc
  obtain ⟨e, he, h2⟩ := hf d hd
  exact ⟨e, he, (sat_bind _ _ _).2 ⟨(a, d), h1, h2⟩⟩

theorem OneM.lift {c : Circ α} {a : α} (h : den c = Pure.pure a) : OneM (StateT.lift c : ChipM α) a := fun s hs =>
  ⟨s, hs, (sat_bind _ _ _).2 ⟨a, of_den h, sat_pure _⟩⟩

theorem OneM.forM {f : σ → ChipM Unit} (h : ∀ x, OneM (f x) ()) (l : List σ) : OneM (l.forM f) () := by
  induction l with
  | nil => exact OneM.pure ()
  | cons x l ih => exact OneM.bind (h x) ih

theorem OneM.mapM {f : σ → ChipM β} {b : β} (h : ∀ x, OneM (f x) b) (l : List σ) :
    OneM (l.mapM f) (List.replicate l.length b) := by
  induction l with
  | nil => rw [List.mapM_nil]; exact OneM.pure _
  | cons x l ih =>
    rw [List.mapM_cons, List.length_cons, List.replicate_succ]
    exact OneM.bind (h x) (OneM.bind ih (OneM.pure _))

theorem one_duplexing (c : Chip) (h : c.inputBuffer.length ≤ 8) :
    SatWith .native (duplexing poseidon c) ((), ⟨fun _ => 1, [], List.replicate 8 1⟩) := by
  unfold duplexing
  rw [if_neg (by simpa [SPONGE_RATE] using h)]
  obtain ⟨i, -, hi⟩ := any_mapM c.inputBuffer
  exact (sat_bind _ _ _).2 ⟨i, hi, (sat_bind _ _ _).2 ⟨fun _ => 1, all_poseidon _ _, sat_pure _⟩⟩

theorem one_observe (x : Fr) : OneM (observeElement poseidon x) () := fun c hc => by
  unfold observeElement
  simp only
  split
  · rename_i h
    exact ⟨_, ⟨by simp, by simp⟩, one_duplexing _ (by rw [h]; simp [SPONGE_RATE])⟩
  · rename_i h
    refine ⟨_, ⟨?_, by simp⟩, sat_pure _⟩
    have := hc.1
    simp only [List.length_append, List.length_singleton, SPONGE_RATE] at h ⊢
    omega

theorem one_elements (l : List Fr) : OneM (observeElements poseidon l) () := OneM.forM (fun _ => one_observe _) l

theorem one_cap (cap : List Fr) : OneM (observeCap poseidon cap) () :=
  OneM.forM (fun h => OneM.bind (OneM.lift (PoseidonBN.den_toVec h)) (one_elements _)) cap

theorem one_exts (l : List QEV) : OneM (observeExtensionElements poseidon l) () :=
  OneM.forM (f := observeExtensionElement poseidon) (fun e => one_elements [e.1, e.2]) l

theorem one_get : OneM (getChallenge poseidon) 1 := fun c hc => by
  unfold getChallenge
  have key : ∃ d, Ones d ∧ d.outputBuffer ≠ [] ∧
      SatWith .native (if c.inputBuffer.length ≠ 0 ∨ c.outputBuffer.length = 0 then do
        let r ← duplexing poseidon c
        pure r.2
      else pure c) d := by
    split
    · exact ⟨_, ⟨by simp, by simp⟩, by simp, (sat_bind _ _ _).2 ⟨_, one_duplexing c hc.1.le, sat_pure _⟩⟩
    · rename_i h
      exact ⟨c, hc, fun e => h (.inr (by rw [e]; rfl)), sat_pure _⟩
  obtain ⟨d, hd, hn, h⟩ := key
  refine ⟨⟨d.spongeState, d.inputBuffer, d.outputBuffer.dropLast⟩, ⟨hd.1, fun x hx => hd.2 x (List.mem_of_mem_dropLast hx)⟩,
    (sat_bind _ _ _).2 ⟨d, h, ?_⟩⟩
  rw [List.getLast?_eq_some_getLast hn, hd.2 _ (List.getLast_mem hn)]
  exact sat_pure _

theorem one_gets (n : ℕ) : OneM (getNChallenges poseidon n) (List.replicate n 1) := by
  have := OneM.mapM (fun _ : ℕ => one_get) (List.range n)
  rwa [List.length_range] at this

theorem one_getExt : OneM (getExtensionChallenge poseidon) (1, 1) := OneM.bind (one_gets 2) (OneM.pure _)

/-- Challenges that are all one. -/
def ones (c : CommonCircuitData) (y : Proof Fp QE) : ProofChallenges Fp QE where
  plonkBetas := List.replicate c.config.numChallenges 1
  plonkGammas := List.replicate c.config.numChallenges 1
  plonkAlphas := List.replicate c.config.numChallenges 1
  plonkZeta := ⟨1, 1⟩
  friChallenges := ⟨⟨1, 1⟩, List.replicate y.openingProof.commitCaps.length ⟨1, 1⟩, 1,
    List.replicate c.config.friConfig.numQueryRounds 1⟩

theorem one_challenges (c : CommonCircuitData) (y : Proof Fp QE) (h : Fin 4 → Fr) (vd : VerifierOnlyCircuitData) :
    SatWith .native (getChallenges poseidon c y.enc h vd) (ones c y).enc := by
  have e : (ones c y).enc = ⟨List.replicate c.config.numChallenges 1, List.replicate c.config.numChallenges 1,
      List.replicate c.config.numChallenges 1, (1, 1), ⟨(1, 1), List.replicate y.openingProof.commitCaps.length (1, 1), 1,
        List.replicate c.config.friConfig.numQueryRounds 1⟩⟩ := by
    simp [ones, ProofChallenges.enc, FriChallenges.enc, embQ]
  have key : OneM (challengesM poseidon c y.enc h vd) (ones c y).enc := by
    rw [e]
    unfold challengesM getFriChallenges
    exact OneM.bind (OneM.bind (OneM.lift (PoseidonBN.den_toVec _)) (one_elements _)) <| OneM.bind (one_elements _) <|
      OneM.bind (one_cap _) <| OneM.bind (one_gets _) <| OneM.bind (one_gets _) <| OneM.bind (one_cap _) <|
      OneM.bind (one_gets _) <| OneM.bind (one_cap _) <| OneM.bind one_getExt <| OneM.bind (OneM.forM one_exts _) <|
      OneM.bind (OneM.bind one_getExt <| OneM.bind (OneM.mapM (fun cap => OneM.bind (one_cap cap) one_getExt) _) <|
        OneM.bind (one_exts _) <| OneM.bind (one_observe _) <| OneM.bind one_get <| OneM.bind (one_gets _) <| OneM.pure _) <|
      OneM.pure _
  obtain ⟨d, -, h1⟩ := key newChip ⟨by simp [newChip], by simp [newChip]⟩
  exact (sat_bind _ _ _).2 ⟨_, h1, sat_pure _⟩

theorem zeta_ne : (⟨1, 1⟩ : QE) ≠ 1 := by decide +kernel

/-- The hash of the public inputs can be zero (of the empty list it is). -/
theorem zero_hash (l : List Fr) : SatWith .native (getPublicInputsHash poseidon l) (fun _ => emb 0) := by
  by_cases hl : l = []
  · subst hl
    refine (sat_bind _ _ _).2 ⟨[], ?_, (sat_bind _ _ _).2 ⟨List.replicate 4 0, (sat_bind _ _ _).2 ⟨fun _ => 0, ?_, ?_⟩, ?_⟩⟩
    · rw [List.mapM_nil]; exact sat_pure _
    · rw [absorbLoop]; exact sat_pure _
    · rw [squeezeLoop, dif_pos (by simp [SPONGE_RATE])]
      exact sat_pure (List.replicate 4 (0 : Fr))
    · have : (fun _ => emb 0 : Fin 4 → Fr) = fun i : Fin 4 => (List.replicate 4 (0 : Fr)).getD i 0 := by
        funext i
        fin_cases i <;> simp
      rw [this]
      exact sat_pure _
  · exact all_hash _ hl _

/-! ## What the constraints imply -/

theorem post_native {Q : α → Prop} {c : Circ α} (h : Post Q c) {y : α} (hs : SatWith .native c y) : Q y := by
  obtain ⟨l, ho, -⟩ := hs
  induction c generalizing l with
  | ret a => obtain ⟨rfl, -⟩ := ho; exact h
  | hint n hh k ih => obtain ⟨v, ho⟩ := ho; exact ih v (h v) l ho
  | require b k ih => exact ih h l ho.2
  | check v n k ih => obtain ⟨l', -, ho⟩ := ho; exact ih h l' ho
  | panic m => exact ho.elim

theorem length_mapM {f : σ → ChipM β} {l : List σ} {c : Chip} {r : List β × Chip}
    (h : SatWith .native (l.mapM f c) r) : r.1.length = l.length := by
  induction l generalizing c r with
  | nil =>
    rw [List.mapM_nil] at h
    obtain ⟨_, ⟨rfl, -⟩, -⟩ := h
    rfl
  | cons x l ih =>
    rw [List.mapM_cons] at h
    obtain ⟨a, -, h⟩ := (sat_bind _ _ _).1 h
    obtain ⟨b, h1, h⟩ := (sat_bind _ _ _).1 h
    obtain ⟨_, ⟨rfl, -⟩, -⟩ := h
    simp [ih h1]

theorem indices_length {c : CommonCircuitData} {y : Proof Fr QEV} {h : Fin 4 → Fr} {vd : VerifierOnlyCircuitData}
    {ch : ProofChallenges Fr QEV} (hc : SatWith .native (getChallenges poseidon c y h vd) ch) :
    ch.friChallenges.queryIndices.length = c.config.friConfig.numQueryRounds := by
  obtain ⟨r, hr, h1⟩ := (sat_bind _ _ _).1 hc
  obtain ⟨_, ⟨rfl, -⟩, -⟩ := h1
  unfold challengesM at hr
  obtain ⟨_, -, hr⟩ := (sat_bind _ _ _).1 hr
  obtain ⟨_, -, hr⟩ := (sat_bind _ _ _).1 hr
  obtain ⟨_, -, hr⟩ := (sat_bind _ _ _).1 hr
  obtain ⟨_, -, hr⟩ := (sat_bind _ _ _).1 hr
  obtain ⟨_, -, hr⟩ := (sat_bind _ _ _).1 hr
  obtain ⟨_, -, hr⟩ := (sat_bind _ _ _).1 hr
  obtain ⟨_, -, hr⟩ := (sat_bind _ _ _).1 hr
  obtain ⟨_, -, hr⟩ := (sat_bind _ _ _).1 hr
  obtain ⟨_, -, hr⟩ := (sat_bind _ _ _).1 hr
  obtain ⟨_, -, hr⟩ := (sat_bind _ _ _).1 hr
  obtain ⟨f, hf, hr⟩ := (sat_bind _ _ _).1 hr
  obtain ⟨_, ⟨rfl, -⟩, -⟩ := hr
  unfold getFriChallenges at hf
  obtain ⟨_, -, hf⟩ := (sat_bind _ _ _).1 hf
  obtain ⟨_, -, hf⟩ := (sat_bind _ _ _).1 hf
  obtain ⟨_, -, hf⟩ := (sat_bind _ _ _).1 hf
  obtain ⟨_, -, hf⟩ := (sat_bind _ _ _).1 hf
  obtain ⟨_, -, hf⟩ := (sat_bind _ _ _).1 hf
  obtain ⟨i, hi, hf⟩ := (sat_bind _ _ _).1 hf
  obtain ⟨_, ⟨rfl, -⟩, -⟩ := hf
  have := length_mapM hi
  rwa [List.length_range] at this

theorem sliceFrom_eq {l r : List α} {n : ℕ} (h : SatWith .native (Fri.sliceFrom l n) r) : r = l.drop n := by
  unfold Fri.sliceFrom at h
  split at h
  · obtain ⟨_, ⟨rfl, -⟩, -⟩ := h; rfl
  · exact (not_panic h).elim

theorem merkle_opens {leaf : List Fr} {bits capBits : List Bool} {cap sibs : List Fr}
    (h : SatWith .native (Fri.verifyMerkleProofToCap leaf (bits.map bitF) (capBits.map bitF) cap sibs) ()) :
    Spec.Fri.Opens leaf bits sibs cap (Spec.Fri.bitsVal capBits) := by
  have h1 := (NoChecks.merkle _ _ _ _ _).sat h
  obtain ⟨⟨h2, h3⟩, h4⟩ := post_sat (post_verifyMerkle _ _ _ _ _) h1
  rw [List.length_map] at h2 h4
  exact ((den_eq_assert_iff _ _).1 (Fri.den_verifyMerkle' _ _ _ _ _ h2 h3 h4)).1.1 h1

theorem chain_opens {ch : FriChallenges Fr QEV} {proof : FriProof Fr QEV} {steps : List (FriQueryStep QEV)}
    {capBits : List Bool} (l : List ℕ) (hl : ∀ a ∈ l, a = 4) (k : ℕ) (bits : List Bool) (st : Fr × QEV) {z : Fri.RoundState}
    (h : SatWith .native ((l.zipIdx k).foldlM (Fri.reductionStep ch proof steps (capBits.map bitF)) (bits.map bitF, st)) z) :
    ∀ j < l.length, ∃ s cap, steps[k + j]? = some s ∧ proof.commitCaps[k + j]? = some cap ∧
      Spec.Fri.Opens (s.evals.flatMap fun e => [e.1, e.2]) (bits.drop (4 * (j + 1))) s.siblings cap (Spec.Fri.bitsVal capBits) := by
  induction l generalizing k bits st with
  | nil => exact fun j hj => absurd hj (by simp)
  | cons a l ih =>
    rw [List.zipIdx_cons, List.foldlM_cons] at h
    obtain ⟨st1, h1, h2⟩ := (sat_bind _ _ _).1 h
    have ha := hl a List.mem_cons_self
    subst ha
    obtain ⟨s, hs, h1⟩ := (sat_bind _ _ _).1 h1
    obtain ⟨cb, hcb, h1⟩ := (sat_bind _ _ _).1 h1
    obtain ⟨_, -, h1⟩ := (sat_bind _ _ _).1 h1
    rw [if_neg (by simp)] at h1
    obtain ⟨_, -, h1⟩ := (sat_bind _ _ _).1 h1
    obtain ⟨_, -, h1⟩ := (sat_bind _ _ _).1 h1
    obtain ⟨_, -, h1⟩ := (sat_bind _ _ _).1 h1
    obtain ⟨_, -, h1⟩ := (sat_bind _ _ _).1 h1
    obtain ⟨_, -, h1⟩ := (sat_bind _ _ _).1 h1
    obtain ⟨cap, hcap, h1⟩ := (sat_bind _ _ _).1 h1
    obtain ⟨_, hm, h1⟩ := (sat_bind _ _ _).1 h1
    obtain ⟨_, -, h1⟩ := (sat_bind _ _ _).1 h1
    obtain ⟨_, ⟨rfl, -⟩, -⟩ := h1
    have hcb := sliceFrom_eq hcb
    rw [← List.map_drop] at hcb
    subst hcb
    intro j hj
    cases j with
    | zero => exact ⟨s, cap, idx_eq hs, idx_eq hcap, merkle_opens hm⟩
    | succ j =>
      obtain ⟨s', cap', g1, g2, g3⟩ := ih (fun a ha => hl a (List.mem_cons_of_mem _ ha)) (k + 1) (bits.drop 4) _ h2 j
        (by simpa using hj)
      rw [show k + 1 + j = k + (j + 1) by omega] at g1 g2
      rw [List.drop_drop, show 4 + 4 * (j + 1) = 4 * (j + 1 + 1) by ring] at g3
      exact ⟨s', cap', g1, g2, g3⟩

theorem round_leaves {q : FriParams} {inst : InstanceInfo QEV} {ch : FriChallenges Fr QEV} {pre : List QEV}
    {caps : List (List Fr)} {proof : FriProof Fp QE} {x : Fr} {k : ℕ} {round : FriQueryRound Fp QE}
    (ha : ∀ a ∈ q.reductionArityBits, a = 4) (hl : round.steps.length = q.reductionArityBits.length)
    (h : SatWith .native (Fri.verifyQueryRound q inst ch pre caps proof.enc x k round.enc) ()) :
    q.reductionArityBits.length ≤ proof.commitCaps.length ∧ Leaves q caps proof round := by
  obtain ⟨_, -, h⟩ := (sat_bind _ _ _).1 h
  obtain ⟨x, -, h⟩ := (sat_bind _ _ _).1 h
  obtain ⟨b, hb, h⟩ := (sat_bind _ _ _).1 h
  obtain ⟨xb, hxb, h⟩ := (sat_bind _ _ _).1 h
  obtain ⟨cb, hcb, h⟩ := (sat_bind _ _ _).1 h
  obtain ⟨_, hi, h⟩ := (sat_bind _ _ _).1 h
  obtain ⟨_, -, h⟩ := (sat_bind _ _ _).1 h
  obtain ⟨_, -, h⟩ := (sat_bind _ _ _).1 h
  obtain ⟨_, hst, -⟩ := (sat_bind _ _ _).1 h
  set n := q.degreeBits + q.config.rateBits with hn
  have hb := (NoChecks.toBinary _ _).sat hb
  have hb2 : b = bitsLE 64 x.val := by
    have := den_toBinary 64 x
    by_cases hx : x.val < 2 ^ 64
    · rw [if_pos hx] at this
      exact (sat_of_den_pure this _).1 hb
    · rw [if_neg hx] at this
      exact absurd hb ((den_eq_fail_iff _).1 this _)
  unfold Fri.sliceTo at hxb
  split at hxb
  swap
  · exact (not_panic hxb).elim
  rename_i hn64
  obtain ⟨_, ⟨rfl, -⟩, -⟩ := hxb
  have hxb : b.take n = (Spec.Fri.lowBits n (x.val % 2 ^ n)).map bitF := by
    rw [hb2, bitsLE_length] at hn64
    rw [hb2, bitsLE_take, Fri.bitsLE_eq_lowBits, Nat.min_eq_left (by omega), Fri.lowBits_mod]
  rw [hxb, List.length_map, Fri.lowBits_length] at hcb
  rw [hxb] at hi hst
  split at hcb
  swap
  · exact (not_panic hcb).elim
  have hcb := sliceFrom_eq hcb
  rw [← List.map_drop] at hcb
  subst hcb
  obtain ⟨hl4, hi⟩ := ite_of hi
  have hch := chain_opens _ ha 0 _ _ hst
  refine ⟨?_, x.val % 2 ^ n, Nat.mod_lt _ (by positivity), fun ec hec => ?_, fun j s cap hs hc => ?_⟩
  · by_contra hlt
    obtain ⟨_, _, -, h2, -⟩ := hch proof.commitCaps.length (not_le.1 hlt)
    rw [Nat.zero_add] at h2
    have := (List.getElem?_eq_some_iff.1 h2).1
    exact lt_irrefl _ this
  · refine merkle_opens (forM_mem hi (ec.1.enc, ec.2) ?_)
    rw [FriQueryRound.enc, List.zip_map_left]
    exact List.mem_map.2 ⟨ec, hec, rfl⟩
  · have hj : j < q.reductionArityBits.length := hl ▸ (List.getElem?_eq_some_iff.1 hs).1
    obtain ⟨s', cap', h1, h2, h3⟩ := hch j hj
    rw [Nat.zero_add] at h1 h2
    rw [FriQueryRound.enc, List.getElem?_map, hs, Option.map_some, Option.some.injEq] at h1
    have h2 : some cap = some cap' := hc.symm.trans h2
    rw [Option.some.injEq] at h2
    subst h1 h2
    simp only [FriQueryStep.enc] at h3
    rw [Fri.flatten_eq] at h3
    exact h3

theorem shape_oracles {B E F G : Type} {q : FriParams} {inst : InstanceInfo F} {inst' : InstanceInfo G} {pr : FriProof B E}
    (e : inst.oracles = inst'.oracles) (h : Spec.Fri.ProofShape q inst pr) : Spec.Fri.ProofShape q inst' pr :=
  ⟨h.caps, fun r hr => ⟨e ▸ (h.rounds r hr).initial, (h.rounds r hr).steps⟩, h.final⟩

end Native

/-- **C101** exactly what the verifier enforces with native range checks, for canonical elements: sizes, the numbers of rounds, and
in every round openings of leaves of all commitments at the positions of one index.  Neither the public inputs nor the openings
matter. -/
theorem C101_exact_partial (c : CommonCircuitData) (gates : List Gates.Gate) (vd : VerifierOnlyCircuitData)
    (y : Proof Fp QE) (hf : Fits c gates vd y.enc) (pis : List Fr) :
    SatWith .native (verify poseidon c gates y.enc pis vd) () ↔
      Spec.Fri.ProofShape c.friParams (Spec.Fri.plonkInstance c 0) y.openingProof ∧
      c.friParams.config.numQueryRounds = y.openingProof.rounds.length ∧
      c.config.friConfig.numQueryRounds = y.openingProof.rounds.length ∧
      ∀ round ∈ y.openingProof.rounds, c.friParams.reductionArityBits.length ≤ y.openingProof.commitCaps.length ∧
        Native.Leaves c.friParams [vd.constantSigmasCap, y.wiresCap, y.plonkZsPartialProductsCap, y.quotientPolysCap]
          y.openingProof round := by
  have hf' := fits_enc hf
  have hd := hf'.domain
  have hdec := fun inst => Fri.decides_shape y.openingProof.enc inst c.friParams (by omega)
    (fun a ha => by rw [hf'.arities a ha]; norm_num) (by omega)
  have hrl : y.openingProof.enc.rounds.length = y.openingProof.rounds.length := by simp [FriProof.enc]
  constructor
  · intro h
    obtain ⟨_, -, h⟩ := (Native.sat_bind _ _ _).1 h
    obtain ⟨_, -, h⟩ := (Native.sat_bind _ _ _).1 h
    obtain ⟨ch, hch, h⟩ := (Native.sat_bind _ _ _).1 h
    obtain ⟨_, -, h⟩ := (Native.sat_bind _ _ _).1 h
    obtain ⟨inst, hinst, h⟩ := (Native.sat_bind _ _ _).1 h
    obtain ⟨_, -, hinst⟩ := (Native.sat_bind _ _ _).1 hinst
    obtain ⟨_, -, hinst⟩ := (Native.sat_bind _ _ _).1 hinst
    obtain ⟨_, ⟨rfl, -⟩, -⟩ := hinst
    obtain ⟨_, hv, h⟩ := (Native.sat_bind _ _ _).1 h
    obtain ⟨_, -, h⟩ := (Native.sat_bind _ _ _).1 h
    obtain ⟨h1, h⟩ := Native.ite_of h
    obtain ⟨pre, -, h⟩ := (Native.sat_bind _ _ _).1 h
    obtain ⟨h2, h⟩ := Native.ite_of h
    have h1 := (not_not.1 h1).trans hrl
    have h2 := not_not.1 h2
    have hsh : Spec.Fri.ProofShape c.friParams (Spec.Fri.plonkInstance c 0) y.openingProof := by
      by_contra hn
      refine (Native.post_native (Q := fun _ => False) (((hdec _).2 fun hs => hn ?_).post) hv)
      refine (Fri.proofShape_enc _ _ _).1 (Native.shape_oracles ?_ hs)
      rw [← Fri.instanceAt_eq]
      rfl
    refine ⟨hsh, h1, (Native.indices_length hch).symm.trans (h2.trans hrl), fun round hr => ?_⟩
    obtain ⟨k, hk, rfl⟩ := List.getElem_of_mem hr
    have hk' : k < ch.friChallenges.queryIndices.length := by rw [h2]; exact hrl.symm ▸ hk
    obtain ⟨r, h3, h4⟩ := (Native.sat_bind _ _ _).1 (Native.forM_mem h (ch.friChallenges.queryIndices[k], k)
      (List.mem_zipIdx_iff_getElem?.2 (List.getElem?_eq_getElem hk')))
    have h5 := Native.idx_eq h3
    have h6 : y.enc.openingProof.rounds[k]? = some (y.openingProof.rounds[k]).enc := by
      simp [Proof.enc, FriProof.enc, List.getElem?_eq_getElem hk]
    obtain rfl := Option.some.inj (h6.symm.trans h5)
    exact Native.round_leaves hf'.arities (hsh.rounds _ hr).steps.1 h4
  · rintro ⟨hsh, h1, h2, h3⟩
    set ch := Native.ones c y with hch
    have l1 : ch.plonkBetas.length = c.config.numChallenges := by simp [hch, Native.ones]
    have hsup := supported_of_fits hf' ch.plonkZeta
    have hsh' : Spec.Fri.ProofShape c.friParams (Spec.Fri.plonkInstance c ch.plonkZeta) y.openingProof :=
      Native.shape_oracles (by rw [← Fri.instanceAt_eq, ← Fri.instanceAt_eq]; rfl) hsh
    refine (Native.sat_bind _ _ _).2 ⟨(), Native.of_sat (((den_eq_assert_iff _ _).1 (den_rangeCheckProof y.enc)).1.2
      ((canonical_iff _).2 ⟨y, rfl⟩)), (Native.sat_bind _ _ _).2 ⟨_, Native.zero_hash pis, ?_⟩⟩
    refine (Native.sat_bind _ _ _).2 ⟨_, Native.one_challenges c y _ vd, ?_⟩
    refine (Native.sat_bind _ _ _).2 ⟨(), Native.sat_plonk (shape_of_fits hf' l1 (by simp [hch, Native.ones])
      (by simp [hch, Native.ones])) Native.zeta_ne fun _ => 0, ?_⟩
    refine (Native.sat_bind _ _ _).2 ⟨_, Native.of_den (Fri.den_getInstance c hf'.degree ch.plonkZeta), ?_⟩
    refine (Native.sat_bind _ _ _).2 ⟨(), ?_, (Native.sat_bind _ _ _).2 ⟨(), Native.check_out _ _, ?_⟩⟩
    · have := (hdec (Spec.Fri.plonkInstance c ch.plonkZeta).enc).1 ((Fri.proofShape_enc _ _ _).2 hsh')
      exact this ▸ Native.sat_pure ()
    · have hrl' : y.enc.openingProof.rounds.length = y.openingProof.rounds.length := hrl
      rw [if_neg (not_not.2 (h1.trans hrl'.symm))]
      refine (Native.sat_bind _ _ _).2 ⟨_, Native.of_den (by
        have := Fri.den_fromOpenings (Fri.toOpenings y.openings) ch.friChallenges.alpha
        rw [← Fri.toOpenings_enc] at this
        exact this), ?_⟩
      have hq : ch.friChallenges.queryIndices.length = y.openingProof.rounds.length := by simp [hch, Native.ones, h2]
      have hq' : ch.enc.friChallenges.queryIndices.length = y.openingProof.rounds.length := by
        rw [← hq]; simp [ProofChallenges.enc, FriChallenges.enc]
      simp only
      rw [if_neg (not_not.2 (hq'.trans hrl'.symm))]
      refine Native.sat_forM fun xi hxi => ?_
      have hi : xi.2 < y.openingProof.rounds.length := by
        have := (List.getElem?_eq_some_iff.1 (List.mem_zipIdx_iff_getElem?.1 hxi)).1
        rwa [hq'] at this
      have hr := List.getElem_mem hi
      refine (Native.sat_bind _ _ _).2 ⟨(y.openingProof.rounds[xi.2]).enc, Native.of_den (den_idx_some ?_), ?_⟩
      · simp [Proof.enc, FriProof.enc, List.getElem?_eq_getElem hi]
      · refine Native.sat_round (Fri.roundFits_of hsup ?_ (h3 _ hr).1 hsh' hr) ?_ ?_ (h3 _ hr).2 _ (by simp) _
        · have := (h3 _ hr).1
          simpa [hch, Native.ones] using this
        · rw [← Fri.instanceAt_eq]
          exact List.cons_ne_nil _ _
        · refine List.ne_nil_of_length_pos ?_
          rw [hsh.final.2]
          positivity

/-- The conditions hold for the honest proof, and with other openings. -/
example (w f : QE) (k : Fp) : let y := Native.tampered (Witness.proof 15684767761658159738 13113) w f k
    ∀ round ∈ y.openingProof.rounds, Native.Leaves (HonestProof.data 16).friParams
      [(HonestProof.vd 1).constantSigmasCap, y.wiresCap, y.plonkZsPartialProductsCap, y.quotientPolysCap] y.openingProof round := by
  intro y round hr
  have hf : Fits (HonestProof.data 16) HonestProof.gates (HonestProof.vd 1) (Witness.proof 15684767761658159738 13113) :=
    HonestProof.fits (b := 16) (by norm_num) 1 Witness.zeta Witness.alpha 15684767761658159738 ((13113 : ℕ) : Fp)
  have := C101_openings_violated _ _ _ _ (fits_to_enc hf) [] (C58_complete _ _ _ _ (fits_to_enc hf) [] Witness.accepts_honest)
    _ (fits_to_enc (Native.fits hf w f k)) (Native.sameLeaves _ w f k) [0] (by simp)
  exact (((C101_exact_partial _ _ _ _ (fits_to_enc (Native.fits hf w f k)) [0]).1 this).2.2.2 round hr).2

end Verif
