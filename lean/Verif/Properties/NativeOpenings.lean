import Verif.Properties.Native
import Verif.Properties.Freedom

/-!
# Property C101, continued: what a proof may contain with native range checks

An accepted proof stays accepted with other openings, another final polynomial, another proof-of-work witness and other
public inputs: all that remains of the checks is the opening of Merkle leaves.
-/

set_option autoImplicit false

namespace Verif

open Circ PoseidonGL Challenger Verifier Spec.Verifier

namespace Native

variable {α β σ τ : Type}

/-- What satisfies the first circuit satisfies the second. -/
def Imp (c d : Circ α) : Prop := ∀ y, SatWith .native c y → SatWith .native d y

theorem Imp.refl (c : Circ α) : Imp c c := fun _ h => h

theorem Imp.bind {c d : Circ α} {f g : α → Circ β} (h : Imp c d) (hf : ∀ a, Imp (f a) (g a)) : Imp (c >>= f) (d >>= g) :=
  fun y hy => by
    obtain ⟨a, h1, h2⟩ := (sat_bind _ _ _).1 hy
    exact (sat_bind _ _ _).2 ⟨a, h a h1, hf a y h2⟩

theorem Imp.of_all {c d : Circ α} (h : All d) : Imp c d := fun y _ => h y

theorem Imp.panic {s : String} {d : Circ α} : Imp (goPanic s) d := fun y hy => by
  obtain ⟨l, h, -⟩ := hy
  exact h.elim

theorem Imp.mapM {f : σ → Circ β} {g : τ → Circ β} {l : List σ} {m : List τ} (h : List.Forall₂ (fun x y => Imp (f x) (g y)) l m) :
    Imp (l.mapM f) (m.mapM g) := by
  induction h with
  | nil => exact Imp.refl _
  | cons h _ ih =>
    rw [List.mapM_cons, List.mapM_cons]
    exact Imp.bind h fun _ => Imp.bind ih fun _ => Imp.refl _

theorem Imp.forM {f g : σ → Circ Unit} (h : ∀ x, Imp (f x) (g x)) (l : List σ) : Imp (l.forM f) (l.forM g) := by
  induction l with
  | nil => exact Imp.refl _
  | cons x l ih => exact Imp.bind (h x) fun _ => ih

theorem all_foldlM [Inhabited α] {f : α → σ → Circ α} (h : ∀ a c, All (f a c)) {l : List σ} (hl : l ≠ []) (a : α) :
    All (l.foldlM f a) := by
  obtain ⟨l', x, rfl⟩ := List.eq_nil_or_concat l |>.resolve_left hl
  rw [List.concat_eq_append, List.foldlM_append]
  refine (any_foldlM _ (fun a c => (h a c).any) a).all fun b y => ?_
  rw [List.foldlM_cons]
  exact (sat_bind _ _ _).2 ⟨y, h _ _ y, sat_pure y⟩

theorem all_reduceExt (x : QEV) : All (reduceExt x) := fun y =>
  (sat_bind _ _ _).2 ⟨y.1, all_reduce _ _ _, (sat_bind _ _ _).2 ⟨y.2, all_reduce _ _ _, sat_pure y⟩⟩

theorem imp_reduceWithPowers {l m : List QEV} (h : l.length = m.length) (s : QEV) :
    Imp (reduceWithPowers l s) (reduceWithPowers m s) := by
  rcases m.eq_nil_or_concat with rfl | hm
  · rw [List.length_eq_zero_iff.1 h]
    exact Imp.refl _
  · refine Imp.of_all (all_foldlM (fun _ _ => all_reduceExt _) ?_ _)
    obtain ⟨a, b, rfl⟩ := hm
    simp

theorem imp_finalPolyEval {l m : List QEV} (h : l.length = m.length) (s : QEV) :
    Imp (Fri.finalPolyEval l s) (Fri.finalPolyEval m s) := by
  rcases m.eq_nil_or_concat with rfl | hm
  · rw [List.length_eq_zero_iff.1 h]
    exact Imp.refl _
  · refine Imp.of_all (all_foldlM (fun _ _ => all_reduceExt _) ?_ _)
    obtain ⟨a, b, rfl⟩ := hm
    simp

/-! ## FRI -/

theorem imp_fri {q : FriParams} {inst : InstanceInfo QEV} {o o' : List (List QEV)} {ch : FriChallenges Fr QEV}
    {caps : List (List Fr)} {pr pr' : FriProof Fr QEV} (h1 : pr'.commitCaps = pr.commitCaps) (h2 : pr'.rounds = pr.rounds)
    (h3 : pr.finalPoly.length = pr'.finalPoly.length)
    (ho : List.Forall₂ (fun a b : List QEV => a.length = b.length) o o') :
    Imp (Fri.verifyFriProof q inst o ch caps pr) (Fri.verifyFriProof q inst o' ch caps pr') := by
  have hv : Fri.validateFriProofShape pr' inst q = Fri.validateFriProofShape pr inst q := by
    unfold Fri.validateFriProofShape
    rw [h1, h2, h3]
  have hr : Fri.reductionStep ch pr' = Fri.reductionStep ch pr := by
    unfold Fri.reductionStep
    rw [h1]
  unfold Fri.verifyFriProof
  rw [hv, h2]
  refine Imp.bind (Imp.refl _) fun _ => Imp.bind (Imp.refl _) fun _ => ?_
  split
  · exact Imp.panic
  · refine Imp.bind (Imp.mapM (ho.imp fun _ _ h => imp_reduceWithPowers h _)) fun pre => ?_
    simp only
    split
    · exact Imp.panic
    · refine Imp.forM (fun xi => Imp.bind (Imp.refl _) fun r => ?_) _
      unfold Fri.verifyQueryRound
      rw [hr]
      exact Imp.bind (Imp.refl _) fun _ => Imp.bind (Imp.refl _) fun _ => Imp.bind (Imp.refl _) fun _ =>
        Imp.bind (Imp.refl _) fun _ => Imp.bind (Imp.refl _) fun _ => Imp.bind (Imp.refl _) fun _ =>
        Imp.bind (Imp.refl _) fun _ => Imp.bind (Imp.refl _) fun _ => Imp.bind (Imp.refl _) fun _ =>
        Imp.bind (imp_finalPolyEval h3 _) fun _ => Imp.refl _

/-! ## Transcript -/

/-- Buffers of equal lengths, the same elements waiting to be squeezed. -/
def Sim (c d : Chip) : Prop := c.inputBuffer.length = d.inputBuffer.length ∧ c.outputBuffer = d.outputBuffer

/-- The second method can give what the first gives. -/
def SimM (m n : ChipM α) : Prop := ∀ c d, Sim c d → ∀ r, SatWith .native (m c) r →
  ∃ d', Sim r.2 d' ∧ SatWith .native (n d) (r.1, d')

theorem SimM.pure (a : α) : SimM (pure a) (pure a) := fun c d h r hr => by
  obtain ⟨l, ⟨rfl, rfl⟩, -⟩ := hr
  exact ⟨d, h, sat_pure _⟩

theorem SimM.bind {m n : ChipM α} {f g : α → ChipM β} (h : SimM m n) (hf : ∀ a, SimM (f a) (g a)) :
    SimM (m >>= f) (n >>= g) := fun c d hs r hr => by
  obtain ⟨r1, h1, h2⟩ := (sat_bind _ _ _).1 hr
  obtain ⟨d1, s1, t1⟩ := h c d hs r1 h1
  obtain ⟨d2, s2, t2⟩ := hf r1.1 r1.2 d1 s1 r h2
  exact ⟨d2, s2, (sat_bind _ _ _).2 ⟨(r1.1, d1), t1, t2⟩⟩

theorem SimM.lift (c : Circ α) : SimM (StateT.lift c : ChipM α) (StateT.lift c) := fun s d hs r hr => by
  obtain ⟨a, h1, h2⟩ := (sat_bind _ _ _).1 hr
  obtain ⟨l, ⟨rfl, rfl⟩, -⟩ := h2
  exact ⟨d, hs, (sat_bind _ _ _).2 ⟨a, h1, sat_pure _⟩⟩

theorem SimM.forM {f : σ → ChipM Unit} {g : τ → ChipM Unit} {l : List σ} {m : List τ}
    (h : List.Forall₂ (fun x y => SimM (f x) (g y)) l m) : SimM (l.forM f) (m.forM g) := by
  induction h with
  | nil => exact SimM.pure _
  | cons h _ ih => exact SimM.bind h fun _ => ih

theorem SimM.mapM {f : σ → ChipM β} (h : ∀ x, SimM (f x) (f x)) (l : List σ) : SimM (l.mapM f) (l.mapM f) := by
  induction l with
  | nil => exact SimM.pure _
  | cons x l ih =>
    rw [List.mapM_cons]
    exact SimM.bind (h x) fun _ => SimM.bind ih fun _ => SimM.pure _

theorem forall₂_of_length {R : σ → τ → Prop} (h : ∀ a b, R a b) : ∀ {l : List σ} {m : List τ}, l.length = m.length →
    List.Forall₂ R l m
  | [], [], _ => .nil
  | _ :: _, _ :: _, e => .cons (h _ _) (forall₂_of_length h (Nat.succ.inj e))

theorem sim_duplexing : ∀ c d : Chip, c.inputBuffer.length = d.inputBuffer.length → ∀ r, SatWith .native (duplexing poseidon c) r →
    ∃ d', Sim r.2 d' ∧ SatWith .native (duplexing poseidon d) (r.1, d') := fun c d hs r hr => by
  unfold duplexing at hr ⊢
  rw [← hs]
  split at hr
  · obtain ⟨l, h, -⟩ := hr
    exact h.elim
  · rename_i hl
    rw [if_neg hl]
    obtain ⟨i, -, h1⟩ := (sat_bind _ _ _).1 hr
    obtain ⟨st, -, h2⟩ := (sat_bind _ _ _).1 h1
    obtain ⟨l, ⟨rfl, rfl⟩, -⟩ := h2
    obtain ⟨i', -, hi⟩ := any_mapM d.inputBuffer
    exact ⟨_, ⟨rfl, rfl⟩, (sat_bind _ _ _).2 ⟨i', hi, (sat_bind _ _ _).2 ⟨st, all_poseidon _ st, sat_pure _⟩⟩⟩

theorem sim_observe (x y : Fr) : SimM (observeElement poseidon x) (observeElement poseidon y) := fun c d hs r hr => by
  unfold observeElement at hr ⊢
  simp only [List.length_append, List.length_singleton, ← hs.1] at hr ⊢
  split at hr
  · rename_i h
    rw [if_pos h]
    exact sim_duplexing _ _ (by simp [hs.1]) r hr
  · rename_i h
    rw [if_neg h]
    obtain ⟨l, ⟨rfl, rfl⟩, -⟩ := hr
    exact ⟨⟨d.spongeState, d.inputBuffer ++ [y], []⟩, ⟨by simp [hs.1], rfl⟩, sat_pure _⟩

theorem sim_elements {l m : List Fr} (h : l.length = m.length) :
    SimM (observeElements poseidon l) (observeElements poseidon m) :=
  SimM.forM (forall₂_of_length (fun _ _ => sim_observe _ _) h)

theorem sim_cap (cap : List Fr) : SimM (observeCap poseidon cap) (observeCap poseidon cap) :=
  SimM.forM (List.forall₂_same.2 fun _ _ => SimM.bind (SimM.lift _) fun _ => sim_elements rfl)

theorem sim_exts {l m : List QEV} (h : l.length = m.length) :
    SimM (observeExtensionElements poseidon l) (observeExtensionElements poseidon m) :=
  SimM.forM (forall₂_of_length (R := fun x y => SimM (observeExtensionElement poseidon x) (observeExtensionElement poseidon y))
    (fun a b => sim_elements (l := [a.1, a.2]) (m := [b.1, b.2]) rfl) h)

theorem sim_get : SimM (getChallenge poseidon) (getChallenge poseidon) := fun c d hs r hr => by
  unfold getChallenge at hr ⊢
  rw [← hs.1, ← hs.2]
  obtain ⟨c1, h1, h2⟩ := (sat_bind _ _ _).1 hr
  have hd : ∃ d1, Sim c1 d1 ∧ SatWith .native (if c.inputBuffer.length ≠ 0 ∨ c.outputBuffer.length = 0 then do
      let r ← duplexing poseidon d
      pure r.2
    else pure d) d1 := by
    split at h1
    · rename_i h
      rw [if_pos h]
      obtain ⟨r1, h3, h4⟩ := (sat_bind _ _ _).1 h1
      obtain ⟨l, ⟨rfl, rfl⟩, -⟩ := h4
      obtain ⟨d1, s1, t1⟩ := sim_duplexing c d hs.1 _ h3
      exact ⟨d1, s1, (sat_bind _ _ _).2 ⟨_, t1, sat_pure _⟩⟩
    · rename_i h
      rw [if_neg h]
      obtain ⟨l, ⟨rfl, rfl⟩, -⟩ := h1
      exact ⟨d, hs, sat_pure _⟩
  obtain ⟨d1, s1, t1⟩ := hd
  split at h2
  · obtain ⟨l, h, -⟩ := h2
    exact h.elim
  · rename_i x hx
    obtain ⟨l, ⟨rfl, rfl⟩, -⟩ := h2
    refine ⟨⟨d1.spongeState, d1.inputBuffer, d1.outputBuffer.dropLast⟩, ⟨s1.1, congrArg List.dropLast s1.2⟩,
      (sat_bind _ _ _).2 ⟨d1, t1, ?_⟩⟩
    rw [← s1.2, hx]
    exact sat_pure _

theorem sim_gets (n : ℕ) : SimM (getNChallenges poseidon n) (getNChallenges poseidon n) := SimM.mapM (fun _ => sim_get) _

theorem sim_getExt : SimM (getExtensionChallenge poseidon) (getExtensionChallenge poseidon) :=
  SimM.bind (sim_gets 2) fun v => by
    split
    · exact SimM.pure _
    · intro c d _ r hr
      obtain ⟨l, h, -⟩ := hr
      exact h.elim

/-- Equal challenges for proofs with the same caps and lists of the same lengths. -/
theorem imp_challenges {c : CommonCircuitData} {x y : Proof Fr QEV} (h : Fin 4 → Fr) (vd : VerifierOnlyCircuitData)
    (h1 : y.wiresCap = x.wiresCap) (h2 : y.plonkZsPartialProductsCap = x.plonkZsPartialProductsCap)
    (h3 : y.quotientPolysCap = x.quotientPolysCap) (h4 : y.openingProof.commitCaps = x.openingProof.commitCaps)
    (h5 : x.openingProof.finalPoly.length = y.openingProof.finalPoly.length)
    (ho : List.Forall₂ (fun a b : List QEV => a.length = b.length) (Fri.toOpenings x.openings) (Fri.toOpenings y.openings)) :
    Imp (getChallenges poseidon c x h vd) (getChallenges poseidon c y h vd) := by
  have key : SimM (challengesM poseidon c x h vd) (challengesM poseidon c y h vd) := by
    unfold challengesM getFriChallenges
    rw [h1, h2, h3, h4]
    exact SimM.bind (SimM.bind (SimM.lift _) fun _ => sim_elements rfl) fun _ => SimM.bind (sim_elements rfl) fun _ =>
      SimM.bind (sim_cap _) fun _ => SimM.bind (sim_gets _) fun _ => SimM.bind (sim_gets _) fun _ =>
      SimM.bind (sim_cap _) fun _ => SimM.bind (sim_gets _) fun _ => SimM.bind (sim_cap _) fun _ =>
      SimM.bind sim_getExt fun _ => SimM.bind (SimM.forM (ho.imp fun _ _ h => sim_exts h)) fun _ =>
      SimM.bind (SimM.bind sim_getExt fun _ =>
        SimM.bind (SimM.mapM (fun _ => SimM.bind (sim_cap _) fun _ => sim_getExt) _) fun _ =>
        SimM.bind (sim_exts h5) fun _ => SimM.bind (sim_observe _ _) fun _ => SimM.bind sim_get fun _ =>
        SimM.bind (sim_gets _) fun _ => SimM.pure _) fun _ => SimM.pure _
  intro ch hch
  obtain ⟨r, h6, h7⟩ := (sat_bind _ _ _).1 hch
  obtain ⟨l, ⟨rfl, rfl⟩, -⟩ := h7
  obtain ⟨d, -, h8⟩ := key newChip newChip ⟨rfl, rfl⟩ r h6
  exact (sat_bind _ _ _).2 ⟨_, h8, sat_pure _⟩

/-! ## PLONK -/

theorem sat_forM {f : σ → Circ Unit} {l : List σ} (h : ∀ x ∈ l, SatWith .native (f x) ()) : SatWith .native (l.forM f) () := by
  induction l with
  | nil => exact sat_pure ()
  | cons x l ih =>
    exact (sat_bind _ _ _).2 ⟨(), h x List.mem_cons_self, ih fun y hy => h y (List.mem_cons_of_mem _ hy)⟩

theorem of_den {c : Circ α} {y : α} (h : den c = pure y) : SatWith .native c y := of_sat ((sat_of_den_pure h _).2 rfl)

/-- The PLONK identity imposes nothing. -/
theorem sat_plonk {c : CommonCircuitData} {gates : List Gates.Gate} {ch : ProofChallenges Fp QE} {o : OpeningSet QE}
    (hs : Spec.Plonk.Shape c gates ch o) (hz : ch.plonkZeta ≠ 1) (h : Fin 4 → Fp) :
    SatWith .native (Plonk.verify c gates ch.enc o.enc (fun i => emb (h i))) () := by
  refine (sat_bind _ _ _).2 ⟨_, of_den (Plonk.den_expPowerOf2 ch.plonkZeta), ?_⟩
  refine (sat_bind _ _ _).2 ⟨_, of_den (Plonk.den_evalVanishingPoly_aux hs (Plonk.den_evalL0 hs.degree hz) rfl), ?_⟩
  rw [oneExt_eq]
  refine (sat_bind _ _ _).2 ⟨_, of_den (den_subExt _ _), sat_forM fun vi hvi => ?_⟩
  have hi : vi.2 < c.config.numChallenges := by
    have := (List.getElem?_eq_some_iff.1 (List.mem_zipIdx_iff_getElem?.1 hvi)).1
    simpa using this
  have hlen : vi.2 * c.quotientDegreeFactor + c.quotientDegreeFactor ≤ o.quotientPolys.length := by
    have := Nat.mul_le_mul_right c.quotientDegreeFactor (Nat.succ_le_of_lt hi)
    rw [Nat.succ_mul] at this
    exact this.trans hs.quotients
  refine (sat_bind _ _ _).2 ⟨_, of_den (Plonk.den_slice (f := embQ) (by omega) hlen 0), ?_⟩
  refine (sat_bind _ _ _).2 ⟨_, of_den (den_reduceWithPowers _ _), (sat_bind _ _ _).2 ⟨vi.1, all_reduceExt _ _, ?_⟩⟩
  exact (sat_bind _ _ _).2 ⟨(), assert_out rfl, assert_out rfl⟩

end Native

/-- The same commitments and openings of Merkle leaves, other lists of the same lengths. -/
structure SameLeaves (x y : Proof Fp QE) : Prop where
  wires : y.wiresCap = x.wiresCap
  products : y.plonkZsPartialProductsCap = x.plonkZsPartialProductsCap
  quotients : y.quotientPolysCap = x.quotientPolysCap
  commits : y.openingProof.commitCaps = x.openingProof.commitCaps
  rounds : y.openingProof.rounds = x.openingProof.rounds
  finalPoly : x.openingProof.finalPoly.length = y.openingProof.finalPoly.length
  openings : (Fri.toOpenings x.openings).map List.length = (Fri.toOpenings y.openings).map List.length

/-- **C101** with native range checks an accepted proof is accepted with all openings, all final polynomials, all proof-of-work
witnesses and all public inputs. -/
theorem C101_openings_violated (c : CommonCircuitData) (gates : List Gates.Gate) (vd : VerifierOnlyCircuitData)
    (x : Proof Fp QE) (hf : Fits c gates vd x.enc) (pis : List Fr) (h : Sat (verify poseidon c gates x.enc pis vd) ())
    (y : Proof Fp QE) (hy : Fits c gates vd y.enc) (he : SameLeaves x y) (pis' : List Fr) (hp : pis' ≠ []) :
    SatWith .native (verify poseidon c gates y.enc pis' vd) () := by
  obtain ⟨x', hsh, ch, ex, h1, h2, h3⟩ := (sat_verify ens_poseidon hf pis).1 h
  obtain rfl := enc_injective ex
  obtain ⟨ch', e, l1, l2, l3⟩ := ens_getChallenges ens_poseidon _ _ _ _ _ h2
  rw [← ProofChallenges.enc_injective e] at l1 l2 l3
  have ho : List.Forall₂ (fun a b : List QEV => a.length = b.length) (Fri.toOpenings x.enc.openings)
      (Fri.toOpenings y.enc.openings) := by
    have := he.openings
    simp only [Fri.toOpenings, List.map_cons, List.map_nil, List.cons.injEq, and_true, List.length_append] at this
    refine .cons ?_ (.cons ?_ .nil)
    · simpa [Proof.enc, OpeningSet.enc, Nat.add_assoc] using this.1
    · simpa [Proof.enc, OpeningSet.enc] using this.2
  have hl : x.enc.openingProof.finalPoly.length = y.enc.openingProof.finalPoly.length := by
    simpa [Proof.enc, FriProof.enc] using he.finalPoly
  have hc : Sat (checksCirc c gates vd x.enc (fun i => emb (hsh i)) ch.enc) () :=
    ((den_eq_assert_iff _ _).1 (den_checksCirc (fits_enc hf) hsh l1 l2 l3)).1.2 h3
  obtain ⟨_, -, hc2⟩ := (Native.sat_bind _ _ _).1 (Native.of_sat hc)
  rw [verify_eq]
  refine (Native.sat_bind _ _ _).2 ⟨(), Native.of_sat (((den_eq_assert_iff _ _).1 (den_rangeCheckProof y.enc)).1.2
    ((canonical_iff _).2 ⟨y, rfl⟩)), (Native.sat_bind _ _ _).2 ⟨_, Native.all_hash _ hp (fun i => emb (hsh i)), ?_⟩⟩
  refine (Native.sat_bind _ _ _).2 ⟨_, Native.imp_challenges _ vd he.wires he.products he.quotients he.commits hl ho _
    (Native.of_sat h2), ?_⟩
  refine (Native.sat_bind _ _ _).2 ⟨(), Native.sat_plonk (shape_of_fits (fits_enc hy) l1 l2 l3) h3.zeta hsh, ?_⟩
  refine Native.Imp.bind (Native.Imp.refl _) (fun inst => ?_) () hc2
  rw [show y.enc.wiresCap = x.enc.wiresCap from he.wires, show y.enc.plonkZsPartialProductsCap =
    x.enc.plonkZsPartialProductsCap from he.products, show y.enc.quotientPolysCap = x.enc.quotientPolysCap from he.quotients]
  refine Native.imp_fri he.commits ?_ hl ho
  simp [Proof.enc, FriProof.enc, he.rounds]

/-- The proof with all openings of wires, the coefficients of the final polynomial and the proof-of-work witness replaced. -/
def Native.tampered (x : Proof Fp QE) (w f : QE) (k : Fp) : Proof Fp QE :=
  { x with
    openings := { x.openings with wires := x.openings.wires.map fun _ => w }
    openingProof := { x.openingProof with finalPoly := x.openingProof.finalPoly.map fun _ => f, powWitness := k } }

theorem Native.sameLeaves (x : Proof Fp QE) (w f : QE) (k : Fp) : SameLeaves x (Native.tampered x w f k) :=
  ⟨rfl, rfl, rfl, rfl, rfl, by simp [Native.tampered], by simp [Native.tampered, Fri.toOpenings]⟩

theorem Native.fits {c : CommonCircuitData} {gates : List Gates.Gate} {vd : VerifierOnlyCircuitData} {x : Proof Fp QE}
    (h : Fits c gates vd x) (w f : QE) (k : Fp) : Fits c gates vd (Native.tampered x w f k) := by
  obtain ⟨h1, h2, h3, h4, h5, h6, h7, h8, h9, h10, h11, h12, h13, h14, h15, h16, h17⟩ := h
  exact ⟨h1, h2, h3, by simpa [Native.tampered] using h4, h5, h6, h7, by simpa [Native.tampered] using h8, h9, h10,
    h11, h12, h13, h14, h15, h16, h17⟩

/-- An honest proof so changed is admitted for every public input. -/
example (w f : QE) (k : Fp) (v : Fr) : SatWith .native (verify poseidon (HonestProof.data 16) HonestProof.gates
    (Native.tampered (Witness.proof 15684767761658159738 13113) w f k).enc [v] (HonestProof.vd 1)) () := by
  have hf : Fits (HonestProof.data 16) HonestProof.gates (HonestProof.vd 1) (Witness.proof 15684767761658159738 13113) :=
    HonestProof.fits (b := 16) (by norm_num) 1 Witness.zeta Witness.alpha 15684767761658159738 ((13113 : ℕ) : Fp)
  exact C101_openings_violated _ _ _ _ (fits_to_enc hf) [] (C58_complete _ _ _ _ (fits_to_enc hf) [] Witness.accepts_honest)
    _ (fits_to_enc (Native.fits hf w f k)) (Native.sameLeaves _ w f k) [v] (by simp)

/-! ## What remains -/

namespace Native

variable {α β σ : Type}

/-- Circuits without range checks. -/
def NoChecks (c : Circ α) : Prop := ∀ y l, Out c y l → l = []

theorem NoChecks.pure (a : α) : NoChecks (pure a) := fun _ _ h => h.2

theorem NoChecks.bind {c : Circ α} {f : α → Circ β} (h : NoChecks c) (hf : ∀ a, NoChecks (f a)) : NoChecks (c >>= f) :=
  fun y l hy => by
    obtain ⟨a, l1, l2, rfl, h1, h2⟩ := (out_bind _ _ _ _).1 hy
    rw [h a l1 h1, hf a y l2 h2]
    rfl

theorem NoChecks.mapM {f : σ → Circ β} (h : ∀ x, NoChecks (f x)) (l : List σ) : NoChecks (l.mapM f) := by
  induction l with
  | nil => exact NoChecks.pure _
  | cons x l ih =>
    rw [List.mapM_cons]
    exact (h x).bind fun _ => ih.bind fun _ => NoChecks.pure _

theorem NoChecks.foldlM {f : α → σ → Circ α} (h : ∀ a x, NoChecks (f a x)) (l : List σ) (a : α) : NoChecks (l.foldlM f a) := by
  induction l generalizing a with
  | nil => exact NoChecks.pure _
  | cons x l ih =>
    rw [List.foldlM_cons]
    exact (h a x).bind fun _ => ih _

theorem NoChecks.forM {f : σ → Circ Unit} (h : ∀ x, NoChecks (f x)) (l : List σ) : NoChecks (l.forM f) := by
  induction l with
  | nil => exact NoChecks.pure _
  | cons x l ih => exact (h x).bind fun _ => ih

theorem NoChecks.idx (l : List α) (i : ℕ) : NoChecks (idx l i) := by
  unfold Verif.idx
  split
  · exact NoChecks.pure _
  · exact fun _ _ h => h.elim

theorem NoChecks.lookup2 (b0 b1 i0 i1 i2 i3 : Fr) : NoChecks (apiLookup2 b0 b1 i0 i1 i2 i3) := fun _ _ h => h.2.2.2

theorem NoChecks.select (b x y : Fr) : NoChecks (select b x y) := fun _ _ h => h.2.2

theorem NoChecks.assertEq (x y : Fr) : NoChecks (assertEq x y) := fun _ _ h => h.2.2

theorem NoChecks.merkle (a b c d e : List Fr) : NoChecks (Fri.verifyMerkleProofToCap a b c d e) := by
  refine (NoChecks.foldlM (fun _ _ => (NoChecks.idx _ _).bind fun _ => (NoChecks.select _ _ _).bind fun _ =>
    (NoChecks.select _ _ _).bind fun _ => NoChecks.pure _) _ _).bind fun _ => NoChecks.bind ?_ fun _ => NoChecks.assertEq _ _
  unfold Fri.capLookup
  split
  · exact fun _ _ h => h.elim
  · exact (NoChecks.idx _ _).bind fun _ => (NoChecks.idx _ _).bind fun _ => (NoChecks.mapM (fun _ => (NoChecks.idx _ _).bind fun _ =>
      (NoChecks.idx _ _).bind fun _ => (NoChecks.idx _ _).bind fun _ => (NoChecks.idx _ _).bind fun _ =>
      NoChecks.lookup2 _ _ _ _ _ _) _).bind fun _ => (NoChecks.idx _ _).bind fun _ => (NoChecks.idx _ _).bind fun _ =>
      (NoChecks.idx _ _).bind fun _ => (NoChecks.idx _ _).bind fun _ => (NoChecks.idx _ _).bind fun _ =>
      (NoChecks.idx _ _).bind fun _ => NoChecks.lookup2 _ _ _ _ _ _

theorem NoChecks.toBinary (n : ℕ) (x : Fr) : NoChecks (toBinary n x) := by
  refine NoChecks.bind (fun _ _ ⟨_, h⟩ => h.2) fun _ => NoChecks.bind ?_ fun _ => NoChecks.pure _
  refine (NoChecks.forM (f := assertBool) (fun _ _ _ h => h.2.2) _).bind fun _ => (NoChecks.assertEq _ _).bind fun _ => ?_
  split
  · exact fun _ _ h => h.2.2
  · exact NoChecks.pure _

theorem NoChecks.sat {c : Circ α} (hc : NoChecks c) {y : α} (h : SatWith .native c y) : Sat c y := by
  obtain ⟨l, h, -⟩ := h
  exact (sat_iff_out _ _).2 ⟨l, h, by rw [hc y l h]; simp⟩

theorem post_sat {P : Prop} {c : Circ α} (h : Post (fun _ => P) c) {y : α} (hs : Sat c y) : P := by
  by_contra hn
  exact (h.panics hn).not_sat y hs

theorem forM_mem {f : σ → Circ Unit} {l : List σ} (h : SatWith .native (l.forM f) ()) : ∀ x ∈ l, SatWith .native (f x) () := by
  induction l with
  | nil => simp
  | cons x l ih =>
    obtain ⟨_, h1, h2⟩ := (sat_bind _ _ _).1 h
    intro y hy
    rcases List.mem_cons.1 hy with rfl | hy
    · exact h1
    · exact ih h2 y hy

theorem not_panic {s : String} {y : α} : ¬ SatWith .native (goPanic s : Circ α) y := fun ⟨_, h, _⟩ => h.elim

theorem idx_eq {l : List α} {i : ℕ} {x : α} (h : SatWith .native (idx l i) x) : l[i]? = some x := by
  unfold idx at h
  split at h
  · rename_i y hy
    obtain ⟨_, ⟨rfl, -⟩, -⟩ := h
    exact hy
  · exact (not_panic h).elim

theorem ite_of {P : Prop} [Decidable P] {s : String} {c : Circ α} {y : α} (h : SatWith .native (if P then goPanic s else c) y) :
    ¬ P ∧ SatWith .native c y := by
  split at h
  · exact (not_panic h).elim
  · exact ⟨‹_›, h⟩

theorem leaves_round {q : FriParams} {inst : InstanceInfo QEV} {ch : FriChallenges Fr QEV} {pre : List QEV}
    {caps : List (List Fr)} {pr : FriProof Fr QEV} {x : Fr} {k : ℕ} {round : FriQueryRound Fr QEV}
    (h : SatWith .native (Fri.verifyQueryRound q inst ch pre caps pr x k round) ()) :
    ∃ bits : List Bool, bits.length = q.degreeBits + q.config.rateBits ∧ round.initial.length = caps.length ∧
      ∀ ec ∈ round.initial.zip caps,
        Spec.Fri.Opens ec.1.elements bits ec.1.siblings ec.2 (Spec.Fri.bitsVal (bits.drop (bits.length - q.config.capHeight))) := by
  obtain ⟨_, -, h⟩ := (sat_bind _ _ _).1 h
  obtain ⟨x, -, h⟩ := (sat_bind _ _ _).1 h
  obtain ⟨b, hb, h⟩ := (sat_bind _ _ _).1 h
  obtain ⟨xb, hxb, h⟩ := (sat_bind _ _ _).1 h
  obtain ⟨cb, hcb, h⟩ := (sat_bind _ _ _).1 h
  obtain ⟨_, h, -⟩ := (sat_bind _ _ _).1 h
  have hb := (NoChecks.toBinary _ _).sat hb
  have hb2 : b = ((List.range 64).map x.val.testBit).map bitF := by
    by_cases hx : x.val < 2 ^ 64
    · have := den_toBinary 64 x
      rw [if_pos hx] at this
      rw [(sat_of_den_pure this _).1 hb, bitsLE, List.map_map]
      rfl
    · have := den_toBinary 64 x
      rw [if_neg hx] at this
      exact absurd hb ((den_eq_fail_iff _).1 this _)
  unfold Fri.sliceTo at hxb
  split at hxb
  swap
  · exact (not_panic hxb).elim
  rename_i hn
  obtain ⟨_, ⟨rfl, -⟩, -⟩ := hxb
  split at hcb
  swap
  · exact (not_panic hcb).elim
  unfold Fri.sliceFrom at hcb
  rw [if_pos (by omega)] at hcb
  obtain ⟨_, ⟨rfl, -⟩, -⟩ := hcb
  obtain ⟨hl, h⟩ := ite_of h
  refine ⟨((List.range 64).map x.val.testBit).take (q.degreeBits + q.config.rateBits), ?_, not_not.1 hl, fun ec hec => ?_⟩
  · rw [hb2] at hn
    rw [List.length_take]
    simp only [List.length_map] at hn ⊢
    omega
  · have h1 := (NoChecks.merkle _ _ _ _ _).sat (forM_mem h ec hec)
    rw [hb2, ← List.map_take, List.length_map, ← List.map_drop] at h1
    obtain ⟨⟨h2, h3⟩, h4⟩ := post_sat (post_verifyMerkle _ _ _ _ _) h1
    rw [List.length_map] at h2 h4
    exact ((den_eq_assert_iff _ _).1 (Fri.den_verifyMerkle' _ _ _ _ _ h2 h3 h4)).1.1 h1

end Native

/-- **C101** what holds with native range checks: in every query round the four leaves are opened in their commitments at one
position. -/
theorem C101_leaves_partial (c : CommonCircuitData) (gates : List Gates.Gate) (vd : VerifierOnlyCircuitData)
    (proof : Proof Fr QEV) (pis : List Fr) (h : SatWith .native (verify poseidon c gates proof pis vd) ()) :
    proof.openingProof.rounds.length = c.friParams.config.numQueryRounds ∧ ∀ round ∈ proof.openingProof.rounds,
      ∃ bits : List Bool, bits.length = c.friParams.degreeBits + c.friParams.config.rateBits ∧ round.initial.length = 4 ∧
        ∀ ec ∈ round.initial.zip [vd.constantSigmasCap, proof.wiresCap, proof.plonkZsPartialProductsCap,
            proof.quotientPolysCap],
          Spec.Fri.Opens ec.1.elements bits ec.1.siblings ec.2
            (Spec.Fri.bitsVal (bits.drop (bits.length - c.friParams.config.capHeight))) := by
  obtain ⟨_, -, h⟩ := (Native.sat_bind _ _ _).1 h
  obtain ⟨_, -, h⟩ := (Native.sat_bind _ _ _).1 h
  obtain ⟨ch, -, h⟩ := (Native.sat_bind _ _ _).1 h
  obtain ⟨_, -, h⟩ := (Native.sat_bind _ _ _).1 h
  obtain ⟨inst, -, h⟩ := (Native.sat_bind _ _ _).1 h
  obtain ⟨_, -, h⟩ := (Native.sat_bind _ _ _).1 h
  obtain ⟨_, -, h⟩ := (Native.sat_bind _ _ _).1 h
  obtain ⟨h1, h⟩ := Native.ite_of h
  obtain ⟨pre, -, h⟩ := (Native.sat_bind _ _ _).1 h
  obtain ⟨h2, h⟩ := Native.ite_of h
  refine ⟨(not_not.1 h1).symm, fun round hr => ?_⟩
  obtain ⟨k, hk, rfl⟩ := List.getElem_of_mem hr
  have hk' : k < ch.friChallenges.queryIndices.length := by rw [not_not.1 h2]; exact hk
  obtain ⟨r, h3, h4⟩ := (Native.sat_bind _ _ _).1 (Native.forM_mem h (ch.friChallenges.queryIndices[k], k)
    (List.mem_zipIdx_iff_getElem?.2 (List.getElem?_eq_getElem hk')))
  have h5 := Native.idx_eq h3
  rw [List.getElem?_eq_getElem hk, Option.some.injEq] at h5
  rw [h5]
  exact Native.leaves_round h4

/-- The honest proof meets the hypothesis. -/
example : SatWith .native (verify poseidon (HonestProof.data 16) HonestProof.gates
    (Witness.proof 15684767761658159738 13113).enc [] (HonestProof.vd 1)) () :=
  Native.of_sat (C58_complete _ _ _ _ (fits_to_enc (HonestProof.fits (b := 16) (by norm_num) 1 Witness.zeta Witness.alpha
    15684767761658159738 ((13113 : ℕ) : Fp))) [] Witness.accepts_honest)

end Verif
