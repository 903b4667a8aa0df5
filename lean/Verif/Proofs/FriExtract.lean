import Verif.Proofs.FriSound

/-!
# FRI: words and layers behind the Merkle caps
-/

set_option autoImplicit false

namespace Verif.Fri

open Spec Spec.Fri Spec.Fri.Prover Polynomial Proximity

theorem zip_take_left {α β : Type} (l : List α) (l' : List β) : (l.take l'.length).zip l' = l.zip l' := by
  induction l generalizing l' with
  | nil => simp
  | cons a l ih =>
    cases l' with
    | nil => simp
    | cons b l' => rw [List.length_cons, List.take_succ_cons, List.zip_cons_cons, List.zip_cons_cons, ih]

theorem opens_unique {H : Evaluated} (hH : H.CollisionFree) {m w : ℕ} {cap leaf leaf' : List Fr}
    (h : H.Opens m w cap leaf) (h' : H.Opens m w cap leaf') (hl : leaf.length = leaf'.length) : leaf = leaf' := by
  obtain ⟨s, hs, hp, hr⟩ := h
  obtain ⟨s', hs', hp', hr'⟩ := h'
  have hlen : s.length = s'.length := by omega
  have e := hr.trans hr'.symm
  have z := zip_take_left (lowBits m w) s
  have z' := zip_take_left (lowBits m w) s'
  have hbits : ((lowBits m w).take s.length).length = s.length := by rw [List.length_take, lowBits_length]; omega
  rw [← hlen] at z'
  rw [← z, ← z'] at e
  rcases root_collision BN.compress ((lowBits m w).take s.length) s s' _ _ hbits.symm (by rw [hbits, hlen]) e with
    ⟨hd, -⟩ | ⟨x, hx, hne, hc⟩
  · exact hH.leaves _ hp.mem _ hp'.mem hl hd
  · rw [z, z'] at hx
    have := List.of_mem_zip (a := x.1) (b := x.2) hx
    exact absurd (hH.pairs _ (hp.pairs _ this.1) _ (hp'.pairs _ this.2) hc) hne

open Classical in
/-- The list of base field elements a cap opens to. -/
noncomputable def wordOf (H : Evaluated) (n len : ℕ) (cap : List Fr) (v : ℕ) : List Fp :=
  if h : ∃ l : List Fp, l.length = len ∧ H.Opens n v cap (l.map emb) then h.choose else []

theorem wordOf_eq {H : Evaluated} (hH : H.CollisionFree) {n len v : ℕ} {cap : List Fr} {l : List Fp} (hl : l.length = len)
    (ho : H.Opens n v cap (l.map emb)) : wordOf H n len cap v = l := by
  have h : ∃ l : List Fp, l.length = len ∧ H.Opens n v cap (l.map emb) := ⟨l, hl, ho⟩
  rw [wordOf, dif_pos h]
  obtain ⟨h1, h2⟩ := h.choose_spec
  exact List.map_injective_iff.2 (fun _ _ => emb_inj.1) (opens_unique hH h2 ho (by simp [h1, hl]))

theorem flatten_length (l : List QE) : (flatten l).length = 2 * l.length := by
  induction l with
  | nil => rfl
  | cons a l ih =>
    have : (flatten (a :: l)).length = (flatten l).length + 2 := rfl
    rw [this, ih, List.length_cons, Nat.mul_add]

theorem flatten_injective : Function.Injective flatten := by
  intro a
  induction a with
  | nil =>
    intro b h
    have := congrArg List.length h
    rw [flatten_length, flatten_length] at this
    exact (List.length_eq_zero_iff.1 (by simpa using this.symm)).symm
  | cons x a ih =>
    intro b h
    cases b with
    | nil =>
      have := congrArg List.length h
      rw [flatten_length, flatten_length] at this
      simp at this
    | cons y b =>
      rw [flatten, flatten, List.flatMap_cons, List.flatMap_cons] at h
      simp only [List.cons_append, List.nil_append, List.cons.injEq] at h
      rw [ih h.2.2]
      have : x = y := QuadraticAlgebra.ext (emb_inj.1 h.1) (emb_inj.1 h.2.1)
      rw [this]

open Classical in
/-- The layer a cap of the commit phase opens to. -/
noncomputable def layerOf (H : Evaluated) (m : ℕ) (cap : List Fr) : Layer := fun w =>
  if h : ∃ l : List QE, l.length = 16 ∧ H.Opens m w cap (flatten l) then h.choose else []

theorem layerOf_eq {H : Evaluated} (hH : H.CollisionFree) {m w : ℕ} {cap : List Fr} {l : List QE} (hl : l.length = 16)
    (ho : H.Opens m w cap (flatten l)) : layerOf H m cap w = l := by
  have h : ∃ l : List QE, l.length = 16 ∧ H.Opens m w cap (flatten l) := ⟨l, hl, ho⟩
  rw [layerOf, dif_pos h]
  obtain ⟨h1, h2⟩ := h.choose_spec
  exact flatten_injective (opens_unique hH h2 ho (by rw [flatten_length, flatten_length, h1, hl]))

/-- The Merkle openings in a chain. -/
theorem chain_opens {ci : ℕ} {final : List QE} (steps : List Step) (bits : List Bool) (x : Fp) (old : QE)
    (hc : Chain ci final steps bits x old) (j : ℕ) (s : Step) (hj : steps[j]? = some s) :
    Spec.Fri.Opens (flatten s.step.evals) (bits.drop (4 * (j + 1))) s.step.siblings s.cap ci := by
  induction steps generalizing bits x old j with
  | nil => simp at hj
  | cons t l ih =>
    rw [Chain] at hc
    cases j with
    | zero =>
      simp only [List.getElem?_cons_zero, Option.some.injEq] at hj
      rw [← hj]
      exact hc.2.2.1
    | succ j =>
      have := ih _ _ _ hc.2.2.2 j (by simpa using hj)
      rw [List.drop_drop] at this
      rwa [show 4 * (j + 1 + 1) = 4 + 4 * (j + 1) by ring]

theorem capIndex_eq {n : ℕ} (hn : 4 ≤ n) {v : ℕ} (hv : v < 2 ^ n) :
    bitsVal ((lowBits n v).drop (n - 4)) = v / 2 ^ (n - 4) := by
  rw [lowBits_drop (by omega), bitsVal_lowBits, Nat.mod_eq_of_lt]
  rw [Nat.div_lt_iff_lt_mul (by positivity), ← pow_add]
  rwa [show n - (n - 4) + (n - 4) = n by omega]

/-- The words behind the caps of the oracles. -/
noncomputable def wordsOf (H : Evaluated) (q : FriParams) (oracles : List OracleInfo) (caps : List (List Fr)) : Words :=
  fun i => wordOf H (q.degreeBits + q.config.rateBits) (leafWidth q oracles i) (caps.getD i [])

/-- The layers behind the caps of the commit phase. -/
noncomputable def layersOf (H : Evaluated) (n k : ℕ) (commitCaps : List (List Fr)) : List Layer :=
  (List.range k).map fun j => layerOf H (n - 4 * (j + 1)) (commitCaps.getD j [])

theorem round_passes {q : FriParams} {inst : InstanceInfo QE} {openings : List (List QE)} {caps : List (List Fr)}
    (hp : Supported q inst openings caps) (hsum : 4 * q.reductionArityBits.length ≤ q.degreeBits + q.config.rateBits)
    {H : Evaluated} (hH : H.CollisionFree)
    (hopen : ∀ bo ∈ inst.batches.zip openings, bo.2.length = bo.1.polynomials.length)
    {ch : FriChallenges Fp QE} {proof : FriProof Fp QE} {round : FriQueryRound Fp QE} {v : ℕ}
    (hv : v < 2 ^ (q.degreeBits + q.config.rateBits)) (hshape : RoundShape q inst round)
    (hb : q.reductionArityBits.length ≤ ch.betas.length) (hcc : q.reductionArityBits.length ≤ proof.commitCaps.length)
    (hr : RoundOk q inst ch (openings.map fun l => evalPoly l ch.alpha) caps proof v round)
    (hin : H.Round (q.degreeBits + q.config.rateBits) v round) :
    (∀ bo ∈ inst.batches.zip openings, ofBase (domain 7 (q.degreeBits + q.config.rateBits) v) ≠ bo.1.point) ∧
    Passes proof.finalPoly
      ((layersOf H (q.degreeBits + q.config.rateBits) q.reductionArityBits.length proof.commitCaps).zip ch.betas) 7
      (q.degreeBits + q.config.rateBits) v
      (quotientAt (q.degreeBits + q.config.rateBits) (wordsOf H q inst.oracles caps) (inst.batches.zip openings) ch.alpha v) := by
  set n := q.degreeBits + q.config.rateBits with hn
  obtain ⟨hd4, hd32, -, hcap⟩ := hp.domain
  rw [← hn] at hd4 hd32
  obtain ⟨h1, h2, h3⟩ := hr
  rw [hcap, ← hn, capIndex_eq hd4 hv] at h1 h3
  have hxq : queryPoint n (lowBits n v) = domain 7 n v := rfl
  rw [← hn, hxq] at h2
  rw [hxq] at h3
  refine ⟨fun bo hbo => h2 bo.1 (List.of_mem_zip (a := bo.1) (b := bo.2) hbo).1, ?_⟩
  -- values of the polynomials
  have hval : ∀ b ∈ inst.batches, ∀ f ∈ b.polynomials, opened round.initial f = ofBase (wordAt (wordsOf H q inst.oracles caps) f v) := by
    intro b hb f hf
    obtain ⟨o, ho, -⟩ := hp.batches b hb f hf
    have hi : f.oracleIndex < inst.oracles.length := (List.getElem?_eq_some_iff.1 ho).1
    have hi1 : f.oracleIndex < round.initial.length := by rw [hshape.initial.1]; exact hi
    have hi2 : f.oracleIndex < caps.length := by rw [hp.caps.1]; exact hi
    have ht := hshape.initial.2 f.oracleIndex _ o (List.getElem?_eq_getElem hi1) ho
    have hop : H.Opens n v (caps.getD f.oracleIndex []) (round.initial[f.oracleIndex].elements.map emb) := by
      refine ⟨round.initial[f.oracleIndex].siblings, by rw [← hcap]; exact ht.2, hin.initial _ (List.getElem_mem _), ?_⟩
      have := h1 (round.initial[f.oracleIndex], caps[f.oracleIndex]) (by
        rw [← List.getElem_zip (h := by rw [List.length_zip]; exact lt_min hi1 hi2)]; exact List.getElem_mem _)
      rw [List.getD_eq_getElem _ _ hi2]
      exact this
    rw [opened, wordAt, wordsOf, wordOf_eq hH (by rw [leafWidth, ho]; exact ht.1) hop, List.getD_eq_getElem _ _ hi1]
  have hcomb : combine ch.alpha (ofBase (domain 7 n v))
      (roundBatches inst round.initial (openings.map fun l => evalPoly l ch.alpha)) =
      quotientAt n (wordsOf H q inst.oracles caps) (inst.batches.zip openings) ch.alpha v := by
    rw [quotientAt, ← combine_quots _ _ _ _ hopen, roundBatches, List.zip_map_right, List.map_map]
    refine congrArg _ (List.map_congr_left fun bo hbo => ?_)
    simp only [Function.comp_apply, Prod.map_fst, Prod.map_snd, id]
    rw [List.map_congr_left (hval bo.1 (List.of_mem_zip (a := bo.1) (b := bo.2) hbo).1)]
  rw [hcomb] at h3
  have hlen : (layersOf H n q.reductionArityBits.length proof.commitCaps).length = q.reductionArityBits.length := by
    simp [layersOf]
  refine passes_of_chain _ ch.betas proof.commitCaps round.steps 7 n v _ hd32 (by rw [hlen]; exact hsum)
    (by rw [hlen]; exact hshape.steps.1) (by rw [hlen]; exact hb) (by rw [hlen]; exact hcc) (fun j st L hj hL => ?_) h3
  have hjk : j < q.reductionArityBits.length := by
    have := (List.getElem?_eq_some_iff.1 hj).1
    rwa [hshape.steps.1] at this
  rw [layersOf, List.getElem?_map, List.getElem?_range hjk] at hL
  simp only [Option.map_some, Option.some.injEq] at hL
  rw [← hL]
  have ha4 : q.reductionArityBits[j] = 4 := hp.arities _ (List.getElem_mem _)
  obtain ⟨e1, e2⟩ := hshape.steps.2 j st 4 hj (by rw [List.getElem?_eq_getElem hjk, ha4])
  have hsum4 : (q.reductionArityBits.take (j + 1)).sum = 4 * (j + 1) := by
    rw [List.eq_replicate_of_mem (l := q.reductionArityBits.take (j + 1)) (a := 4)
      (fun a ha => hp.arities a (List.mem_of_mem_take ha)), List.sum_replicate, List.length_take, min_eq_left (by omega),
      smul_eq_mul, mul_comm]
  rw [hsum4, hcap, ← hn] at e2
  refine (layerOf_eq hH (by rw [e1]; norm_num) ⟨st.siblings, by omega, hin.steps j st hj, ?_⟩).symm
  have hjb : j < ch.betas.length := by omega
  have hjc : j < proof.commitCaps.length := by omega
  have := chain_opens _ _ _ _ h3 j ⟨st, ch.betas[j], proof.commitCaps[j]⟩ (by
    have hz : (round.steps.zip (ch.betas.zip proof.commitCaps))[j]? = some (st, (ch.betas[j], proof.commitCaps[j])) := by
      rw [List.getElem?_zip_eq_some]
      refine ⟨hj, ?_⟩
      rw [List.getElem?_zip_eq_some]
      exact ⟨List.getElem?_eq_getElem hjb, List.getElem?_eq_getElem hjc⟩
    rw [List.getElem?_map, hz]
    rfl)
  rw [Spec.Fri.Opens, lowBits_drop (by omega)] at this
  dsimp only at this
  rw [show 2 ^ (4 * (j + 1)) = 16 ^ (j + 1) by rw [pow_mul]; norm_num] at this
  rw [List.getD_eq_getElem _ _ hjc, this]
  congr 1
  rw [show (16 : ℕ) ^ (j + 1) = 2 ^ (4 * (j + 1)) by rw [pow_mul]; norm_num, Nat.div_div_eq_div_mul, ← pow_add]
  congr 2
  omega

theorem sixteen_pow {a k : ℕ} (hk : 4 * k ≤ a) : 16 ^ k * 2 ^ (a - 4 * k) = 2 ^ a := by
  rw [show (16 : ℕ) = 2 ^ 4 by norm_num, ← pow_mul, ← pow_add]
  congr 1
  omega

/-- The polynomial a column decodes to. -/
noncomputable def decoded (H : Evaluated) (q : FriParams) (e width : ℕ) (cap : List Fr) (i : ℕ) : Fp[X] :=
  decode (q.degreeBits + q.config.rateBits) (2 ^ q.degreeBits) e fun v =>
    (wordOf H (q.degreeBits + q.config.rateBits) width cap v).getD i 0

/-- Sets of bad folding challenges, and for every column of a tree the polynomial it decodes to. -/
theorem fri_sound (q : FriParams) (hn : q.degreeBits + q.config.rateBits ≤ 32)
    (hk : 4 * q.reductionArityBits.length ≤ q.degreeBits) (e : ℕ)
    (he : 2 * e + 2 ^ q.degreeBits < 2 ^ (q.degreeBits + q.config.rateBits)) (H : Evaluated) (hH : H.CollisionFree) :
    ∃ (F : ℕ → List Fr → ℕ → Fp[X]) (bad : ℕ → List Fr → Finset QE),
      (∀ w cap i, (F w cap i).natDegree ≤ 2 ^ q.degreeBits) ∧ (∀ w cap i P, Committed H q e w cap i P → F w cap i = P) ∧
      (∀ j cap, (bad j cap).card ≤ 15 * (2 ^ q.degreeBits * e + e + 1)) ∧
    ∀ (inst : InstanceInfo QE) (openings : List (List QE)) (caps : List (List Fr)),
    ∃ A : Finset QE, A.card ≤ (numOpenings openings - 1) * (2 ^ q.degreeBits * e + e + 1) ∧
    ∀ (α : QE) (commitCaps : List (List Fr)) (betas final : List QE),
    ∃ G : Finset ℕ, G.card + e < 2 ^ (q.degreeBits + q.config.rateBits) ∧
    ∀ (ch : FriChallenges Fp QE) (proof : FriProof Fp QE), ch.alpha = α → ch.betas = betas →
      proof.commitCaps = commitCaps → proof.finalPoly = final →
      Supported q inst openings caps → (∀ bo ∈ inst.batches.zip openings, bo.2.length = bo.1.polynomials.length) →
      H.Proof (q.degreeBits + q.config.rateBits) ch.queryIndices proof → Accepts q inst openings ch caps proof →
      Correct q inst openings caps F ∨ α ∈ A ∨
      (∃ j < q.reductionArityBits.length, betas.getD j 0 ∈ bad j (commitCaps.getD j [])) ∨
      ∀ z ∈ ch.queryIndices, z.val % 2 ^ (q.degreeBits + q.config.rateBits) ∈ G := by
  classical
  set n := q.degreeBits + q.config.rateBits with hnd
  set k := q.reductionArityBits.length with hkd
  have h16 := sixteen_pow hk
  obtain ⟨bad, hbad, hcommit⟩ := commit_sound k seven_ne_zero n (2 ^ (q.degreeBits - 4 * k)) e hn (by omega)
    (by rw [h16]; exact he.le)
  rw [h16] at hbad hcommit
  refine ⟨decoded H q e, fun j cap => bad j (layerOf H (n - 4 * (j + 1)) cap), fun _ _ _ => decode_natDegree _ _ _ _, ?_,
    fun j cap => hbad _ _, fun inst openings caps => ?_⟩
  · rintro w cap i P ⟨hP, R, hR, hv⟩
    refine decode_eq hn he ⟨hP, R, hR, fun v hvn hvR => ?_⟩
    obtain ⟨l, hl, ho, hl'⟩ := hv v hvn hvR
    dsimp only
    rw [← hl', wordOf_eq hH hl ho]
  by_cases hcond : Supported q inst openings caps ∧ ∀ bo ∈ inst.batches.zip openings, bo.2.length = bo.1.polynomials.length
  swap
  · exact ⟨∅, by simp, fun α commitCaps betas final => ⟨∅, by rw [Finset.card_empty]; omega,
      fun ch proof _ _ _ _ hp hopen => absurd ⟨hp, hopen⟩ hcond⟩⟩
  obtain ⟨hp, hopen⟩ := hcond
  set W := wordsOf H q inst.oracles caps with hW
  have hT : numOpenings openings = ((inst.batches.zip openings).map fun bo => bo.1.polynomials.length).sum := by
    rw [numOpenings, ← List.map_congr_left hopen]
    have : (inst.batches.zip openings).map Prod.snd = openings := List.map_snd_zip hp.openings.ge
    conv_lhs => rw [← this, List.map_map]
    rfl
  obtain ⟨A, hA, hbatch⟩ := batch_sound n (2 ^ q.degreeBits) e hn Nat.one_le_two_pow he W (inst.batches.zip openings) hopen
    (numOpenings openings) hT
  refine ⟨A, hA, fun α commitCaps betas final => ?_⟩
  by_cases hsz : k ≤ betas.length ∧ k ≤ commitCaps.length ∧ final.length = 2 ^ (q.degreeBits - 4 * k)
  swap
  · refine ⟨∅, by rw [Finset.card_empty]; omega, ?_⟩
    rintro ch proof rfl rfl rfl rfl - - - hac
    refine Or.inr (Or.inr (Or.inr fun z hz => ?_))
    have hsum : q.reductionArityBits.sum = 4 * k := by
      rw [List.eq_replicate_of_mem hp.arities, List.sum_replicate, smul_eq_mul, mul_comm]
    rcases hac.enough with hr | hr
    · have := hac.count.2
      rw [hr, List.length_nil, List.length_eq_zero_iff] at this
      rw [this] at hz
      simp at hz
    · exact absurd ⟨hr.1, hr.2, by rw [hac.shape.final.2, hsum]⟩ hsz
  obtain ⟨hs1, hs2, hs3⟩ := hsz
  set layers := (layersOf H n k commitCaps).zip betas with hlay
  have hlen : (layersOf H n k commitCaps).length = k := by simp [layersOf]
  set G := (Finset.range (2 ^ n)).filter fun v => (∀ bo ∈ inst.batches.zip openings, ofBase (domain 7 n v) ≠ bo.1.point) ∧
    Passes final layers 7 n v (quotientAt n W (inst.batches.zip openings) α v) with hG
  by_cases hcard : G.card + e < 2 ^ n
  · refine ⟨G, hcard, ?_⟩
    rintro ch proof rfl rfl rfl rfl - - hin hac
    refine Or.inr (Or.inr (Or.inr fun z hz => ?_))
    obtain ⟨i, hi, rfl⟩ := List.getElem_of_mem hz
    have hi' : i < proof.rounds.length := by rw [← hac.count.2]; exact hi
    have hlt : (ch.queryIndices[i].val % 2 ^ n) < 2 ^ n := Nat.mod_lt _ (by positivity)
    have hr := hac.rounds i _ _ (List.getElem?_eq_getElem hi) (List.getElem?_eq_getElem hi')
    have hr' : RoundOk q inst ch (openings.map fun l => evalPoly l ch.alpha) caps proof (ch.queryIndices[i].val % 2 ^ n)
        proof.rounds[i] := by
      simp only [RoundOk] at hr ⊢
      rw [← hnd] at hr ⊢
      rw [lowBits_mod]
      exact hr
    exact Finset.mem_filter.2 ⟨Finset.mem_range.2 hlt, round_passes hp (by omega) hH hopen hlt
      (hac.shape.rounds _ (List.getElem_mem _)) hs1 hs2 hr'
      (hin i _ _ (List.getElem?_eq_getElem hi) (List.getElem?_eq_getElem hi'))⟩
  · refine ⟨∅, by rw [Finset.card_empty]; omega, fun ch proof _ _ _ _ _ _ _ _ => ?_⟩
    by_cases hα : α ∈ A
    · exact Or.inr (Or.inl hα)
    by_cases hβ : ∃ j < k, betas.getD j 0 ∈ bad j (layerOf H (n - 4 * (j + 1)) (commitCaps.getD j []))
    · exact Or.inr (Or.inr (Or.inl hβ))
    left
    push Not at hβ
    set R := Finset.range (2 ^ n) \ G with hR
    have hRe : R.card ≤ e := by
      have h1 := Finset.card_sdiff_add_card_eq_card (show G ⊆ Finset.range (2 ^ n) from Finset.filter_subset _ _)
      rw [← hR, Finset.card_range] at h1
      omega
    have hin : ∀ v < 2 ^ n, v ∉ R → v ∈ G := fun v hv hvR => by
      by_contra h
      exact hvR (Finset.mem_sdiff.2 ⟨Finset.mem_range.2 hv, h⟩)
    obtain ⟨P, hP, hPe⟩ := hcommit layers (by rw [hlay, List.length_zip, hlen]; omega) (fun j L β hj => by
        rw [hlay, List.getElem?_zip_eq_some] at hj
        obtain ⟨hj1, hj2⟩ := hj
        have hjk : j < k := by rw [← hlen]; exact (List.getElem?_eq_some_iff.1 hj1).1
        rw [layersOf, List.getElem?_map, List.getElem?_range hjk] at hj1
        simp only [Option.map_some, Option.some.injEq] at hj1
        have := hβ j hjk
        have hb : betas.getD j 0 = β := by rw [List.getD_eq_getElem?_getD, hj2]; rfl
        rw [hb] at this
        rw [← hj1]
        exact this) final hs3.le
      (quotientAt n W (inst.batches.zip openings) α) R hRe fun v hv hvR => (Finset.mem_filter.1 (hin v hv hvR)).2.2
    exact hbatch α hα P hP R hRe fun v hv hvR => ⟨(Finset.mem_filter.1 (hin v hv hvR)).2.1, hPe v hv hvR⟩

/-- An honest tree is committed to its polynomials. -/
theorem oracle_committed {q : FriParams} {o : Oracle} {H : Evaluated} (hn : 4 ≤ q.degreeBits + q.config.rateBits)
    (hd : ∀ f ∈ o.polys, f.natDegree ≤ 2 ^ q.degreeBits) {w : ℕ}
    (hw : ∀ v, (o.leaf (q.degreeBits + q.config.rateBits) v).length = w)
    (ho : H.Oracle (q.degreeBits + q.config.rateBits) o) (e : ℕ) {i : ℕ} (hi : i < o.polys.length) :
    Committed H q e w (o.cap (q.degreeBits + q.config.rateBits)) i (o.polys.getD i 0) := by
  set n := q.degreeBits + q.config.rateBits with hnd
  have hpoly : o.polys.getD i 0 = o.polys[i] := List.getD_eq_getElem _ _ hi
  refine ⟨?_, ∅, by simp, fun v hv _ => ⟨o.leaf n v, hw v, ⟨_, ?_, ho v hv, ?_⟩, ?_⟩⟩
  · rw [hpoly]
    exact hd _ (List.getElem_mem hi)
  · rw [Merkle.treePath_length]; omega
  · have := Merkle.root_treePath BN.compress (o.digest n) (n - 4) n v (by omega)
    rw [Oracle.cap, Merkle.treeCap_getD, ← this]
    · rfl
    · rw [Nat.div_lt_iff_lt_mul (by positivity), ← pow_add, show 4 + (n - 4) = n by omega]
      exact hv
  · rw [hpoly, Oracle.leaf, List.getD_append _ _ _ _ (by simpa using hi), List.getD_eq_getElem _ _ (by simpa using hi),
      List.getElem_map]

/-- Honest trees are committed to their polynomials. -/
theorem honest_committed {q : FriParams} {inst : InstanceInfo QE} {os : List Oracle} (hc : Commits q inst os) {H : Evaluated}
    (hn : 4 ≤ q.degreeBits + q.config.rateBits) (ho : ∀ o ∈ os, H.Oracle (q.degreeBits + q.config.rateBits) o) (e : ℕ)
    {f : PolynomialInfo} {info : OracleInfo} (hf : inst.oracles[f.oracleIndex]? = some info) (hi : f.polynomialInfo < info.numPolys) :
    Committed H q e (leafWidth q inst.oracles f.oracleIndex) ((caps q os).getD f.oracleIndex []) f.polynomialInfo (poly os f) := by
  have h1 : f.oracleIndex < os.length := by rw [hc.count]; exact (List.getElem?_eq_some_iff.1 hf).1
  have ho' : os[f.oracleIndex]? = some os[f.oracleIndex] := List.getElem?_eq_getElem h1
  obtain ⟨s1, s2⟩ := hc.sizes _ _ _ ho' hf
  have hom : os[f.oracleIndex] ∈ os := List.getElem_mem _
  have := oracle_committed hn (hc.degree _ hom) (w := leafWidth q inst.oracles f.oracleIndex) (fun v => by
    rw [leafWidth, hf, Oracle.leaf, List.length_append, List.length_map, s1, s2]) (ho _ hom) e (i := f.polynomialInfo)
    (by rw [s1]; exact hi)
  rw [poly, caps, List.getD_eq_getElem _ _ h1, List.getD_eq_getElem _ _ (by simpa using h1), List.getElem_map]
  exact this

/-- Correct openings are those of an honest prover with the same polynomials. -/
theorem openings_of_correct {q : FriParams} {inst : InstanceInfo QE} {openings : List (List QE)} {caps : List (List Fr)}
    {F : ℕ → List Fr → ℕ → Fp[X]} {os : List Oracle} (hcor : Correct q inst openings caps F)
    (hF : ∀ b ∈ inst.batches, ∀ f ∈ b.polynomials, F (leafWidth q inst.oracles f.oracleIndex)
      (caps.getD f.oracleIndex []) f.polynomialInfo = poly os f) (hlen : inst.batches.length = openings.length)
    (hl : ∀ bo ∈ inst.batches.zip openings, bo.2.length = bo.1.polynomials.length) : openings = Prover.openings os inst := by
  rw [Prover.openings]
  refine List.ext_getElem (by rw [List.length_map, hlen]) fun i h1 h2 => ?_
  have hi : i < inst.batches.length := by simpa using h2
  have hmem : (inst.batches[i], openings[i]) ∈ inst.batches.zip openings := by
    rw [← List.getElem_zip (h := by rw [List.length_zip]; exact lt_min hi h1)]; exact List.getElem_mem _
  have hlen := hl _ hmem
  rw [List.getElem_map]
  refine List.ext_getElem (by rw [List.length_map, hlen]) fun j h3 h4 => ?_
  have hj : j < inst.batches[i].polynomials.length := by simpa using h4
  rw [List.getElem_map, ← hF _ (List.getElem_mem hi) _ (List.getElem_mem hj)]
  have hmem' : (inst.batches[i].polynomials[j], openings[i][j]) ∈ inst.batches[i].polynomials.zip openings[i] := by
    rw [← List.getElem_zip (l := inst.batches[i].polynomials) (l' := openings[i])
      (h := by rw [List.length_zip]; exact lt_min hj h3)]
    exact List.getElem_mem _
  exact (hcor _ hmem _ hmem').symm

end Verif.Fri
