import Verif.Proofs.RandomOracle
import Mathlib.Data.Set.Finite.List

/-!
# Exceptional challenges from a random oracle
-/

set_option autoImplicit false

namespace Verif.FiatShamir

open Spec Spec.Verifier Finset Interactive RandomOracle

variable {c : CommonCircuitData}

/-- The answer to a query is exceptional. -/
def Bad (T : (Fin 4 → Fp) → Traps) : Query → Answer c → Prop
  | .perm h w, a => (List.ofFn a.1.1).getD 0 0 ∈ (T h).beta w ∨
      (List.ofFn a.1.2).getD 0 0 ∈ (T h).gamma w ((List.ofFn a.1.1).getD 0 0)
  | .alphas h w bs gs z, a => (List.ofFn a.2.1).getD 0 0 ∈ (T h).alpha w bs gs z
  | .zeta h w bs gs z as q, a => a.2.2.1 ∈ (T h).zeta w bs gs z as q
  | .mix h w _ _ z _ q ζ o, a => a.2.2.2.1 ∈ (T h).mix w z q ζ o
  | .fold h _ _ _ _ _ _ _ _ _ caps βs, a => a.2.2.2.2.1 ∈ (T h).fold βs.length (caps.getD βs.length [])
  | .indices h w _ _ z _ q ζ o α caps βs final _, a =>
      a.2.2.2.2.2.1.val < 2 ^ (64 - c.friParams.config.proofOfWorkBits) ∧
      ∀ u ∈ List.ofFn a.2.2.2.2.2.2, u.val % 2 ^ (c.friParams.degreeBits + c.friParams.config.rateBits) ∈
        (T h).query w z q ζ o α caps βs final

theorem prob_snd {α β : Type} [Fintype α] [Fintype β] [Nonempty α] (P : β → Prop) :
    prob (fun ω : α × β => P ω.2) ≤ prob P := prob_prod fun _ => le_rfl

theorem bad_le {T : (Fin 4 → Fp) → Traps} {e : ℕ} (hT : ∀ h, (T h).Small c e) (hn : 0 < c.config.numChallenges) (q : Query) :
    prob (Bad (c := c) T q) ≤ roundError c e := by
  classical
  have hp : Fintype.card Fp = p := ZMod.card p
  have hQ : (Fintype.card QE : ℚ) = (p : ℚ) ^ 2 := by rw [card_QE, Nat.cast_pow]
  have h0 : ∀ f : Fin c.config.numChallenges → Fp, (List.ofFn f).getD 0 0 = f ⟨0, hn⟩ := fun f => getD_ofFn f 0 ⟨0, hn⟩
  have hcomp : ∀ (S : Finset Fp) (m : ℕ), S.card ≤ m →
      prob (fun f : Fin c.config.numChallenges → Fp => (List.ofFn f).getD 0 0 ∈ S) ≤ m / (p : ℚ) := by
    intro S m hS
    have h := prob_component (k := c.config.numChallenges) (α := Fp) ⟨0, hn⟩ (fun _ => S) m (fun _ => hS) fun _ _ _ => rfl
    rw [hp] at h
    exact le_trans (prob_mono fun f hf => by rwa [h0] at hf) h
  cases q with
  | perm h w =>
    refine le_trans ?_ (le_max_left _ _)
    unfold Bad
    refine (prob_or _ _).trans ?_
    have h1 : prob (fun a : Answer c => (List.ofFn a.1.1).getD 0 0 ∈ (T h).beta w) ≤
        (Plonk.n c * c.config.numRoutedWires : ℕ) / (p : ℚ) := by
      refine (prob_fst (fun x : (Fin c.config.numChallenges → Fp) × (Fin c.config.numChallenges → Fp) =>
        (List.ofFn x.1).getD 0 0 ∈ (T h).beta w)).le.trans ?_
      refine (prob_fst (fun x : (Fin c.config.numChallenges → Fp) => (List.ofFn x).getD 0 0 ∈ (T h).beta w)).le.trans ?_
      exact hcomp _ _ ((hT h).beta w)
    have h2 : prob (fun a : Answer c => (List.ofFn a.1.2).getD 0 0 ∈ (T h).gamma w ((List.ofFn a.1.1).getD 0 0)) ≤
        (Plonk.n c * c.config.numRoutedWires : ℕ) / (p : ℚ) := by
      refine (prob_fst (fun x : (Fin c.config.numChallenges → Fp) × (Fin c.config.numChallenges → Fp) =>
        (List.ofFn x.2).getD 0 0 ∈ (T h).gamma w ((List.ofFn x.1).getD 0 0))).le.trans ?_
      exact prob_prod fun bs => hcomp ((T h).gamma w ((List.ofFn bs).getD 0 0)) _ ((hT h).gamma w _)
    refine (add_le_add h1 h2).trans (le_of_eq ?_)
    rw [← add_div, ← Nat.cast_add, two_mul]
  | alphas h w bs gs z =>
    refine le_trans ?_ ((le_max_left _ _).trans (le_max_right _ _))
    unfold Bad
    refine (prob_snd (fun y : (Fin c.config.numChallenges → Fp) × QE × QE × QE × Fp × (Fin c.config.friConfig.numQueryRounds → Fp) =>
      (List.ofFn y.1).getD 0 0 ∈ (T h).alpha w bs gs z)).trans ?_
    refine (prob_fst (fun x : (Fin c.config.numChallenges → Fp) => (List.ofFn x).getD 0 0 ∈ (T h).alpha w bs gs z)).le.trans ?_
    exact hcomp _ _ ((hT h).alpha w bs gs z)
  | zeta h w bs gs z as q =>
    refine le_trans ?_ ((le_max_left _ _).trans ((le_max_right _ _).trans (le_max_right _ _)))
    unfold Bad
    refine prob_prod fun _ => prob_prod fun _ => ?_
    refine (prob_fst (α := QE) (· ∈ (T h).zeta w bs gs z as q)).le.trans ?_
    rw [← hQ]
    exact prob_mem_le ((hT h).zeta w bs gs z as q)
  | mix h w bs gs z as q ζ o =>
    refine le_trans ?_ ((le_max_left _ _).trans ((le_max_right _ _).trans ((le_max_right _ _).trans (le_max_right _ _))))
    unfold Bad
    refine prob_prod fun _ => prob_prod fun _ => prob_prod fun _ => ?_
    refine (prob_fst (α := QE) (· ∈ (T h).mix w z q ζ o)).le.trans ?_
    rw [← hQ]
    exact prob_mem_le ((hT h).mix w z q ζ o)
  | fold h w bs gs z as q ζ o α caps βs =>
    refine le_trans ?_ ((le_max_left _ _).trans ((le_max_right _ _).trans ((le_max_right _ _).trans
      ((le_max_right _ _).trans (le_max_right _ _)))))
    unfold Bad
    refine prob_prod fun _ => prob_prod fun _ => prob_prod fun _ => prob_prod fun _ => ?_
    refine (prob_fst (α := QE) (· ∈ (T h).fold βs.length (caps.getD βs.length []))).le.trans ?_
    rw [← hQ]
    exact prob_mem_le ((hT h).fold _ _)
  | indices h w bs gs z as q ζ o α caps βs final pow =>
    refine le_trans ?_ ((le_max_right _ _).trans ((le_max_right _ _).trans ((le_max_right _ _).trans
      ((le_max_right _ _).trans (le_max_right _ _)))))
    unfold Bad
    refine prob_prod fun _ => prob_prod fun _ => prob_prod fun _ => prob_prod fun _ => prob_prod fun _ => ?_
    set M := 2 ^ (c.friParams.degreeBits + c.friParams.config.rateBits) with hM
    have hcard : ((T h).query w z q ζ o α caps βs final).card ≤ M - e - 1 := by
      have := (hT h).query w z q ζ o α caps βs final
      rw [← hM] at this
      omega
    set S := (T h).query w z q ζ o α caps βs final with hS
    refine (prob_and (fun r : Fp => r.val < 2 ^ (64 - c.friParams.config.proofOfWorkBits))
      (fun qs : Fin c.config.friConfig.numQueryRounds → Fp => ∀ u ∈ List.ofFn qs, u.val % M ∈ S)).le.trans ?_
    rw [prob_pow]
    refine mul_le_mul_of_nonneg_left ?_ (div_nonneg (Nat.cast_nonneg _) (Nat.cast_nonneg _))
    have h1 : (0 : ℚ) ≤ prob (fun z : Fp => z.val % M ∈ S) := prob_nonneg _
    refine le_trans ?_ (pow_le_pow_left₀ h1 ((prob_mod M S).trans (div_le_div_of_nonneg_right
      (Nat.cast_le.2 (Nat.mul_le_mul_right _ hcard)) (Nat.cast_nonneg _))) _)
    rw [← prob_forall]
    exact prob_mono fun qs h i => h _ (List.mem_ofFn.2 ⟨i, rfl⟩)

/-- Exceptional challenges of a proof: one of the answers that the verifier gets is exceptional. -/
theorem bad_of_hit {T : (Fin 4 → Fp) → Traps} (hn : 0 < c.config.numChallenges) (oracle : Query → Answer c) (h : Fin 4 → Fp)
    (x : Proof Fp QE)
    (hpow : (oracleChallenges c oracle h x).friChallenges.powResponse.val < 2 ^ (64 - c.friParams.config.proofOfWorkBits))
    (hit : (T h).Hit c x (oracleChallenges c oracle h x)) :
    ∃ j < numRounds c, Bad T (nextQuery h x (run oracle (nextQuery h x) j))
      (oracle (nextQuery h x (run oracle (nextQuery h x) j))) := by
  set nx := nextQuery (c := c) h x with hnx
  set R := numRounds c with hR
  set k := c.friParams.reductionArityBits.length with hk
  have hR' : R = 5 + k := rfl
  have hg : ∀ i j, i < j → j ≤ R → (run oracle nx j).getD i 0 = (run oracle nx R).getD i 0 := by
    intro i j hi hj
    rw [run_getD _ _ hi, run_getD _ _ (by omega)]
  have hval : ∀ j, j < R → oracle (nx (run oracle nx j)) = (run oracle nx R).getD j 0 := by
    intro j hj; rw [run_getD _ _ hj]
  have hlen : ∀ j, (run oracle nx j).length = j := run_length _ _
  have hbetas : ∀ j ≤ k, (answerChallenges (run oracle nx (4 + j))).friChallenges.betas.take j =
      (oracleChallenges c oracle h x).friChallenges.betas.take j := by
    intro j hj
    simp only [oracleChallenges, answerChallenges, ← List.map_take]
    refine List.map_congr_left fun i hi => ?_
    have hi : i < j := by
      rw [List.take_range, List.mem_range] at hi; omega
    rw [hg _ _ (by omega) (by omega)]
  rcases hit with hit | hit | hit | ⟨j, hj, hit⟩ | hit
  · have h0 := hit 0 hn
    rw [← or_assoc] at h0
    rcases h0 with h0 | h0
    · refine ⟨0, by omega, ?_⟩
      rw [hval 0 (by omega), hnx]
      simp only [nextQuery, run, List.length_nil, Bad]
      exact h0
    · refine ⟨1, by omega, ?_⟩
      rw [hval 1 (by omega), hnx]
      simp only [nextQuery, ← hnx, hlen, Bad, answerChallenges, hg 0 1 (by omega) (by omega)]
      exact h0
  · refine ⟨2, by omega, ?_⟩
    rw [hval 2 (by omega), hnx]
    simp only [nextQuery, ← hnx, hlen, Bad, answerChallenges, hg 0 2 (by omega) (by omega), hg 1 2 (by omega) (by omega)]
    exact hit
  · refine ⟨3, by omega, ?_⟩
    rw [hval 3 (by omega), hnx]
    simp only [nextQuery, ← hnx, hlen, Bad, answerChallenges, hg 2 3 (by omega) (by omega)]
    exact hit
  · refine ⟨4 + j, by omega, ?_⟩
    rw [hval (4 + j) (by omega), hnx]
    have hlj : (run oracle nx (4 + j)).length = j + 4 := by rw [hlen, Nat.add_comm]
    simp only [nextQuery, ← hnx, hlj]
    rw [if_pos hj]
    simp only [Bad]
    rw [hbetas j hj.le]
    have h1 : ((oracleChallenges c oracle h x).friChallenges.betas.take j).length = j := by
      simp only [oracleChallenges, answerChallenges, List.length_take, List.length_map, List.length_range]
      exact min_eq_left hj.le
    have h2 : (x.openingProof.commitCaps.take (j + 1)).getD j [] = x.openingProof.commitCaps.getD j [] := by
      simp [List.getD_eq_getElem?_getD]
    have h3 : (oracleChallenges c oracle h x).friChallenges.betas.getD j 0 = ((run oracle nx R).getD (4 + j) 0).2.2.2.2.1 := by
      simp only [oracleChallenges, answerChallenges]
      rw [List.getD_eq_getElem _ _ (by simpa using hj)]
      simp
      rfl
    rw [h1, h2, ← h3]
    exact hit
  · refine ⟨4 + k, by omega, ?_⟩
    rw [hval (4 + k) (by omega), hnx]
    have hlk : (run oracle nx (4 + k)).length = k + 4 := by rw [hlen, Nat.add_comm]
    simp only [nextQuery, ← hnx, hlk]
    rw [if_neg (by omega)]
    have h1 : (answerChallenges (run oracle nx (4 + k))).friChallenges.betas = (oracleChallenges c oracle h x).friChallenges.betas := by
      have := hbetas k le_rfl
      rwa [List.take_of_length_le (by simp [answerChallenges, hk]), List.take_of_length_le (by simp [oracleChallenges, answerChallenges, hk])] at this
    simp only [Bad]
    rw [h1]
    simp only [answerChallenges, hg 2 (4 + k) (by omega) (by omega), hg 3 (4 + k) (by omega) (by omega)]
    exact ⟨hpow, hit⟩

/-- The strategy of the prover followed by the verifier. -/
def both (A : OracleProver c) (l : List (Answer c)) : Query :=
  if l.length < A.queries then A.next l
  else nextQuery (A.output (l.take A.queries)).1 (A.output (l.take A.queries)).2.2 (l.drop A.queries)

theorem oracleOf_apply {S : Finset Query} (f : S → Answer c) (q : S) : oracleOf f q = f q := dif_pos q.2

/-- The chance of a proof with exceptional challenges. -/
theorem hit_le {T : (Fin 4 → Fp) → Traps} {e : ℕ} (hT : ∀ h, (T h).Small c e) (hn : 0 < c.config.numChallenges)
    (A : OracleProver c) (S : Finset Query) (hS : A.Within S) :
    prob (fun f : S → Answer c =>
      let out := A.output (run (oracleOf f) A.next A.queries)
      let ch := oracleChallenges c (oracleOf f) out.1 out.2.2
      ch.friChallenges.powResponse.val < 2 ^ (64 - c.friParams.config.proofOfWorkBits) ∧ (T out.1).Hit c out.2.2 ch) ≤
      ((A.queries + numRounds c : ℕ) : ℚ) * roundError c e := by
  have h := prob_run S (fun f : S → Answer c => oracleOf f) oracleOf_apply (both A) (A.queries + numRounds c) ?_ (Bad T)
    (roundError c e) (bad_le hT hn)
  · refine le_trans (prob_mono fun f hf => ?_) h
    obtain ⟨j, hj, hb⟩ := bad_of_hit hn _ _ _ hf.1 hf.2
    refine ⟨A.queries + j, by omega, ?_⟩
    have h1 := run_append (oracleOf f) A.next (fun l m => nextQuery (A.output l).1 (A.output l).2.2 m) A.queries j
    have h1 : run (oracleOf f) (both A) (A.queries + j) = _ := h1
    have h2 : both A (run (oracleOf f) (both A) (A.queries + j)) =
        nextQuery (A.output (run (oracleOf f) A.next A.queries)).1 (A.output (run (oracleOf f) A.next A.queries)).2.2
          (run (oracleOf f) (nextQuery (A.output (run (oracleOf f) A.next A.queries)).1
            (A.output (run (oracleOf f) A.next A.queries)).2.2) j) := by
      rw [h1, both, if_neg (by rw [List.length_append, run_length, run_length]; omega), List.take_left' (run_length _ _ _),
        List.drop_left' (run_length _ _ _)]
    rw [h2]
    exact hb
  · intro l hl
    unfold both
    split_ifs with h
    · exact hS.prover l h
    · exact hS.verifier _ (by rw [List.length_take]; omega) _ (by rw [List.length_drop]; omega)

/-- Whatever the answers are, finitely many queries are asked. -/
theorem within_exists (A : OracleProver c) : ∃ S, A.Within S := by
  classical
  have hfin : ∀ k, {l : List (Answer c) | l.length < k}.Finite := fun k => List.finite_length_lt _ k
  refine ⟨(hfin A.queries).toFinset.image A.next ∪
    ((hfin (A.queries + 1)).toFinset ×ˢ (hfin (numRounds c)).toFinset).image
      (fun lm => nextQuery (A.output lm.1).1 (A.output lm.1).2.2 lm.2), ⟨fun l hl => ?_, fun l hl m hm => ?_⟩⟩
  · exact mem_union_left _ (mem_image_of_mem _ (by simpa using hl))
  · refine mem_union_right _ (mem_image.2 ⟨(l, m), ?_, rfl⟩)
    rw [mem_product]
    exact ⟨by simp [hl], by simpa using hm⟩

end Verif.FiatShamir
