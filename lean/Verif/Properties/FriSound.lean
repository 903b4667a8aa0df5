import Verif.Properties.Fri
import Verif.Proofs.FriExtract

/-!
# Soundness of FRI (C75)

Round by round, in the order of the transcript: the caps of the oracles determine polynomials; then, with few
exceptional values of each challenge, a proof of any other opening is only accepted at few query positions.
-/

set_option autoImplicit false

namespace Verif

open Circ Fri Spec.Fri Polynomial

/-- **C75** Fix the inputs at which the hashes are evaluated and assume that they contain no collision.  Every column of a
tree (leaf width, cap, column number) determines a polynomial `F` of degree at most `2^degreeBits`, which is the committed
one if there is one, and every cap of the commit phase a set of bad folding challenges, such that:
for all caps, points and claimed openings there is a set `A` of bad `alpha`s such that for all other `alpha`s, all caps of
the commit phase with good folding challenges and all final polynomials, either the claimed openings are the values of `F`,
or fewer than `2^n - e` query positions are acceptable at all, and every satisfying proof is queried only there.  `e` can
be anything up to half the minimum distance of the code. -/
theorem C75_fri_sound (q : FriParams) (hn : q.degreeBits + q.config.rateBits ≤ 32)
    (hk : 4 * q.reductionArityBits.length ≤ q.degreeBits) (e : ℕ)
    (he : 2 * e + 2 ^ q.degreeBits < 2 ^ (q.degreeBits + q.config.rateBits)) (H : Evaluated) (hH : H.CollisionFree) :
    ∃ F : ℕ → List Fr → ℕ → Fp[X],
      (∀ w cap i, (F w cap i).natDegree ≤ 2 ^ q.degreeBits) ∧ (∀ w cap i P, Committed H q e w cap i P → F w cap i = P) ∧
    ∃ bad : ℕ → List Fr → Finset QE, (∀ j cap, (bad j cap).card ≤ 15 * (2 ^ q.degreeBits * e + e + 1)) ∧
    ∀ (inst : InstanceInfo QE) (openings : List (List QE)) (caps : List (List Fr)), Supported q inst openings caps →
      (∀ bo ∈ inst.batches.zip openings, bo.2.length = bo.1.polynomials.length) →
    ∃ A : Finset QE, A.card ≤ (numOpenings openings - 1) * (2 ^ q.degreeBits * e + e + 1) ∧
    ∀ α ∉ A, ∀ (commitCaps : List (List Fr)) (betas : List QE),
      (∀ j < q.reductionArityBits.length, betas.getD j 0 ∉ bad j (commitCaps.getD j [])) → ∀ final : List QE,
    Correct q inst openings caps F ∨
    ∃ G : Finset ℕ, G.card + e < 2 ^ (q.degreeBits + q.config.rateBits) ∧
      ∀ (ch : FriChallenges Fp QE) (proof : FriProof Fp QE), ch.alpha = α → ch.betas = betas →
        proof.commitCaps = commitCaps → proof.finalPoly = final →
        H.Proof (q.degreeBits + q.config.rateBits) ch.queryIndices proof →
        Sat (verifyFriProof q inst.enc (openings.map fun l => l.map embQ) ch.enc caps proof.enc) () →
        ∀ z ∈ ch.queryIndices, z.val % 2 ^ (q.degreeBits + q.config.rateBits) ∈ G := by
  obtain ⟨F, bad, hF, hFP, hbad, h⟩ := fri_sound q hn hk e he H hH
  refine ⟨F, hF, hFP, bad, hbad, fun inst openings caps hp hl => ?_⟩
  obtain ⟨A, hA, h⟩ := h inst openings caps
  refine ⟨A, hA, fun α hα commitCaps betas hβ final => or_iff_not_imp_left.2 fun hcor => ?_⟩
  obtain ⟨G, hG, h⟩ := h α commitCaps betas final
  refine ⟨G, hG, fun ch proof h1 h2 h3 h4 h5 h6 => ?_⟩
  refine (((h ch proof h1 h2 h3 h4 hp hl h5 ((C55_verifyFriProof q inst openings caps hp ch proof).1.1 h6)).resolve_left
    hcor).resolve_left hα).resolve_left ?_
  rintro ⟨j, hj, h⟩
  exact hβ j hj h

/-- **C75** honest trees are committed to their polynomials, so the `F` of `C75_fri_sound` are those. -/
theorem C75_honest (q : FriParams) (inst : InstanceInfo QE) (os : List Prover.Oracle) (hc : Prover.Commits q inst os)
    (H : Evaluated) (hn : 4 ≤ q.degreeBits + q.config.rateBits) (ho : ∀ o ∈ os, H.Oracle (q.degreeBits + q.config.rateBits) o)
    (e : ℕ) (f : PolynomialInfo) (info : OracleInfo) (hf : inst.oracles[f.oracleIndex]? = some info)
    (hi : f.polynomialInfo < info.numPolys) :
    Committed H q e (leafWidth q inst.oracles f.oracleIndex) ((Prover.caps q os).getD f.oracleIndex []) f.polynomialInfo
      (Prover.poly os f) :=
  honest_committed hc hn ho e hf hi

/-- **C75** in particular a false claim about honestly committed polynomials is only accepted at few query positions. -/
theorem C75_false_claim (q : FriParams) (hn : q.degreeBits + q.config.rateBits ≤ 32)
    (hk : 4 * q.reductionArityBits.length ≤ q.degreeBits) (e : ℕ)
    (he : 2 * e + 2 ^ q.degreeBits < 2 ^ (q.degreeBits + q.config.rateBits)) (H : Evaluated) (hH : H.CollisionFree)
    (inst : InstanceInfo QE) (os : List Prover.Oracle) (hc : Prover.Commits q inst os)
    (ho : ∀ o ∈ os, H.Oracle (q.degreeBits + q.config.rateBits) o) (openings : List (List QE))
    (hp : Supported q inst openings (Prover.caps q os))
    (hl : ∀ bo ∈ inst.batches.zip openings, bo.2.length = bo.1.polynomials.length)
    (hfalse : openings ≠ Prover.openings os inst) :
    ∃ bad : ℕ → List Fr → Finset QE, (∀ j cap, (bad j cap).card ≤ 15 * (2 ^ q.degreeBits * e + e + 1)) ∧
    ∃ A : Finset QE, A.card ≤ (numOpenings openings - 1) * (2 ^ q.degreeBits * e + e + 1) ∧
    ∀ α ∉ A, ∀ (commitCaps : List (List Fr)) (betas : List QE),
      (∀ j < q.reductionArityBits.length, betas.getD j 0 ∉ bad j (commitCaps.getD j [])) → ∀ final : List QE,
    ∃ G : Finset ℕ, G.card + e < 2 ^ (q.degreeBits + q.config.rateBits) ∧
      ∀ (ch : FriChallenges Fp QE) (proof : FriProof Fp QE), ch.alpha = α → ch.betas = betas →
        proof.commitCaps = commitCaps → proof.finalPoly = final →
        H.Proof (q.degreeBits + q.config.rateBits) ch.queryIndices proof →
        Sat (verifyFriProof q inst.enc (openings.map fun l => l.map embQ) ch.enc (Prover.caps q os) proof.enc) () →
        ∀ z ∈ ch.queryIndices, z.val % 2 ^ (q.degreeBits + q.config.rateBits) ∈ G := by
  obtain ⟨F, -, hFP, bad, hbad, h⟩ := C75_fri_sound q hn hk e he H hH
  obtain ⟨A, hA, h⟩ := h inst openings (Prover.caps q os) hp hl
  refine ⟨bad, hbad, A, hA, fun α hα commitCaps betas hβ final => ?_⟩
  refine (h α hα commitCaps betas hβ final).resolve_left fun hcor => hfalse ?_
  refine openings_of_correct hcor (fun b hb f hf => ?_) hp.openings hl
  obtain ⟨o, h1, h2⟩ := hp.batches b hb f hf
  exact hFP _ _ _ _ (C75_honest q inst os hc H hp.domain.1 ho e f o h1 h2)

/-- The sizes of plonky2's standard recursion configuration (degree `2^12`, blow-up 8, two reductions): up to 14335
errors, and fewer than `2^30` bad values of each folding challenge out of more than `2^126`. -/
example : let q : FriParams := ⟨⟨3, 4, 16, 28⟩, false, 12, [4, 4]⟩
    q.degreeBits + q.config.rateBits ≤ 32 ∧ 4 * q.reductionArityBits.length ≤ q.degreeBits ∧
    2 * 14335 + 2 ^ q.degreeBits < 2 ^ (q.degreeBits + q.config.rateBits) ∧
    15 * (2 ^ q.degreeBits * 14335 + 14335 + 1) < 2 ^ 30 ∧ 2 ^ 126 < p * p := by
  simp only [p]
  norm_num

/-- A constant committed in a tree of 32 leaves, and a false claim about its value at a point: whatever `alpha` and the
final polynomial are, proofs of the claim are only accepted at fewer than 19 of the 32 positions. -/
example (c : Fp) (z y : QE) (hy : y ≠ ofBase c) : ∃ (q : FriParams) (inst : InstanceInfo QE) (os : List Prover.Oracle) (H : Evaluated),
    H.CollisionFree ∧ inst.batches = [⟨z, [⟨0, 0⟩]⟩] ∧ Prover.poly os ⟨0, 0⟩ = C c ∧ q.degreeBits = 2 ∧ q.config.rateBits = 3 ∧
    ∀ (α : QE) (final : List QE), ∃ G : Finset ℕ, G.card < 19 ∧ ∀ (ch : FriChallenges Fp QE) (proof : FriProof Fp QE),
      ch.alpha = α → ch.betas = [] → proof.commitCaps = [] → proof.finalPoly = final → H.Proof 5 ch.queryIndices proof →
      Sat (verifyFriProof q inst.enc [[embQ y]] ch.enc (Prover.caps q os) proof.enc) () →
      ∀ i ∈ ch.queryIndices, i.val % 32 ∈ G := by
  let q : FriParams := ⟨⟨3, 4, 16, 28⟩, false, 2, []⟩
  let inst : InstanceInfo QE := ⟨[⟨1, false⟩], [⟨z, [⟨0, 0⟩]⟩]⟩
  let o : Prover.Oracle := ⟨[C c], fun _ => []⟩
  let d : Fr := Spec.BN.leaf [emb c]
  let H : Evaluated := ⟨{(d, d)}, {[emb c]}⟩
  have hH : H.CollisionFree := ⟨fun a ha b hb _ => by rw [Set.mem_singleton_iff.1 ha, Set.mem_singleton_iff.1 hb],
    fun a ha b hb _ _ => by rw [Set.mem_singleton_iff.1 ha, Set.mem_singleton_iff.1 hb]⟩
  have hleaf : ∀ v, (o.leaf 5 v).map emb = [emb c] := fun v => by simp [o, Prover.Oracle.leaf]
  have hdig : ∀ v, o.digest 5 v = d := fun v => by rw [Prover.Oracle.digest, hleaf]
  have ho : H.Oracle 5 o := by
    intro v _
    rw [hleaf]
    refine ⟨Set.mem_singleton _, fun ab h => ?_⟩
    have hp : Spec.Merkle.treePath Spec.BN.compress (o.digest 5) (5 - 4) v = [d] := by
      simp [Spec.Merkle.treePath, Spec.Merkle.treeNode, hdig]
    have hb : (lowBits 5 v).zip [d] = [(v.testBit 0, d)] := by
      rw [lowBits_succ]; simp
    rw [hp, hb] at h
    simp only [Spec.Merkle.inputs, Spec.Merkle.node, List.mem_singleton] at h
    rw [h]
    exact Set.mem_singleton_iff.2 (by split_ifs <;> rfl)
  have hc : Prover.Commits q inst [o] := by
    refine ⟨rfl, ?_, ?_⟩
    · intro i o' info h1 h2
      cases i with
      | zero =>
        simp only [List.getElem?_cons_zero, Option.some.injEq, inst] at h1 h2
        subst h1 h2
        exact ⟨rfl, fun _ => rfl⟩
      | succ i => simp at h1
    · intro o' h1 f hf
      rw [List.mem_singleton] at h1
      subst h1
      rw [List.mem_singleton.1 hf]
      rw [natDegree_C]
      exact Nat.zero_le _
  have hp : Supported q inst [[y]] (Prover.caps q [o]) := by
    refine ⟨by norm_num [q], by norm_num [q], by simp [q], ⟨rfl, ?_⟩, rfl, ?_⟩
    · intro cap h
      rw [Prover.caps, List.map_singleton, List.mem_singleton] at h
      rw [h, Prover.Oracle.cap, Spec.Merkle.treeCap_length]; norm_num
    · intro b hb f hf
      rw [List.mem_singleton.1 hb] at hf
      rw [List.mem_singleton.1 hf]
      exact ⟨⟨1, false⟩, rfl, by norm_num⟩
  refine ⟨q, inst, [o], H, hH, rfl, rfl, rfl, rfl, fun α final => ?_⟩
  obtain ⟨bad, -, A, hA, h⟩ := C75_false_claim q (by norm_num [q]) (by norm_num [q]) 13 (by norm_num [q]) H hH inst [o] hc
    (by intro o' h'; rw [List.mem_singleton.1 h']; exact ho) [[y]] hp (by simp [inst]) (by
      simp only [Prover.openings, inst, List.map_cons, List.map_nil, ne_eq, List.cons.injEq, and_true]
      rw [show Prover.poly [o] ⟨0, 0⟩ = C c from rfl, eval₂_C]
      exact hy)
  obtain ⟨G, hG, h⟩ := h α (by
    have : A = ∅ := Finset.card_eq_zero.1 (Nat.le_zero.1 (by simpa [numOpenings] using hA))
    simp [this]) [] [] (by simp [q]) final
  exact ⟨G, by norm_num [q] at hG; omega, h⟩

end Verif
