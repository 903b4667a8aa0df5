import Verif.Proofs.Panics
import Verif.Proofs.FriLaw

/-!
# Exact panic conditions of single functions
-/

set_option autoImplicit false

namespace Verif

open Circ Fri

variable {α β σ : Type}

theorem Circ.Panics.mapM {f : σ → Circ β} {l : List σ} {x : σ} (hx : x ∈ l) (h : Panics (f x)) : Panics (l.mapM f) := by
  induction l with
  | nil => simp at hx
  | cons a l ih =>
    rw [List.mapM_cons]
    rcases List.mem_cons.1 hx with rfl | hx
    · exact h.bind _
    · exact bind_all fun _ => (ih hx).bind _

theorem Circ.Panics.orPanic {m : String} {e : Option α} (h : e = none) : Panics (orPanic m e) := by subst h; trivial

namespace Guards

theorem merkle (leaf bits capBits cap siblings : List Fr) :
    Generates (verifyMerkleProofToCap leaf bits capBits cap siblings)
      (siblings.length ≤ bits.length ∧ capBits.length = 4 ∧ cap.length = 16) := by
  refine ⟨fun h => NoPanic.verifyMerkleProofToCap h.1 h.2.1 h.2.2, fun h => ?_⟩
  rw [verifyMerkleProofToCap]
  by_cases hs : siblings.length ≤ bits.length
  · refine .bind_all fun d => Panics.bind ?_ _
    rw [capLookup, if_pos (by tauto)]
    trivial
  · have hlt : bits.length < siblings.length := by omega
    refine Panics.bind (Panics.foldlM (x := (siblings[bits.length], bits.length)) ?_ (fun d => ?_) _) _
    · rw [List.mem_zipIdx_iff_getElem?]; exact List.getElem?_eq_getElem hlt
    · exact Panics.bind (Panics.idx le_rfl) _

theorem initial (bits : List Fr) (proof : List (FriEvalProof Fr)) (caps : List (List Fr)) (capBits : List Fr) :
    Generates (verifyInitialProof bits proof caps capBits)
      (proof.length = caps.length ∧ ∀ ec ∈ proof.zip caps, ec.1.siblings.length ≤ bits.length ∧ capBits.length = 4 ∧
        ec.2.length = 16) := by
  constructor
  · rintro ⟨h1, h2⟩
    rw [verifyInitialProof, if_neg (by simp [h1])]
    exact NoPanic.forM _ fun ec hec => (merkle _ _ _ _ _).1 (h2 ec hec)
  · intro h
    rw [verifyInitialProof]
    by_cases h1 : proof.length = caps.length
    · rw [if_neg (by simp [h1])]
      have : ∃ ec ∈ proof.zip caps, ¬ (ec.1.siblings.length ≤ bits.length ∧ capBits.length = 4 ∧ ec.2.length = 16) := by
        by_contra hn
        push Not at hn
        exact h ⟨h1, fun ec hec => hn ec hec⟩
      obtain ⟨ec, hec, hn⟩ := this
      exact Panics.forM hec ((merkle _ _ _ _ _).2 hn)
    · rw [if_pos h1]; trivial

theorem subgroupX (bits : List Fr) (n : ℕ) : Generates (calculateSubgroupX bits n) (n ≤ 32) := by
  refine ⟨NoPanic.calculateSubgroupX, fun h => ?_⟩
  have : primitiveRootOfUnity n = none := by
    rw [primitiveRootOfUnity]
    simp [show 32 < n by omega, TWO_ADICITY]
  exact Panics.bind (Panics.orPanic this) _

theorem instance_ (c : CommonCircuitData) (zeta : QEV) : Generates (getInstance c zeta) (c.degreeBits ≤ 32) := by
  refine ⟨fun h => ?_, fun h => ?_⟩
  · obtain ⟨g, hg⟩ := NoPanic.primitiveRoot h
    exact (NoPanic.orPanic hg).bindN fun _ _ => NoPanic.bind (NoPanic.mulExt _ _) fun _ => NoPanic.pure _
  · have : primitiveRootOfUnity c.degreeBits = none := by
      rw [primitiveRootOfUnity]
      simp [show 32 < c.degreeBits by omega, TWO_ADICITY]
    exact Panics.bind (Panics.orPanic this) _

theorem combine (inst : InstanceInfo QEV) (proof : List (FriEvalProof Fr)) (alpha x : QEV) (y : List QEV) :
    Generates (friCombineInitial inst proof alpha x y) (inst.batches.length = y.length ∧
      ∀ b ∈ inst.batches, ∀ f ∈ b.polynomials,
        ∃ t, proof[f.oracleIndex]? = some t ∧ f.polynomialInfo < t.elements.length) := by
  refine ⟨fun h => NoPanic.friCombineInitial h.1 h.2, fun h => ?_⟩
  rw [friCombineInitial]
  by_cases h1 : inst.batches.length = y.length
  · rw [if_neg (by simp [h1])]
    have : ∃ b ∈ inst.batches, ∃ f ∈ b.polynomials,
        ¬ ∃ t, proof[f.oracleIndex]? = some t ∧ f.polynomialInfo < t.elements.length := by
      by_contra hn
      refine h ⟨h1, fun b hb f hf => ?_⟩
      by_contra hc
      exact hn ⟨b, hb, f, hf, hc⟩
    obtain ⟨b, hb, f, hf, hn⟩ := this
    obtain ⟨i, hi, rfl⟩ := List.getElem_of_mem hb
    refine Panics.foldlM (x := (inst.batches[i], y[i]'(h1 ▸ hi))) ?_ (fun s => ?_) _
    · rw [← List.getElem_zip (h := by rw [List.length_zip, ← h1, min_self]; exact hi)]
      exact List.getElem_mem _
    · refine Panics.bind (Panics.mapM hf ?_) _
      rcases hp : proof[f.oracleIndex]? with _ | t
      · exact Panics.bind (Panics.idx (List.getElem?_eq_none_iff.1 hp)) _
      · have h2 : t.elements.length ≤ f.polynomialInfo := by
          by_contra hc
          exact hn ⟨t, hp, by omega⟩
        have h3 : idx proof f.oracleIndex = pure t := by rw [idx, hp]
        rw [h3, pure_bind]
        exact Panics.bind (Panics.idx h2) _
  · rw [if_pos h1]; trivial

theorem interpolation (x : QEV) (xs ys ws : List QEV) :
    Generates (interpolate x xs ys ws) (xs.length = ys.length ∧ xs.length = ws.length) := by
  refine ⟨fun h => NoPanic.interpolate h.1 h.2, fun h => ?_⟩
  rw [interpolate, if_pos (by tauto)]
  trivial

theorem evaluation_safe {x : Fr} {bits : List Fr} {a : ℕ} {evals : List QEV} {beta : QEV} (ha : a ≤ 7)
    (h : evals.length = 2 ^ a) : NoPanic (computeEvaluation x bits a evals beta) := by
  obtain ⟨g, hg⟩ := NoPanic.primitiveRoot (n := a) (by omega)
  have h255 : evals.length ≤ 255 := by
    rw [h]; exact (Nat.pow_le_pow_right (by norm_num) ha).trans (by norm_num)
  have hpos : 0 < evals.length := by rw [h]; positivity
  obtain ⟨r, hr, hrl⟩ := NoPanic.permuteLoop_some evals a h255 (by rintro rfl; simp at hpos) 1000 0
    (evals.map fun _ => (0, 0)) (by omega) (by omega) (by simp)
  have hs : goShl1 a = 2 ^ a := by rw [goShl1, if_pos (by omega)]
  rw [computeEvaluation, if_neg (by rw [h, hs]; simp), if_neg (by omega)]
  refine (NoPanic.orPanic hg).bindN fun g _ => (NoPanic.orPanic hr).bindN fun perm hp => NoPanic.bind (NoPanic.expFromBits _ _) fun _ =>
    NoPanic.bind (NoPanic.mul _ _) fun _ => ?_
  refine Safe.bindN (Q := fun pts : List QEV => pts.length = evals.length) ?_ fun pts hpts => ?_
  · refine (Safe.foldlM (fun i (pts : List QEV) => pts.length = i + 1) _ (fun i pts _ _ hi => ?_) _ rfl).mono
      fun pts hp => by
        rw [hp, List.length_range]; omega
    exact (NoPanic.mulExt _ _).bindS fun _ => Safe.pure (by simp [hi])
  · refine (Safe.mapM_length _ fun xi _ => ?_).bindN fun ws hws => ?_
    · refine NoPanic.bind (NoPanic.foldlM _ (fun _ _ _ => NoPanic.ite (fun _ => NoPanic.subMulExt _ _ _) fun _ => NoPanic.pure _) _) fun _ =>
        NoPanic.bind (NoPanic.inverseExt _) fun _ => NoPanic.bind (NoPanic.assertEq _ _) fun _ => NoPanic.pure _
    · subst hp
      exact NoPanic.interpolate (by omega) (by simpa using hws.symm)

theorem evaluation (x : Fr) (bits : List Fr) (a : ℕ) (evals : List QEV) (beta : QEV) :
    Generates (computeEvaluation x bits a evals beta) (a ≤ 7 ∧ evals.length = 2 ^ a) := by
  refine ⟨fun h => evaluation_safe h.1 h.2, fun h => ?_⟩
  rw [computeEvaluation]
  split_ifs with h1 h2
  · trivial
  · trivial
  · push Not at h1 h2
    have hs : goShl1 a = 2 ^ a := by rw [goShl1, if_pos (by omega)]
    have hl : evals.length = 2 ^ a := by rw [hs] at h1; exact_mod_cast h1
    obtain rfl : a = 8 := by
      by_contra hne
      exact h ⟨by omega, hl⟩
    exact .bind_all fun _ => Panics.bind (Panics.orPanic (permuteLoop_diverges evals hl 8 1000 0 (by norm_num) _)) _

theorem lookup16 (bits : List Fr) (evals : List QEV) :
    Generates (evalLookup bits evals) (4 ≤ bits.length ∧ 16 ≤ evals.length) := by
  constructor
  · rintro ⟨hb, he⟩
    have hi : ∀ (j : ℕ), j < 16 → NoPanic (Verif.idx evals j) := fun j hj => NoPanic.idx' (by omega)
    refine NoPanic.bind (NoPanic.idx' (by omega)) fun _ => NoPanic.bind (NoPanic.idx' (by omega)) fun _ => ?_
    refine (Safe.mapM_length (List.range 4) fun i h => ?_).bindN fun l hl => ?_
    · have := List.mem_range.1 h
      exact NoPanic.bind (hi _ (by omega)) fun _ => NoPanic.bind (hi _ (by omega)) fun _ => NoPanic.bind (hi _ (by omega)) fun _ =>
        NoPanic.bind (hi _ (by omega)) fun _ => NoPanic.lookup2 _ _ _ _ _ _
    · rw [List.length_range] at hl
      exact NoPanic.bind (NoPanic.idx' (by omega)) fun _ => NoPanic.bind (NoPanic.idx' (by omega)) fun _ =>
        NoPanic.bind (NoPanic.idx' (by omega)) fun _ => NoPanic.bind (NoPanic.idx' (by omega)) fun _ =>
        NoPanic.bind (NoPanic.idx' (by omega)) fun _ => NoPanic.bind (NoPanic.idx' (by omega)) fun _ =>
        NoPanic.lookup2 _ _ _ _ _ _
  · intro h
    rw [evalLookup]
    by_cases hb : 4 ≤ bits.length
    · refine .bind_all fun _ => .bind_all fun _ => Panics.bind (Panics.mapM (x := 3) (by simp) ?_) _
      exact .bind_all fun _ => .bind_all fun _ => .bind_all fun _ => Panics.bind (Panics.idx (by omega)) _
    · exact .bind_all fun _ => .bind_all fun _ => .bind_all fun _ => .bind_all fun _ => Panics.bind (Panics.idx (by omega)) _

theorem partialInterpolation (d : List Fp) (v : List QAV) (w : List Fp) (pt e0 p0 : QAV) :
    Generates (partialInterpolate d v w pt e0 p0) (v ≠ [] ∧ v.length = d.length ∧ v.length = w.length) := by
  constructor
  · rintro ⟨h0, h1, h2⟩
    exact NoPanic.partialInterpolate (by simpa using h0) h1 h2
  · intro h
    rw [partialInterpolate]
    split_ifs with h0 h1 h2
    · trivial
    · trivial
    · trivial
    · push Not at h1 h2
      exact absurd ⟨by simpa using h0, h1, h2⟩ h

end Guards

end Verif
