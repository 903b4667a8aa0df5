import Verif.Model.Merkle
import Verif.Spec.Merkle
import Verif.Proofs.SpongeBN

/-!
# Merkle paths: lemmas
-/

set_option autoImplicit false

namespace Verif

open Circ

/-- Circuit value of a bit. -/
def bitF (b : Bool) : Fr := if b then 1 else 0

theorem isBit_iff (x : Fr) : IsBit x ↔ ∃ b, x = bitF b := by
  constructor
  · rintro (rfl | rfl)
    · exact ⟨false, rfl⟩
    · exact ⟨true, rfl⟩
  · rintro ⟨b, rfl⟩
    cases b <;> simp [bitF, IsBit]

theorem den_idx_some {α : Type} {l : List α} {i : ℕ} {x : α} (h : l[i]? = some x) :
    den (idx l i) = pure x := by rw [idx, h]; exact den_pure x

theorem den_idx_lt {α : Type} {l : List α} {i : ℕ} (h : i < l.length) : den (idx l i) = pure l[i] :=
  den_idx_some (List.getElem?_eq_getElem h)

theorem den_idx_none {α : Type} {l : List α} {i : ℕ} (h : l.length ≤ i) : den (idx l i) = Den.fail := by
  rw [idx, List.getElem?_eq_none h]; exact den_panic _

theorem den_select_bit (b : Bool) (x y : Fr) : den (select (bitF b) x y) = pure (if b then x else y) := by
  cases b
  · exact den_select_zero x y
  · exact den_select_one x y

theorem den_select_not_bit {b : Fr} (h : ¬ IsBit b) (x y : Fr) : den (select b x y) = Den.fail := by
  simp only [IsBit, not_or] at h
  exact den_select_of_ne h.1 h.2 x y

theorem den_apiLookup2 (b0 b1 : Bool) (i0 i1 i2 i3 : Fr) :
    den (apiLookup2 (bitF b0) (bitF b1) i0 i1 i2 i3) =
      pure (if b1 then (if b0 then i3 else i2) else (if b0 then i1 else i0)) := by
  rw [apiLookup2, den_require, den_require]
  cases b0 <;> cases b1 <;> simp [bitF, Den.guard]

theorem den_apiLookup2_not_bit {b0 b1 : Fr} (h : ¬ (IsBit b0 ∧ IsBit b1)) (i0 i1 i2 i3 : Fr) :
    den (apiLookup2 b0 b1 i0 i1 i2 i3) = Den.fail := by
  rw [apiLookup2, den_require, den_require]
  by_cases h0 : b0 = 0 ∨ b0 = 1
  · have h1 : ¬ (b1 = 0 ∨ b1 = 1) := fun h1 => h ⟨h0, h1⟩
    rw [Den.guard_true (by simpa using h0), pure_bind, Den.guard_false (by simpa using h1), Den.fail_bind]
  · rw [Den.guard_false (by simpa using h0), Den.fail_bind]

namespace Fri

theorem den_merkleStep {bits : List Fr} {i : ℕ} {b : Bool} (hb : bits[i]? = some (bitF b)) (d s : Fr) :
    den (merkleStep bits d (s, i)) =
      pure (Spec.BN.compress (Spec.Merkle.node d (b, s)).1 (Spec.Merkle.node d (b, s)).2) := by
  rw [merkleStep]
  simp only [den_bind, den_idx_some hb, pure_bind, den_select_bit, den_pure]
  refine congrArg pure ?_
  rw [← PoseidonBN.twoToOne_eq, PoseidonBN.twoToOne]
  cases b <;> rfl

theorem den_merkleStep_fail {bits : List Fr} {i : ℕ} (hb : ∀ b, bits[i]? ≠ some (bitF b)) (d s : Fr) :
    den (merkleStep bits d (s, i)) = Den.fail := by
  rw [merkleStep, den_bind]
  cases h : bits[i]? with
  | none => rw [den_idx_none (List.getElem?_eq_none_iff.1 h), Den.fail_bind]
  | some x =>
    rw [den_idx_some h, pure_bind, den_bind, den_select_not_bit, Den.fail_bind]
    intro hx
    obtain ⟨b, rfl⟩ := (isBit_iff x).1 hx
    exact hb b h

theorem den_merkleLoop (bits : List Bool) (sibs : List Fr) (d : Fr) (k : ℕ) (pre : List Fr)
    (hk : pre.length = k) (hl : sibs.length ≤ bits.length) :
    den ((sibs.zipIdx k).foldlM (merkleStep (pre ++ bits.map bitF)) d) =
      pure (Spec.Merkle.root Spec.BN.compress d (bits.zip sibs)) := by
  induction sibs generalizing bits d k pre with
  | nil => simp [Spec.Merkle.root]
  | cons s sibs ih =>
    cases bits with
    | nil => simp at hl
    | cons b bits =>
      rw [List.zipIdx_cons, List.foldlM_cons, den_bind, den_merkleStep (b := b) (by simp [← hk]), pure_bind]
      have e : pre ++ (b :: bits).map bitF = (pre ++ [bitF b]) ++ bits.map bitF := by simp
      rw [e, ih bits _ (k + 1) (pre ++ [bitF b]) (by simp [hk]) (by simpa using hl)]
      rfl

theorem den_merkleLoop_fail (bits sibs : List Fr) (d : Fr) (k i : ℕ) (hi : i < sibs.length)
    (hb : ∀ b, bits[k + i]? ≠ some (bitF b)) :
    den ((sibs.zipIdx k).foldlM (merkleStep bits) d) = Den.fail := by
  induction sibs generalizing d k i with
  | nil => simp at hi
  | cons s sibs ih =>
    rw [List.zipIdx_cons, List.foldlM_cons, den_bind]
    cases i with
    | zero => rw [den_merkleStep_fail (by simpa using hb), Den.fail_bind]
    | succ i =>
      have h : ∀ d, den ((sibs.zipIdx (k + 1)).foldlM (merkleStep bits) d) = Den.fail := fun d =>
        ih d (k + 1) i (by simpa using hi) (by
          intro b; rw [show k + 1 + i = k + (i + 1) by omega]; exact hb b)
      simp only [h]
      ext y <;> simp [Den.bind_def, Den.fail]

/-- Index denoted by four bits. -/
def capIndex (b : Fin 4 → Bool) : ℕ := (b 0).toNat + 2 * (b 1).toNat + 4 * (b 2).toNat + 8 * (b 3).toNat

theorem den_capLookup (b : Fin 4 → Bool) (cap : List Fr) (hc : cap.length = 16) :
    den (capLookup [bitF (b 0), bitF (b 1), bitF (b 2), bitF (b 3)] cap) = pure (cap.getD (capIndex b) 0) := by
  match cap, hc with
  | [c0, c1, c2, c3, c4, c5, c6, c7, c8, c9, c10, c11, c12, c13, c14, c15], _ =>
    have hx : ∀ {α : Type} {l : List α} {i : ℕ} {x : α}, l[i]? = some x → den (idx l i) = pure x :=
      fun h => den_idx_some h
    have hm : ∀ (f : ℕ → Circ Fr) (a0 a1 a2 a3 : Fr), den (f 0) = pure a0 → den (f 1) = pure a1 →
        den (f 2) = pure a2 → den (f 3) = pure a3 → den ((List.range 4).mapM f) = pure [a0, a1, a2, a3] := by
      intro f a0 a1 a2 a3 h0 h1 h2 h3
      rw [show List.range 4 = [0, 1, 2, 3] from rfl]
      simp only [List.mapM_cons, List.mapM_nil, den_bind, h0, h1, h2, h3, pure_bind, den_pure]
    rw [capLookup, if_neg (by simp)]
    rw [den_bind, hx rfl, pure_bind, den_bind, hx rfl, pure_bind, den_bind]
    rw [hm _ (if b 1 then (if b 0 then c3 else c2) else (if b 0 then c1 else c0))
      (if b 1 then (if b 0 then c7 else c6) else (if b 0 then c5 else c4))
      (if b 1 then (if b 0 then c11 else c10) else (if b 0 then c9 else c8))
      (if b 1 then (if b 0 then c15 else c14) else (if b 0 then c13 else c12))]
    rotate_left
    iterate 4
      rw [den_bind, hx rfl, pure_bind, den_bind, hx rfl, pure_bind, den_bind, hx rfl, pure_bind, den_bind, hx rfl,
        pure_bind]
      exact den_apiLookup2 _ _ _ _ _ _
    rw [pure_bind, den_bind, hx rfl, pure_bind, den_bind, hx rfl, pure_bind, den_bind, hx rfl, pure_bind,
      den_bind, hx rfl, pure_bind, den_bind, hx rfl, pure_bind, den_bind, hx rfl, pure_bind]
    refine (den_apiLookup2 _ _ _ _ _ _).trans (congrArg pure ?_)
    rw [capIndex]
    generalize b 0 = b0, b 1 = b1, b 2 = b2, b 3 = b3
    cases b0 <;> cases b1 <;> cases b2 <;> cases b3 <;> rfl

theorem den_capLookup_panic {bits cap : List Fr} (h : bits.length ≠ 4 ∨ cap.length ≠ 16) :
    den (capLookup bits cap) = Den.fail := by
  rw [capLookup, if_pos h]; exact den_panic _

theorem bind_fail {α β : Type} (d : Den α) : (d >>= fun _ => (Den.fail : Den β)) = Den.fail := by
  ext y <;> simp [Den.bind_def, Den.fail]

theorem den_capLookup_not_bit {bits cap : List Fr} (h : ¬ ∀ b ∈ bits, IsBit b) :
    den (capLookup bits cap) = Den.fail := by
  by_cases hl : bits.length ≠ 4 ∨ cap.length ≠ 16
  · exact den_capLookup_panic hl
  · rw [capLookup, if_neg hl]
    simp only [not_or, not_not] at hl
    match bits, hl with
    | [b0, b1, b2, b3], _ =>
      rw [den_bind, den_idx_some rfl, pure_bind, den_bind, den_idx_some rfl, pure_bind, den_bind]
      by_cases h01 : IsBit b0 ∧ IsBit b1
      · have h23 : ¬ (IsBit b2 ∧ IsBit b3) := fun h23 => h (by
          intro b hb
          simp only [List.mem_cons, List.not_mem_nil, or_false] at hb
          rcases hb with rfl | rfl | rfl | rfl
          exacts [h01.1, h01.2, h23.1, h23.2])
        simp only [den_bind, den_apiLookup2_not_bit h23, den_idx_some (l := [b0, b1, b2, b3]) (i := 2) rfl,
          den_idx_some (l := [b0, b1, b2, b3]) (i := 3) rfl, pure_bind, bind_fail]
      · rw [show List.range 4 = 0 :: [1, 2, 3] from rfl, List.mapM_cons, den_bind]
        simp only [den_bind, den_apiLookup2_not_bit h01, bind_fail, Den.fail_bind]

theorem den_verifyMerkle (leaf : List Fr) (bits : List Bool) (b : Fin 4 → Bool) (cap sibs : List Fr)
    (hc : cap.length = 16) (hl : sibs.length ≤ bits.length) :
    den (verifyMerkleProofToCap leaf (bits.map bitF) [bitF (b 0), bitF (b 1), bitF (b 2), bitF (b 3)] cap sibs) =
      Den.guard (Spec.Merkle.root Spec.BN.compress (Spec.BN.leaf leaf) (bits.zip sibs) =
        cap.getD (capIndex b) 0) := by
  have h := den_merkleLoop bits sibs (Spec.BN.leaf leaf) 0 [] rfl hl
  rw [List.nil_append] at h
  rw [verifyMerkleProofToCap, PoseidonBN.hashOrNoop_eq, den_bind, h, pure_bind, den_bind,
    den_capLookup b cap hc, pure_bind, den_assertEq]

theorem den_verifyMerkle_cap_fail {leaf bits capBits cap sibs : List Fr}
    (h : den (capLookup capBits cap) = Den.fail) :
    den (verifyMerkleProofToCap leaf bits capBits cap sibs) = Den.fail := by
  rw [verifyMerkleProofToCap, den_bind]
  simp only [den_bind, h, Den.fail_bind, bind_fail]

theorem den_verifyMerkle_bit_fail {leaf bits capBits cap sibs : List Fr} (i : ℕ) (hi : i < sibs.length)
    (hb : ∀ b, bits[i]? ≠ some (bitF b)) :
    den (verifyMerkleProofToCap leaf bits capBits cap sibs) = Den.fail := by
  rw [verifyMerkleProofToCap, den_bind,
    den_merkleLoop_fail bits sibs _ 0 i hi (by simpa using hb), Den.fail_bind]

/-! ## Binding -/

theorem root_collision {α : Type} (C : α → α → α) (bits : List Bool) (s s' : List α) (d d' : α)
    (hs : s.length = bits.length) (hs' : s'.length = bits.length)
    (h : Spec.Merkle.root C d (bits.zip s) = Spec.Merkle.root C d' (bits.zip s')) :
    (d = d' ∧ s = s') ∨ ∃ x ∈ (Spec.Merkle.inputs C d (bits.zip s)).zip (Spec.Merkle.inputs C d' (bits.zip s')),
      x.1 ≠ x.2 ∧ C x.1.1 x.1.2 = C x.2.1 x.2.2 := by
  induction bits generalizing s s' d d' with
  | nil =>
    left
    rw [List.length_nil, List.length_eq_zero_iff] at hs hs'
    exact ⟨h, by rw [hs, hs']⟩
  | cons b bits ih =>
    match s, s', hs, hs' with
    | x :: s, x' :: s', hs, hs' =>
      simp only [List.zip_cons_cons, Spec.Merkle.root] at h
      rcases ih s s' _ _ (by simpa using hs) (by simpa using hs') h with ⟨e, es⟩ | ⟨y, hy, hne⟩
      · by_cases hn : Spec.Merkle.node d (b, x) = Spec.Merkle.node d' (b, x')
        · left
          cases b <;> simp [Spec.Merkle.node] at hn
          · exact ⟨hn.1, by rw [hn.2, es]⟩
          · exact ⟨hn.2, by rw [hn.1, es]⟩
        · right
          exact ⟨(Spec.Merkle.node d (b, x), Spec.Merkle.node d' (b, x')),
            by simp [Spec.Merkle.inputs], hn, e⟩
      · right
        refine ⟨y, ?_, hne⟩
        simp only [List.zip_cons_cons, Spec.Merkle.inputs, List.mem_cons]
        exact Or.inr hy

end Fri
end Verif
