import Verif.Proofs.Merkle
import Verif.Proofs.Panics

/-!
# Properties C27, C28: Merkle openings

`bitF b` is the circuit value of the bit `b`.
-/

set_option autoImplicit false

namespace Verif

open Circ Fri

/-! ## C27 -/

/-- **C27** for boolean index and cap-index bits, verification accepts exactly the authentic paths: folding the
siblings over the leaf digest gives the selected cap entry. -/
theorem C27_merkle (leaf : List Fr) (bits : List Bool) (b : Fin 4 → Bool) (cap sibs : List Fr)
    (hc : cap.length = 16) (hl : sibs.length ≤ bits.length) :
    Enforces (verifyMerkleProofToCap leaf (bits.map bitF) (List.ofFn fun i => bitF (b i)) cap sibs)
      (Spec.Merkle.root Spec.BN.compress (Spec.BN.leaf leaf) (bits.zip sibs) =
        cap.getD ((b 0).toNat + 2 * (b 1).toNat + 4 * (b 2).toNat + 8 * (b 3).toNat) 0) := by
  classical
  rw [← den_eq_guard_iff]
  exact den_verifyMerkle leaf bits b cap sibs hc hl

/-- **C27** a non-boolean cap-index bit is rejected, whatever the other inputs. -/
theorem C27_capBits_boolean (leaf bits capBits cap sibs : List Fr) (x : Fr) (hx : x ∈ capBits)
    (h0 : x ≠ 0) (h1 : x ≠ 1) : Unsat (verifyMerkleProofToCap leaf bits capBits cap sibs) :=
  den_eq_fail (den_verifyMerkle_cap_fail (den_capLookup_not_bit fun h => (h x hx).elim h0 h1))

/-- A cap bit with value 2. -/
example (leaf bits cap sibs : List Fr) : Unsat (verifyMerkleProofToCap leaf bits [0, 2, 1, 0] cap sibs) :=
  C27_capBits_boolean _ _ _ _ _ 2 (by simp) (by decide +kernel) (by decide +kernel)

/-- **C27** a non-boolean index bit at a level that has a sibling is rejected; so is a path longer than the index. -/
theorem C27_indexBits_boolean (leaf bits capBits cap sibs : List Fr) (i : ℕ) (hi : i < sibs.length)
    (h : bits[i]? ≠ some 0 ∧ bits[i]? ≠ some 1) :
    Unsat (verifyMerkleProofToCap leaf bits capBits cap sibs) :=
  den_eq_fail (den_verifyMerkle_bit_fail i hi fun b hb => by
    cases b
    · exact h.1 hb
    · exact h.2 hb)

/-- **C27** caps of height other than four are rejected (the generator panics). -/
theorem C27_cap_height (leaf bits capBits cap sibs : List Fr) (h : capBits.length ≠ 4 ∨ cap.length ≠ 16) :
    Panics (verifyMerkleProofToCap leaf bits capBits cap sibs) :=
  (post_verifyMerkle leaf bits capBits cap sibs).panics (by omega)

/-- **C27** and so are paths longer than the index. -/
theorem C27_long_path (leaf bits capBits cap sibs : List Fr) (h : bits.length < sibs.length) :
    Panics (verifyMerkleProofToCap leaf bits capBits cap sibs) :=
  (post_verifyMerkle leaf bits capBits cap sibs).panics (by omega)

/-- A path of length two: leaf on the right of the first node, left of the second. -/
example (C : ℕ → ℕ → ℕ) : Spec.Merkle.root C 5 ([true, false].zip [6, 7]) = C (C 6 5) 7 := rfl

/-- An accepted opening exists for every leaf, path and position: put the computed root into the cap. -/
example (leaf : List Fr) (bits : List Bool) (sibs : List Fr) (hl : sibs.length ≤ bits.length) :
    ∃ cap, Sat (verifyMerkleProofToCap leaf (bits.map bitF)
      (List.ofFn fun i => bitF (![true, false, true, false] i)) cap sibs) () := by
  refine ⟨List.replicate 16 (Spec.Merkle.root Spec.BN.compress (Spec.BN.leaf leaf) (bits.zip sibs)), ?_⟩
  exact (C27_merkle leaf bits ![true, false, true, false] _ sibs (by simp) hl).1.2 (by simp)

/-! ## C28 -/

/-- **C28** two openings of the same position against the same cap: the same leaf data and siblings, or a collision of
the leaf hash between the two leaves, or a collision of the compression between the two nodes at some level. -/
theorem C28_binding (leaf leaf' : List Fr) (bits : List Bool) (b : Fin 4 → Bool) (cap sibs sibs' : List Fr)
    (hc : cap.length = 16) (hl : sibs.length = bits.length) (hl' : sibs'.length = bits.length)
    (h : Sat (verifyMerkleProofToCap leaf (bits.map bitF) (List.ofFn fun i => bitF (b i)) cap sibs) ())
    (h' : Sat (verifyMerkleProofToCap leaf' (bits.map bitF) (List.ofFn fun i => bitF (b i)) cap sibs') ()) :
    (leaf = leaf' ∧ sibs = sibs') ∨ (leaf ≠ leaf' ∧ Spec.BN.leaf leaf = Spec.BN.leaf leaf') ∨
    ∃ x ∈ (Spec.Merkle.inputs Spec.BN.compress (Spec.BN.leaf leaf) (bits.zip sibs)).zip
        (Spec.Merkle.inputs Spec.BN.compress (Spec.BN.leaf leaf') (bits.zip sibs')),
      x.1 ≠ x.2 ∧ Spec.BN.compress x.1.1 x.1.2 = Spec.BN.compress x.2.1 x.2.2 := by
  have e := (C27_merkle leaf bits b cap sibs hc hl.le).1.1 h
  have e' := (C27_merkle leaf' bits b cap sibs' hc hl'.le).1.1 h'
  rcases root_collision Spec.BN.compress bits sibs sibs' _ _ hl hl' (e.trans e'.symm) with ⟨h1, h2⟩ | h3
  · by_cases hll : leaf = leaf'
    · exact Or.inl ⟨hll, h2⟩
    · exact Or.inr (Or.inl ⟨hll, h1⟩)
  · exact Or.inr (Or.inr h3)

/-- **C28** a collision of the leaf hash between canonical leaves of one length is a collision of the sponge on
different packed inputs (impossible for leaves of at most three elements). -/
theorem C28_leaf_collision (l l' : List Fr) (hl : l.length = l'.length) (hs : ∀ x ∈ l, x.val < 2 ^ 64)
    (hs' : ∀ x ∈ l', x.val < 2 ^ 64) (hne : l ≠ l') (h : Spec.BN.leaf l = Spec.BN.leaf l') :
    3 < l.length ∧ Spec.BN.packed l ≠ Spec.BN.packed l' ∧
      Spec.BN.sponge Spec.BN.poseidon (Spec.BN.packed l) = Spec.BN.sponge Spec.BN.poseidon (Spec.BN.packed l') := by
  rw [Spec.BN.leaf, Spec.BN.leaf, ← hl] at h
  by_cases h3 : l.length ≤ 3
  · rw [if_pos h3, if_pos h3] at h
    exact absurd (PoseidonBN.pack_inj l l' hl h3 hs hs' h) hne
  · rw [if_neg h3, if_neg h3, Spec.BN.hash, Spec.BN.hash] at h
    exact ⟨by omega, fun hp => hne (PoseidonBN.packed_inj l l' hl hs hs' hp), h⟩

/-- **C28** leaves of at most three canonical elements and an injective compression: no second opening. -/
theorem C28_short_leaf (leaf leaf' : List Fr) (bits : List Bool) (b : Fin 4 → Bool) (cap sibs sibs' : List Fr)
    (hc : cap.length = 16) (hl : sibs.length = bits.length) (hl' : sibs'.length = bits.length)
    (h3 : leaf.length ≤ 3) (hlen : leaf.length = leaf'.length) (hs : ∀ x ∈ leaf, x.val < 2 ^ 64)
    (hs' : ∀ x ∈ leaf', x.val < 2 ^ 64)
    (h : Sat (verifyMerkleProofToCap leaf (bits.map bitF) (List.ofFn fun i => bitF (b i)) cap sibs) ())
    (h' : Sat (verifyMerkleProofToCap leaf' (bits.map bitF) (List.ofFn fun i => bitF (b i)) cap sibs') ())
    (hinj : ∀ x ∈ (Spec.Merkle.inputs Spec.BN.compress (Spec.BN.leaf leaf) (bits.zip sibs)).zip
        (Spec.Merkle.inputs Spec.BN.compress (Spec.BN.leaf leaf') (bits.zip sibs')),
      Spec.BN.compress x.1.1 x.1.2 = Spec.BN.compress x.2.1 x.2.2 → x.1 = x.2) :
    leaf = leaf' := by
  rcases C28_binding leaf leaf' bits b cap sibs sibs' hc hl hl' h h' with h | ⟨hne, h⟩ | ⟨x, hx, hne, h⟩
  · exact h.1
  · exact absurd (C28_leaf_collision leaf leaf' hlen hs hs' hne h).1 (by omega)
  · exact absurd (hinj x hx h) hne

/-- Two different leaves are opened at the same position of the same cap, with different siblings, only by a collision of
the compression at the last level, as leaves of three elements do not collide. -/
example (cap sibs sibs' : List Fr) (hc : cap.length = 16) (hs : sibs.length = 1) (hs' : sibs'.length = 1)
    (h : Sat (verifyMerkleProofToCap [1, 2, 3] [0] [0, 1, 0, 1] cap sibs) ())
    (h' : Sat (verifyMerkleProofToCap [1, 2, 4] [0] [0, 1, 0, 1] cap sibs') ()) :
    ∃ x y, Spec.BN.compress (Spec.BN.leaf [1, 2, 3]) x = Spec.BN.compress (Spec.BN.leaf [1, 2, 4]) y := by
  obtain ⟨x, rfl⟩ := List.length_eq_one_iff.1 hs
  obtain ⟨y, rfl⟩ := List.length_eq_one_iff.1 hs'
  by_contra hn
  push Not at hn
  have := C28_short_leaf [1, 2, 3] [1, 2, 4] [false] ![false, true, false, true] cap [x] [y] hc rfl rfl (by simp) rfl
    (by simp only [List.mem_cons, List.not_mem_nil, or_false]; rintro _ (rfl | rfl | rfl) <;> decide +kernel)
    (by simp only [List.mem_cons, List.not_mem_nil, or_false]; rintro _ (rfl | rfl | rfl) <;> decide +kernel)
    h h' (fun z hz => by
      simp only [Spec.Merkle.inputs, List.zip_cons_cons, List.zip_nil_left, List.mem_singleton] at hz
      subst hz
      exact fun h => absurd h (hn x y))
  revert this
  decide +kernel

/-- The same opening twice satisfies the hypotheses of C28. -/
example : ∃ cap, cap.length = 16 ∧
    Sat (verifyMerkleProofToCap [1, 2, 3] ([true].map bitF) (List.ofFn fun i => bitF (![true, false, true, false] i)) cap [7]) () :=
  ⟨List.replicate 16 (Spec.BN.compress 7 (Spec.BN.leaf [1, 2, 3])), by simp,
    (C27_merkle [1, 2, 3] [true] ![true, false, true, false] _ [7] (by simp) (by simp)).1.2
      (by simp [Spec.Merkle.root, Spec.Merkle.node])⟩

/-- Depth one: different left leaves under the same root collide at the root. -/
example (C : ℕ → ℕ → ℕ) : (Spec.Merkle.inputs C 1 ([false].zip [2])).zip
    (Spec.Merkle.inputs C 3 ([false].zip [4])) = [((1, 2), (3, 4))] := rfl

end Verif
