import Verif.Model.Slices

/-!
# Windows and writes
-/

set_option autoImplicit false

namespace Verif.Go

open Circ

variable {α : Type}

/-- The window lies within its array. -/
def Valid (h : Heap α) (s : Slice) : Prop := s.len ≤ s.cap ∧ (0 < s.cap → s.off + s.cap ≤ (h.get s.arr).length)

/-- Position `i` of array `a` lies between length and capacity of `s`. -/
def Spare (s : Slice) (a i : ℕ) : Prop := a = s.arr ∧ s.off + s.len ≤ i ∧ i < s.off + s.cap

/-- Position `i` of array `a` belongs to `s`. -/
def Elem (s : Slice) (a i : ℕ) : Prop := a = s.arr ∧ s.off ≤ i ∧ i < s.off + s.len

/-- Appending to `s` does not overwrite elements of `t`. -/
def Apart (s t : Slice) : Prop := ∀ a i, Spare s a i → ¬ Elem t a i

/-- The arrays of `h` still exist, and changed at most in the spare part of `s`. -/
def Writes (s : Slice) (h h' : Heap α) : Prop :=
  h.arrays.length ≤ h'.arrays.length ∧ ∀ a < h.arrays.length, (h'.get a).length = (h.get a).length ∧
    ∀ i, ¬ Spare s a i → (h'.get a)[i]? = (h.get a)[i]?

/-- `s'` extends `s` in place, or lies in an array allocated later. -/
def Sub (n : ℕ) (s s' : Slice) : Prop :=
  (s'.arr = s.arr ∧ s'.off = s.off ∧ s'.cap = s.cap ∧ s.len ≤ s'.len) ∨ n ≤ s'.arr

theorem Writes.refl (s : Slice) (h : Heap α) : Writes s h h := ⟨le_rfl, fun _ _ => ⟨rfl, fun _ _ => rfl⟩⟩

theorem Sub.refl (n : ℕ) (s : Slice) : Sub n s s := .inl ⟨rfl, rfl, rfl, le_rfl⟩

theorem Sub.trans {n m : ℕ} {s s' s'' : Slice} (hn : n ≤ m) (h : Sub n s s') (h' : Sub m s' s'') : Sub n s s'' := by
  unfold Sub at *
  omega

theorem Writes.trans {s s' : Slice} {h h' h'' : Heap α} (w : Writes s h h') (u : Sub h.arrays.length s s')
    (w' : Writes s' h' h'') : Writes s h h'' := by
  refine ⟨w.1.trans w'.1, fun a ha => ?_⟩
  obtain ⟨l, e⟩ := w.2 a ha
  obtain ⟨l', e'⟩ := w'.2 a (ha.trans_le w.1)
  refine ⟨l'.trans l, fun i hi => (e' i fun hs => ?_).trans (e i hi)⟩
  unfold Sub Spare at *
  omega

theorem get_eq_nil {h : Heap α} {a : ℕ} (ha : h.arrays.length ≤ a) : h.get a = [] := by
  rw [Heap.get, List.getD_eq_getElem?_getD, List.getElem?_eq_none ha]; rfl

theorem Valid.lt {h : Heap α} {s : Slice} (v : Valid h s) (hc : 0 < s.cap) : s.arr < h.arrays.length := by
  by_contra hn
  have := v.2 hc
  rw [get_eq_nil (by omega)] at this
  simp at this
  omega

theorem nil_valid (h : Heap α) : Valid h nil := ⟨le_rfl, fun h => absurd h (by simp [nil])⟩

theorem nil_apart (t : Slice) : Apart nil t := fun a i h => by simp [Spare, nil] at h

theorem read_length {h : Heap α} {s : Slice} (v : Valid h s) : (h.read s).length = s.len := by
  have := v.1
  by_cases hc : 0 < s.cap
  · have := v.2 hc
    simp [Heap.read]
    omega
  · simp [Heap.read]
    omega

theorem read_getElem? {h : Heap α} {s : Slice} {i : ℕ} (hi : i < s.len) : (h.read s)[i]? = (h.get s.arr)[s.off + i]? := by
  rw [Heap.read, List.getElem?_take_of_lt hi, List.getElem?_drop]

theorem read_ext {h h' : Heap α} {s : Slice} (e : ∀ i < s.len, (h'.get s.arr)[s.off + i]? = (h.get s.arr)[s.off + i]?) :
    h'.read s = h.read s := by
  apply List.ext_getElem?
  intro i
  by_cases hi : i < s.len
  · rw [read_getElem? hi, read_getElem? hi, e i hi]
  · rw [List.getElem?_eq_none, List.getElem?_eq_none]
    all_goals simp [Heap.read]; omega

/-- A slice apart from the writes is intact. -/
theorem Writes.read {s t : Slice} {h h' : Heap α} (w : Writes s h h') (v : Valid h t) (d : Apart s t) :
    Valid h' t ∧ h'.read t = h.read t := by
  by_cases hc : 0 < t.cap
  · obtain ⟨l, e⟩ := w.2 _ (v.lt hc)
    exact ⟨⟨v.1, fun _ => l ▸ v.2 hc⟩, read_ext fun i hi => e _ fun hs => d _ _ hs ⟨rfl, by omega, by omega⟩⟩
  · have h0 : t.len = 0 := by have := v.1; omega
    exact ⟨⟨v.1, fun h => absurd h hc⟩, by simp [Heap.read, h0]⟩

theorem splice_length {l xs : List α} {i : ℕ} (hi : i + xs.length ≤ l.length) : (splice l i xs).length = l.length := by
  simp [splice]
  omega

theorem splice_getElem? {l xs : List α} {i j : ℕ} (hi : i + xs.length ≤ l.length) (hj : j < i ∨ i + xs.length ≤ j) :
    (splice l i xs)[j]? = l[j]? := by
  have hl : (l.take i).length = i := by simp; omega
  rcases hj with hj | hj
  · rw [splice, List.append_assoc, List.getElem?_append_left (by omega), List.getElem?_take_of_lt hj]
  · rw [splice, List.getElem?_append_right (by simp; omega), List.getElem?_drop]
    congr 1
    simp
    omega

theorem splice_new {l xs : List α} {i j : ℕ} (hi : i + xs.length ≤ l.length) (hj : j < xs.length) :
    (splice l i xs)[i + j]? = xs[j]? := by
  have hl : (l.take i).length = i := by simp; omega
  rw [splice, List.append_assoc, List.getElem?_append_right (by omega), hl, List.getElem?_append_left (by omega)]
  congr 1
  omega

theorem get_set_self {h : Heap α} {a : ℕ} {l : List α} {g : List ℕ} (ha : a < h.arrays.length) :
    (Heap.mk (h.arrays.set a l) g).get a = l := by
  simp [Heap.get, ha]

theorem get_set_ne {h : Heap α} {a b : ℕ} {l : List α} {g : List ℕ} (hab : a ≠ b) :
    (Heap.mk (h.arrays.set a l) g).get b = h.get b := by
  simp [Heap.get, List.getElem?_set_ne hab]

theorem get_push_lt {h : Heap α} {a : ℕ} {l : List α} {g : List ℕ} (ha : a < h.arrays.length) :
    (Heap.mk (h.arrays ++ [l]) g).get a = h.get a := by
  simp [Heap.get, List.getElem?_append_left ha]

theorem get_push {h : Heap α} {l : List α} {g : List ℕ} : (Heap.mk (h.arrays ++ [l]) g).get h.arrays.length = l := by
  simp [Heap.get]

/-- From `s0` in `h0`, code that only appends to `s0` has arrived at `s` in `h`. -/
structure Grown (h0 h : Heap α) (s0 s : Slice) : Prop where
  writes : Writes s0 h0 h
  sub : Sub h0.arrays.length s0 s
  valid : Valid h s

variable [Zero α]

theorem append_grown {h : Heap α} {s : Slice} (v : Valid h s) (xs : List α) :
    Grown h (append s xs h).2 s (append s xs h).1 ∧
    (append s xs h).2.read (append s xs h).1 = h.read s ++ xs := by
  by_cases hf : s.len + xs.length ≤ s.cap
  · rw [append, if_pos hf]
    by_cases hc : 0 < s.cap
    · have ha := v.lt hc
      have hb := v.2 hc
      have hi : s.off + s.len + xs.length ≤ (h.get s.arr).length := by omega
      refine ⟨⟨⟨by simp, fun a _ => ?_⟩, .inl ⟨rfl, rfl, rfl, by simp⟩, ⟨hf, fun _ => ?_⟩⟩, ?_⟩
      · by_cases e : s.arr = a
        · subst e
          rw [get_set_self ha]
          refine ⟨splice_length hi, fun i hs => splice_getElem? hi ?_⟩
          simp only [Spare, true_and] at hs
          omega
        · rw [get_set_ne e]
          exact ⟨rfl, fun _ _ => rfl⟩
      · dsimp only
        rw [get_set_self ha, splice_length hi]
        exact hb
      · apply List.ext_getElem?
        intro i
        by_cases h1 : i < s.len
        · rw [read_getElem? (by dsimp only; omega), List.getElem?_append_left (by rw [read_length v]; exact h1),
            read_getElem? h1, get_set_self ha, splice_getElem? hi (by dsimp only; omega)]
        · rw [List.getElem?_append_right (by rw [read_length v]; omega), read_length v]
          by_cases h2 : i < s.len + xs.length
          · rw [read_getElem? (by exact h2), get_set_self ha]
            dsimp only
            rw [show s.off + i = s.off + s.len + (i - s.len) by omega, splice_new hi (by omega)]
          · rw [List.getElem?_eq_none, List.getElem?_eq_none]
            · omega
            · simp [Heap.read]; omega
    · have hx : xs = [] := by
        rw [← List.length_eq_zero_iff]
        omega
      subst hx
      have h0 : s.len = 0 := by simp at hf; omega
      refine ⟨⟨⟨by simp, fun a _ => ?_⟩, .inl ⟨rfl, rfl, rfl, by simp⟩, ⟨hf, fun h => absurd h hc⟩⟩, by simp [Heap.read, h0]⟩
      by_cases e : s.arr = a
      · subst e
        rw [get_set_self ‹_›]
        simp [splice]
      · rw [get_set_ne e]
        exact ⟨rfl, fun _ _ => rfl⟩
  · rw [append, if_neg hf]
    refine ⟨⟨⟨by simp, fun a ha => ?_⟩, .inr le_rfl, ⟨by dsimp only; omega, fun _ => ?_⟩⟩, ?_⟩
    · rw [get_push_lt ha]
      exact ⟨rfl, fun _ _ => rfl⟩
    · dsimp only
      rw [get_push]
      simp [read_length v, Nat.add_assoc]
    · rw [Heap.read]
      dsimp only
      rw [get_push, List.drop_zero, List.take_append_of_le_length (by simp [read_length v]), List.take_of_length_le]
      simp [read_length v]

omit [Zero α] in
theorem Apart.sub {h : Heap α} {s s' t : Slice} (d : Apart s t) (v : Valid h t) (u : Sub h.arrays.length s s') :
    Apart s' t := by
  intro a i hs he
  have : t.arr < h.arrays.length := v.lt (by have := v.1; unfold Elem at he; omega)
  refine d a i ?_ he
  unfold Sub Spare Elem at *
  omega

omit [Zero α] in
theorem Grown.refl {h : Heap α} {s : Slice} (v : Valid h s) : Grown h h s s := ⟨.refl _ _, .refl _ _, v⟩

omit [Zero α] in
theorem Grown.trans {h0 h h' : Heap α} {s0 s s' : Slice} (g : Grown h0 h s0 s) (g' : Grown h h' s s') : Grown h0 h' s0 s' :=
  ⟨g.writes.trans g.sub g'.writes, g.sub.trans g.writes.1 g'.sub, g'.valid⟩

omit [Zero α] in
theorem Grown.read {h0 h : Heap α} {s0 s t : Slice} (g : Grown h0 h s0 s) (v : Valid h0 t) (d : Apart s0 t) :
    Valid h t ∧ h.read t = h0.read t ∧ Apart s t :=
  ⟨(g.writes.read v d).1, (g.writes.read v d).2, d.sub v g.sub⟩

/-- One more `append`. -/
theorem Grown.append {h0 h : Heap α} {s0 s t : Slice} {l : List α} (g : Grown h0 h s0 s ∧ h.read s = l) (v : Valid h0 t)
    (d : Apart s0 t) :
    Grown h0 (appendSlice s t h).2 s0 (appendSlice s t h).1 ∧
    (appendSlice s t h).2.read (appendSlice s t h).1 = l ++ h0.read t := by
  obtain ⟨a, e⟩ := append_grown g.1.valid (h.read t)
  refine ⟨g.1.trans a, ?_⟩
  rw [← g.2, ← (g.1.read v d).2.1]
  exact e

theorem build_grown (l : List α) (h : Heap α) : Grown h (build l h).2 nil (build l h).1 ∧ (build l h).2.read (build l h).1 = l := by
  suffices H : ∀ (l pre : List α) (h0 h : Heap α) (s0 s : Slice), Grown h0 h s0 s → h.read s = pre →
      Grown h0 (l.foldlM (fun out x => Go.append out [x]) s h).2 s0 (l.foldlM (fun out x => Go.append out [x]) s h).1 ∧
      (l.foldlM (fun out x => Go.append out [x]) s h).2.read (l.foldlM (fun out x => Go.append out [x]) s h).1 = pre ++ l from by
    have := H l [] h h nil nil (.refl (nil_valid h)) (by simp [Heap.read, nil])
    exact this
  intro l
  induction l with
  | nil => intro pre h0 h s0 s g e; exact ⟨g, by rw [List.append_nil]; exact e⟩
  | cons x l ih =>
    intro pre h0 h s0 s g e
    obtain ⟨a, b⟩ := append_grown g.valid [x]
    have := ih (pre ++ [x]) h0 _ s0 _ (g.trans a) (by rw [b, e])
    rw [List.append_assoc] at this
    exact this

/-! ## `ToOpenings` -/

/-- The slices of the openings. -/
def Openings.slices (c : Openings) : List Slice :=
  [c.constants, c.plonkSigmas, c.wires, c.plonkZs, c.plonkZsNext, c.partialProducts, c.quotientPolys]

omit [Zero α] in
theorem apart_self (s : Slice) : Apart s s := by
  intro a i h h'
  unfold Spare Elem at *
  omega

theorem toOpenings_eq (c : Openings) (h : Heap α) : ∃ s h', toOpenings c h = ([s, c.plonkZsNext], h') ∧
    ((∀ t ∈ c.slices, Valid h t ∧ Apart c.constants t) →
      Grown h h' c.constants s ∧ h'.read s = h.read c.constants ++ h.read c.plonkSigmas ++ h.read c.wires ++ h.read c.plonkZs ++
        h.read c.partialProducts ++ h.read c.quotientPolys) := by
  refine ⟨_, _, rfl, fun H => ?_⟩
  have H' := fun t ht => H t ht
  simp only [Openings.slices, List.mem_cons, List.not_mem_nil, or_false, forall_eq_or_imp, forall_eq] at H'
  obtain ⟨h1, h2, h3, h4, h5, h6, h7⟩ := H'
  exact (Grown.append (Grown.append (Grown.append (Grown.append (Grown.append ⟨.refl h1.1, rfl⟩ h2.1 h2.2) h3.1 h3.2)
    h4.1 h4.2) h6.1 h6.2) h7.1 h7.2)

/-- Slices built from nil. -/
def Built (n : ℕ) (s : Slice) : Prop := s.cap = 0 ∨ n ≤ s.arr

omit [Zero α] in
theorem Grown.built {h h' : Heap α} {s : Slice} (g : Grown h h' nil s) : Built h.arrays.length s := by
  rcases g.sub with u | u
  · exact .inl u.2.2.1
  · exact .inr u

omit [Zero α] in
theorem Built.apart {h : Heap α} {s t : Slice} (v : Valid h s) (vt : t.len ≤ t.cap) (b : Built h.arrays.length t) :
    Apart s t := by
  intro a i hs he
  have hs' : s.arr < h.arrays.length := v.lt (by unfold Spare at hs; omega)
  unfold Built Spare Elem at *
  omega

omit [Zero α] in
theorem Built.mono {n m : ℕ} {s : Slice} (b : Built n s) (h : m ≤ n) : Built m s := by
  unfold Built at *
  omega

theorem deserialize_eq (raw : OpeningSet α) (h : Heap α) : ∃ c h', deserializeOpeningSet raw h = (c, h') ∧ Writes nil h h' ∧
    c.read h' = raw ∧ (∀ t ∈ c.slices, Valid h' t ∧ Apart c.constants t) := by
  obtain ⟨g1, e1⟩ := build_grown raw.constants h
  obtain ⟨g2, e2⟩ := build_grown raw.plonkSigmas (build raw.constants h).2
  generalize hh2 : build raw.plonkSigmas (build raw.constants h).2 = r2 at g2 e2
  obtain ⟨g3, e3⟩ := build_grown raw.wires r2.2
  generalize hh3 : build raw.wires r2.2 = r3 at g3 e3
  obtain ⟨g4, e4⟩ := build_grown raw.plonkZs r3.2
  generalize hh4 : build raw.plonkZs r3.2 = r4 at g4 e4
  obtain ⟨g5, e5⟩ := build_grown raw.plonkZsNext r4.2
  generalize hh5 : build raw.plonkZsNext r4.2 = r5 at g5 e5
  obtain ⟨g6, e6⟩ := build_grown raw.partialProducts r5.2
  generalize hh6 : build raw.partialProducts r5.2 = r6 at g6 e6
  obtain ⟨g7, e7⟩ := build_grown raw.quotientPolys r6.2
  generalize hh7 : build raw.quotientPolys r6.2 = r7 at g7 e7
  generalize hh1 : build raw.constants h = r1 at *
  refine ⟨⟨r1.1, r2.1, r3.1, r4.1, r5.1, r6.1, r7.1⟩, r7.2, ?_, ?_, ?_, ?_⟩
  · show (let r1 := build raw.constants h
      let r2 := build raw.plonkSigmas r1.2
      let r3 := build raw.wires r2.2
      let r4 := build raw.plonkZs r3.2
      let r5 := build raw.plonkZsNext r4.2
      let r6 := build raw.partialProducts r5.2
      let r7 := build raw.quotientPolys r6.2
      ((⟨r1.1, r2.1, r3.1, r4.1, r5.1, r6.1, r7.1⟩ : Openings), r7.2)) = _
    dsimp only
    rw [hh1, hh2, hh3, hh4, hh5, hh6, hh7]
  all_goals
    have w7 := g7.writes
    have w6 := g6.writes.trans (.refl _ _) w7
    have w5 := g5.writes.trans (.refl _ _) w6
    have w4 := g4.writes.trans (.refl _ _) w5
    have w3 := g3.writes.trans (.refl _ _) w4
    have w2 := g2.writes.trans (.refl _ _) w3
    have w1 := g1.writes.trans (.refl _ _) w2
    have k1 := w2.read g1.valid (nil_apart _)
    have k2 := w3.read g2.valid (nil_apart _)
    have k3 := w4.read g3.valid (nil_apart _)
    have k4 := w5.read g4.valid (nil_apart _)
    have k5 := w6.read g5.valid (nil_apart _)
    have k6 := w7.read g6.valid (nil_apart _)
  · exact w1
  · simp only [Openings.read, k1.2, k2.2, k3.2, k4.2, k5.2, k6.2, e1, e2, e3, e4, e5, e6, e7]
  · have l2 := g2.writes.1
    have l3 := g3.writes.1
    have l4 := g4.writes.1
    have l5 := g5.writes.1
    have l6 := g6.writes.1
    simp only [Openings.slices, List.mem_cons, List.not_mem_nil, or_false, forall_eq_or_imp, forall_eq]
    refine ⟨⟨k1.1, apart_self _⟩, ⟨k2.1, ?_⟩, ⟨k3.1, ?_⟩, ⟨k4.1, ?_⟩, ⟨k5.1, ?_⟩, ⟨k6.1, ?_⟩, g7.valid, ?_⟩
    · exact g2.built.apart g1.valid g2.valid.1
    · exact (g3.built.mono (by omega)).apart g1.valid g3.valid.1
    · exact (g4.built.mono (by omega)).apart g1.valid g4.valid.1
    · exact (g5.built.mono (by omega)).apart g1.valid g5.valid.1
    · exact (g6.built.mono (by omega)).apart g1.valid g6.valid.1
    · exact (g7.built.mono (by omega)).apart g1.valid g7.valid.1

/-! ## `evalFiltered` -/

omit [Zero α] in
theorem write_spec {h : Heap α} {s : Slice} (v : Valid h s) {i : ℕ} (hi : i < s.len) (x : α) :
    Valid (write s i x h) s ∧ (write s i x h).read s = (h.read s).set i x ∧
    (∀ a, a ≠ s.arr → (write s i x h).get a = h.get a) := by
  have hc : 0 < s.cap := by have := v.1; omega
  have ha := v.lt hc
  have hb := v.2 hc
  have e : (write s i x h).get s.arr = (h.get s.arr).set (s.off + i) x := get_set_self ha
  refine ⟨⟨v.1, fun _ => by rw [e, List.length_set]; exact hb⟩, ?_, fun a ha => get_set_ne (Ne.symm ha)⟩
  apply List.ext_getElem?
  intro j
  by_cases hj : j < s.len
  · rw [read_getElem? hj, e, List.getElem?_set, List.getElem?_set, read_getElem? hj, read_length v]
    have := v.1
    by_cases hij : i = j
    · subst hij
      rw [if_pos rfl, if_pos rfl, if_pos (by omega), if_pos hj]
    · rw [if_neg (by omega), if_neg hij]
  · rw [List.getElem?_eq_none, List.getElem?_eq_none]
    · rw [List.length_set, read_length v]; omega
    · simp [Heap.read]; omega

theorem scaleFrom_bind {β : Type} (f : QEV) (s : Slice) (k : Heap QEV → Circ β) (k' : List QEV → Circ β) :
    ∀ (todo done : List QEV) (h0 h : Heap QEV), Valid h s → h.read s = done ++ todo → (∀ a, s.len = 0 ∨ a ≠ s.arr → h.get a = h0.get a) →
      (∀ l h', h'.read s = l → (∀ a, s.len = 0 ∨ a ≠ s.arr → h'.get a = h0.get a) → k h' = k' l) →
      (scaleFrom f s done.length todo.length h >>= k) = (todo.mapM (fun u => mulExt u f) >>= fun ys => k' (done ++ ys)) := by
  intro todo
  induction todo with
  | nil =>
    intro done h0 h v e o H
    rw [List.mapM_nil, pure_bind, List.append_nil]
    exact H _ _ (by rw [e, List.append_nil]) o
  | cons x todo ih =>
    intro done h0 h v e o H
    have hl := read_length v
    rw [e, List.length_append, List.length_cons] at hl
    rw [List.length_cons, scaleFrom, List.mapM_cons]
    have hx : idx (h.read s) done.length = pure x := by
      rw [e, idx, List.getElem?_append_right (le_refl _), Nat.sub_self]; rfl
    rw [hx, pure_bind, bind_assoc, bind_assoc]
    refine bind_congr fun y => ?_
    obtain ⟨v', e', o'⟩ := write_spec v (i := done.length) (by omega) y
    have := ih (done ++ [y]) h0 (write s done.length y h) v' (by rw [e', e]; simp) (fun a ha => (o' a (ha.resolve_left (by omega))).trans (o a ha)) H
    rw [List.length_append, List.length_singleton] at this
    rw [this]
    simp

theorem evalFiltered_eq {β : Type} (gate : Gates.Gate) (constants wires : Slice) (hash : Fin 4 → Fr) (row selectorIndex : ℕ)
    (groupRange : ℕ × ℕ) (numSelectors : ℕ) (h : Heap QEV) (k : Slice × Heap QEV → Circ β) (k' : List QEV → Circ β)
    (H : ∀ s h', (∀ t, Valid h t → h'.read t = h.read t) → k (s, h') = k' (h'.read s)) :
    (evalFiltered gate constants wires hash row selectorIndex groupRange numSelectors h >>= k) =
      (Gates.evalFiltered gate ⟨h.read constants, h.read wires, hash⟩ row selectorIndex groupRange numSelectors >>= k') := by
  unfold evalFiltered Gates.evalFiltered
  simp only [bind_assoc, pure_bind]
  refine bind_congr fun s => bind_congr fun filter => bind_congr fun vars => bind_congr fun cs => ?_
  obtain ⟨g, e⟩ := build_grown cs h
  have hl := read_length g.valid
  rw [e] at hl
  have := scaleFrom_bind filter (build cs h).1 (fun h' => k ((build cs h).1, h')) k' cs [] (build cs h).2 (build cs h).2 g.valid
    e (fun _ _ => rfl) (fun l h' hr ho => by
      rw [← hr]
      refine H _ _ fun t vt => ?_
      rw [← (g.writes.read vt (nil_apart _)).2]
      by_cases hc : 0 < t.cap
      · have hb := g.built
        have hv := g.valid.1
        have ht := vt.lt hc
        simp only [Heap.read]
        rw [ho _ (by unfold Built at hb; omega)]
      · have h0 : t.len = 0 := by have := vt.1; omega
        simp [Heap.read, h0])
  rw [List.length_nil, hl] at this
  simpa using this

/-! ## The challenger -/

/-- The chip with slices stands for the chip with lists, and the arrays of `h0` are intact. -/
structure Rel (h0 : Heap Fr) (c : Chip × Heap Fr) (m : Challenger.Chip) : Prop where
  sponge : c.1.spongeState = m.spongeState
  input : Valid c.2 c.1.inputBuffer
  output : Valid c.2 c.1.outputBuffer
  readInput : c.2.read c.1.inputBuffer = m.inputBuffer
  readOutput : c.2.read c.1.outputBuffer = m.outputBuffer
  built : Built h0.arrays.length c.1.inputBuffer
  writes : Writes nil h0 c.2

theorem rel_new (h : Heap Fr) : Rel h (newChip, h) Challenger.newChip :=
  ⟨rfl, nil_valid h, nil_valid h, by simp [Heap.read, newChip, nil, Challenger.newChip],
    by simp [Heap.read, newChip, nil, Challenger.newChip], .inl rfl, .refl _ _⟩

/-- The two programs agree up to `Rel`. -/
def Sim {γ : Type} (h0 : Heap Fr) (g : Circ (γ × Chip × Heap Fr)) (m : Circ (γ × Challenger.Chip)) : Prop :=
  ∀ (β : Type) (k : γ × Chip × Heap Fr → Circ β) (k' : γ × Challenger.Chip → Circ β),
    (∀ x c c', Rel h0 c c' → k (x, c) = k' (x, c')) → (g >>= k) = (m >>= k')

variable (perm : PoseidonGL.State → Circ PoseidonGL.State)

theorem sim_duplexing {h0 : Heap Fr} {c : Chip × Heap Fr} {m : Challenger.Chip} (r : Rel h0 c m) :
    Sim h0 (duplexing perm c) (Challenger.duplexing perm m) := by
  intro β k k' H
  have hl : m.inputBuffer.length = c.1.inputBuffer.len := by rw [← r.readInput, read_length r.input]
  unfold duplexing Challenger.duplexing
  rw [hl, r.readInput, r.sponge]
  by_cases hn : c.1.inputBuffer.len > PoseidonGL.SPONGE_RATE
  · rw [if_pos hn, if_pos hn]; rfl
  · rw [if_neg hn, if_neg hn]
    simp only [bind_assoc, pure_bind]
    refine bind_congr fun inp => bind_congr fun st => ?_
    generalize (List.ofFn st).take PoseidonGL.SPONGE_RATE = l
    obtain ⟨g, e⟩ := build_grown l c.2
    have R : Rel h0 (⟨st, nil, (build l c.2).1⟩, (build l c.2).2) ⟨st, [], l⟩ :=
      ⟨rfl, nil_valid _, g.valid, by simp [Heap.read, nil], e, .inl rfl, r.writes.trans (.refl _ _) g.writes⟩
    exact H _ _ _ R

theorem sim_observe {h0 : Heap Fr} {c : Chip × Heap Fr} {m : Challenger.Chip} (r : Rel h0 c m) (x : Fr) :
    Sim h0 (observeElement perm x c) (Challenger.observeElement perm x m) := by
  obtain ⟨g, e⟩ := append_grown r.input [x]
  have w : Writes nil h0 (append c.1.inputBuffer [x] c.2).2 := by
    refine ⟨r.writes.1.trans g.writes.1, fun a ha => ?_⟩
    obtain ⟨l, e⟩ := r.writes.2 a ha
    obtain ⟨l', e'⟩ := g.writes.2 a (ha.trans_le r.writes.1)
    refine ⟨l'.trans l, fun i hi => (e' i fun hs => ?_).trans (e i hi)⟩
    have := r.built
    unfold Built Spare at *
    omega
  have b : Built h0.arrays.length (append c.1.inputBuffer [x] c.2).1 := by
    have := r.built
    have := r.writes.1
    have := g.sub
    unfold Built Sub at *
    omega
  have R : Rel h0 (⟨c.1.spongeState, (append c.1.inputBuffer [x] c.2).1, nil⟩, (append c.1.inputBuffer [x] c.2).2)
      ⟨m.spongeState, m.inputBuffer ++ [x], []⟩ :=
    ⟨r.sponge, g.valid, nil_valid _, by rw [← r.readInput]; exact e, by simp [Heap.read, nil], b, w⟩
  have hl := read_length g.valid
  rw [e, r.readInput] at hl
  unfold observeElement Challenger.observeElement
  dsimp only
  rw [hl]
  by_cases hn : (append c.1.inputBuffer [x] c.2).1.len = PoseidonGL.SPONGE_RATE
  · rw [if_pos hn, if_pos hn]
    exact sim_duplexing perm R
  · rw [if_neg hn, if_neg hn]
    intro β k k' H
    rw [pure_bind, pure_bind]
    exact H _ _ _ R

theorem sim_challenge {h0 : Heap Fr} {c : Chip × Heap Fr} {m : Challenger.Chip} (r : Rel h0 c m) :
    Sim h0 (getChallenge perm c) (Challenger.getChallenge perm m) := by
  intro β k k' H
  have hl : m.inputBuffer.length = c.1.inputBuffer.len := by rw [← r.readInput, read_length r.input]
  have hl' : m.outputBuffer.length = c.1.outputBuffer.len := by rw [← r.readOutput, read_length r.output]
  unfold getChallenge Challenger.getChallenge
  have fin : ∀ c m, Rel h0 c m →
      ((match (c.2.read c.1.outputBuffer)[c.1.outputBuffer.len - 1]? with
        | none => goPanic "index out of range"
        | some x => pure (x, ⟨c.1.spongeState, c.1.inputBuffer,
            ⟨c.1.outputBuffer.arr, c.1.outputBuffer.off, c.1.outputBuffer.len - 1, c.1.outputBuffer.cap⟩⟩, c.2) :
          Circ (Fr × Chip × Heap Fr)) >>= k) =
      ((match m.outputBuffer.getLast? with
        | none => goPanic "index out of range"
        | some x => pure (x, ⟨m.spongeState, m.inputBuffer, m.outputBuffer.dropLast⟩) :
          Circ (Fr × Challenger.Chip)) >>= k') := by
    intro c m r
    have hl' : m.outputBuffer.length = c.1.outputBuffer.len := by rw [← r.readOutput, read_length r.output]
    rw [r.readOutput, List.getLast?_eq_getElem?, hl']
    cases m.outputBuffer[c.1.outputBuffer.len - 1]? with
    | none => rfl
    | some x =>
      rw [pure_bind, pure_bind]
      refine H _ _ _ ⟨r.sponge, r.input, ⟨by have := r.output.1; dsimp only; omega, r.output.2⟩, r.readInput, ?_, r.built, r.writes⟩
      dsimp only
      rw [List.dropLast_eq_take, hl', ← r.readOutput]
      simp only [Heap.read, List.take_take]
      congr 1
      omega
  rw [hl, hl', bind_assoc, bind_assoc]
  by_cases hn : c.1.inputBuffer.len ≠ 0 ∨ c.1.outputBuffer.len = 0
  · rw [if_pos hn, if_pos hn, bind_assoc, bind_assoc]
    refine sim_duplexing perm r _ _ _ fun _ c' m' r' => ?_
    rw [pure_bind, pure_bind]
    exact fin c' m' r'
  · rw [if_neg hn, if_neg hn, pure_bind, pure_bind]
    exact fin c m r

theorem sim_observeFrom {h0 : Heap Fr} {t : Slice} (vt : Valid h0 t) : ∀ (n i : ℕ) (c : Chip × Heap Fr) (m : Challenger.Chip),
    Rel h0 c m → i + n = t.len →
    Sim h0 (observeFrom perm t i n c) (((h0.read t).drop i).forM (Challenger.observeElement perm) m) := by
  intro n
  induction n with
  | zero =>
    intro i c m r hi β k k' H
    rw [List.drop_eq_nil_of_le (by rw [read_length vt]; omega)]
    exact H _ _ _ r
  | succ n ih =>
    intro i c m r hi β k k' H
    have hi' : i < (h0.read t).length := by rw [read_length vt]; omega
    rw [List.drop_eq_getElem_cons hi']
    have hx : idx (c.2.read t) i = pure (h0.read t)[i] := by
      rw [(r.writes.read vt (nil_apart _)).2, idx, List.getElem?_eq_getElem hi']
    rw [observeFrom]
    dsimp only
    rw [hx, pure_bind, bind_assoc]
    show _ = ((Challenger.observeElement perm (h0.read t)[i] m >>= fun r =>
      ((h0.read t).drop (i + 1)).forM (Challenger.observeElement perm) r.2) >>= k')
    rw [bind_assoc]
    exact sim_observe perm r _ _ _ _ fun _ c' m' r' => ih (i + 1) c' m' r' (by omega) _ _ _ H

theorem sim_observeElements {h0 : Heap Fr} {t : Slice} (vt : Valid h0 t) {c : Chip × Heap Fr} {m : Challenger.Chip}
    (r : Rel h0 c m) : Sim h0 (observeElements perm t c) (Challenger.observeElements perm (h0.read t) m) := by
  have := sim_observeFrom perm vt t.len 0 c m r (Nat.zero_add _)
  rw [List.drop_zero] at this
  exact this

end Verif.Go
