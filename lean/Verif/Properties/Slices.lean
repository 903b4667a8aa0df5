import Verif.Proofs.Slices

/-!
# Property C82: sharing of memory between slices

`append` may write into memory that belongs to another slice.  `ToOpenings` appends to a slice of the proof itself,
`evalFiltered` changes a slice in place, and the buffers of the challenger live across calls.  With slices as in Go, and for all
capacities chosen by the runtime, these functions compute what the models with lists compute, and leave the caller's slices as
they were.  For `ToOpenings` this needs that the memory behind `Constants` is not used by the other openings;
deserialisation establishes it.
-/

set_option autoImplicit false

namespace Verif

open Circ Go

/-- Each slice of the openings lies within its array, and no opening is stored behind the constants. -/
def Unshared {α : Type} (h : Heap α) (c : Go.Openings) : Prop :=
  ∀ t ∈ [c.constants, c.plonkSigmas, c.wires, c.plonkZs, c.plonkZsNext, c.partialProducts, c.quotientPolys],
    Valid h t ∧ Apart c.constants t

/-- **C82** `ToOpenings` returns the concatenation; the openings, and everything else not stored behind the constants, are as
before, so that a second call (the code makes two) returns the same. -/
theorem C82_toOpenings {α : Type} [Zero α] (h : Heap α) (c : Go.Openings) (u : Unshared h c) :
    (Go.toOpenings c h).1.map (Go.toOpenings c h).2.read = Fri.toOpenings (c.read h) ∧
    c.read (Go.toOpenings c h).2 = c.read h ∧
    Unshared (Go.toOpenings c h).2 c ∧
    ∀ t, Valid h t → Apart c.constants t → (Go.toOpenings c h).2.read t = h.read t := by
  obtain ⟨s, h', e, H⟩ := Go.toOpenings_eq c h
  obtain ⟨g, hr⟩ := H u
  rw [e]
  have k : ∀ t, Valid h t → Apart c.constants t → Valid h' t ∧ h'.read t = h.read t := fun t v d => g.writes.read v d
  have u' := u
  simp only [Unshared, List.mem_cons, List.not_mem_nil, or_false, forall_eq_or_imp, forall_eq] at u'
  obtain ⟨h1, h2, h3, h4, h5, h6, h7⟩ := u'
  refine ⟨?_, ?_, fun t ht => ⟨(k t (u t ht).1 (u t ht).2).1, (u t ht).2⟩, fun t v d => (k t v d).2⟩
  · simp only [List.map_cons, List.map_nil, hr, (k _ h5.1 h5.2).2, Fri.toOpenings, Go.Openings.read]
  · simp only [Go.Openings.read, (k _ h1.1 h1.2).2, (k _ h2.1 h2.2).2, (k _ h3.1 h3.2).2, (k _ h4.1 h4.2).2,
      (k _ h5.1 h5.2).2, (k _ h6.1 h6.2).2, (k _ h7.1 h7.2).2]

/-- **C82** Deserialised openings are unshared and read as the input, whatever was in memory before; what was there is intact. -/
theorem C82_deserialized {α : Type} [Zero α] (h : Heap α) (raw : OpeningSet α) :
    Unshared (Go.deserializeOpeningSet raw h).2 (Go.deserializeOpeningSet raw h).1 ∧
    (Go.deserializeOpeningSet raw h).1.read (Go.deserializeOpeningSet raw h).2 = raw ∧
    ∀ t, Valid h t → (Go.deserializeOpeningSet raw h).2.read t = h.read t := by
  obtain ⟨c, h', e, w, r, u⟩ := Go.deserialize_eq raw h
  rw [e]
  exact ⟨u, r, fun t v => (w.read v (nil_apart t)).2⟩

/-- **C82** The in-place multiplication by the filter: the constraints are those of the model, and every slice that existed
before (the openings, passed to all gates in turn) is intact. -/
theorem C82_evalFiltered (gate : Gates.Gate) (constants wires : Slice) (hash : Fin 4 → Fr) (row selectorIndex : ℕ)
    (groupRange : ℕ × ℕ) (numSelectors : ℕ) (h : Heap QEV) (t : Slice) (ht : Valid h t) :
    (Go.evalFiltered gate constants wires hash row selectorIndex groupRange numSelectors h >>= fun r =>
      pure (r.2.read r.1, r.2.read t)) =
    (Gates.evalFiltered gate ⟨h.read constants, h.read wires, hash⟩ row selectorIndex groupRange numSelectors >>= fun l =>
      pure (l, h.read t)) :=
  Go.evalFiltered_eq gate constants wires hash row selectorIndex groupRange numSelectors h _ _ fun s h' H => by rw [H t ht]

/-- A call of the challenger. -/
inductive Call where
  | observe (elements : Slice)
  | challenge

/-- The calls on the chip with slices; the challenges in order. -/
def runSlices (perm : PoseidonGL.State → Circ PoseidonGL.State) : List Call → Go.ChipM (List Fr)
  | [] => pure []
  | .observe t :: l => fun c => Go.observeElements perm t c >>= fun r => runSlices perm l r.2
  | .challenge :: l => fun c => Go.getChallenge perm c >>= fun r => runSlices perm l r.2 >>= fun q => pure (r.1 :: q.1, q.2)

/-- The same calls on the chip with lists; the slices have the elements they have in `h`. -/
def runLists (perm : PoseidonGL.State → Circ PoseidonGL.State) (h : Heap Fr) : List Call → Challenger.ChipM (List Fr)
  | [] => pure []
  | .observe t :: l => fun c => Challenger.observeElements perm (h.read t) c >>= fun r => runLists perm h l r.2
  | .challenge :: l => fun c =>
    Challenger.getChallenge perm c >>= fun r => runLists perm h l r.2 >>= fun q => pure (r.1 :: q.1, q.2)

/-- **C82** Any sequence of calls to a new challenger: same constraints, same challenges, and the caller's slices intact. -/
theorem C82_challenger (perm : PoseidonGL.State → Circ PoseidonGL.State) (h : Heap Fr) (calls : List Call)
    (hv : ∀ t, Call.observe t ∈ calls → Valid h t) (t : Slice) (ht : Valid h t) :
    (runSlices perm calls (Go.newChip, h) >>= fun r => pure (r.1, r.2.2.read t)) =
    (runLists perm h calls Challenger.newChip >>= fun r => pure (r.1, h.read t)) := by
  suffices H : ∀ calls : List Call, (∀ t, Call.observe t ∈ calls → Valid h t) → ∀ c m, Rel h c m →
      Sim h (runSlices perm calls c) (runLists perm h calls m) from by
    refine H calls hv _ _ (rel_new h) _ _ _ fun x c m r => ?_
    rw [(r.writes.read ht (nil_apart t)).2]
  intro calls
  induction calls with
  | nil =>
    intro _ c m r β k k' H
    exact H _ _ _ r
  | cons a l ih =>
    intro hv c m r β k k' H
    have hv' : ∀ t, Call.observe t ∈ l → Valid h t := fun t ht => hv t (List.mem_cons_of_mem _ ht)
    cases a with
    | observe t =>
      simp only [runSlices, runLists, bind_assoc]
      exact sim_observeElements perm (hv t List.mem_cons_self) r _ _ _ fun _ c' m' r' => ih hv' c' m' r' _ _ _ H
    | challenge =>
      simp only [runSlices, runLists, bind_assoc, pure_bind]
      exact sim_challenge perm r _ _ _ fun x c' m' r' => ih hv' c' m' r' _ _ _ fun l c m r => H _ _ _ r

/-- Without the hypothesis the claim is false: if the wires are stored behind the constants, and the permutation
behind them, appending the permutation overwrites the wires. -/
example : ∃ (h : Heap ℕ) (c : Go.Openings), (∀ t ∈ c.slices, Valid h t) ∧
    (Go.toOpenings c h).1.map (Go.toOpenings c h).2.read ≠ Fri.toOpenings (c.read h) ∧
    c.read (Go.toOpenings c h).2 ≠ c.read h := by
  refine ⟨⟨[[1, 2, 3]], []⟩, ⟨⟨0, 0, 1, 3⟩, ⟨0, 2, 1, 1⟩, ⟨0, 1, 1, 2⟩, nil, nil, nil, nil⟩, ?_, ?_, ?_⟩
  · simp [Go.Openings.slices, Valid, Heap.get, nil]
  · decide
  · intro h
    exact absurd (congrArg OpeningSet.wires h) (by decide)

/-- With spare capacity behind the constants (as `append` leaves it), the appended values are stored there. -/
example : let h : Heap ℕ := ⟨[[1, 0, 0, 0], [2, 3]], []⟩
    let c : Go.Openings := ⟨⟨0, 0, 1, 4⟩, ⟨1, 0, 2, 2⟩, nil, nil, nil, nil, nil⟩
    Unshared h c ∧ (Go.toOpenings c h).1.map (Go.toOpenings c h).2.read = [[1, 2, 3], []] ∧
      (Go.toOpenings c h).2.arrays = [[1, 2, 3, 0], [2, 3]] := by
  refine ⟨?_, by decide, by decide⟩
  simp only [Unshared, List.mem_cons, List.not_mem_nil, or_false, forall_eq_or_imp, forall_eq, Valid, Apart, Spare, Elem, nil]
  simp [Heap.get]
  exact ⟨fun a i => by omega, fun a i => by omega⟩

end Verif
