import Verif.Proofs.Layout

/-!
# The calls made by the gates do not depend on values
-/

set_option autoImplicit false

namespace Verif

open Circ Gates

instance : Shaped Vars := ⟨fun x y => Alike x.localConstants y.localConstants ∧ Alike x.localWires y.localWires,
  fun _ => ⟨Shaped.refl _, Shaped.refl _⟩⟩

macro_rules | `(tactic| same_step) => `(tactic| with_reducible apply Same.idx)

theorem Alike.eq_fp {l l' : List Fp} (h : Alike l l') : l = l' := by
  induction h with
  | nil => rfl
  | cons h _ ih => cases h; rw [ih]

namespace Same

variable {w : ℕ}

/-! ## Extension algebra -/

theorem addAlg {a b a' b' : QAV} : Same w (Verif.addAlg a b) (Verif.addAlg a' b') := by
  rw [Verif.addAlg, Verif.addAlg]; same
theorem subAlg {a b a' b' : QAV} : Same w (Verif.subAlg a b) (Verif.subAlg a' b') := by
  rw [Verif.subAlg, Verif.subAlg]; same
theorem mulAlg {a b a' b' : QAV} : Same w (Verif.mulAlg a b) (Verif.mulAlg a' b') := by
  rw [Verif.mulAlg, Verif.mulAlg]
  exact bind (innerProductExt rfl) fun _ _ _ => bind (innerProductExt rfl) fun _ _ _ =>
    bind (innerProductExt rfl) fun _ _ _ => bind (innerProductExt rfl) fun _ _ _ => value
theorem scalarMulAlg {a a' : QEV} {b b' : QAV} : Same w (Verif.scalarMulAlg a b) (Verif.scalarMulAlg a' b') := by
  rw [Verif.scalarMulAlg, Verif.scalarMulAlg]; same

macro_rules | `(tactic| same_step) => `(tactic| with_reducible first
  | apply Same.addAlg | apply Same.subAlg | apply Same.mulAlg | apply Same.scalarMulAlg)

theorem partialInterpolate {d u : List Fp} {v v' : List QAV} {a b c a' b' c' : QAV} (h : Alike v v') :
    Same w (Verif.partialInterpolate d v u a b c) (Verif.partialInterpolate d v' u a' b' c') := by
  rw [Verif.partialInterpolate, Verif.partialInterpolate]
  have e := Alike.length h
  refine ite (by rw [e]) (fun _ => goPanic) fun _ => ite (by rw [e]) (fun _ => goPanic) fun _ =>
    ite (by rw [e]) (fun _ => goPanic) fun _ => ?_
  refine foldlM (Alike.zip (Shaped.refl d) (Alike.zip h (Shaped.refl u))) (fun _ _ _ _ _ h => ?_) (Value.all _ _)
  rw [partialInterpolateStep, partialInterpolateStep]
  same

theorem getLocalExtAlgebra {v v' : Vars} (h : Alike v v') (r : Range) :
    Same w (v.getLocalExtAlgebra r) (v'.getLocalExtAlgebra r) := by
  have h := h.2
  rw [EvaluationVars.getLocalExtAlgebra, EvaluationVars.getLocalExtAlgebra]
  refine ite Iff.rfl (fun _ => goPanic) fun _ => ?_
  same

macro_rules | `(tactic| same_step) => `(tactic| with_reducible apply Same.getLocalExtAlgebra)

theorem removePrefix {v v' : Vars} (h : Alike v v') (n : ℕ) : Same w (v.removePrefix n) (v'.removePrefix n) :=
  bind (sliceFrom h.1 n) fun _ _ h' => pure ⟨h', h.2⟩

theorem collect {n : ℕ} {f g : ℕ → Circ (List QEV)} (h : ∀ i, Same w (f i) (g i)) :
    Same w (Gates.collect n f) (Gates.collect n g) :=
  bind (mapM (Shaped.refl _) fun i _ e => by cases e; exact h i) fun _ _ h => pure (Alike.flatten h)

theorem rangeM {α : Type} [Shaped α] {n : ℕ} {f g : ℕ → Circ α} (h : ∀ i, Same w (f i) (g i)) :
    Same w ((List.range n).mapM f) ((List.range n).mapM g) :=
  mapM (Shaped.refl _) fun i _ e => by cases e; exact h i

/-- Closes goals on results. -/
macro "same_out" : tactic => `(tactic| (apply Same.pure; exact Alike.of_length rfl))

variable {v v' : Vars} (h : Alike v v')

section
include h

theorem arithmetic (n : ℕ) : Same w (Gates.arithmetic n v) (Gates.arithmetic n v') := by
  obtain ⟨h1, h2⟩ := h
  rw [Gates.arithmetic, Gates.arithmetic]
  refine bind (idx h1 _) fun _ _ _ => bind (idx h1 _) fun _ _ _ => collect fun i => ?_
  same
  same_out

theorem arithmeticExtension (n : ℕ) : Same w (Gates.arithmeticExtension n v) (Gates.arithmeticExtension n v') := by
  obtain ⟨h1, h2⟩ := id h
  rw [Gates.arithmeticExtension, Gates.arithmeticExtension]
  refine bind (idx h1 _) fun _ _ _ => bind (idx h1 _) fun _ _ _ => collect fun i => ?_
  same
  same_out

theorem mulExtension (n : ℕ) : Same w (Gates.mulExtension n v) (Gates.mulExtension n v') := by
  obtain ⟨h1, h2⟩ := id h
  rw [Gates.mulExtension, Gates.mulExtension]
  refine bind (idx h1 _) fun _ _ _ => collect fun i => ?_
  same
  same_out

theorem baseSum (n b : ℕ) : Same w (Gates.baseSum n b v) (Gates.baseSum n b v') := by
  obtain ⟨h1, h2⟩ := h
  rw [Gates.baseSum, Gates.baseSum]
  refine bind (idx h2 _) fun _ _ _ => bind (rangeM fun i => idx h2 _) fun _ _ hl =>
    bind (reduceWithPowers hl) fun _ _ _ => bind subExt fun _ _ _ => bind ?_ fun _ _ h => pure (.cons (Value.all _ _) h)
  same

theorem constant (n : ℕ) : Same w (Gates.constant n v) (Gates.constant n v') := by
  obtain ⟨h1, h2⟩ := h
  rw [Gates.constant, Gates.constant]
  refine rangeM fun i => ?_
  same

theorem publicInput : Same w (Gates.publicInput v) (Gates.publicInput v') := by
  obtain ⟨h1, h2⟩ := h
  rw [Gates.publicInput, Gates.publicInput]
  refine mapM (Shaped.refl _) fun i _ e => ?_
  cases e
  same

theorem exponentiation (n : ℕ) : Same w (Gates.exponentiation n v) (Gates.exponentiation n v') := by
  obtain ⟨h1, h2⟩ := h
  rw [Gates.exponentiation, Gates.exponentiation]
  refine bind (idx h2 _) fun _ _ _ => bind (rangeM fun i => idx h2 _) fun _ _ h3 =>
    bind (rangeM fun i => idx h2 _) fun _ _ h4 => bind (idx h2 _) fun _ _ _ => bind ?_ fun _ _ h5 => ?_
  rotate_left
  · dsimp only
    exact ite Iff.rfl (fun _ => goPanic) fun _ => bind (idx h4 _) fun _ _ _ => bind subExt fun _ _ _ =>
      pure (Alike.append h5 (Alike.of_length rfl))
  refine rangeM fun i => bind ?_ fun _ _ _ => ?_
  · rw [expPrev, expPrev]
    refine ite Iff.rfl (fun _ => value) fun _ => ?_
    same
  · same

end

theorem foldPairs {b b' : QEV} {l l' : List QEV} (h : Alike l l') : Same w (Gates.foldPairs b l) (Gates.foldPairs b' l') := by
  induction l using Gates.foldPairs.induct generalizing l' with
  | case1 => cases h; exact pure .nil
  | case2 => rcases h with _ | ⟨_, _ | _⟩; exact goPanic
  | case3 x y l ih =>
    rcases h with _ | ⟨_, _ | ⟨_, h⟩⟩
    rw [Gates.foldPairs, Gates.foldPairs]
    exact bind subExt fun _ _ _ => bind mulExt fun _ _ _ => bind addExt fun _ _ _ => bind (ih h) fun _ _ h =>
      pure (.cons (Value.all _ _) h)

section
include h

theorem randomAccessCopy (b c e i : ℕ) :
    Same w (Gates.randomAccessCopy b c e v i) (Gates.randomAccessCopy b c e v' i) := by
  obtain ⟨h1, h2⟩ := h
  rw [Gates.randomAccessCopy, Gates.randomAccessCopy]
  refine bind (idx h2 _) fun _ _ _ => bind (rangeM fun i => idx h2 _) fun _ _ h3 => bind (idx h2 _) fun _ _ _ =>
    bind (rangeM fun i => idx h2 _) fun _ _ h4 => bind ?_ fun _ _ h5 => bind (reduceWithPowers h4) fun _ _ _ =>
    bind subExt fun _ _ _ => bind (foldlM h4 (fun _ _ _ _ h _ => foldPairs h) h3) fun l l' h6 => ?_
  · same
  · rcases h6 with _ | ⟨_, _ | ⟨_, _⟩⟩
    · exact goPanic
    · exact bind subExt fun _ _ _ => pure (Alike.append h5 (Alike.of_length rfl))
    · exact goPanic

theorem randomAccess (b c e : ℕ) : Same w (Gates.randomAccess b c e v) (Gates.randomAccess b c e v') := by
  rw [Gates.randomAccess, Gates.randomAccess]
  refine bind (collect fun i => randomAccessCopy h b c e i) fun _ _ h3 => bind (rangeM fun i => ?_) fun _ _ h4 =>
    pure (Alike.append h3 h4)
  obtain ⟨h1, h2⟩ := h
  same

end

theorem reducingLoop {a o a' o' : QAV} {x y x' y' : List QAV} (hx : Alike x x') (hy : Alike y y') (n : ℕ) :
    Same w (Gates.reducingLoop a o x y n) (Gates.reducingLoop a' o' x' y' n) := by
  rw [Gates.reducingLoop, Gates.reducingLoop]
  refine bind (foldlM (Shaped.refl _) (fun s s' i j hs e => ?_) (Alike.prod (Value.all _ _) (Shaped.refl _))) fun _ _ h => pure h.2
  cases e
  have := hs.2
  exact bind (idx hx _) fun _ _ _ => bind mulAlg fun _ _ _ => bind addAlg fun _ _ _ => bind (idx hy _) fun _ _ _ =>
    bind subAlg fun _ _ _ => pure (Alike.prod (Value.all _ _) (Alike.append hs.2 (Alike.of_length rfl)))

section
include h

theorem reducing (n : ℕ) : Same w (Gates.reducing n v) (Gates.reducing n v') := by
  rw [Gates.reducing, Gates.reducing]
  exact bind (getLocalExtAlgebra h _) fun _ _ _ => bind (getLocalExtAlgebra h _) fun _ _ _ =>
    bind (rangeM fun i => bind (idx h.2 _) fun _ _ _ => value) fun _ _ h3 =>
    bind (rangeM fun i => getLocalExtAlgebra h _) fun _ _ h4 => reducingLoop h3 h4 _

theorem reducingExtension (n : ℕ) : Same w (Gates.reducingExtension n v) (Gates.reducingExtension n v') := by
  rw [Gates.reducingExtension, Gates.reducingExtension]
  exact bind (getLocalExtAlgebra h _) fun _ _ _ => bind (getLocalExtAlgebra h _) fun _ _ _ =>
    bind (rangeM fun i => getLocalExtAlgebra h _) fun _ _ h3 =>
    bind (rangeM fun i => getLocalExtAlgebra h _) fun _ _ h4 => reducingLoop h3 h4 _

theorem cosetInterpolation (s d : ℕ) (u : List Fp) :
    Same w (Gates.cosetInterpolation s d u v) (Gates.cosetInterpolation s d u v') := by
  rw [Gates.cosetInterpolation, Gates.cosetInterpolation]
  dsimp only
  refine ite Iff.rfl (fun _ => goPanic) fun _ => ?_
  refine bind (idx h.2 _) fun _ _ _ => bind (getLocalExtAlgebra h _) fun _ _ _ =>
    bind (getLocalExtAlgebra h _) fun _ _ _ => bind scalarMulExt fun _ _ _ => bind scalarMulAlg fun _ _ _ =>
    bind addAlg fun _ _ _ => bind orPanic' fun dom dom' e => bind (rangeM fun i => getLocalExtAlgebra h _) fun _ _ hv =>
    bind (slice e _ _) fun _ _ e1 => bind (slice hv _ _) fun _ _ hv' => bind (slice (Shaped.refl _) _ _) fun _ _ e2 => ?_
  obtain rfl := Alike.eq_fp e
  obtain rfl := Alike.eq_fp e1
  obtain rfl := Alike.eq_fp e2
  refine bind (partialInterpolate hv') fun _ _ _ => bind (foldlM (Shaped.refl _) (fun st st' i j hs e => ?_)
    (Alike.prod (Value.all _ _) (Alike.of_length rfl))) fun _ _ h' => bind (getLocalExtAlgebra h _) fun _ _ _ =>
    bind subAlg fun _ _ _ => pure (Alike.append h'.2 (Alike.of_length rfl))
  cases e
  rw [cosetStep, cosetStep]
  refine bind (getLocalExtAlgebra h _) fun _ _ _ => bind (getLocalExtAlgebra h _) fun _ _ _ => bind subAlg fun _ _ _ =>
    bind subAlg fun _ _ _ => bind (slice (Shaped.refl _) _ _) fun _ _ e1 => bind (slice hv _ _) fun _ _ hv' =>
    bind (slice (Shaped.refl _) _ _) fun _ _ e2 => ?_
  obtain rfl := Alike.eq_fp e1
  obtain rfl := Alike.eq_fp e2
  exact bind (partialInterpolate hv') fun _ _ _ => pure (Alike.prod (Value.all _ _) (Alike.append
    (Alike.append hs.2 (Alike.of_length rfl)) (Alike.of_length rfl)))

theorem poseidonMds : Same w (Gates.poseidonMds v) (Gates.poseidonMds v') := by
  rw [Gates.poseidonMds, Gates.poseidonMds]
  simp only [mdsRowShfAlgebra]
  refine bind (tabM fun i => getLocalExtAlgebra h _) fun _ _ _ => bind (tabM fun i => ?_) fun _ _ _ =>
    bind (tabM fun i => bind (getLocalExtAlgebra h _) fun _ _ _ => subAlg) fun _ _ h' =>
    pure (Alike.flatMap (Alike.ofFn h') fun _ _ _ => Alike.of_length rfl)
  same

end

section
open PoseidonGL

theorem constantLayerExt {s s' : StateExt} {r : ℕ} :
    Same w (PoseidonGL.constantLayerExt s r) (PoseidonGL.constantLayerExt s' r) := by
  rw [PoseidonGL.constantLayerExt, PoseidonGL.constantLayerExt]; same
theorem sBoxMonomialExt {x x' : QEV} : Same w (PoseidonGL.sBoxMonomialExt x) (PoseidonGL.sBoxMonomialExt x') := by
  rw [PoseidonGL.sBoxMonomialExt, PoseidonGL.sBoxMonomialExt]; same
theorem sBoxLayerExt {s s' : StateExt} : Same w (PoseidonGL.sBoxLayerExt s) (PoseidonGL.sBoxLayerExt s') := by
  rw [PoseidonGL.sBoxLayerExt, PoseidonGL.sBoxLayerExt]; exact tabM fun _ => sBoxMonomialExt
theorem mdsLayerExt {s s' : StateExt} : Same w (PoseidonGL.mdsLayerExt s) (PoseidonGL.mdsLayerExt s') := by
  rw [PoseidonGL.mdsLayerExt, PoseidonGL.mdsLayerExt]; simp only [mdsRowShfExt]; same
theorem partialFirstConstantLayerExt {s s' : StateExt} :
    Same w (PoseidonGL.partialFirstConstantLayerExt s) (PoseidonGL.partialFirstConstantLayerExt s') := by
  rw [PoseidonGL.partialFirstConstantLayerExt, PoseidonGL.partialFirstConstantLayerExt]; same
theorem mdsPartialLayerInitExt {s s' : StateExt} :
    Same w (PoseidonGL.mdsPartialLayerInitExt s) (PoseidonGL.mdsPartialLayerInitExt s') := by
  rw [PoseidonGL.mdsPartialLayerInitExt, PoseidonGL.mdsPartialLayerInitExt]; same
theorem mdsPartialLayerFastExt {s s' : StateExt} {r : ℕ} :
    Same w (PoseidonGL.mdsPartialLayerFastExt s r) (PoseidonGL.mdsPartialLayerFastExt s' r) := by
  rw [PoseidonGL.mdsPartialLayerFastExt, PoseidonGL.mdsPartialLayerFastExt]; same

theorem sBoxInputs {v v' : Vars} (h : Alike v v') {i : Fin 12 → ℕ} {s s' : StateExt} :
    Same w (Gates.sBoxInputs v i s) (Gates.sBoxInputs v' i s') := by
  rw [Gates.sBoxInputs, Gates.sBoxInputs]
  exact bind (tabM fun i => bind (idx h.2 _) fun _ _ _ => bind subExt fun _ _ _ => value) fun _ _ _ =>
    pure (Alike.prod (Alike.of_length (by simp)) (Value.all _ _))

include h in
theorem poseidon : Same w (Gates.poseidon v) (Gates.poseidon v') := by
  have full0 : ∀ st st' r, Alike st st' → Same w (poseidonFull0 v st r) (poseidonFull0 v' st' r) := by
    intro st st' r hs
    rw [poseidonFull0, poseidonFull0]
    refine bind constantLayerExt fun _ _ _ => ?_
    dsimp only
    refine ite Iff.rfl (fun _ => ?_) fun _ => ?_
    · refine bind (sBoxInputs h) fun ⟨_, _⟩ ⟨_, _⟩ hxy => ?_
      exact bind sBoxLayerExt fun _ _ _ => bind mdsLayerExt fun _ _ _ =>
        pure (Alike.prod (Alike.append hs.1 hxy.1) (Value.all _ _))
    · rw [pure_bind, pure_bind]
      exact bind sBoxLayerExt fun _ _ _ => bind mdsLayerExt fun _ _ _ =>
        pure (Alike.prod (Alike.append hs.1 .nil) (Value.all _ _))
  have full1 : ∀ st st' r, Alike st st' → Same w (poseidonFull1 v st r) (poseidonFull1 v' st' r) := by
    intro st st' r hs
    rw [poseidonFull1, poseidonFull1]
    exact bind constantLayerExt fun _ _ _ => bind (sBoxInputs h) fun ⟨_, _⟩ ⟨_, _⟩ hxy => bind sBoxLayerExt fun _ _ _ =>
      bind mdsLayerExt fun _ _ _ => pure (Alike.prod (Alike.append hs.1 hxy.1) (Value.all _ _))
  have part : ∀ st st' r, Alike st st' → Same w (poseidonPartial v st r) (poseidonPartial v' st' r) := by
    intro st st' r hs
    rw [poseidonPartial, poseidonPartial]
    refine bind (idx h.2 _) fun _ _ _ => bind subExt fun _ _ _ => bind sBoxMonomialExt fun _ _ _ => ?_
    dsimp only
    exact ite Iff.rfl (fun _ => bind addExt fun _ _ _ => bind mdsPartialLayerFastExt fun _ _ _ =>
        pure (Alike.prod (Alike.append hs.1 (Alike.of_length rfl)) (Value.all _ _)))
      fun _ => bind value fun _ _ _ => bind mdsPartialLayerFastExt fun _ _ _ =>
        pure (Alike.prod (Alike.append hs.1 (Alike.of_length rfl)) (Value.all _ _))
  have inp : Same w (poseidonInput v) (poseidonInput v') := by
    rw [poseidonInput, poseidonInput]
    exact bind (tabM fun i => bind (idx h.2 _) fun _ _ _ => bind (idx h.2 _) fun _ _ _ => bind (idx h.2 _) fun _ _ _ =>
      bind addExt fun _ _ _ => bind subExt fun _ _ _ => value) fun _ _ _ => bind (tabM fun i => idx h.2 _) fun _ _ _ =>
      value
  rw [Gates.poseidon, Gates.poseidon]
  exact bind (idx h.2 _) fun _ _ _ => bind subExt fun _ _ _ => bind mulExt fun _ _ _ => bind (tabM fun i =>
      bind (idx h.2 _) fun _ _ _ => bind (idx h.2 _) fun _ _ _ => bind (idx h.2 _) fun _ _ _ => bind subExt fun _ _ _ =>
      bind mulExt fun _ _ _ => subExt) fun _ _ hd => bind inp fun _ _ _ =>
    bind (foldlM (Shaped.refl _) (fun _ _ _ _ hs e => by cases e; exact full0 _ _ _ hs)
      (Alike.prod (Alike.cons (Value.all _ _) (Alike.ofFn hd)) (Value.all _ _))) fun _ _ hs => bind partialFirstConstantLayerExt fun _ _ _ =>
    bind mdsPartialLayerInitExt fun _ _ _ => bind (foldlM (Shaped.refl _) (fun _ _ _ _ hs e => by
      cases e; exact part _ _ _ hs) (Alike.prod hs.1 (Value.all _ _))) fun _ _ hs => bind (foldlM (Shaped.refl _)
      (fun _ _ _ _ hs e => by cases e; exact full1 _ _ _ hs) hs) fun _ _ hs =>
    bind (tabM fun i => bind (idx h.2 _) fun _ _ _ => subExt) fun _ _ ho => pure (Alike.append hs.1 (Alike.ofFn ho))

end

include h in
theorem evalUnfiltered (g : Gate) : Same w (g.evalUnfiltered v) (g.evalUnfiltered v') := by
  cases g with
  | arithmetic n => exact arithmetic h n
  | arithmeticExtension n => exact arithmeticExtension h n
  | baseSum n b => exact baseSum h n b
  | constant n => exact constant h n
  | cosetInterpolation s d u => exact cosetInterpolation h s d u
  | exponentiation n => exact exponentiation h n
  | mulExtension n => exact mulExtension h n
  | noop => exact pure .nil
  | poseidon => exact poseidon h
  | poseidonMds => exact poseidonMds h
  | publicInput => exact publicInput h
  | randomAccess b c e => exact randomAccess h b c e
  | reducing n => exact reducing h n
  | reducingExtension n => exact reducingExtension h n

theorem computeFilter {r : ℕ} {g : ℕ × ℕ} {s s' : QEV} {b : Bool} :
    Same w (Gates.computeFilter r g s b) (Gates.computeFilter r g s' b) := by
  rw [Gates.computeFilter, Gates.computeFilter]
  refine bind (foldlM (Shaped.refl _) (fun _ _ _ _ _ e => ?_) (Value.all _ _)) fun _ _ _ =>
    ite Iff.rfl (fun _ => bind subExt fun _ _ _ => mulExt) fun _ => value
  cases e
  exact ite Iff.rfl (fun _ => value) fun _ => bind subExt fun _ _ _ => mulExt

theorem addConstraints {l l' m m' : List QEV} (h : Alike l l') (h' : Alike m m') :
    Same w (Gates.addConstraints l m) (Gates.addConstraints l' m') := by
  induction h' generalizing l l' with
  | nil => rw [Gates.addConstraints, Gates.addConstraints]; exact pure h
  | cons _ _ ih =>
    cases h with
    | nil => exact goPanic
    | cons _ h =>
      rw [Gates.addConstraints, Gates.addConstraints]
      exact bind addExt fun _ _ _ => bind (ih h) fun _ _ h => pure (.cons (Value.all _ _) h)

include h in
theorem evaluateGateConstraints (gates : List Gate) (n : ℕ) (si : SelectorsInfo) :
    Same w (Gates.evaluateGateConstraints gates n si v) (Gates.evaluateGateConstraints gates n si v') := by
  rw [Gates.evaluateGateConstraints, Gates.evaluateGateConstraints]
  refine foldlM (Shaped.refl _) (fun a a' x x' ha e => ?_) (Shaped.refl _)
  obtain ⟨x1, x2⟩ := x
  obtain ⟨y1, y2⟩ := x'
  obtain ⟨rfl, rfl⟩ := id e
  rw [gateStep, gateStep]
  refine bind (idx (Shaped.refl _) _) fun _ _ e => ?_
  cases e
  refine bind (idx (Shaped.refl _) _) fun a b e => ?_
  obtain ⟨a1, a2⟩ := a
  obtain ⟨b1, b2⟩ := b
  obtain ⟨rfl, rfl⟩ := id e
  refine bind ?_ fun _ _ h => addConstraints ha h
  rw [evalFiltered, evalFiltered]
  exact bind (idx h.1 _) fun _ _ _ => bind computeFilter fun _ _ _ => bind (removePrefix h _) fun _ _ h =>
    bind (evalUnfiltered h _) fun _ _ h => mapM h fun _ _ _ => mulExt

end Same

end Verif
