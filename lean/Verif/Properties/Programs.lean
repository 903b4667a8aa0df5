import Verif.Proofs.Programs
import Verif.Proofs.RangeCheckUtils

/-!
# Property C65: completeness of the Goldilocks chip

For every straight-line program of calls (`Spec/Programs.lean`) and every canonical memory.
-/

set_option autoImplicit false

namespace Verif

open Circ Prog

/-- **C65** if the program has a meaning (no zero divisor, no false assertion) the honest run succeeds with exactly that
meaning, and so does every other run that satisfies the constraints. -/
theorem C65_programs (prog : List Instr) (h : ∀ i ∈ prog, i.Short) (m m' : Mem Fp QE QA)
    (he : eval prog m = some m') : Computes (emit prog m.enc) m'.enc := by
  rw [← den_eq_pure_iff, den_program prog h, he]

/-- **C65** the honest run satisfies every range check it requests, so each backend accepts it: the native and
the bit-decomposition one always, the commit-based one whenever it does not abort at compile time. -/
theorem C65_backends (prog : List Instr) (h : ∀ i ∈ prog, i.Short) (m m' : Mem Fp QE QA)
    (he : eval prog m = some m') :
    ∃ log, Out (emit prog m.enc) m'.enc log ∧ (∀ e ∈ log, e.1.val < 2 ^ e.2) ∧
      Backend.native.accepts log ∧ Backend.bitDecomp.accepts log ∧
      ∀ ft, (∀ e ∈ log, e.2 ≤ 256) → log.length ≤ 2 ^ 50 → checkCollectedOk (log.map Prod.snd) = true →
        (Backend.commit ft).accepts log := by
  obtain ⟨log, h1, h2⟩ := (sat_iff_out _ _).1 (sat_of_honest (C65_programs prog h m m' he).2)
  exact ⟨log, h1, h2, trivial, h2, fun ft hw hl hok => (commit_accepts_iff ft log hw hl).2 ⟨hok, h2⟩⟩

/-- **C65** conversely a program without a meaning has no satisfying run at all. -/
theorem C65_reject (prog : List Instr) (h : ∀ i ∈ prog, i.Short) (m : Mem Fp QE QA)
    (he : eval prog m = none) : Unsat (emit prog m.enc) := by
  rw [← den_eq_fail_iff, den_program prog h, he]

/-- Memory with `3` in base cell 1, `2 + X` in extension cell 1 and 0 elsewhere. -/
def mem₀ : Mem Fp QE QA :=
  ⟨fun i => if i = 1 then 3 else 0, fun i => if i = 1 then ⟨2, 1⟩ else 0, fun _ => 0⟩

/-- `e2 := (2+X)^2; e3 := e2/(2+X); assert e3 = 2+X; b2 := 1/3; b3 := b2*3; e4 := e3 * b3`. -/
def prog₀ : List Instr :=
  [.mulExt 2 1 1, .divExt 3 2 1, .assertEqExt 3 1, .inverse 2 1, .mul 3 2 1, .scalarMulExt 4 3 3]

/-- The program has a meaning; its last result is again the contents of cell 1. -/
theorem eval_prog₀ (m : Mem Fp QE QA) (h1 : m.e 1 ≠ 0) (h3 : m.b 1 ≠ 0) :
    ∃ m', eval prog₀ m = some m' ∧ m'.e 4 = m.e 1 := by
  have h4 : (ofBase 1 : QE) = 1 := rfl
  refine ⟨_, by
    simp only [eval, prog₀, List.foldlM_cons, List.foldlM_nil, Instr.eval, Mem.setE, Mem.setB]
    simp only [Function.update, h1, h3, if_false, Option.bind_eq_bind, Option.bind_some, eq_rec_constant,
      dif_pos, dite_eq_ite, Nat.reduceEqDiff, if_true, OfNat.one_ne_ofNat,
      mul_div_cancel_right₀ _ h1]
    rfl, ?_⟩
  simp [h3, h4]

example : ∃ m' : Mem Fp QE QA, Computes (emit prog₀ mem₀.enc) m'.enc ∧ m'.e 4 = ⟨2, 1⟩ := by
  obtain ⟨m', h1, h2⟩ := eval_prog₀ mem₀
    (fun h => by have := congrArg QuadraticAlgebra.im h; simp [mem₀] at this)
    (by decide +kernel)
  exact ⟨m', C65_programs prog₀ (by simp [prog₀, Instr.Short]) _ _ h1, h2⟩

/-- Dividing by cell 0 (zero) has none. -/
example : eval [.inverse 2 1, .divExt 3 1 0] mem₀ = none := by
  have h3 : (3 : Fp) ≠ 0 := by decide +kernel
  simp [eval, mem₀, Instr.eval, Mem.setB, h3]

example : Unsat (emit [.inverse 2 1, .divExt 3 1 0] mem₀.enc) := by
  refine C65_reject _ (by simp [Instr.Short]) _ ?_
  have h3 : (3 : Fp) ≠ 0 := by decide +kernel
  simp [eval, mem₀, Instr.eval, Mem.setB, h3]

end Verif
