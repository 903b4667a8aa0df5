import Verif.Spec.Programs
import Verif.Proofs.ExtAlgebra
import Verif.Proofs.Assert

/-! # Programs over the chip: the circuit is the meaning -/

set_option autoImplicit false

namespace Verif.Prog

open Circ

@[simp] theorem enc_b (m : Mem Fp QE QA) (i : ℕ) : m.enc.b i = emb (m.b i) := rfl
@[simp] theorem enc_e (m : Mem Fp QE QA) (i : ℕ) : m.enc.e i = embQ (m.e i) := rfl
@[simp] theorem enc_a (m : Mem Fp QE QA) (i : ℕ) : m.enc.a i = embA (m.a i) := rfl

theorem enc_setB (m : Mem Fp QE QA) (d : ℕ) (x : Fp) : m.enc.setB d (emb x) = (m.setB d x).enc := by
  simp only [Mem.enc, Mem.setB]; congr; funext i; by_cases h : i = d <;> simp [Function.update, h]
theorem enc_setE (m : Mem Fp QE QA) (d : ℕ) (x : QE) : m.enc.setE d (embQ x) = (m.setE d x).enc := by
  simp only [Mem.enc, Mem.setE]; congr; funext i; by_cases h : i = d <;> simp [Function.update, h]
theorem enc_setA (m : Mem Fp QE QA) (d : ℕ) (x : QA) : m.enc.setA d (embA x) = (m.setA d x).enc := by
  simp only [Mem.enc, Mem.setA]; congr; funext i; by_cases h : i = d <;> simp [Function.update, h]

theorem den_reduceAdd (a b : Fp) : den (Verif.reduce (addNoReduce (emb a) (emb b))) = pure (emb (a + b)) :=
  den_reduce_of (n := a.val + b.val) (by simp [addNoReduce, emb])
    (by have := a.val_lt; have := b.val_lt; norm_num [p] at *; omega) (by simp)

theorem den_reduceMulAdd (a b c : Fp) :
    den (Verif.reduce (mulAddNoReduce (emb a) (emb b) (emb c))) = pure (emb (a * b + c)) := by
  refine den_reduce_of (n := c.val + a.val * b.val) (by simp [mulAddNoReduce, emb]) ?_
    (by simp; ring)
  have h1 := a.val_lt; have h2 := b.val_lt; have h3 := c.val_lt
  have : a.val * b.val ≤ p * p := Nat.mul_le_mul h1.le h2.le
  norm_num [p] at *; omega

theorem den_reduceMul (a b : Fp) :
    den (Verif.reduce (mulNoReduce (emb a) (emb b))) = pure (emb (a * b)) := by
  have := den_reduceMulAdd a b 0
  simpa [mulNoReduce, mulAddNoReduce] using this

theorem den_reduceSub (a b : Fp) :
    den (Verif.reduce (subNoReduce (emb a) (emb b))) = pure (emb (a - b)) := by
  have h1 : negOne = emb (-1) := by
    rw [negOne, emb]; congr 1
  have := den_reduceMulAdd b (-1) a
  rw [← h1] at this
  rw [show subNoReduce (emb a) (emb b) = mulAddNoReduce (emb b) negOne (emb a) by
    simp [subNoReduce, mulAddNoReduce], this]
  congr 2; ring

theorem emb_eq_one {a : Fp} : emb a = 1 ↔ a = 1 := by rw [← emb_one, emb_inj]

theorem den_inverse_zero_assert (f : Fr → Mem Fr QEV QAV) :
    (den (Verif.inverse (emb 0)) >>= fun a => do
      den (glAssertIsEqual a.2 1)
      pure (f a.1)) = Den.fail := by
  have : Unsat (do
      let a ← Verif.inverse (emb 0)
      glAssertIsEqual a.2 1
      pure (f a.1)) := by
    intro z hz
    rw [sat_bind] at hz
    obtain ⟨a, ha, hz⟩ := hz
    rw [emb_zero, sat_inverse_zero] at ha
    rw [sat_bind] at hz
    obtain ⟨_, hz, _⟩ := hz
    simp [glAssertIsEqual, Verif.assertEq, Sat, ha.2] at hz
  rw [← den_eq_fail_iff] at this
  simpa only [den_bind, den_pure] using this

/-- The circuit of one call. -/
theorem den_emit (m : Mem Fp QE QA) (i : Instr) (h : i.Short) :
    den (i.emit m.enc) = match i.eval m with
      | some m' => pure m'.enc
      | none => Den.fail := by
  cases i <;> simp only [Instr.emit, Instr.eval, enc_b, enc_e, enc_a, den_bind, den_pure, den_add,
    den_sub, den_mul, den_mulAdd, den_reduce_emb, den_reduceAdd, den_reduceSub, den_reduceMul,
    den_reduceMulAdd, pure_bind, enc_setB, enc_setE, enc_setA, den_addExt, den_subExt, den_mulExt,
    den_mulAddExt, den_subMulExt, den_scalarMulExt, den_expExt, den_reduceExt_emb, den_addAlg,
    den_subAlg, den_mulAlg, den_scalarMulAlg]
  case inverse d x =>
    by_cases h0 : m.b x = 0
    · rw [if_pos h0, h0]
      exact den_inverse_zero_assert _
    · rw [if_neg h0, den_inverse_of_ne h0]; simp [enc_setB, Den.guard_true]
  case rangeCheck x => rw [den_rangeCheck, Den.guard_true (emb_lt _)]; simp
  case assertEq x y =>
    by_cases h0 : m.b x = m.b y
    · simp [h0, Den.guard_true]
    · rw [den_glAssertIsEqual, Den.guard_false (fun h' => h0 (emb_inj.1 h')), if_neg h0]; simp
  case toExt d x => rw [toQE_emb, enc_setE]
  case innerProductExt d c acc pairs =>
    have hs : pairs.length < 2 ^ 63 := h
    have := den_innerProductExt (m.b c) (m.e acc) (pairs.map fun xy => (m.e xy.1, m.e xy.2))
      (by rw [List.length_map]; omega)
    simp only [List.map_map, Function.comp_def] at this
    rw [this, List.sum_map_mul_left]; simp [enc_setE]
  case inverseExt d x =>
    by_cases h0 : m.e x = 0
    · rw [if_pos h0, h0, den_inverseExt_zero]; simp
    · rw [if_neg h0, den_inverseExt_of_ne h0]; simp [enc_setE, Den.guard_true]
  case divExt d x y =>
    by_cases h0 : m.e y = 0
    · rw [if_pos h0, h0, den_divExt_zero]; simp
    · rw [if_neg h0, den_divExt_of_ne _ h0]; simp [enc_setE, Den.guard_true]
  case reduceWithPowers d terms s =>
    have := den_reduceWithPowers (terms.map m.e) (m.e s)
    rw [List.map_map] at this
    have e : List.map m.enc.e terms = List.map (embQ ∘ m.e) terms := rfl
    rw [e, this, pure_bind, enc_setE, List.length_map]
    have e2 : ∀ x y : QE, x = y → (pure (m.setE d x).enc : Den _) = pure (m.setE d y).enc := by
      rintro x y rfl; rfl
    refine e2 _ _ (Finset.sum_congr rfl fun i hi => ?_)
    have hi := Finset.mem_range.1 hi
    simp [List.getD_eq_getElem?_getD, hi]
  case isZeroExt d x =>
    rw [isZeroExt_emb, ← enc_setB]
    split <;> simp
  case lookup d s x y =>
    rw [den_lookup, bind_assoc]
    by_cases h0 : m.b s = 0
    · simp [h0, enc_setE, Den.guard_true]
    · by_cases h1 : m.b s = 1
      · simp [h1, enc_setE, Den.guard_true]
      · rw [Den.guard_false (by rw [emb_eq_zero, emb_eq_one]; tauto), if_neg h0, if_neg h1]; simp
  case lookup2 d s t x y z w =>
    simp only [Verif.lookup2, den_bind, den_lookup]
    by_cases h0 : m.b s = 0 ∨ m.b s = 1
    · by_cases h1 : m.b t = 0 ∨ m.b t = 1
      · rcases h0 with h0 | h0 <;> rcases h1 with h1 | h1 <;> simp [h0, h1, Den.guard_true, enc_setE]
      · rw [Den.guard_false (P := emb (m.b t) = 0 ∨ emb (m.b t) = 1)
          (by rwa [emb_eq_zero, emb_eq_one])]
        simp [Den.bind_fail, h1]
    · rw [Den.guard_false (P := emb (m.b s) = 0 ∨ emb (m.b s) = 1)
        (by rwa [emb_eq_zero, emb_eq_one])]
      simp [h0]
  case assertEqExt x y =>
    by_cases h0 : m.e x = m.e y
    · simp [h0, Den.guard_true]
    · rw [den_assertIsEqualExt, Den.guard_false (fun h' => h0 (embQ_inj.1 h')), if_neg h0]; simp
  case rangeCheckExt x => rw [den_rangeCheckQE, Den.guard_true ⟨emb_lt _, emb_lt _⟩]; simp
  case toAlg d x => rw [toQA_emb, enc_setA]

/-- The circuit of a program. -/
theorem den_program (prog : List Instr) (h : ∀ i ∈ prog, i.Short) (m : Mem Fp QE QA) :
    den (emit prog m.enc) = match eval prog m with
      | some m' => pure m'.enc
      | none => Den.fail := by
  induction prog generalizing m with
  | nil => simp [emit, eval]
  | cons i l ih =>
    have ih := fun m => ih (fun j hj => h j (List.mem_cons_of_mem _ hj)) m
    have hi := den_emit m i (h i List.mem_cons_self)
    simp only [emit, eval, List.foldlM_cons, den_bind] at ih hi ⊢
    rw [hi]
    cases hm : i.eval m with
    | none => simp
    | some m' => rw [pure_bind]; exact ih m'

end Verif.Prog
