import Verif.Properties.Goldilocks
import Verif.Properties.PoseidonGL
import Verif.Proofs.TestVectors
import Verif.Proofs.Assert

/-!
# Properties of the repository's unit tests: C93

Each test circuit is characterised for all inputs where the code allows it, then instantiated at the values in the repository.
-/

set_option autoImplicit false

namespace Verif

open Circ Tests TestVectors

private theorem forM_guard_eq {n : ℕ} (x y : Fin n → Fr) :
    ((List.finRange n).forM fun i => Den.guard (x i = y i)) = Den.guard (x = y) := by
  rw [Den.guard_eq_assert, Den.forM_assert (P := fun i => x i = y i) fun i _ => Den.guard_eq_assert _]
  exact Den.assert_congr (by simp [funext_iff])

private theorem forM_zip_eq (xs ys : List QEV) (h : xs.length = ys.length) :
    ((xs.zip ys).forM fun ce => Den.guard (ce.1 = ce.2)) = Den.guard (xs = ys) := by
  rw [Den.guard_eq_assert, Den.forM_assert (P := fun ce : QEV × QEV => ce.1 = ce.2) fun ce _ => Den.guard_eq_assert _]
  refine Den.assert_congr ?_
  induction xs generalizing ys with
  | nil => cases ys with
    | nil => simp
    | cons b ys => simp at h
  | cons a xs ih => cases ys with
    | nil => simp at h
    | cons b ys =>
      rw [List.zip_cons_cons, List.forall_mem_cons, ih ys (by simpa using h), List.cons.injEq]

private theorem assertState (n : ℕ) (x y : Fin n → Fr) :
    Enforces ((List.finRange n).forM fun i => glAssertIsEqual (x i) (y i)) (x = y) := by
  refine (den_eq_guard_iff _ _).1 ?_
  simp only [den_forM, den_glAssertIsEqual, forM_guard_eq]

private theorem computes_of_enforces {c : Circ Unit} {P : Prop} (h : Enforces c P) (hp : P) : Computes c () :=
  ⟨fun _ => ⟨fun _ => rfl, fun _ => h.1.2 hp⟩, h.2.2 hp⟩

/-! ## Goldilocks -/

/-- **C93** `TestGoldilocksRangeCheck`: the four witnesses of the test are accepted and rejected as it expects. -/
theorem C93_rangeCheck : Computes (rangeCheckTest 0) () ∧ Computes (rangeCheckTest 1) () ∧
    Computes (rangeCheckTest ((p - 1 : ℕ) : Fr)) () ∧ Unsat (rangeCheckTest (p : Fr)) := by
  refine ⟨computes_of_enforces (C01_rangeCheck _) (by decide), computes_of_enforces (C01_rangeCheck _) (by decide),
    computes_of_enforces (C01_rangeCheck _) ?_, fun _ h => absurd ((C01_rangeCheck _).1.1 h) ?_⟩ <;>
  rw [val_natCast_of_lt] <;> norm_num [p, r]

/-- **C93** the circuit of `TestGoldilocksMulAdd` asserts that the expected value is `x y + z`. -/
theorem C93_mulAdd_enforces (x y z : Fp) (e : Fr) :
    Enforces (mulAddTest (emb x) (emb y) (emb z) e) (emb (x * y + z) = e) := by
  refine (den_eq_guard_iff _ _).1 ?_
  rw [mulAddTest, den_bind, (den_eq_pure_iff _ _).2 (C02_mulAdd x y z), pure_bind, den_assertEq]

/-- **C93** `TestGoldilocksMulAdd` passes. -/
theorem C93_mulAdd : Computes (mulAddTest 1 2 3 5) () ∧
    Computes (mulAddTest 9223372036854775808 9223372036854775808 3 18446744068340842500) () :=
  ⟨computes_of_enforces (C93_mulAdd_enforces 1 2 3 5) (by decide +kernel),
    computes_of_enforces (C93_mulAdd_enforces 9223372036854775808 9223372036854775808 3 18446744068340842500)
      (by decide +kernel)⟩

/-- **C93** the circuit of `TestQuadraticExtensionMul4` asserts that the expected value is the product. -/
theorem C93_mulExtension_enforces (a b e : QE) :
    Enforces (mulExtTest (embQ a) (embQ b) (embQ e)) (a * b = e) := by
  refine (den_eq_guard_iff _ _).1 ?_
  rw [mulExtTest, den_bind, (den_eq_pure_iff _ _).2 (C06_mulExtension a b), pure_bind]
  exact (den_assertIsEqualExt _ _).trans (Den.guard_congr embQ_inj)

/-- **C93** `TestQuadraticExtensionMul4` passes. -/
theorem C93_mulExtension : Computes (mulExtTest (4994088319481652598, 16489566008211790727)
    (3797605683985595697, 13424401189265534004) (15052319864161058789, 16841416332519902625)) () :=
  computes_of_enforces (C93_mulExtension_enforces ⟨4994088319481652598, 16489566008211790727⟩
    ⟨3797605683985595697, 13424401189265534004⟩ ⟨15052319864161058789, 16841416332519902625⟩) (by decide +kernel)

/-- **C93** the circuit of `TestQuadraticExtensionDiv` asserts that the expected value times the (non-zero) divisor is the
dividend. -/
theorem C93_divExtension_enforces (a : QE) {b : QE} (e : QE) (hb : b ≠ 0) :
    Enforces (divExtTest (embQ a) (embQ b) (embQ e)) (a = e * b) := by
  refine (den_eq_guard_iff _ _).1 ?_
  rw [divExtTest, den_bind, (den_eq_pure_iff _ _).2 (C07_divExtension a hb), pure_bind]
  exact (den_assertIsEqualExt _ _).trans (Den.guard_congr (embQ_inj.trans (div_eq_iff hb)))

/-- **C93** `TestQuadraticExtensionDiv` passes. -/
theorem C93_divExtension : Computes (divExtTest (4994088319481652598, 16489566008211790727)
    (7166004739148609569, 14655965871663555016) (15052319864161058789, 16841416332519902625)) () :=
  computes_of_enforces (C93_divExtension_enforces ⟨4994088319481652598, 16489566008211790727⟩
    ⟨15052319864161058789, 16841416332519902625⟩ (b := ⟨7166004739148609569, 14655965871663555016⟩)
    (by decide +kernel)) (by decide +kernel)

/-! ## Poseidon -/

/-- **C93** the circuit of `TestPoseidonBN254` asserts that the expected value is the permutation of the input. -/
theorem C93_poseidonBN_enforces (s t : Fin 4 → Fr) :
    Enforces (poseidonBNTest s t) (PoseidonBN.poseidon s = t) := by
  refine (den_eq_guard_iff _ _).1 ?_
  simp only [poseidonBNTest, den_forM, den_assertEq, forM_guard_eq]

/-- **C93** `TestPoseidonBN254` passes: four test vectors. -/
theorem C93_poseidonBN : ∀ t ∈ poseidonBN, Computes (poseidonBNTest t.1 t.2) () := fun t ht =>
  computes_of_enforces (C93_poseidonBN_enforces _ _) (poseidonBN_eq t ht)

/-- **C93** `TestPoseidonWitness` passes when the hints are honest. -/
theorem C93_poseidonGL : honest (poseidonGLTest (fun _ => 0) fun i => (poseidonZero i : Fr)) = some () := by
  have h := C20_poseidon_honest_partial fun _ => 0
  rw [poseidon_zero, show (fun _ => emb 0 : Fin 12 → Fr) = fun _ => 0 from by simp [emb]] at h
  have h2 : ∀ i, emb (poseidonZero i : Fp) = (poseidonZero i : Fr) := by decide +kernel
  simp only [h2] at h
  rw [poseidonGLTest, honest_bind_of h]
  exact (assertState 12 _ _).2.2 rfl

/-- **C93** but the test circuit also accepts another output in place of the right one, different in every entry: the S-box of
`poseidon/goldilocks.go:126-133` lets a quotient overflow (C20). -/
theorem C93_poseidonGL_violated : ∃ y : Fin 12 → Fp, (∀ i, y i ≠ poseidonZero i) ∧
    Sat (poseidonGLTest (fun _ => 0) fun i => emb (y i)) () := by
  obtain ⟨y, h, hy⟩ := C20_poseidon_violated fun _ => 0
  rw [poseidon_zero] at hy
  refine ⟨y, hy, ?_⟩
  rw [show (fun _ => emb 0 : Fin 12 → Fr) = fun _ => 0 from by simp [emb]] at h
  rw [poseidonGLTest, sat_bind]
  exact ⟨_, h, (assertState 12 _ _).1.2 rfl⟩

/-- **C93** `TestPublicInputsHashWitness` passes when the hints are honest. -/
theorem C93_publicInputsHash : honest (publicInputsHashTest (hashInput.map (Nat.cast : ℕ → Fr))
    fun i => (hashOutput.getD i 0 : ℕ)) = some () := by
  have hl : ∀ n ∈ hashInput, n < 2 ^ 64 := by decide +kernel
  have h1 : ∀ l : List ℕ, (∀ n ∈ l, n < 2 ^ 64) → den ((l.map (Nat.cast : ℕ → Fr)).mapM fun x => do
      let bits ← toBinary 64 x
      pure (fromBinary bits)) = pure (l.map (Nat.cast : ℕ → Fr)) := by
    intro l hl
    rw [den_mapM]
    induction l with
    | nil => rfl
    | cons n l ih =>
      have hn := hl n (by simp)
      have hv : ((n : ℕ) : Fr).val = n := val_natCast_of_lt (hn.trans (by norm_num [r]))
      rw [List.map_cons, List.mapM_cons, ih fun m hm => hl m (by simp [hm])]
      simp only [den_bind, den_toBinary, hv, if_pos hn, pure_bind, den_pure, fromBinary_bitsLE, Nat.mod_eq_of_lt hn]
  have h2 := C21_hashNoPad_honest hashInput fun n hn => (hl n hn).trans (by norm_num [p])
  rw [show (fun n : ℕ => (n : Fp)) = Nat.cast from rfl, hash_input] at h2
  refine honest_bind_of ((den_eq_pure_iff _ _).1 (h1 _ hl)).2 (honest_bind_of h2 ?_)
  have h3 : ∀ i : Fin 4, emb ((hashOutput.map (Nat.cast : ℕ → Fp)).getD i 0) = ((hashOutput.getD i 0 : ℕ) : Fr) ∧
      ((hashOutput.getD i 0 : ℕ) : Fr).val = hashOutput.getD i 0 ∧ hashOutput.getD i 0 < 2 ^ 254 := by decide +kernel
  refine ((den_eq_pure_iff _ _).1 ?_).2
  rw [den_forM]
  refine (Den.forM_assert (P := fun _ => True) fun i _ => ?_).trans (Den.assert_true fun _ _ => trivial)
  rw [den_bind, den_toBinary, (h3 i).2.1, if_pos (h3 i).2.2, pure_bind, fromBinary_bitsLE, Nat.mod_eq_of_lt (h3 i).2.2,
    den_glAssertIsEqual, Den.guard_true (h3 i).1, Den.assert_true trivial]

/-! ## Gates -/

/-- **C93** the circuit of `TestGates` asserts that the expected values are the constraints of the gate, for any gate and columns
it fits in. -/
theorem C93_gates_enforces {g : Gates.Gate} {v : Gates.EvaluationVars Fp QE}
    (h : Spec.Gates.Fits v.localConstants.length v.localWires.length g) (e : List QE) :
    Enforces (gateTest g v.enc (e.map embQ)) (Spec.Gates.constraints g v.row = e) := by
  classical
  refine (den_eq_guard_iff _ _).1 ?_
  rw [gateTest, den_bind, Gates.den_evalUnfiltered h, pure_bind]
  by_cases hl : (Spec.Gates.constraints g v.row).length = e.length
  · rw [if_neg (by simpa using hl)]
    simp only [den_forM, den_assertIsEqualExt]
    rw [forM_zip_eq _ _ (by simpa using hl)]
    exact Den.guard_congr (List.map_injective_iff.2 fun _ _ => embQ_inj.1).eq_iff
  · rw [if_pos (by simpa using hl), Den.guard_false fun h => hl (congrArg _ h)]
    exact den_panic _

/-- **C93** `TestGates` passes: eleven gates. -/
theorem C93_gates : ∀ t ∈ gateTests, Computes (gateTest t.1 vars.enc (t.2.map embQ)) () := fun t ht =>
  computes_of_enforces (C93_gates_enforces (fits t ht) _) (constraints_eq t ht)

example : gateTests.map (·.2.length) = [4, 64, 20, 26, 123, 20, 26, 66, 88, 12, 24] := by decide +kernel

end Verif
