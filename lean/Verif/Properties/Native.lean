import Verif.Properties.Goldilocks
import Verif.Properties.Verifier
import Verif.Proofs.Witness
import Verif.Proofs.ScalarField

/-!
# Property C101: the verifier with a builder that has native range checks

`rangeCheckerCheck` does nothing then (C16).
-/

set_option autoImplicit false

namespace Verif

open Circ PoseidonGL Verifier Spec.Verifier

namespace Native

variable {α β : Type}

theorem sat_bind (c : Circ α) (f : α → Circ β) (y : β) :
    SatWith .native (c >>= f) y ↔ ∃ a, SatWith .native c a ∧ SatWith .native (f a) y := by
  constructor
  · rintro ⟨l, h, -⟩
    obtain ⟨a, l1, l2, -, h1, h2⟩ := (out_bind _ _ _ _).1 h
    exact ⟨a, ⟨l1, h1, trivial⟩, l2, h2, trivial⟩
  · rintro ⟨a, ⟨l1, h1, -⟩, l2, h2, -⟩
    exact ⟨_, (out_bind _ _ _ _).2 ⟨a, l1, l2, rfl, h1, h2⟩, trivial⟩

theorem sat_pure (a : α) : SatWith .native (pure a : Circ α) a := ⟨[], ⟨rfl, rfl⟩, trivial⟩

/-- Whatever satisfies the constraints with range checks satisfies them without. -/
theorem of_sat {c : Circ α} {y : α} (h : Sat c y) : SatWith .native c y := by
  obtain ⟨l, h, -⟩ := (sat_iff_out c y).1 h
  exact ⟨l, h, trivial⟩

/-- Constraints that some value satisfies. -/
def Any (c : Circ α) : Prop := ∃ y, SatWith .native c y

/-- Constraints that all values satisfy. -/
def All (c : Circ α) : Prop := ∀ y, SatWith .native c y

theorem Any.bind {c : Circ α} {f : α → Circ β} (h : Any c) (hf : ∀ a, Any (f a)) : Any (c >>= f) := by
  obtain ⟨a, ha⟩ := h
  obtain ⟨b, hb⟩ := hf a
  exact ⟨b, (sat_bind _ _ _).2 ⟨a, ha, hb⟩⟩

theorem Any.all {c : Circ α} {f : α → Circ β} (h : Any c) (hf : ∀ a, All (f a)) : All (c >>= f) := by
  obtain ⟨a, ha⟩ := h
  exact fun b => (sat_bind _ _ _).2 ⟨a, ha, hf a b⟩

theorem All.any [Inhabited α] {c : Circ α} (h : All c) : Any c := ⟨default, h _⟩

theorem all_tabM {n : ℕ} {f : Fin n → Circ α} (h : ∀ i, All (f i)) : All (tabM n f) := by
  induction n with
  | zero =>
    intro y
    rw [show y = Fin.elim0 from funext fun i => i.elim0, tabM]
    exact sat_pure _
  | succ n ih =>
    intro y
    rw [tabM]
    refine (sat_bind _ _ _).2 ⟨fun i => y i.castSucc, ih (fun i => h _) _, (sat_bind _ _ _).2 ⟨y (Fin.last n), h _ _, ?_⟩⟩
    rw [show Fin.snoc (α := fun _ => α) (fun i => y i.castSucc) (y (Fin.last n)) = y from Fin.snoc_init_self y]
    exact sat_pure y

theorem any_foldlM {γ : Type} (l : List γ) {f : α → γ → Circ α} (h : ∀ a c, Any (f a c)) (a : α) : Any (l.foldlM f a) := by
  induction l generalizing a with
  | nil => exact ⟨a, sat_pure a⟩
  | cons c l ih =>
    rw [List.foldlM_cons]
    exact (h a c).bind fun b => ih b

theorem p_ne : (p : Fr) ≠ 0 := by decide +kernel

theorem range (x : Fr) : SatWith .native (rangeCheck x) () := C16_native_rangeCheck_accepts_all x

theorem hint_out {n : ℕ} {h : Option (Fin n → Fr)} (v : Fin n → Fr) : SatWith .native (newHint n h) v :=
  ⟨[], ⟨v, rfl, rfl⟩, trivial⟩

theorem assert_out {a b : Fr} (h : a = b) : SatWith .native (assertEq a b) () := of_sat (by rw [sat_assertEq]; exact h)

theorem check_out (a : Fr) (n : ℕ) : SatWith .native (rangeCheckerCheck a n) () := ⟨[(a, n)], ⟨[], rfl, rfl, rfl⟩, trivial⟩

theorem all_mulAdd (a b c : Fr) : All (mulAdd a b c) := by
  intro y
  refine (sat_bind _ _ _).2 ⟨![(c * 1 + a * b - y) / (p : Fr), y], hint_out _, ?_⟩
  refine (sat_bind _ _ _).2 ⟨(), assert_out ?_, (sat_bind _ _ _).2 ⟨(), range _, (sat_bind _ _ _).2 ⟨(), range _, sat_pure y⟩⟩⟩
  show c * 1 + a * b = y + (p : Fr) * ((c * 1 + a * b - y) / (p : Fr))
  rw [mul_div_cancel₀ _ p_ne]
  ring

theorem all_reduce (x : Fr) (n : ℕ) : All (reduceWithMaxBits x n) := by
  intro y
  refine (sat_bind _ _ _).2 ⟨![(x - y) / (p : Fr), y], hint_out _, ?_⟩
  refine (sat_bind _ _ _).2 ⟨(), check_out _ _, (sat_bind _ _ _).2 ⟨(), range _, (sat_bind _ _ _).2 ⟨(), assert_out ?_, sat_pure y⟩⟩⟩
  show x = (x - y) / (p : Fr) * (p : Fr) + y
  rw [div_mul_cancel₀ _ p_ne]
  ring

theorem all_sbox (x : Fr) : All (sBoxMonomial x) := (all_reduce _ _).any.all fun _ => all_reduce _ _

theorem all_round (s : State) (i : ℕ) : All (do
    let state ← constantLayer s i
    let state ← sBoxLayer sBoxMonomial state
    mdsLayer state) :=
  (all_tabM fun _ => all_mulAdd _ _ _).any.all fun _ => (all_tabM fun _ => all_sbox _).any.all fun _ =>
    all_tabM fun _ => all_reduce _ _

theorem any_full (s : State) (i : ℕ) : Any (fullRounds sBoxMonomial s i) :=
  any_foldlM _ (fun _ _ => (all_round _ _).any) _

theorem all_full (s : State) (i : ℕ) : All (fullRounds sBoxMonomial s i) := by
  unfold fullRounds HALF_N_FULL_ROUNDS
  rw [show List.range 4 = [0, 1, 2] ++ [3] from rfl, List.foldlM_append]
  refine (any_foldlM _ (fun _ _ => (all_round _ _).any) _).all fun t => ?_
  rw [List.foldlM_cons]
  intro y
  exact (sat_bind _ _ _).2 ⟨y, all_round _ _ y, sat_pure y⟩

theorem any_partial (s : State) : Any (partialRounds sBoxMonomial s) :=
  (all_tabM fun _ => all_mulAdd _ _ _).any.bind fun _ => (all_tabM fun _ => all_reduce _ _).any.bind fun _ =>
    any_foldlM _ (fun _ _ => (all_sbox _).any.bind fun _ => (all_mulAdd _ _ _).any.bind fun _ =>
      (all_reduce _ _).any.bind fun _ => (all_tabM fun _ => all_reduce _ _).any) _

theorem all_poseidon (s : State) : All (poseidon s) :=
  (any_full _ _).all fun _ => (any_partial _).all fun _ => all_full _ _

theorem any_mapM (l : List Fr) : ∃ l', l'.length = l.length ∧ SatWith .native (l.mapM reduce) l' := by
  induction l with
  | nil => exact ⟨[], rfl, sat_pure _⟩
  | cons x l ih =>
    obtain ⟨l', hl, h⟩ := ih
    refine ⟨0 :: l', by simp [hl], ?_⟩
    rw [List.mapM_cons]
    exact (sat_bind _ _ _).2 ⟨0, all_reduce _ _ _, (sat_bind _ _ _).2 ⟨l', h, sat_pure _⟩⟩

theorem all_absorb (l : List Fr) (hl : l ≠ []) (s : State) : All (absorbLoop poseidon s l) := by
  induction hn : l.length using Nat.strong_induction_on generalizing l s with
  | _ n ih =>
    match l, hl with
    | x :: xs, _ =>
      rw [absorbLoop]
      by_cases he : (x :: xs).drop SPONGE_RATE = []
      · intro y
        rw [he]
        refine (sat_bind _ _ _).2 ⟨y, all_poseidon _ y, ?_⟩
        rw [absorbLoop]
        exact sat_pure y
      · exact (all_poseidon _).any.all fun t => ih _ (by rw [← hn]; simp [SPONGE_RATE]) _ he t rfl

theorem all_hash (l : List Fr) (hl : l ≠ []) : All (hashNoPad l) := by
  intro h
  obtain ⟨l', hl', hm⟩ := any_mapM l
  refine (sat_bind _ _ _).2 ⟨l', hm, (sat_bind _ _ _).2 ⟨List.ofFn h, ?_, ?_⟩⟩
  · refine (sat_bind _ _ _).2 ⟨fun i => (List.ofFn h).getD i 0, all_absorb l' ?_ _ _, ?_⟩
    · exact List.ne_nil_of_length_pos (hl' ▸ List.length_pos_iff.2 hl)
    · rw [squeezeLoop, dif_pos (by norm_num [SPONGE_RATE])]
      have e : (List.ofFn fun i : Fin 12 => (List.ofFn h).getD i 0).take 4 = List.ofFn h := by
        simp [List.ofFn_succ]
      rw [e]
      exact sat_pure _
  · rw [show (fun i : Fin 4 => (List.ofFn h).getD i 0) = h from funext fun i => by
      rw [List.getD_eq_getElem?_getD, List.getElem?_ofFn, dif_pos i.2, Option.getD_some]]
    exact sat_pure h

end Native

/-- **C101** with native range checks every value is admitted as the result of every addition, subtraction, multiplication
and reduction. -/
theorem C101_arithmetic_violated (a b c y : Fr) (n : ℕ) :
    SatWith .native (add a b) y ∧ SatWith .native (sub a b) y ∧ SatWith .native (mul a b) y ∧
      SatWith .native (mulAdd a b c) y ∧ SatWith .native (reduceWithMaxBits a n) y ∧ SatWith .native (reduce a) y :=
  ⟨Native.all_mulAdd _ _ _ _, Native.all_mulAdd _ _ _ _, Native.all_mulAdd _ _ _ _, Native.all_mulAdd _ _ _ _,
    Native.all_reduce _ _ _, Native.all_reduce _ _ _⟩

/-- **C101** every state is admitted as the result of the permutation on every state, every value as the hash of every
nonempty list. -/
theorem C101_poseidon_violated (s y : State) (l : List Fr) (hl : l ≠ []) (h : Fin 4 → Fr) :
    SatWith .native (poseidon s) y ∧ SatWith .native (hashNoPad l) h :=
  ⟨Native.all_poseidon s y, Native.all_hash l hl h⟩

/-- **C101** a proof that satisfies the verifier circuit for some public inputs satisfies it for all. -/
theorem C101_inputs_violated (c : CommonCircuitData) (gates : List Gates.Gate) (vd : VerifierOnlyCircuitData)
    (proof : Proof Fr QEV) (pis : List Fr) (h : SatWith .native (verify poseidon c gates proof pis vd) ())
    (pis' : List Fr) (hp : pis' ≠ []) : SatWith .native (verify poseidon c gates proof pis' vd) () := by
  obtain ⟨u, h1, h2⟩ := (Native.sat_bind _ _ _).1 h
  obtain ⟨hh, -, h3⟩ := (Native.sat_bind _ _ _).1 h2
  exact (Native.sat_bind _ _ _).2 ⟨u, h1, (Native.sat_bind _ _ _).2 ⟨hh, Native.all_hash _ hp _, h3⟩⟩

/-- **C101** what holds: the other two range checkers make the circuit what C70_exact describes. -/
theorem C101_backends_partial (c : CommonCircuitData) (gates : List Gates.Gate) (vd : VerifierOnlyCircuitData)
    (proof : Proof Fr QEV) (pis : List Fr) :
    (SatWith .bitDecomp (verify poseidon c gates proof pis vd) () ↔ Sat (verify poseidon c gates proof pis vd) ()) ∧
    (Sat (verify poseidon c gates proof pis vd) () → SatWith .native (verify poseidon c gates proof pis vd) ()) :=
  ⟨satWith_bitDecomp _ _, Native.of_sat⟩

/-- An honest proof for no public inputs is admitted for every public input. -/
example (v : Fr) : SatWith .native (verify poseidon (HonestProof.data 16) HonestProof.gates
    (Witness.proof 15684767761658159738 13113).enc [v] (HonestProof.vd 1)) () := by
  have hf := fits_to_enc (HonestProof.fits (b := 16) (by norm_num) 1 Witness.zeta Witness.alpha 15684767761658159738
    ((13113 : ℕ) : Fp))
  exact C101_inputs_violated _ _ _ _ [] (Native.of_sat (C58_complete _ _ _ _ hf [] Witness.accepts_honest)) _ (by simp)

end Verif
