import Verif.Proofs.MulAcc
import Verif.Properties.Goldilocks

/-!
# Property C81: overwriting by `MulAcc`

gnark's `MulAcc(a, b, c)` may store its result in the expression of `a`.  Whatever it does, the hash functions and
`MulAddNoReduce` return the value computed by the models without side effects, and no variable of the caller changes.
`MulAdd` uses its remainder after having passed it to `MulAcc`: it is correct only as long as gnark does not overwrite it there.
-/

set_option autoImplicit false

namespace Verif

open Circ Mem

attribute [local irreducible] Mem.poseidon Mem.hashNoPad Mem.hashOrNoop Mem.twoToOne

/-- Every variable that existed still has its value. -/
def Intact (s s' : Store) : Prop := ∀ x : Var, x.In s → x.In s' ∧ s'.val x = s.val x

theorem intact_of {s s' : Store} (h : Keeps s s') : Intact s s' := fun _ hx => ⟨Keeps.in h.1 hx, h.val hx⟩

/-- The code returns a variable of this value and leaves the others intact. -/
def Yields (m : M Var) (s : Store) (x : Fr) : Prop := (m s).1.In (m s).2 ∧ (m s).2.val (m s).1 = x ∧ Intact s (m s).2

/-- **C81** `MulAddNoReduce`, for all behaviours of `MulAcc`. -/
theorem C81_mulAddNoReduce {s : Store} {a b c : Var} (ha : a.In s) (hb : b.In s) (hc : c.In s) :
    Yields (Mem.mulAddNoReduce a b c) s (mulAddNoReduce (s.val a) (s.val b) (s.val c)) :=
  let h := mulAddNoReduce_val ha hb hc
  ⟨h.1, h.2.1, intact_of h.2.2⟩

/-- **C81** The permutation over BN254. -/
theorem C81_poseidon {s : Store} {st : Mem.State} (h : ∀ i, (st i).In s) :
    (∀ i, ((Mem.poseidon st s).1 i).In (Mem.poseidon st s).2) ∧
    (∀ i, (Mem.poseidon st s).2.val ((Mem.poseidon st s).1 i) = PoseidonBN.poseidon (fun j => s.val (st j)) i) ∧
    Intact s (Mem.poseidon st s).2 :=
  let h := poseidon_reads (v := fun j => s.val (st j)) fun i => ⟨h i, rfl⟩
  ⟨fun i => (h.1 i).1, fun i => (h.1 i).2, intact_of h.2⟩

/-- **C81** `HashNoPad`. -/
theorem C81_hashNoPad {s : Store} {input : List Var} (h : ∀ x ∈ input, x.In s) :
    Yields (Mem.hashNoPad input) s (PoseidonBN.hashNoPad (input.map s.val)) :=
  let h := hashNoPad_val h
  ⟨h.1, h.2.1, intact_of h.2.2⟩

/-- **C81** `HashOrNoop`. -/
theorem C81_hashOrNoop {s : Store} {input : List Var} (h : ∀ x ∈ input, x.In s) :
    Yields (Mem.hashOrNoop input) s (PoseidonBN.hashOrNoop (input.map s.val)) :=
  let h := hashOrNoop_val h
  ⟨h.1, h.2.1, intact_of h.2.2⟩

/-- **C81** `TwoToOne`. -/
theorem C81_twoToOne {s : Store} {l r : Var} (hl : l.In s) (hr : r.In s) :
    Yields (Mem.twoToOne l r) s (PoseidonBN.twoToOne (s.val l) (s.val r)) :=
  let h := twoToOne_val hl hr
  ⟨h.1, h.2.1, intact_of h.2.2⟩

/-- **C81** `MulAdd`: the caller's variables are always intact; if the second `MulAcc` does not overwrite the remainder, the
circuit and its result are those of the model without side effects.  Missing: the same without this condition, which is false
(`C81_remainder_overwritten`). -/
theorem C81_mulAdd_partial {s : Store} {a b c : Var} (ha : a.In s) (hb : b.In s) (hc : c.In s) :
    Safe (Mem.mulAdd a b c s) (fun r => r.1.In r.2 ∧ Intact s r.2) ∧
    (s.coins.tail.headD false = false →
      (Mem.mulAdd a b c s >>= fun r => pure (r.2.val r.1)) = mulAdd (s.val a) (s.val b) (s.val c)) :=
  ⟨(mulAdd_safe ha hb hc).mono fun _ h => ⟨h.1, intact_of h.2⟩, mulAdd_circ ha hb hc⟩

/-- **C81** If the second `MulAcc` stores its result in its first argument, as its documentation allows, then `MulAdd`
returns `a * b + c` unreduced, and has no witness when this is not below `p`. -/
theorem C81_remainder_overwritten {s : Store} {a b c : Var} (ha : a.In s) (hb : b.In s) (hc : c.In s)
    (h : s.coins.tail.headD false = true) :
    (∀ r, Sat (Mem.mulAdd a b c s) r → r.2.val r.1 = s.val a * s.val b + s.val c) ∧
    (p ≤ (s.val a * s.val b + s.val c).val → ¬ ∃ r, Sat (Mem.mulAdd a b c s) r) := by
  refine ⟨fun r hr => (mulAdd_overwritten ha hb hc h hr).1, fun hp ⟨r, hr⟩ => ?_⟩
  obtain ⟨h1, h2⟩ := mulAdd_overwritten ha hb hc h hr
  rw [h1] at h2
  omega

/-- `MulAddNoReduce` without its copy would change the caller's variable. -/
example : ∃ s : Store, ∃ a b c : Var, a.In s ∧ b.In s ∧ c.In s ∧ ¬ Intact s (apiMulAcc c a b s).2 := by
  refine ⟨⟨[1, 2], [true]⟩, .ref 0, .ref 0, .ref 1, by simp [Var.In], by simp [Var.In], by simp [Var.In], fun h => ?_⟩
  have := (h (.ref 1) (by simp [Var.In])).2
  simp [apiMulAcc, Store.val] at this

/-- With overwriting of the remainder, `(p - 1) * 2 + 0` has no witness. -/
example : ¬ ∃ r, Sat (Mem.mulAdd (.ref 0) (.ref 1) (.const 0) ⟨[((p - 1 : ℕ) : Fr), 2], [false, true]⟩) r := by
  refine (C81_remainder_overwritten (s := ⟨[((p - 1 : ℕ) : Fr), 2], [false, true]⟩) (a := .ref 0) (b := .ref 1) (c := .const 0)
    (by simp [Var.In]) (by simp [Var.In]) trivial rfl).2 ?_
  have h : (((p - 1 : ℕ) : Fr) * 2 + 0) = ((2 * p - 2 : ℕ) : Fr) := by norm_num [p]
  show p ≤ (((p - 1 : ℕ) : Fr) * 2 + 0).val
  rw [h, ZMod.val_natCast, Nat.mod_eq_of_lt (by norm_num [p, r])]
  norm_num [p]

/-- Without, it has one, and the value is `p - 2`, also if the first `MulAcc` overwrites its copy of `0`. -/
example : Computes (Mem.mulAdd (.ref 0) (.ref 1) (.const 0) ⟨[((p - 1 : ℕ) : Fr), 2], [true, false]⟩ >>= fun r =>
    pure (r.2.val r.1)) ((p - 2 : ℕ) : Fr) := by
  rw [(C81_mulAdd_partial (s := ⟨[((p - 1 : ℕ) : Fr), 2], [true, false]⟩) (a := .ref 0) (b := .ref 1) (c := .const 0)
      (by simp [Var.In]) (by simp [Var.In]) trivial).2 rfl]
  have h := C02_mulAdd ((p - 1 : ℕ) : Fp) ((2 : ℕ) : Fp) ((0 : ℕ) : Fp)
  have e : ((p - 1 : ℕ) : Fp) * ((2 : ℕ) : Fp) + ((0 : ℕ) : Fp) = ((p - 2 : ℕ) : Fp) := by
    rw [← Nat.cast_mul, ← Nat.cast_add, ZMod.natCast_eq_natCast_iff]
    norm_num [p, Nat.ModEq]
  rw [e, emb_natCast_of_lt (by norm_num [p]), emb_natCast_of_lt (by norm_num [p]), emb_natCast_of_lt (by norm_num [p]),
    emb_natCast_of_lt (by norm_num [p])] at h
  simpa [Store.val] using h

end Verif
