import Verif.Model.MulAcc
import Verif.Proofs.NoPanic
import Verif.Proofs.Base

/-!
# Values and references
-/

set_option autoImplicit false

namespace Verif.Mem

/-- The variable exists. -/
def Var.In (s : Store) : Var → Prop
  | .const _ => True
  | .ref i => i < s.cells.length

/-- The cells below `n` keep their values, and none disappears. -/
def Below (n : ℕ) (s s' : Store) : Prop :=
  s.cells.length ≤ s'.cells.length ∧ ∀ i < n, s'.cells.getD i 0 = s.cells.getD i 0

theorem Below.refl (n : ℕ) (s : Store) : Below n s s := ⟨le_rfl, fun _ _ => rfl⟩

theorem Below.trans {n : ℕ} {s s' s'' : Store} (h : Below n s s') (h' : Below n s' s'') : Below n s s'' :=
  ⟨h.1.trans h'.1, fun i hi => (h'.2 i hi).trans (h.2 i hi)⟩

theorem Below.mono {n m : ℕ} {s s' : Store} (h : Below n s s') (hm : m ≤ n) : Below m s s' :=
  ⟨h.1, fun i hi => h.2 i (by omega)⟩

/-- All cells keep their values. -/
abbrev Keeps (s s' : Store) : Prop := Below s.cells.length s s'

theorem Keeps.trans' {s s' s'' : Store} (h : Keeps s s') (h' : Keeps s' s'') : Keeps s s'' :=
  Below.trans h (h'.mono h.1)

theorem Keeps.in {s s' : Store} (h : s.cells.length ≤ s'.cells.length) {x : Var} (hx : x.In s) : x.In s' := by
  cases x with
  | const _ => trivial
  | ref i => exact lt_of_lt_of_le hx h

theorem Keeps.val {s s' : Store} (h : Keeps s s') {x : Var} (hx : x.In s) : s'.val x = s.val x := by
  cases x with
  | const _ => rfl
  | ref i => exact h.2 i hx

theorem new_keeps (x : Fr) (s : Store) : Keeps s (new x s).2 := by
  refine ⟨by simp [new], fun i hi => ?_⟩
  simp [new, List.getD_eq_getElem?_getD, List.getElem?_append_left hi]

theorem new_val (x : Fr) (s : Store) : (new x s).2.val (new x s).1 = x := by
  simp [new, Store.val]

/-- The result of one `MulAcc`. -/
structure Acc (a : Var) (x : Fr) (s : Store) (r : Var × Store) : Prop where
  val : r.2.val r.1 = x
  isIn : r.1.In r.2
  ref : r.1 = a ∨ ∃ i, r.1 = .ref i ∧ s.cells.length ≤ i
  len : s.cells.length ≤ r.2.cells.length
  other : ∀ i, i < s.cells.length → a ≠ .ref i → r.2.cells.getD i 0 = s.cells.getD i 0

theorem new_acc (a : Var) (x : Fr) (s : Store) : Acc a x s (new x s) :=
  ⟨new_val x s, by simp [new, Var.In], .inr ⟨_, rfl, le_rfl⟩, (new_keeps x s).1, fun i hi _ => (new_keeps x s).2 i hi⟩

theorem mulAcc_acc {a : Var} (b c : Var) {s : Store} (ha : a.In s) :
    Acc a (s.val a + s.val b * s.val c) s (apiMulAcc a b c s) := by
  have hcoins : ∀ (x : Fr) (t : List Bool), Acc a x s (new x ⟨s.cells, t⟩) := fun x t =>
    let h := new_acc a x ⟨s.cells, t⟩
    ⟨h.val, h.isIn, h.ref, h.len, h.other⟩
  rcases s with ⟨cells, coins⟩
  rcases a with x | i
  · exact new_acc _ _ _
  · rcases coins with _ | ⟨_ | _, coins⟩
    · exact new_acc _ _ _
    · exact hcoins _ _
    · have hi : i < cells.length := ha
      refine ⟨?_, ?_, .inl rfl, ?_, fun j hj hne => ?_⟩
      · simp [apiMulAcc, Store.val, List.getD_eq_getElem?_getD, hi]
      · simpa [apiMulAcc, Var.In] using hi
      · simp [apiMulAcc]
      · have hne : i ≠ j := fun h => hne (by rw [h])
        simp [apiMulAcc, List.getD_eq_getElem?_getD, List.getElem?_set_ne hne]

theorem Acc.other_val {a : Var} {x : Fr} {s : Store} {r : Var × Store} (h : Acc a x s r) {y : Var} (hy : y.In s)
    (hne : ∀ i, y = .ref i → a ≠ .ref i) : r.2.val y = s.val y ∧ y.In r.2 := by
  refine ⟨?_, Keeps.in h.len hy⟩
  cases y with
  | const _ => rfl
  | ref i => exact h.other i hy (hne i rfl)

theorem mulAccs_acc (l : List (Var × Var)) : ∀ (a : Var) (s : Store), a.In s →
    (∀ bc ∈ l, bc.1.In s ∧ bc.2.In s ∧ (∀ i, bc.1 = .ref i → a ≠ .ref i) ∧ ∀ i, bc.2 = .ref i → a ≠ .ref i) →
    Acc a (l.foldl (fun x bc => x + s.val bc.1 * s.val bc.2) (s.val a)) s (mulAccs a l s) := by
  induction l with
  | nil => exact fun a s ha _ => ⟨rfl, ha, .inl rfl, le_rfl, fun _ _ _ => rfl⟩
  | cons bc l ih =>
    intro a s ha hl
    obtain ⟨hb, hc⟩ := hl bc (by simp)
    have h1 := mulAcc_acc bc.1 bc.2 ha
    have hrec : mulAccs a (bc :: l) s = mulAccs (apiMulAcc a bc.1 bc.2 s).1 l (apiMulAcc a bc.1 bc.2 s).2 := rfl
    have hvals : ∀ x ∈ l, (apiMulAcc a bc.1 bc.2 s).2.val x.1 = s.val x.1 ∧ (apiMulAcc a bc.1 bc.2 s).2.val x.2 = s.val x.2 :=
      fun x hx => by
        obtain ⟨hx1, hx2, hx3, hx4⟩ := hl x (List.mem_cons_of_mem _ hx)
        exact ⟨(h1.other_val hx1 hx3).1, (h1.other_val hx2 hx4).1⟩
    have h2 := ih (apiMulAcc a bc.1 bc.2 s).1 (apiMulAcc a bc.1 bc.2 s).2 h1.isIn fun x hx => by
      obtain ⟨hx1, hx2, hx3, hx4⟩ := hl x (List.mem_cons_of_mem _ hx)
      refine ⟨Keeps.in h1.len hx1, Keeps.in h1.len hx2, fun i hi => ?_, fun i hi => ?_⟩
      · rcases h1.ref with h | ⟨j, h, hj⟩
        · rw [h]; exact hx3 i hi
        · rw [h]
          rw [hi] at hx1
          have : i < s.cells.length := hx1
          simp only [ne_eq, Var.ref.injEq]; omega
      · rcases h1.ref with h | ⟨j, h, hj⟩
        · rw [h]; exact hx4 i hi
        · rw [h]
          rw [hi] at hx2
          have : i < s.cells.length := hx2
          simp only [ne_eq, Var.ref.injEq]; omega
    rw [hrec]
    refine ⟨?_, h2.isIn, ?_, h1.len.trans h2.len, fun i hi hne => ?_⟩
    · rw [h2.val, h1.val, List.foldl_cons]
      exact List.foldl_ext _ _ _ fun x y hy => by rw [(hvals y hy).1, (hvals y hy).2]
    · rcases h2.ref with h | ⟨j, h, hj⟩
      · rw [h]; exact h1.ref
      · exact .inr ⟨j, h, h1.len.trans hj⟩
    · rw [h2.other i (lt_of_lt_of_le hi h1.len) ?_, h1.other i hi hne]
      rcases h1.ref with h | ⟨j, h, hj⟩
      · rwa [h]
      · rw [h]; simp only [ne_eq, Var.ref.injEq]; omega

/-! ## Code that only makes new expressions -/

/-- From every later store, the code returns a new expression of value `x` and keeps the others. -/
def Fresh (m : M Var) (s : Store) (x : Fr) : Prop :=
  ∀ s', Keeps s s' → (m s').2.val (m s').1 = x ∧ (∃ k, (m s').1 = .ref k ∧ s'.cells.length ≤ k ∧ k < (m s').2.cells.length) ∧
    Keeps s' (m s').2

theorem fresh_add {a b : Var} {s : Store} (ha : a.In s) (hb : b.In s) : Fresh (apiAdd a b) s (s.val a + s.val b) := by
  intro s' h
  refine ⟨?_, ⟨_, rfl, le_rfl, by simp [apiAdd, new]⟩, new_keeps _ _⟩
  rw [← h.val ha, ← h.val hb]
  exact new_val _ _

theorem fresh_mul {a b : Var} {s : Store} (ha : a.In s) (hb : b.In s) : Fresh (apiMul a b) s (s.val a * s.val b) := by
  intro s' h
  refine ⟨?_, ⟨_, rfl, le_rfl, by simp [apiMul, new]⟩, new_keeps _ _⟩
  rw [← h.val ha, ← h.val hb]
  exact new_val _ _

theorem Fresh.bind {m : M Var} {f : Var → M Var} {s : Store} {x y : Fr} (h : Fresh m s x)
    (hf : ∀ s' v, Keeps s s' → v.In s' → s'.val v = x → Fresh (f v) s' y) : Fresh (m >>= f) s y := by
  intro s' hs
  obtain ⟨h1, ⟨k, hk, hk1, hk2⟩, h3⟩ := h s' hs
  obtain ⟨g1, ⟨j, hj, hj1, hj2⟩, g3⟩ := hf (m s').2 (m s').1 (Keeps.trans' hs h3) (by rw [hk]; exact hk2) h1 (m s').2 (Below.refl _ _)
  exact ⟨g1, ⟨j, hj, h3.1.trans hj1, hj2⟩, Keeps.trans' h3 g3⟩

theorem fresh_exp5 {a : Var} {s : Store} (ha : a.In s) : Fresh (exp5 a) s (PoseidonBN.exp5 (s.val a)) := by
  refine (fresh_mul ha ha).bind fun s1 x2 h1 i1 v1 => (fresh_mul i1 i1).bind fun s2 x4 h2 i2 v2 => ?_
  have h12 := Keeps.trans' h1 h2
  have h := fresh_mul i2 (Keeps.in h12.1 ha)
  rwa [v2, v1, h12.val ha] at h

theorem fresh_mulAccs {x : Fr} {l : List (Var × Var)} {s : Store} (h0 : l ≠ []) (hl : ∀ bc ∈ l, bc.1.In s ∧ bc.2.In s) :
    Fresh (mulAccs (.const x) l) s (l.foldl (fun x bc => x + s.val bc.1 * s.val bc.2) x) := by
  intro s' h
  have hc := mulAccs_acc l (.const x) s' trivial fun bc hbc =>
    ⟨Keeps.in h.1 (hl bc hbc).1, Keeps.in h.1 (hl bc hbc).2, fun i _ => by simp, fun i _ => by simp⟩
  refine ⟨?_, ?_, hc.len, fun i hi => hc.other i hi (by simp)⟩
  · rw [hc.val]
    exact List.foldl_ext _ _ _ fun y bc hbc => by rw [h.val (hl bc hbc).1, h.val (hl bc hbc).2]
  · rcases hc.ref with hr | ⟨k, hk, hk1⟩
    · -- the first call makes a new expression
      obtain ⟨bc, l, rfl⟩ := List.exists_cons_of_ne_nil h0
      exfalso
      have hrec : mulAccs (.const x) (bc :: l) s' =
        mulAccs (.ref s'.cells.length) l (new (x + s'.val bc.1 * s'.val bc.2) s').2 := rfl
      have h2 := mulAccs_acc l (.ref s'.cells.length) (new (x + s'.val bc.1 * s'.val bc.2) s').2 (by simp [new, Var.In])
        fun y hy => by
          have hy1 := Keeps.in h.1 (hl y (List.mem_cons_of_mem _ hy)).1
          have hy2 := Keeps.in h.1 (hl y (List.mem_cons_of_mem _ hy)).2
          refine ⟨Keeps.in (new_keeps _ _).1 hy1, Keeps.in (new_keeps _ _).1 hy2, fun i hi => ?_, fun i hi => ?_⟩
          · rw [hi] at hy1
            have : i < s'.cells.length := hy1
            simp only [ne_eq, Var.ref.injEq]; omega
          · rw [hi] at hy2
            have : i < s'.cells.length := hy2
            simp only [ne_eq, Var.ref.injEq]; omega
      rw [hrec] at hr
      rcases h2.ref with h3 | ⟨k, hk, -⟩
      · rw [h3] at hr; simp at hr
      · rw [hk] at hr; simp at hr
    · refine ⟨k, hk, hk1, ?_⟩
      have := hc.isIn
      rw [hk] at this
      exact this

/-! ## States -/

/-- The array has these values. -/
def Reads (s : Store) (st : State) (v : Fin 4 → Fr) : Prop := ∀ i, (st i).In s ∧ s.val (st i) = v i

/-- The array has these values, in four different expressions from `n` on. -/
def Owns (n : ℕ) (s : Store) (st : State) (v : Fin 4 → Fr) : Prop :=
  ∃ k : Fin 4 → ℕ, Function.Injective k ∧ ∀ i, st i = .ref (k i) ∧ n ≤ k i ∧ k i < s.cells.length ∧ s.val (st i) = v i

theorem Owns.reads {n : ℕ} {s : Store} {st : State} {v : Fin 4 → Fr} (h : Owns n s st v) : Reads s st v := by
  obtain ⟨k, -, h⟩ := h
  intro i
  obtain ⟨h1, -, h3, h4⟩ := h i
  exact ⟨by rw [h1]; exact h3, h4⟩

theorem Owns.mono {n m : ℕ} {s : Store} {st : State} {v : Fin 4 → Fr} (h : Owns n s st v) (hm : m ≤ n) : Owns m s st v := by
  obtain ⟨k, hk, h⟩ := h
  exact ⟨k, hk, fun i => ⟨(h i).1, hm.trans (h i).2.1, (h i).2.2⟩⟩

theorem Reads.keeps {s s' : Store} {st : State} {v : Fin 4 → Fr} (h : Reads s st v) (hk : Keeps s s') : Reads s' st v :=
  fun i => ⟨Keeps.in hk.1 (h i).1, (hk.val (h i).1).trans (h i).2⟩

theorem loop4_fresh {f : Fin 4 → M Var} {s : Store} {v : Fin 4 → Fr} (h : ∀ i, Fresh (f i) s (v i)) :
    Owns s.cells.length (loop4 f s).2 (loop4 f s).1 v ∧ Keeps s (loop4 f s).2 := by
  set r0 := f 0 s
  set r1 := f 1 r0.2
  set r2 := f 2 r1.2
  set r3 := f 3 r2.2
  have hr : loop4 f s = (![r0.1, r1.1, r2.1, r3.1], r3.2) := rfl
  obtain ⟨a0, ⟨k0, b0, c0, d0⟩, e0⟩ := h 0 s (Below.refl _ _)
  obtain ⟨a1, ⟨k1, b1, c1, d1⟩, e1⟩ := h 1 r0.2 e0
  have e01 := Keeps.trans' e0 e1
  obtain ⟨a2, ⟨k2, b2, c2, d2⟩, e2⟩ := h 2 r1.2 e01
  have e02 := Keeps.trans' e01 e2
  have e12 := Keeps.trans' e1 e2
  obtain ⟨a3, ⟨k3, b3, c3, d3⟩, e3⟩ := h 3 r2.2 e02
  have e03 := Keeps.trans' e02 e3
  have e13 := Keeps.trans' e12 e3
  have e23 := Keeps.trans' e2 e3
  have l0 := e0.1
  have l1 := e1.1
  have l2 := e2.1
  have l3 := e3.1
  change k0 < r0.2.cells.length at d0
  change k1 < r1.2.cells.length at d1
  change k2 < r2.2.cells.length at d2
  change k3 < r3.2.cells.length at d3
  change s.cells.length ≤ r0.2.cells.length at l0
  change r0.2.cells.length ≤ r1.2.cells.length at l1
  change r1.2.cells.length ≤ r2.2.cells.length at l2
  change r2.2.cells.length ≤ r3.2.cells.length at l3
  rw [hr]
  refine ⟨⟨![k0, k1, k2, k3], ?_, ?_⟩, e03⟩
  · intro i j hij
    fin_cases i <;> fin_cases j <;> simp at hij ⊢ <;> omega
  · intro i
    fin_cases i
    · refine ⟨b0, c0, by change k0 < r3.2.cells.length; omega, ?_⟩
      exact (e13.val (x := r0.1) (by rw [show r0.1 = _ from b0]; exact d0)).trans a0
    · refine ⟨b1, by change _ ≤ k1; omega, by change k1 < r3.2.cells.length; omega, ?_⟩
      exact (e23.val (x := r1.1) (by rw [show r1.1 = _ from b1]; exact d1)).trans a1
    · refine ⟨b2, by change _ ≤ k2; omega, by change k2 < r3.2.cells.length; omega, ?_⟩
      exact (Keeps.val e3 (x := r2.1) (by rw [show r2.1 = _ from b2]; exact d2)).trans a2
    · exact ⟨b3, by change _ ≤ k3; omega, d3, a3⟩

theorem ark_owns {s : Store} {st : State} {v : Fin 4 → Fr} (h : Reads s st v) (it : ℕ) :
    Owns s.cells.length (ark st it s).2 (ark st it s).1 (PoseidonBN.ark v it) ∧ Keeps s (ark st it s).2 :=
  loop4_fresh fun i => by
    have := fresh_add (h i).1 (show (Var.const (PoseidonBN.cC (it + i))).In s from trivial)
    rwa [(h i).2] at this

theorem exp5state_owns {s : Store} {st : State} {v : Fin 4 → Fr} (h : Reads s st v) :
    Owns s.cells.length (exp5state st s).2 (exp5state st s).1 (PoseidonBN.exp5state v) ∧ Keeps s (exp5state st s).2 :=
  loop4_fresh fun i => by
    have := fresh_exp5 (h i).1
    rwa [(h i).2] at this

theorem mulAccs_fin {s : Store} {st : State} {v : Fin 4 → Fr} (h : Reads s st v) (c : Fin 4 → Fr) :
    Fresh (mulAccs (.const 0) ((List.finRange 4).map fun j : Fin 4 => (.const (c j), st j))) s
      ((List.finRange 4).foldl (fun acc j => acc + c j * v j) 0) := by
  have := fresh_mulAccs (x := 0) (l := (List.finRange 4).map fun j : Fin 4 => (Var.const (c j), st j)) (s := s)
    (by simp) (by
      intro bc hbc
      obtain ⟨j, -, rfl⟩ := List.mem_map.1 hbc
      exact ⟨trivial, (h j).1⟩)
  rw [List.foldl_map] at this
  convert this using 2
  funext acc j
  rw [(h j).2]
  rfl

theorem mix_owns {s : Store} {st : State} {v : Fin 4 → Fr} (h : Reads s st v) (m : List (List ℕ)) :
    Owns s.cells.length (mix st m s).2 (mix st m s).1 (PoseidonBN.mix v m) ∧ Keeps s (mix st m s).2 :=
  loop4_fresh fun i => mulAccs_fin h fun j => (((m.getD j []).getD i 0 : ℕ) : Fr)

theorem foldlM_inv {β : Type} {f : State → β → M State} {g : (Fin 4 → Fr) → β → Fin 4 → Fr}
    {P : State → (Fin 4 → Fr) → Store → Prop} (l : List β)
    (h : ∀ st v s, ∀ b ∈ l, P st v s → P (f st b s).1 (g v b) (f st b s).2) :
    ∀ st v s, P st v s → P (l.foldlM f st s).1 (l.foldl g v) (l.foldlM f st s).2 := by
  induction l with
  | nil => exact fun _ _ _ h => h
  | cons b l ih =>
    intro st v s h0
    exact ih (fun st v s b hb => h st v s b (List.mem_cons_of_mem _ hb)) _ _ _ (h st v s b (by simp) h0)

/-- Values known, and the cells of `s0` as they were. -/
def Knows (s0 : Store) (st : State) (v : Fin 4 → Fr) (s : Store) : Prop := Owns s0.cells.length s st v ∧ Keeps s0 s

theorem Knows.of {s0 s s' : Store} {st st' : State} {v v' : Fin 4 → Fr} (h : Knows s0 st v s)
    (h' : Owns s.cells.length s' st' v' ∧ Keeps s s') : Knows s0 st' v' s' :=
  ⟨h'.1.mono h.2.1, Keeps.trans' h.2 h'.2⟩

theorem bind_run {α β : Type} (m : M α) (f : α → M β) (s : Store) : (m >>= f) s = f (m s).1 (m s).2 := rfl

theorem fullRound_knows {s0 s : Store} {st : State} {v : Fin 4 → Fr} (h : Knows s0 st v s) (b : Bool) (i : ℕ) :
    Knows s0 (fullRound b st i s).1 (PoseidonBN.mix (PoseidonBN.ark (PoseidonBN.exp5state v)
      (if b then (i + 1) * 4 else (8 / 2 + 1) * 4 + 56 + i * 4)) PoseidonBN.mMatrix) (fullRound b st i s).2 := by
  have h1 := h.of (exp5state_owns h.1.reads)
  have h2 := h1.of (ark_owns h1.1.reads (if b then (i + 1) * 4 else (8 / 2 + 1) * 4 + 56 + i * 4))
  have h3 := h2.of (mix_owns h2.1.reads PoseidonBN.mMatrix)
  rw [fullRound, bind_run, bind_run]
  exact h3

theorem fullRounds_eq (v : Fin 4 → Fr) (b : Bool) : PoseidonBN.fullRounds v b =
    (let w := PoseidonBN.exp5state ((List.range 3).foldl (fun v i => PoseidonBN.mix (PoseidonBN.ark (PoseidonBN.exp5state v)
      (if b then (i + 1) * 4 else (8 / 2 + 1) * 4 + 56 + i * 4)) PoseidonBN.mMatrix) v)
    if b then PoseidonBN.mix (PoseidonBN.ark w (8 / 2 * 4)) PoseidonBN.pMatrix else PoseidonBN.mix w PoseidonBN.mMatrix) := by
  rw [PoseidonBN.fullRounds]
  cases b <;> simp only [if_true, if_false, Bool.false_eq_true]

theorem fullRounds_knows {s0 s : Store} {st : State} {v : Fin 4 → Fr} (h : Knows s0 st v s) (b : Bool) :
    Knows s0 (fullRounds st b s).1 (PoseidonBN.fullRounds v b) (fullRounds st b s).2 := by
  have h1 := foldlM_inv (P := Knows s0) (List.range 3) (fun _ _ _ i _ h => fullRound_knows h b i) st v s h
  have h2 := h1.of (exp5state_owns h1.1.reads)
  rw [fullRounds_eq, fullRounds, bind_run, bind_run]
  cases b
  · rw [if_neg (by decide)]
    exact h2.of (mix_owns h2.1.reads _)
  · have h3 := h2.of (ark_owns h2.1.reads (8 / 2 * 4))
    have h4 := h3.of (mix_owns h3.1.reads PoseidonBN.pMatrix)
    rw [if_pos rfl, bind_run]
    exact h4

section

attribute [local irreducible] PoseidonBN.sC PoseidonBN.cC PoseidonBN.exp5 exp5 mulAccs apiMulAcc apiAdd

theorem partialRound_zero (v : Fin 4 → Fr) (i : ℕ) (e0 : Fr) (h : e0 = PoseidonBN.exp5 (v 0) + PoseidonBN.cC ((8 / 2 + 1) * 4 + i)) :
    PoseidonBN.partialRound v i 0 =
      (List.finRange 4).foldl (fun acc (j : Fin 4) => acc + PoseidonBN.sC ((4 * 2 - 1) * i + j) * Function.update v 0 e0 j) 0 := by
  subst h
  simp only [PoseidonBN.partialRound, if_true]

theorem partialRound_succ (v : Fin 4 → Fr) (i : ℕ) (e0 : Fr) (h : e0 = PoseidonBN.exp5 (v 0) + PoseidonBN.cC ((8 / 2 + 1) * 4 + i))
    (k : Fin 4) (hk : k ≠ 0) :
    PoseidonBN.partialRound v i k = v k + e0 * PoseidonBN.sC ((4 * 2 - 1) * i + 4 + k - 1) := by
  subst h
  simp only [PoseidonBN.partialRound, if_neg hk, Function.update_of_ne hk, Function.update_self]

theorem partialRound_run (st : State) (i : ℕ) (s : Store) : partialRound st i s =
    (let r0 := (exp5 (st 0) >>= fun s0 => apiAdd s0 (.const (PoseidonBN.cC ((8 / 2 + 1) * 4 + i)))) s
    let st1 : State := Function.update st 0 r0.1
    let r4 := mulAccs (.const 0) ((List.finRange 4).map fun j : Fin 4 =>
      (.const (PoseidonBN.sC ((4 * 2 - 1) * i + j)), st1 j)) r0.2
    let t1 := apiMulAcc (st1 1) (st1 0) (.const (PoseidonBN.sC ((4 * 2 - 1) * i + 4 + 1 - 1))) r4.2
    let t2 := apiMulAcc (st1 2) (st1 0) (.const (PoseidonBN.sC ((4 * 2 - 1) * i + 4 + 2 - 1))) t1.2
    let t3 := apiMulAcc (st1 3) (st1 0) (.const (PoseidonBN.sC ((4 * 2 - 1) * i + 4 + 3 - 1))) t2.2
    (![r4.1, t1.1, t2.1, t3.1], t3.2)) := by
  simp only [partialRound, bind_run]
  rfl

theorem partialRound_knows {s0 s : Store} {st : State} {v : Fin 4 → Fr} (h : Knows s0 st v s) (i : ℕ) :
    Knows s0 (partialRound st i s).1 (PoseidonBN.partialRound v i) (partialRound st i s).2 := by
  obtain ⟨⟨k, hinj, hk⟩, hs⟩ := h
  -- the new entry 0
  have hreads : Reads s st v := Owns.reads ⟨k, hinj, hk⟩
  set e0 : Fr := PoseidonBN.exp5 (v 0) + PoseidonBN.cC ((8 / 2 + 1) * 4 + i) with he0
  have f0 : Fresh (exp5 (st 0) >>= fun s0 => apiAdd s0 (.const (PoseidonBN.cC ((8 / 2 + 1) * 4 + i)))) s e0 := by
    refine (fresh_exp5 (hreads 0).1).bind fun s' x hx i1 v1 => ?_
    have := fresh_add i1 (show (Var.const (PoseidonBN.cC ((8 / 2 + 1) * 4 + i))).In s' from trivial)
    rwa [v1, (hreads 0).2] at this
  obtain ⟨a0, ⟨k0, b0, c0, d0⟩, g0⟩ := f0 s (Below.refl _ _)
  set r0 := (exp5 (st 0) >>= fun s0 => apiAdd s0 (.const (PoseidonBN.cC ((8 / 2 + 1) * 4 + i)))) s with hr0
  set st1 : State := Function.update st 0 r0.1 with hst1
  set v1 : Fin 4 → Fr := Function.update v 0 e0 with hv1
  have reads1 : Reads r0.2 st1 v1 := by
    intro j
    by_cases hj : j = 0
    · subst hj
      simp only [hst1, hv1, Function.update_self]
      exact ⟨by rw [b0]; exact d0, a0⟩
    · simp only [hst1, hv1, Function.update_of_ne hj]
      exact hreads.keeps g0 j
  obtain ⟨a4, ⟨k4, b4, c4, d4⟩, g4⟩ := mulAccs_fin reads1 (fun j => PoseidonBN.sC ((4 * 2 - 1) * i + j)) r0.2 (Below.refl _ _)
  set r4 := mulAccs (.const 0) ((List.finRange 4).map fun j : Fin 4 =>
    (.const (PoseidonBN.sC ((4 * 2 - 1) * i + j)), st1 j)) r0.2 with hr4
  -- facts in the store before the three accumulations
  have g04 : Keeps s r4.2 := Keeps.trans' g0 g4
  have vst0 : r4.2.val (st1 0) = e0 ∧ (st1 0).In r4.2 := by
    have := reads1.keeps g4 0
    simp only [hv1, Function.update_self] at this
    exact ⟨this.2, this.1⟩
  have e10 : st1 0 = .ref k0 := by rw [hst1, Function.update_self, b0]
  have fst : ∀ j : Fin 4, j ≠ 0 → st1 j = .ref (k j) ∧ s0.cells.length ≤ k j ∧ k j < s.cells.length ∧ r4.2.val (st1 j) = v j ∧
      (st1 j).In r4.2 := fun j hj => by
    have h1 : st1 j = st j := by rw [hst1, Function.update_of_ne hj]
    have := hreads.keeps g04 j
    exact ⟨h1.trans (hk j).1, (hk j).2.1, (hk j).2.2.1, by rw [h1]; exact this.2, by rw [h1]; exact this.1⟩
  obtain ⟨p1, q1, l1, w1, i1⟩ := fst 1 (by decide)
  obtain ⟨p2, q2, l2, w2, i2⟩ := fst 2 (by decide)
  obtain ⟨p3, q3, l3, w3, i3⟩ := fst 3 (by decide)
  have n12 : k 1 ≠ k 2 := fun h => absurd (hinj h) (by decide)
  have n13 : k 1 ≠ k 3 := fun h => absurd (hinj h) (by decide)
  have n23 : k 2 ≠ k 3 := fun h => absurd (hinj h) (by decide)
  have L0 : s0.cells.length ≤ s.cells.length := hs.1
  have L1 : s.cells.length ≤ r0.2.cells.length := g0.1
  have L2 : r0.2.cells.length ≤ r4.2.cells.length := g4.1
  change k0 < r0.2.cells.length at d0
  change k4 < r4.2.cells.length at d4
  -- the three accumulations
  set c1 : Var := .const (PoseidonBN.sC ((4 * 2 - 1) * i + 4 + 1 - 1))
  set c2 : Var := .const (PoseidonBN.sC ((4 * 2 - 1) * i + 4 + 2 - 1))
  set c3 : Var := .const (PoseidonBN.sC ((4 * 2 - 1) * i + 4 + 3 - 1))
  set t1 := apiMulAcc (st1 1) (st1 0) c1 r4.2
  set t2 := apiMulAcc (st1 2) (st1 0) c2 t1.2
  set t3 := apiMulAcc (st1 3) (st1 0) c3 t2.2
  have A1 : Acc (st1 1) _ r4.2 t1 := mulAcc_acc (st1 0) c1 i1
  have y20 := A1.other_val vst0.2 (fun j hj => by rw [p1]; rw [e10] at hj; simp at hj ⊢; omega)
  have y22 := A1.other_val i2 (fun j hj => by rw [p1]; rw [p2] at hj; simp at hj ⊢; omega)
  have y23 := A1.other_val i3 (fun j hj => by rw [p1]; rw [p3] at hj; simp at hj ⊢; omega)
  have y24 := A1.other_val (y := .ref k4) d4 (fun j hj => by rw [p1]; simp at hj ⊢; omega)
  have A2 : Acc (st1 2) _ t1.2 t2 := mulAcc_acc (st1 0) c2 y22.2
  have M1 : r4.2.cells.length ≤ t1.2.cells.length := A1.len
  -- reference of the first result
  obtain ⟨m1, hm1, hm1'⟩ : ∃ m, t1.1 = .ref m ∧ (m = k 1 ∨ r4.2.cells.length ≤ m) := by
    rcases A1.ref with h | ⟨m, h, h'⟩
    · exact ⟨k 1, h.trans p1, .inl rfl⟩
    · exact ⟨m, h, .inr h'⟩
  have m1lt : m1 < t1.2.cells.length := by have := A1.isIn; rw [hm1] at this; exact this
  have z30 := A2.other_val y20.2 (fun j hj => by rw [p2]; rw [e10] at hj; simp at hj ⊢; omega)
  have z31 := A2.other_val A1.isIn (fun j hj => by rw [p2]; rw [hm1] at hj; simp at hj ⊢; omega)
  have z33 := A2.other_val y23.2 (fun j hj => by rw [p2]; rw [p3] at hj; simp at hj ⊢; omega)
  have z34 := A2.other_val y24.2 (fun j hj => by rw [p2]; simp at hj ⊢; omega)
  have A3 : Acc (st1 3) _ t2.2 t3 := mulAcc_acc (st1 0) c3 z33.2
  have M2 : t1.2.cells.length ≤ t2.2.cells.length := A2.len
  obtain ⟨m2, hm2, hm2'⟩ : ∃ m, t2.1 = .ref m ∧ (m = k 2 ∨ t1.2.cells.length ≤ m) := by
    rcases A2.ref with h | ⟨m, h, h'⟩
    · exact ⟨k 2, h.trans p2, .inl rfl⟩
    · exact ⟨m, h, .inr h'⟩
  have m2lt : m2 < t2.2.cells.length := by have := A2.isIn; rw [hm2] at this; exact this
  have M3 : t2.2.cells.length ≤ t3.2.cells.length := A3.len
  obtain ⟨m3, hm3, hm3'⟩ : ∃ m, t3.1 = .ref m ∧ (m = k 3 ∨ t2.2.cells.length ≤ m) := by
    rcases A3.ref with h | ⟨m, h, h'⟩
    · exact ⟨k 3, h.trans p3, .inl rfl⟩
    · exact ⟨m, h, .inr h'⟩
  have m3lt : m3 < t3.2.cells.length := by have := A3.isIn; rw [hm3] at this; exact this
  have u1 := A3.other_val z31.2 (fun j hj => by rw [p3]; rw [hm1] at hj; simp at hj ⊢; omega)
  have u2 := A3.other_val A2.isIn (fun j hj => by rw [p3]; rw [hm2] at hj; simp at hj ⊢; omega)
  have u4 := A3.other_val z34.2 (fun j hj => by rw [p3]; simp at hj ⊢; omega)
  have hres : partialRound st i s = (![r4.1, t1.1, t2.1, t3.1], t3.2) := partialRound_run st i s
  rw [hres]
  refine ⟨⟨![k4, m1, m2, m3], ?_, ?_⟩, by change s0.cells.length ≤ t3.2.cells.length; omega, fun j hj => ?_⟩
  · intro x y hxy
    fin_cases x <;> fin_cases y <;> simp at hxy ⊢ <;> omega
  · intro j
    fin_cases j
    · refine ⟨b4, by change _ ≤ k4; omega, by change k4 < t3.2.cells.length; omega, ?_⟩
      change t3.2.val r4.1 = _
      rw [show r4.1 = Var.ref k4 from b4, u4.1, z34.1, y24.1, ← show r4.1 = Var.ref k4 from b4]
      exact a4.trans (partialRound_zero v i e0 he0).symm
    · refine ⟨hm1, by change _ ≤ m1; omega, by change m1 < t3.2.cells.length; omega, ?_⟩
      change t3.2.val t1.1 = _
      rw [u1.1, z31.1, A1.val, w1, vst0.1]
      exact (partialRound_succ v i e0 he0 1 (by decide)).symm
    · refine ⟨hm2, by change _ ≤ m2; omega, by change m2 < t3.2.cells.length; omega, ?_⟩
      change t3.2.val t2.1 = _
      rw [u2.1, A2.val, y22.1, y20.1, w2, vst0.1]
      exact (partialRound_succ v i e0 he0 2 (by decide)).symm
    · refine ⟨hm3, by change _ ≤ m3; omega, m3lt, ?_⟩
      change t3.2.val t3.1 = _
      rw [A3.val, z33.1, y23.1, z30.1, y20.1, w3, vst0.1]
      exact (partialRound_succ v i e0 he0 3 (by decide)).symm
  · rw [A3.other j (by omega) (by rw [p3]; simp; omega), A2.other j (by omega) (by rw [p2]; simp; omega),
      A1.other j (by omega) (by rw [p1]; simp; omega), g04.2 j (by omega), hs.2 j hj]

end

theorem partialRounds_knows {s0 s : Store} {st : State} {v : Fin 4 → Fr} (h : Knows s0 st v s) :
    Knows s0 (partialRounds st s).1 (PoseidonBN.partialRounds v) (partialRounds st s).2 := by
  rw [partialRounds, PoseidonBN.partialRounds]
  exact foldlM_inv (P := Knows s0) (List.range 56) (fun _ _ _ i _ h => partialRound_knows h i) st v s h

theorem poseidon_run (st : State) (s : Store) : poseidon st s =
    fullRounds (partialRounds (fullRounds (ark st 0 s).1 true (ark st 0 s).2).1 (fullRounds (ark st 0 s).1 true (ark st 0 s).2).2).1
      false (partialRounds (fullRounds (ark st 0 s).1 true (ark st 0 s).2).1 (fullRounds (ark st 0 s).1 true (ark st 0 s).2).2).2 := by
  rw [poseidon, bind_run, bind_run, bind_run]

theorem poseidon_reads {s : Store} {st : State} {v : Fin 4 → Fr} (h : Reads s st v) :
    Reads (poseidon st s).2 (poseidon st s).1 (PoseidonBN.poseidon v) ∧ Keeps s (poseidon st s).2 := by
  have h1 : Knows s (ark st 0 s).1 (PoseidonBN.ark v 0) (ark st 0 s).2 := ark_owns h 0
  have h4 := fullRounds_knows (partialRounds_knows (fullRounds_knows h1 true)) false
  rw [PoseidonBN.poseidon_def, poseidon_run]
  exact ⟨h4.1.reads, h4.2⟩

attribute [local irreducible] poseidon

/-! ## Hashing -/

theorem fresh_pack {l : List Var} {s : Store} (h0 : l ≠ []) (hl : ∀ x ∈ l, x.In s) :
    Fresh (pack l) s (PoseidonBN.pack (l.map s.val)) := by
  have := fresh_mulAccs (x := 0) (l := l.zipIdx.map fun xk => (xk.1, Var.const (((2 ^ 64) ^ xk.2 : ℕ) : Fr))) (s := s)
    (by simpa using h0) (by
      intro bc hbc
      obtain ⟨xk, hxk, rfl⟩ := List.mem_map.1 hbc
      exact ⟨hl _ (List.fst_mem_of_mem_zipIdx hxk), trivial⟩)
  rw [List.foldl_map] at this
  rw [PoseidonBN.pack, List.zipIdx_map, List.foldl_map]
  exact this

theorem pack_in {l : List Var} {s : Store} (hl : ∀ x ∈ l, x.In s) :
    (pack l s).1.In (pack l s).2 ∧ (pack l s).2.val (pack l s).1 = PoseidonBN.pack (l.map s.val) ∧ Keeps s (pack l s).2 := by
  rcases eq_or_ne l [] with rfl | h0
  · exact ⟨trivial, rfl, Below.refl _ _⟩
  · obtain ⟨h1, ⟨k, hk, -, hk2⟩, h3⟩ := fresh_pack h0 hl s (Below.refl _ _)
    exact ⟨by rw [hk]; exact hk2, h1, h3⟩

theorem setRate_reads {s : Store} {st : State} {v : Fin 4 → Fr} {chunk : List Var} (h : Reads s st v)
    (hc : ∀ x ∈ chunk, x.In s) :
    Reads (setRate st chunk s).2 (setRate st chunk s).1 (PoseidonBN.setRate v (chunk.map s.val)) ∧
      Keeps s (setRate st chunk s).2 := by
  have step : ∀ (s' : Store) (n : ℕ) (i : Fin 4), Keeps s s' → ∃ r : Var × Store,
      (if n < chunk.length then pack ((chunk.drop n).take 3) else pure (st i) : M Var) s' = r ∧ r.1.In r.2 ∧
      r.2.val r.1 = (if n < chunk.length then PoseidonBN.pack (((chunk.map s.val).drop n).take 3) else v i) ∧ Keeps s' r.2 := by
    intro s' n i hs
    split_ifs with hn
    · obtain ⟨h1, h2, h3⟩ := pack_in (l := (chunk.drop n).take 3) (s := s') fun x hx =>
        Keeps.in hs.1 (hc x (List.mem_of_mem_drop (List.mem_of_mem_take hx)))
      refine ⟨_, rfl, h1, ?_, h3⟩
      rw [h2, List.map_take, List.map_drop]
      congr 3
      exact List.map_congr_left fun x hx => hs.val (hc x hx)
    · exact ⟨_, rfl, Keeps.in hs.1 (h i).1, (hs.val (h i).1).trans (h i).2, Below.refl _ _⟩
  obtain ⟨r1, e1, i1, v1, g1⟩ := step s 0 1 (Below.refl _ _)
  obtain ⟨r2, e2, i2, v2, g2⟩ := step r1.2 3 2 g1
  obtain ⟨r3, e3, i3, v3, g3⟩ := step r2.2 6 3 (Keeps.trans' g1 g2)
  have hres : setRate st chunk s = (![st 0, r1.1, r2.1, r3.1], r3.2) := by
    rw [List.drop_zero] at e1
    subst e1 e2 e3
    rfl
  have g12 := Keeps.trans' g1 g2
  have g23 := Keeps.trans' g2 g3
  have g13 := Keeps.trans' g12 g3
  rw [hres]
  refine ⟨fun i => ?_, g13⟩
  fin_cases i
  · exact ⟨Keeps.in g13.1 (h 0).1, (g13.val (h 0).1).trans (h 0).2⟩
  · refine ⟨Keeps.in g23.1 i1, (g23.val i1).trans (v1.trans ?_)⟩
    simp [PoseidonBN.setRate]
  · refine ⟨Keeps.in g3.1 i2, (Keeps.val g3 i2).trans (v2.trans ?_)⟩
    simp [PoseidonBN.setRate]
  · refine ⟨i3, v3.trans ?_⟩
    simp [PoseidonBN.setRate]

theorem absorb_reads {s s' : Store} {input : List Var} (h : ∀ x ∈ input, x.In s) {st : State} {v : Fin 4 → Fr} (i : ℕ)
    (hr : Reads s' st v ∧ Keeps s s') :
    Reads (absorb input st i s').2 (absorb input st i s').1
      (PoseidonBN.poseidon (PoseidonBN.setRate v (((input.map s.val).drop (9 * i)).take 9))) ∧
      Keeps s (absorb input st i s').2 := by
  obtain ⟨h1, h2⟩ := hr
  have h3 := setRate_reads (chunk := (input.drop (9 * i)).take 9) h1 fun x hx =>
    Keeps.in h2.1 (h x (List.mem_of_mem_drop (List.mem_of_mem_take hx)))
  have h4 := poseidon_reads h3.1
  have hv : ((input.drop (9 * i)).take 9).map s'.val = ((input.map s.val).drop (9 * i)).take 9 := by
    rw [List.map_take, List.map_drop]
    congr 2
    exact List.map_congr_left fun x hx => h2.val (h x hx)
  rw [hv] at h4
  rw [absorb, bind_run]
  exact ⟨h4.1, Keeps.trans' h2 (Keeps.trans' h3.2 h4.2)⟩

theorem hashNoPad_val {s : Store} {input : List Var} (h : ∀ x ∈ input, x.In s) :
    (hashNoPad input s).1.In (hashNoPad input s).2 ∧
    (hashNoPad input s).2.val (hashNoPad input s).1 = PoseidonBN.hashNoPad (input.map s.val) ∧ Keeps s (hashNoPad input s).2 := by
  have h1 := foldlM_inv (P := fun st v s' => Reads s' st v ∧ Keeps s s') (f := absorb input)
    (g := fun v i => PoseidonBN.poseidon (PoseidonBN.setRate v (((input.map s.val).drop (9 * i)).take 9)))
    (List.range ((input.length + 8) / 9)) (fun _ _ _ i _ hr => absorb_reads h i hr)
    (fun _ => .const 0) (fun _ => 0) s ⟨fun _ => ⟨trivial, rfl⟩, Below.refl _ _⟩
  rw [hashNoPad, bind_run]
  refine ⟨(h1.1 0).1, ?_, h1.2⟩
  refine (h1.1 0).2.trans ?_
  rw [PoseidonBN.hashNoPad, PoseidonBN.absorbLoop, List.length_map]

theorem hashOrNoop_val {s : Store} {input : List Var} (h : ∀ x ∈ input, x.In s) :
    (hashOrNoop input s).1.In (hashOrNoop input s).2 ∧
    (hashOrNoop input s).2.val (hashOrNoop input s).1 = PoseidonBN.hashOrNoop (input.map s.val) ∧
      Keeps s (hashOrNoop input s).2 := by
  rw [hashOrNoop, PoseidonBN.hashOrNoop, List.length_map]
  split_ifs
  · exact pack_in h
  · exact hashNoPad_val h

theorem twoToOne_val {s : Store} {l r : Var} (hl : l.In s) (hr : r.In s) :
    (twoToOne l r s).1.In (twoToOne l r s).2 ∧
    (twoToOne l r s).2.val (twoToOne l r s).1 = PoseidonBN.twoToOne (s.val l) (s.val r) ∧ Keeps s (twoToOne l r s).2 := by
  have h := poseidon_reads (s := s) (st := ![.const 0, .const 0, l, r]) (v := ![0, 0, s.val l, s.val r]) fun i => by
    fin_cases i
    · exact ⟨trivial, rfl⟩
    · exact ⟨trivial, rfl⟩
    · exact ⟨hl, rfl⟩
    · exact ⟨hr, rfl⟩
  rw [twoToOne, bind_run, PoseidonBN.twoToOne]
  exact ⟨(h.1 0).1, (h.1 0).2, h.2⟩

/-! ## Goldilocks -/

theorem mulAddNoReduce_val {s : Store} {a b c : Var} (ha : a.In s) (hb : b.In s) (hc : c.In s) :
    (mulAddNoReduce a b c s).1.In (mulAddNoReduce a b c s).2 ∧
    (mulAddNoReduce a b c s).2.val (mulAddNoReduce a b c s).1 = Verif.mulAddNoReduce (s.val a) (s.val b) (s.val c) ∧
      Keeps s (mulAddNoReduce a b c s).2 := by
  obtain ⟨h1, ⟨k, hk, hk1, hk2⟩, h3⟩ := fresh_mul hc (show (Var.const 1).In s from trivial) s (Below.refl _ _)
  have A := mulAcc_acc (a := (apiMul c (.const 1) s).1) a b (s := (apiMul c (.const 1) s).2) (by rw [hk]; exact hk2)
  refine ⟨A.isIn, ?_, h3.1.trans A.len, fun i hi => ?_⟩
  · refine A.val.trans ?_
    rw [h1, Keeps.val h3 ha, Keeps.val h3 hb]
    rfl
  · refine (A.other i (lt_of_lt_of_le hi h3.1) ?_).trans (h3.2 i hi)
    rw [hk]; simp; omega

/-- The expressions after the two accumulations of `MulAdd`: left-hand side, right-hand side, store. -/
def mulAddStore (a b c : Var) (q r : Fr) (s : Store) : Var × Var × Store :=
  let s1 := (new q s).2
  let s2 := (new r s1).2
  let cp := apiMul c (.const 1) s2
  let lhs := apiMulAcc cp.1 a b cp.2
  let rhs := apiMulAcc (.ref s1.cells.length) (.const (p : Fr)) (.ref s.cells.length) lhs.2
  (lhs.1, rhs.1, rhs.2)

theorem mulAdd_unfold (a b c : Var) (s : Store) :
    mulAdd a b c s = (newHint 2 (mulAddHint (s.val a) (s.val b) (s.val c)) >>= fun result =>
      let t := mulAddStore a b c (result 0) (result 1) s
      assertEq (t.2.2.val t.1) (t.2.2.val t.2.1) >>= fun _ =>
      rangeCheck (t.2.2.val (.ref s.cells.length)) >>= fun _ =>
      rangeCheck (t.2.2.val (.ref (s.cells.length + 1))) >>= fun _ => pure (.ref (s.cells.length + 1), t.2.2)) := by
  simp only [mulAdd, bind, StateT.bind, StateT.lift, get, getThe, MonadStateOf.get, StateT.get, StateT.pure, pure,
    Circ.bind_assoc', Circ.bind, mulAddStore, new, List.length_append, List.length_cons, List.length_nil]

theorem mulAcc_coins (i : ℕ) (b c : Var) (s : Store) : (apiMulAcc (.ref i) b c s).2.coins = s.coins.tail := by
  rcases s with ⟨cells, _ | ⟨_ | _, coins⟩⟩ <;> rfl

theorem mulAcc_ref (i : ℕ) (b c : Var) (s : Store) : (apiMulAcc (.ref i) b c s).1 =
    if s.coins.headD false then .ref i else .ref s.cells.length := by
  rcases s with ⟨cells, _ | ⟨_ | _, coins⟩⟩ <;> rfl

theorem mulAcc_keeps (a b c : Var) {s : Store} (h : ¬ s.coins.headD false) : Keeps s (apiMulAcc a b c s).2 := by
  rcases s with ⟨cells, coins⟩
  rcases a with x | i
  · exact new_keeps _ _
  · rcases coins with _ | ⟨_ | _, coins⟩
    · exact new_keeps _ _
    · exact new_keeps (s := ⟨cells, coins⟩) _
    · exact absurd rfl h

/-- What is known after both accumulations: the remainder depends on whether the second one overwrites it. -/
theorem mulAddStore_val {a b c : Var} (q r : Fr) {s : Store} (ha : a.In s) (hb : b.In s) (hc : c.In s) :
    let t := mulAddStore a b c q r s
    t.2.2.val t.1 = s.val c * 1 + s.val a * s.val b ∧ t.2.2.val t.2.1 = r + (p : Fr) * q ∧
    t.2.2.val (.ref s.cells.length) = q ∧ Keeps s t.2.2 ∧ s.cells.length + 1 < t.2.2.cells.length ∧
    t.2.2.val (.ref (s.cells.length + 1)) = if s.coins.tail.headD false then r + (p : Fr) * q else r := by
  have hs1 := new_keeps q s
  have l1 : (new q s).2.cells.length = s.cells.length + 1 := by simp [new]
  have hs2 := new_keeps r (new q s).2
  have l2 : (new r (new q s).2).2.cells.length = s.cells.length + 2 := by simp [new]
  have hs12 := Keeps.trans' hs1 hs2
  have vq : (new r (new q s).2).2.val (.ref s.cells.length) = q :=
    (Keeps.val hs2 (x := .ref s.cells.length) (by simp [Var.In, l1])).trans (new_val q s)
  have vr : (new r (new q s).2).2.val (.ref (s.cells.length + 1)) = r := by
    have := new_val r (new q s).2
    rwa [show (new r (new q s).2).1 = .ref (s.cells.length + 1) by simp [new]] at this
  have c2 : (new r (new q s).2).2.coins = s.coins := rfl
  rw [mulAddStore]
  simp only [l1]
  generalize (new r (new q s).2).2 = s2 at *
  have k3 : Keeps s2 (apiMul c (.const 1) s2).2 := new_keeps _ _
  have l3 : (apiMul c (.const 1) s2).2.cells.length = s.cells.length + 3 := by simp [apiMul, new, l2]
  have e3 : (apiMul c (.const 1) s2).1 = .ref (s.cells.length + 2) := by simp [apiMul, new, l2]
  have v3 : (apiMul c (.const 1) s2).2.val (apiMul c (.const 1) s2).1 = s.val c * 1 := by
    rw [← hs12.val hc]; exact new_val _ _
  have c3 : (apiMul c (.const 1) s2).2.coins = s.coins := c2
  generalize apiMul c (.const 1) s2 = cp at *
  obtain ⟨cv, s3⟩ := cp
  simp only at *
  subst e3
  have k03 : Keeps s s3 := Keeps.trans' hs12 k3
  have A := mulAcc_acc (a := .ref (s.cells.length + 2)) a b (s := s3) (by change _ < _; omega)
  have c4 := mulAcc_coins (s.cells.length + 2) a b s3
  generalize apiMulAcc (.ref (s.cells.length + 2)) a b s3 = lhs at *
  obtain ⟨lv, s4⟩ := lhs
  simp only at *
  have ll : s3.cells.length ≤ s4.cells.length := A.len
  have w0 := A.other_val (y := .ref s.cells.length) (by change _ < _; omega) (fun i hi => by simp at hi ⊢; omega)
  have w1 := A.other_val (y := .ref (s.cells.length + 1)) (by change _ < _; omega) (fun i hi => by simp at hi ⊢; omega)
  have q4 : s4.val (.ref s.cells.length) = q := w0.1.trans ((Keeps.val k3 (x := .ref s.cells.length) (by change _ < _; omega)).trans vq)
  have r4 : s4.val (.ref (s.cells.length + 1)) = r :=
    w1.1.trans ((Keeps.val k3 (x := .ref (s.cells.length + 1)) (by change _ < _; omega)).trans vr)
  have lhs4 : s4.val lv = s.val c * 1 + s.val a * s.val b := by
    have := A.val
    simp only at this
    rw [this, v3, k03.val ha, k03.val hb]
  obtain ⟨m, hm, hm'⟩ : ∃ m, lv = .ref m ∧ s.cells.length + 2 ≤ m := by
    rcases A.ref with h | ⟨m, h, h'⟩
    · exact ⟨_, h, le_rfl⟩
    · exact ⟨m, h, by omega⟩
  have hlv : lv.In s4 := A.isIn
  have B := mulAcc_acc (a := .ref (s.cells.length + 1)) (.const (p : Fr)) (.ref s.cells.length) (s := s4) (by change _ < _; omega)
  have d := mulAcc_ref (s.cells.length + 1) (.const (p : Fr)) (.ref s.cells.length) s4
  have e := fun h => mulAcc_keeps (.ref (s.cells.length + 1)) (.const (p : Fr)) (.ref s.cells.length) (s := s4) h
  generalize apiMulAcc (.ref (s.cells.length + 1)) (.const (p : Fr)) (.ref s.cells.length) s4 = rhs at *
  obtain ⟨rv, s5⟩ := rhs
  simp only at *
  have lr : s4.cells.length ≤ s5.cells.length := B.len
  have Bv : s5.val rv = r + (p : Fr) * q := by
    have := B.val
    simp only at this
    rw [this, q4, r4]
    rfl
  refine ⟨?_, Bv, ?_, ⟨by omega, fun i hi => ?_⟩, by omega, ?_⟩
  · rw [(B.other_val hlv (fun i hi => by rw [hm] at hi; simp at hi ⊢; omega)).1, lhs4]
  · rw [(B.other_val w0.2 (fun i hi => by simp at hi ⊢; omega)).1, q4]
  · rw [B.other i (by omega) (by simp; omega), A.other i (by omega) (by simp; omega), k03.2 i hi]
  · rw [c4, c3] at d e
    by_cases hco : s.coins.tail.headD false
    · rw [if_pos hco] at d ⊢
      rw [← d]; exact Bv
    · rw [if_neg hco] at d ⊢
      have h5 : s5.val (.ref (s.cells.length + 1)) = s4.val (.ref (s.cells.length + 1)) :=
        (e hco).val w1.2
      rw [h5, r4]

theorem mulAdd_circ {a b c : Var} {s : Store} (ha : a.In s) (hb : b.In s) (hc : c.In s) (h : s.coins.tail.headD false = false) :
    (mulAdd a b c s >>= fun r => pure (r.2.val r.1)) = Verif.mulAdd (s.val a) (s.val b) (s.val c) := by
  rw [mulAdd_unfold, Verif.mulAdd, bind_assoc]
  refine congrArg _ (funext fun res => ?_)
  obtain ⟨h1, h2, h3, -, -, h6⟩ := mulAddStore_val (res 0) (res 1) ha hb hc
  rw [if_neg (by rw [h]; decide)] at h6
  simp only [bind_assoc, pure_bind, h1, h2, h3, h6]

theorem mulAdd_safe {a b c : Var} {s : Store} (ha : a.In s) (hb : b.In s) (hc : c.In s) :
    Circ.Safe (mulAdd a b c s) fun r => r.1.In r.2 ∧ Keeps s r.2 := by
  rw [mulAdd_unfold]
  intro res
  obtain ⟨-, -, -, h4, h5, -⟩ := mulAddStore_val (res 0) (res 1) ha hb hc
  exact (NoPanic.assertEq _ _).safe_bind' fun _ => (NoPanic.rangeCheck _).safe_bind' fun _ =>
    (NoPanic.rangeCheck _).safe_bind' fun _ => ⟨h5, h4⟩

theorem mulAdd_overwritten {a b c : Var} {s : Store} (ha : a.In s) (hb : b.In s) (hc : c.In s)
    (h : s.coins.tail.headD false = true) {r : Var × Store} (hr : Circ.Sat (mulAdd a b c s) r) :
    r.2.val r.1 = s.val a * s.val b + s.val c ∧ (r.2.val r.1).val < p := by
  rw [mulAdd_unfold, Circ.sat_bind] at hr
  obtain ⟨res, -, hr⟩ := hr
  obtain ⟨h1, h2, h3, -, -, h6⟩ := mulAddStore_val (res 0) (res 1) ha hb hc
  rw [if_pos h] at h6
  simp only [Circ.sat_bind, sat_assertEq, sat_rangeCheck, Circ.sat_pure, exists_const, h1, h2, h3] at hr
  obtain ⟨hr1, -, hr2, rfl⟩ := hr
  refine ⟨?_, hr2⟩
  change (mulAddStore a b c (res 0) (res 1) s).2.2.val (.ref (s.cells.length + 1)) = _
  rw [h6, ← hr1]
  ring

end Verif.Mem
