import Verif.Proofs.Transcript
import Verif.Spec.Challenger
import Mathlib.Tactic.FinCases
import Mathlib.Tactic.Ring

/-!
# Kernel evaluation of the Goldilocks permutation and of transcripts

Naturals instead of field elements, lists instead of functions, so that the kernel can run the specification on concrete
inputs; everything is proved equal to the specification.
-/

set_option autoImplicit false

namespace Verif.Evaluate

open Spec

/-- Rows of the MDS matrix. -/
def mdsRows : List (List ℕ) := [
  [25, 15, 41, 16, 2, 28, 13, 13, 39, 18, 34, 20],
  [20, 17, 15, 41, 16, 2, 28, 13, 13, 39, 18, 34],
  [34, 20, 17, 15, 41, 16, 2, 28, 13, 13, 39, 18],
  [18, 34, 20, 17, 15, 41, 16, 2, 28, 13, 13, 39],
  [39, 18, 34, 20, 17, 15, 41, 16, 2, 28, 13, 13],
  [13, 39, 18, 34, 20, 17, 15, 41, 16, 2, 28, 13],
  [13, 13, 39, 18, 34, 20, 17, 15, 41, 16, 2, 28],
  [28, 13, 13, 39, 18, 34, 20, 17, 15, 41, 16, 2],
  [2, 28, 13, 13, 39, 18, 34, 20, 17, 15, 41, 16],
  [16, 2, 28, 13, 13, 39, 18, 34, 20, 17, 15, 41],
  [41, 16, 2, 28, 13, 13, 39, 18, 34, 20, 17, 15],
  [15, 41, 16, 2, 28, 13, 13, 39, 18, 34, 20, 17]]

/-- Scalar product. -/
def dot : List ℕ → List ℕ → ℕ
  | a :: l, b :: m => Nat.add (Nat.mul a b) (dot l m)
  | _, _ => 0

/-- Multiplication by the MDS matrix. -/
def mixN (s : List ℕ) : List ℕ := mdsRows.map fun w => Nat.mod (dot w s) 18446744069414584321

/-- Addition of constants. -/
def addN : List ℕ → List ℕ → List ℕ
  | a :: l, b :: m => Nat.add a b :: addN l m
  | _, _ => []

/-- S-box. -/
def sboxN (a : ℕ) : ℕ := Nat.mod (Nat.pow a 7) 18446744069414584321

/-- Full rounds; the constants are consumed from a table of rows. -/
def fullN : ℕ → List (List ℕ) → List ℕ → List ℕ × List (List ℕ)
  | 0, c, s => (s, c)
  | n + 1, c, s => fullN n c.tail (mixN ((addN s (c.headD [])).map sboxN))

/-- S-box on the first element. -/
def sbox0 : List ℕ → List ℕ
  | a :: l => sboxN a :: l
  | [] => []

/-- Partial rounds. -/
def partN : ℕ → List (List ℕ) → List ℕ → List ℕ × List (List ℕ)
  | 0, c, s => (s, c)
  | n + 1, c, s => partN n c.tail (mixN (sbox0 (addN s (c.headD []))))

/-- Rows of the table of round constants. -/
def rows : ℕ → List ℕ → List (List ℕ)
  | 0, _ => []
  | n + 1, l => l.take 12 :: rows n (l.drop 12)

/-- The permutation. -/
def permN (s : List ℕ) : List ℕ :=
  let a := fullN 4 (rows 30 PoseidonGL.ALL_ROUND_CONSTANTS) s
  let b := partN 22 a.2 a.1
  (fullN 4 b.2 b.1).1

/-! ## Equality with the specification -/

/-- State represented by a list. -/
def toSt (l : List ℕ) : Fin 12 → Fp := fun i => (l.getD i 0 : Fp)

theorem cast_mod (n : ℕ) : ((Nat.mod n 18446744069414584321 : ℕ) : Fp) = n := ZMod.natCast_mod n p

theorem mixN_length (s : List ℕ) : (mixN s).length = 12 := by simp [mixN, mdsRows]

theorem length12 {l : List ℕ} (h : l.length = 12) :
    ∃ a b c d e f g i j k m n, l = [a, b, c, d, e, f, g, i, j, k, m, n] := by
  rcases l with _ | ⟨a, _ | ⟨b, _ | ⟨c, _ | ⟨d, _ | ⟨e, _ | ⟨f, _ | ⟨g, _ | ⟨i, _ | ⟨j, _ | ⟨k, _ | ⟨m, _ | ⟨n, l⟩⟩⟩⟩⟩⟩⟩⟩⟩⟩⟩⟩
  all_goals try simp at h
  subst h
  exact ⟨a, b, c, d, e, f, g, i, j, k, m, n, rfl⟩

theorem cast_dot : ∀ w l : List ℕ, w.length = l.length →
    ((dot w l : ℕ) : Fp) = ∑ i ∈ Finset.range w.length, ((w.getD i 0 : ℕ) : Fp) * ((l.getD i 0 : ℕ) : Fp)
  | [], [], _ => by simp [dot]
  | a :: w, b :: l, h => by
    have := cast_dot w l (by simpa using h)
    rw [dot, Nat.add_eq, Nat.mul_eq, Nat.cast_add, Nat.cast_mul, this, List.length_cons, Finset.sum_range_succ', add_comm]
    simp

theorem mds_rows : ∀ y x : Fin 12, (mdsRows.getD y []).getD x 0 = mds y x := by decide +kernel

theorem toSt_mixN {s : List ℕ} (h : s.length = 12) : toSt (mixN s) = mix (toSt s) := by
  funext y
  have hw : (mdsRows.getD y []).length = 12 := by revert y; decide +kernel
  have hm : toSt (mixN s) y = ((dot (mdsRows.getD y []) s : ℕ) : Fp) := by
    rw [← cast_mod, toSt, mixN]
    simp [List.getD_eq_getElem?_getD, List.getElem?_map, List.getElem?_eq_getElem (show (y : ℕ) < mdsRows.length from y.2)]
  rw [hm, cast_dot _ _ (hw.trans h.symm), hw, Finset.sum_range]
  refine Finset.sum_congr rfl fun x _ => ?_
  have : (mdsRows.getD y []).getD x 0 = mds y x := mds_rows y x
  rw [this, toSt]

theorem addN_length {s c : List ℕ} (h : s.length = 12) (hc : c.length = 12) : (addN s c).length = 12 := by
  obtain ⟨a, b, c, d, e, f, g, i, j, k, m, n, rfl⟩ := length12 h
  obtain ⟨a', b', c', d', e', f', g', i', j', k', m', n', rfl⟩ := length12 hc
  rfl

theorem toSt_addN {s c : List ℕ} (h : s.length = 12) (hc : c.length = 12) (i : Fin 12) :
    toSt (addN s c) i = toSt s i + toSt c i := by
  obtain ⟨a, b, c, d, e, f, g, i, j, k, m, n, rfl⟩ := length12 h
  obtain ⟨a', b', c', d', e', f', g', i', j', k', m', n', rfl⟩ := length12 hc
  rename_i y
  fin_cases y <;> exact Nat.cast_add _ _

theorem cast_sboxN (a : ℕ) : ((sboxN a : ℕ) : Fp) = (a : Fp) ^ 7 := by
  rw [sboxN, cast_mod, Nat.pow_eq, Nat.cast_pow]

theorem toSt_sbox {s : List ℕ} (h : s.length = 12) (i : Fin 12) : toSt (s.map sboxN) i = toSt s i ^ 7 := by
  obtain ⟨a, b, c, d, e, f, g, i, j, k, m, n, rfl⟩ := length12 h
  rename_i y
  fin_cases y <;> exact cast_sboxN _

theorem toSt_sbox0 {s : List ℕ} (h : s.length = 12) (i : Fin 12) :
    toSt (sbox0 s) i = if i = 0 then toSt s i ^ 7 else toSt s i := by
  obtain ⟨a, b, c, d, e, f, g, i, j, k, m, n, rfl⟩ := length12 h
  rename_i y
  fin_cases y
  · exact cast_sboxN _
  all_goals rfl

theorem sbox0_length (s : List ℕ) : (sbox0 s).length = s.length := by cases s <;> rfl

/-- The rows from `k` on are those of the specification. -/
def Table (k : ℕ) (c : List (List ℕ)) : Prop :=
  ∀ j < c.length, (c.getD j []).length = 12 ∧ ∀ i : Fin 12, (c.getD j []).getD i 0 = rc (k + j) i

theorem Table.tail {k : ℕ} {c : List (List ℕ)} (h : Table k c) : Table (k + 1) c.tail := by
  rcases c with _ | ⟨a, c⟩
  · intro j hj; simp at hj
  · intro j hj
    have := h (j + 1) (by simpa using hj)
    rw [show k + 1 + j = k + (j + 1) by omega]
    simpa using this

theorem fullN_eq : ∀ (n k : ℕ) (c : List (List ℕ)) (s : List ℕ), Table k c → n ≤ c.length → s.length = 12 →
    (fullN n c s).2 = c.drop n ∧ (fullN n c s).1.length = 12 ∧
      toSt (fullN n c s).1 = (List.range' k n).foldl fullRound (toSt s)
  | 0, _, _, _, _, _, hs => ⟨rfl, hs, rfl⟩
  | n + 1, k, [], s, _, hn, _ => by simp at hn
  | n + 1, k, a :: c, s, hc, hn, hs => by
    have h0 := hc 0 (by simp)
    have ha : a.length = 12 := by simpa using h0.1
    have hl := addN_length hs ha
    have hm := mixN_length ((addN s a).map sboxN)
    obtain ⟨h1, h2, h3⟩ := fullN_eq n (k + 1) c _ hc.tail (by simpa using hn) hm
    refine ⟨h1, h2, ?_⟩
    show toSt (fullN n c (mixN ((addN s a).map sboxN))).1 = _
    rw [h3, List.range'_succ, List.foldl_cons, toSt_mixN (by simpa using hl), fullRound]
    congr 2
    funext i
    rw [toSt_sbox hl, toSt_addN hs ha]
    congr 2
    exact congrArg Nat.cast (h0.2 i)

theorem partN_eq : ∀ (n k : ℕ) (c : List (List ℕ)) (s : List ℕ), Table k c → n ≤ c.length → s.length = 12 →
    (partN n c s).2 = c.drop n ∧ (partN n c s).1.length = 12 ∧
      toSt (partN n c s).1 = (List.range' k n).foldl partialRound (toSt s)
  | 0, _, _, _, _, _, hs => ⟨rfl, hs, rfl⟩
  | n + 1, k, [], s, _, hn, _ => by simp at hn
  | n + 1, k, a :: c, s, hc, hn, hs => by
    have h0 := hc 0 (by simp)
    have ha : a.length = 12 := by simpa using h0.1
    have hl := addN_length hs ha
    have hm := mixN_length (sbox0 (addN s a))
    obtain ⟨h1, h2, h3⟩ := partN_eq n (k + 1) c _ hc.tail (by simpa using hn) hm
    refine ⟨h1, h2, ?_⟩
    show toSt (partN n c (mixN (sbox0 (addN s a)))).1 = _
    have e : ∀ i : Fin 12, toSt a i = ((rc k i : ℕ) : Fp) := fun i => congrArg Nat.cast (h0.2 i)
    rw [h3, List.range'_succ, List.foldl_cons, toSt_mixN (by rw [sbox0_length]; exact hl), partialRound]
    congr 2
    funext i
    rw [toSt_sbox0 hl, toSt_addN hs ha, e]

theorem Table.drop {k : ℕ} {c : List (List ℕ)} (h : Table k c) : ∀ n, Table (k + n) (c.drop n)
  | 0 => h
  | n + 1 => by
    have := (h.drop n).tail
    rwa [List.tail_drop] at this

theorem table : Table 0 (rows 30 PoseidonGL.ALL_ROUND_CONSTANTS) := by unfold Table; decide +kernel

theorem toSt_permN {s : List ℕ} (h : s.length = 12) :
    (permN s).length = 12 ∧ toSt (permN s) = Spec.poseidon (toSt s) := by
  have hl : (rows 30 PoseidonGL.ALL_ROUND_CONSTANTS).length = 30 := by decide +kernel
  obtain ⟨a1, a2, a3⟩ := fullN_eq 4 0 _ s table (by omega) h
  obtain ⟨b1, b2, b3⟩ := partN_eq 22 4 _ _ (table.drop 4) (by rw [List.length_drop]; omega) a2
  obtain ⟨c1, c2, c3⟩ := fullN_eq 4 26 _ _ ((table.drop 4).drop 22) (by rw [List.length_drop, List.length_drop]; omega) b2
  rw [permN]
  simp only [a1, b1]
  exact ⟨c2, by rw [c3, b3, a3]; rfl⟩

/-- A list that is a state. -/
structure Canon (l : List ℕ) : Prop where
  length : l.length = 12
  lt : ∀ x ∈ l, x < p

/-- `f` computes `P` on states given as lists. -/
def Runs (f : List ℕ → List ℕ) (P : (Fin 12 → Fp) → Fin 12 → Fp) : Prop :=
  ∀ l, Canon l → Canon (f l) ∧ toSt (f l) = P (toSt l)

theorem mixN_lt (s : List ℕ) : ∀ x ∈ mixN s, x < p := by
  intro x hx
  obtain ⟨w, -, rfl⟩ := List.mem_map.1 hx
  exact Nat.mod_lt _ (by norm_num)

theorem fullN_lt : ∀ (n : ℕ) (c : List (List ℕ)) (s : List ℕ), (∀ x ∈ s, x < p) → ∀ x ∈ (fullN n c s).1, x < p
  | 0, _, _, h => h
  | n + 1, c, _, _ => fullN_lt n c.tail _ (mixN_lt _)

theorem fullN_lt' (n : ℕ) (c : List (List ℕ)) (s : List ℕ) : ∀ x ∈ (fullN (n + 1) c s).1, x < p := by
  rw [fullN]
  exact fullN_lt n _ _ (mixN_lt _)

theorem permN_lt (s : List ℕ) : ∀ x ∈ permN s, x < p := by
  unfold permN
  generalize rows 30 PoseidonGL.ALL_ROUND_CONSTANTS = t
  simp only
  generalize (partN 22 (fullN 4 t s).2 (fullN 4 t s).1) = b
  exact fullN_lt' 3 b.2 b.1

theorem runs_permN : Runs permN Spec.poseidon := fun l hl =>
  ⟨⟨(toSt_permN hl.length).1, permN_lt l⟩, (toSt_permN hl.length).2⟩

/-! ## Transcripts -/

/-- Absorb chunks. -/
def soakN (f : List ℕ → List ℕ) (b : List ℕ) : List (List ℕ) → List ℕ
  | [] => b
  | c :: l => soakN f (f (c ++ b.drop c.length)) l

/-- Squeezed elements of a sequence of phases: absorb a list, then squeeze some elements. -/
def outN (f : List ℕ → List ℕ) (b : List ℕ) : List (List ℕ × ℕ) → List ℕ
  | [] => []
  | (xs, n) :: t => ((soakN f b (chunks xs)).take 8).reverse.take n ++ outN f (soakN f b (chunks xs)) t

theorem toSt_over {b c : List ℕ} : toSt (c ++ b.drop c.length) =
    fun j : Fin 12 => ((c.map ((↑) : ℕ → Fp))[(j : ℕ)]?).getD (toSt b j) := by
  funext j
  rw [toSt, toSt, List.getD_eq_getElem?_getD, List.getElem?_append]
  split
  · rename_i h
    rw [List.getElem?_map, List.getElem?_eq_getElem h]; rfl
  · rename_i h
    rw [List.getElem?_map, List.getElem?_eq_none (l := c) (by omega), List.getElem?_drop,
      show c.length + (j - c.length) = (j : ℕ) by omega, List.getD_eq_getElem?_getD]
    rfl

theorem soakN_eq {f : List ℕ → List ℕ} {P : (Fin 12 → Fp) → Fin 12 → Fp} (hf : Runs f P) :
    ∀ (cs : List (List ℕ)) (b : List ℕ), Canon b → (∀ c ∈ cs, c.length ≤ 8 ∧ ∀ x ∈ c, x < p) →
    Canon (soakN f b cs) ∧ toSt (soakN f b cs) = absorb P (toSt b) (cs.map fun c => c.map ((↑) : ℕ → Fp))
  | [], b, hb, _ => ⟨hb, rfl⟩
  | c :: cs, b, hb, hc => by
    obtain ⟨h1, h2⟩ := hc c (by simp)
    obtain ⟨p1, p2⟩ := hf (c ++ b.drop c.length) ⟨by have := hb.length; simp [this]; omega, fun x hx =>
      (List.mem_append.1 hx).elim (h2 x) fun h => hb.lt x (List.mem_of_mem_drop h)⟩
    obtain ⟨q1, q2⟩ := soakN_eq hf cs _ p1 fun d hd => hc d (by simp [hd])
    refine ⟨q1, q2.trans ?_⟩
    rw [p2, toSt_over, List.map_cons, absorb, absorb, List.foldl_cons]

theorem chunks_map {A B : Type} (f : A → B) (l : List A) : chunks (l.map f) = (chunks l).map fun c => c.map f := by
  simp [chunks, List.map_take, List.map_drop, Function.comp_def]

theorem chunks_le {l : List ℕ} (h : ∀ x ∈ l, x < p) : ∀ c ∈ chunks l, c.length ≤ 8 ∧ ∀ x ∈ c, x < p := by
  intro c hc
  obtain ⟨k, -, rfl⟩ := List.mem_map.1 hc
  exact ⟨by simp, fun x hx => h x (List.mem_of_mem_drop (List.mem_of_mem_take hx))⟩

variable (P : (Fin 12 → Fp) → Fin 12 → Fp)

/-- State the next phase starts from. -/
def settled (s : Sponge) : Fin 12 → Fp := if s.taken = 0 then s.base else P^[(s.taken - 1) / 8] (s.soaked P)

theorem outputs_absorbs (b : Fin 12 → Fp) (rest : List Ev) : ∀ (xs pend : List Fr),
    (⟨b, pend, 0⟩ : Sponge).outputs P (absorbs xs ++ rest) = (⟨b, pend ++ xs, 0⟩ : Sponge).outputs P rest
  | [], pend => by simp [absorbs]
  | x :: xs, pend => by
    have := outputs_absorbs b rest xs (pend ++ [x])
    simp only [List.append_assoc, List.singleton_append] at this
    rw [← this]
    rfl

theorem outputs_phase (s : Sponge) (hs : s.taken = 0 → s.pending = []) (x : Fr) (xs : List Fr) (rest : List Ev) :
    s.outputs P (absorbs (x :: xs) ++ rest) = (⟨settled P s, x :: xs, 0⟩ : Sponge).outputs P rest := by
  have h : s.step P (.absorb x) = ⟨settled P s, [x], 0⟩ := by
    rw [Sponge.step, settled]
    by_cases h : s.taken = 0
    · rw [if_pos h, if_pos h, hs h]; rfl
    · rw [if_neg h, if_neg h]
  show (s.step P (.absorb x)).outputs P (absorbs xs ++ rest) = _
  rw [h, outputs_absorbs]
  rfl

theorem outputs_squeezes (b : Fin 12 → Fp) (pend : List Fr) (rest : List Ev) : ∀ n t : ℕ,
    (⟨b, pend, t⟩ : Sponge).outputs P (squeezes n ++ rest) =
      (List.range' t n).map (fun k => (⟨b, pend, k⟩ : Sponge).next P) ++ (⟨b, pend, t + n⟩ : Sponge).outputs P rest
  | 0, t => by simp [squeezes]
  | n + 1, t => by
    have := outputs_squeezes b pend rest n (t + 1)
    rw [show t + 1 + n = t + (n + 1) by omega] at this
    rw [List.range'_succ, List.map_cons, List.cons_append, ← this]
    rfl

/-- Events of a sequence of phases. -/
def events (l : List (List Fr × ℕ)) : List Ev := l.flatMap fun a => absorbs a.1 ++ squeezes a.2

/-- `n` elements squeezed from a state. -/
theorem map_next (b : List ℕ) (hb : b.length = 12) (base : Fin 12 → Fp) (pend : List Fr) (n : ℕ) (hn : n ≤ 8)
    (h : (⟨base, pend, 0⟩ : Sponge).soaked P = toSt b) :
    (List.range' 0 n).map (fun k => (⟨base, pend, k⟩ : Sponge).next P) =
      (((b.take 8).reverse).take n).map ((↑) : ℕ → Fp) := by
  refine List.ext_getElem (by simp [hb]; omega) fun i h1 h2 => ?_
  have hi : i < n := by simpa using h1
  have hs : (⟨base, pend, i⟩ : Sponge).soaked P = toSt b := h
  rw [List.getElem_map, List.getElem_range', List.getElem_map, List.getElem_take, List.getElem_reverse,
    List.getElem_take, zero_add, one_mul, Sponge.next, hs, Nat.div_eq_of_lt (show i < 8 by omega),
    Nat.mod_eq_of_lt (show i < 8 by omega)]
  show ((b.getD ((7 - i) % 12) 0 : ℕ) : Fp) = _
  rw [Nat.mod_eq_of_lt (by omega), List.getD_eq_getElem _ _ (by omega)]
  congr 2
  simp [hb]

/-- Squeezed elements of a sequence of phases, computed with naturals. -/
theorem outputs_events {f : List ℕ → List ℕ} {P : (Fin 12 → Fp) → Fin 12 → Fp} (hf : Runs f P) :
    ∀ (fr : List (List Fr × ℕ)) (l : List (List ℕ × ℕ)) (s : Sponge) (b : List ℕ),
    fr.map (fun a => (a.1.map residue, a.2)) = l.map (fun a => (a.1.map ((↑) : ℕ → Fp), a.2)) →
    (∀ a ∈ l, a.1 ≠ [] ∧ 0 < a.2 ∧ a.2 ≤ 8 ∧ ∀ x ∈ a.1, x < p) → Canon b → (s.taken = 0 → s.pending = []) →
    settled P s = toSt b → s.outputs P (events fr) = (outN f b l).map ((↑) : ℕ → Fp)
  | [], [], s, b, _, _, _, _, _ => rfl
  | [], _ :: _, s, b, h, _, _, _, _ => by simp at h
  | _ :: _, [], s, b, h, _, _, _, _ => by simp at h
  | (xs, n) :: fr, (ys, m) :: l, s, b, h, hl, hb, hs, hst => by
    simp only [List.map_cons, List.cons.injEq, Prod.mk.injEq] at h
    obtain ⟨⟨hxy, rfl⟩, h⟩ := h
    obtain ⟨hne, hpos, hle, hlt⟩ := hl (ys, n) (by simp)
    obtain ⟨q1, q2⟩ := soakN_eq hf (chunks ys) b hb (chunks_le hlt)
    rcases xs with _ | ⟨x, xs⟩
    · rcases ys with _ | ⟨y, ys⟩
      · exact absurd rfl hne
      · simp at hxy
    have hsoak : ∀ t, (⟨settled P s, x :: xs, t⟩ : Sponge).soaked P = toSt (soakN f b (chunks ys)) := by
      intro t
      rw [Sponge.soaked, if_neg (by simp), q2, hxy, chunks_map, hst]
    have hev : events ((x :: xs, n) :: fr) = absorbs (x :: xs) ++ (squeezes n ++ events fr) := by
      rw [events, List.flatMap_cons, List.append_assoc]; rfl
    rw [hev, outputs_phase _ _ hs, outputs_squeezes, map_next _ _ q1.length _ _ _ hle (hsoak 0),
      outputs_events hf fr l _ (soakN f b (chunks ys)) h (fun a ha => hl a (by simp [ha])) q1
        (fun h0 => by simp at h0; omega) ?_, outN, List.map_append]
    show settled _ (⟨_, _, 0 + n⟩ : Sponge) = _
    rw [settled, if_neg (show ¬ 0 + n = 0 by omega), hsoak]
    show (P^[(0 + n - 1) / 8]) _ = _
    rw [Nat.div_eq_of_lt (by omega)]
    rfl

theorem canon_zero : Canon (List.replicate 12 0) := ⟨by simp, by
  intro x hx
  rw [List.eq_of_mem_replicate hx]
  norm_num [p]⟩

theorem toSt_zero : toSt (List.replicate 12 0) = fun _ => 0 := by
  funext i
  fin_cases i <;> exact Nat.cast_zero

/-- All elements squeezed, from the start. -/
theorem outputs_init {f : List ℕ → List ℕ} {P : (Fin 12 → Fp) → Fin 12 → Fp} (hf : Runs f P)
    (fr : List (List Fr × ℕ)) (l : List (List ℕ × ℕ))
    (h : fr.map (fun a => (a.1.map residue, a.2)) = l.map (fun a => (a.1.map ((↑) : ℕ → Fp), a.2)))
    (hl : ∀ a ∈ l, a.1 ≠ [] ∧ 0 < a.2 ∧ a.2 ≤ 8 ∧ ∀ x ∈ a.1, x < p) :
    Sponge.init.outputs P (events fr) = (outN f (List.replicate 12 0) l).map ((↑) : ℕ → Fp) :=
  outputs_events hf fr l _ _ h hl canon_zero (fun _ => rfl) (by rw [toSt_zero]; rfl)

/-! ## A permutation with one other output -/

/-- `permN` except for one state. -/
def permN' (s y : List ℕ) (l : List ℕ) : List ℕ := if l = s then y else permN l

/-- The textbook permutation except for one state. -/
def perm' (s y : List ℕ) (t : Fin 12 → Fp) : Fin 12 → Fp := if t = toSt s then toSt y else Spec.poseidon t

theorem toSt_inj {l m : List ℕ} (hl : Canon l) (hm : Canon m) (h : toSt l = toSt m) : l = m := by
  refine List.ext_getElem (hl.length.trans hm.length.symm) fun i h1 h2 => ?_
  have hi : i < 12 := hl.length ▸ h1
  have := congrArg ZMod.val (congrFun h ⟨i, hi⟩)
  rw [toSt, toSt, List.getD_eq_getElem _ _ h1, List.getD_eq_getElem _ _ h2,
    ZMod.val_natCast_of_lt (hl.lt _ (List.getElem_mem h1)), ZMod.val_natCast_of_lt (hm.lt _ (List.getElem_mem h2))] at this
  exact this

theorem runs_permN' {s y : List ℕ} (hs : Canon s) (hy : Canon y) : Runs (permN' s y) (perm' s y) := by
  intro l hl
  by_cases h : l = s
  · subst h
    rw [permN', perm', if_pos rfl, if_pos rfl]
    exact ⟨hy, rfl⟩
  · rw [permN', perm', if_neg h, if_neg fun e => h (toSt_inj hl hs e)]
    exact runs_permN l hl

/-! ## Absorbed values -/

/-- Digits of a digest, as naturals. -/
def limbsN (h : ℕ) : List ℕ := [h % 2 ^ 56, h / 2 ^ 56 % 2 ^ 56, h / 2 ^ 112 % 2 ^ 56, h / 2 ^ 168 % 2 ^ 56,
  h / 2 ^ 224 % 2 ^ 56]

theorem residue_natCast {n : ℕ} (h : n < r) : residue (n : Fr) = (n : Fp) := by
  rw [residue, val_natCast_of_lt h]

theorem limbs_natCast {h : ℕ} (hh : h < r) : (limbs (h : Fr)).map residue = (limbsN h).map ((↑) : ℕ → Fp) := by
  have hlt : ∀ k, k % 2 ^ 56 < r := fun k => (Nat.mod_lt _ (by norm_num)).trans (by norm_num [r])
  simp only [limbs, limbsN, val_natCast_of_lt hh, List.map_cons, List.map_nil, residue_natCast (hlt _), pow_zero, Nat.div_one]

theorem capElems_natCast {l : List ℕ} (hl : ∀ h ∈ l, h < r) :
    (capElems (l.map ((↑) : ℕ → Fr))).map residue = (l.flatMap limbsN).map ((↑) : ℕ → Fp) := by
  rw [capElems, List.map_flatMap, List.flatMap_map, List.map_flatMap]
  exact List.flatMap_congr fun h hh => limbs_natCast (hl h hh)

set_option maxRecDepth 100000 in
/-- The test vector of the code (`poseidon/goldilocks_test.go:47-53`). -/
example : Spec.poseidon (fun _ => (0 : Fp)) = toSt [4330397376401421145, 14124799381142128323, 8742572140681234676,
    14345658006221440202, 15524073338516903644, 5091405722150716653, 15002163819607624508, 2047012902665707362,
    16106391063450633726, 4680844749859802542, 15019775476387350140, 1698615465718385111] := by
  have h : permN (List.replicate 12 0) = [4330397376401421145, 14124799381142128323, 8742572140681234676,
    14345658006221440202, 15524073338516903644, 5091405722150716653, 15002163819607624508, 2047012902665707362,
    16106391063450633726, 4680844749859802542, 15019775476387350140, 1698615465718385111] := by decide +kernel
  rw [← h, (toSt_permN (by simp)).2, toSt_zero]

end Verif.Evaluate
