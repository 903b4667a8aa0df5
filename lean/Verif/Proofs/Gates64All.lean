import Verif.Proofs.Gates64Params
import Verif.Proofs.GateSizes
import Verif.Model.GateIds

/-!
# All gates together, and the gates read from identifiers, on 64-bit words
-/

set_option autoImplicit false

namespace Verif

open Circ Gates Spec.Gates

variable {α β σ : Type}

theorem Agree.foldlM {f g : β → σ → Circ β} {l : List σ}
    (h : ∀ x ∈ l, (∀ b, f b x = g b x) ∨ (∀ b, Panics (f b x)) ∧ ∀ b, Panics (g b x)) (b : β) :
    Agree (l.foldlM f b) (l.foldlM g b) := by
  by_cases ha : ∀ x ∈ l, ∀ b, f b x = g b x
  · exact Or.inl (foldlM_congr' (fun b x hx => ha x hx b) b)
  · simp only [not_forall] at ha
    obtain ⟨x, hx, b', hne⟩ := ha
    rcases h x hx with he | ⟨h1, h2⟩
    · exact absurd (he b') hne
    · exact Or.inr ⟨Panics.foldlM hx h1 b, Panics.foldlM hx h2 b⟩

theorem idx_of_lt {l : List α} {i : ℕ} (h : i < l.length) : idx l i = pure l[i] := idx_of (List.getElem?_eq_getElem h)

namespace Gates64

attribute [local irreducible] Gates64.Gate.evalUnfiltered Gates.Gate.evalUnfiltered computeFilter mulExt addConstraints

theorem evalFiltered_agree {maxLen : ℕ} (g : Gate) {v : Vars} (hc : v.localConstants.length ≤ maxLen)
    (hw : v.localWires.length ≤ maxLen) (hL : maxLen ≤ L) (row si : ℕ) (gr : ℕ × ℕ) (n : ℕ) :
    Agree (evalFiltered maxLen g v row si gr n) (Gates.evalFiltered g.toNat v row si gr n) := by
  rw [evalFiltered, Gates.evalFiltered, EvaluationVars.removePrefix]
  by_cases hn : n ≤ v.localConstants.length
  · have hs : Fri.sliceFrom v.localConstants n = pure (v.localConstants.drop n) := if_pos hn
    simp only [hs, pure_bind]
    rcases Gate.agree (v := { v with localConstants := v.localConstants.drop n }) g
      (by simp only [List.length_drop]; omega) hw hL with h | ⟨h1, h2⟩
    · rw [h]; exact Or.inl rfl
    · exact Or.inr ⟨.bind_all fun _ => .bind_all fun _ => .bind h1 _, .bind_all fun _ => .bind_all fun _ => .bind h2 _⟩
  · have hs : Panics (Fri.sliceFrom v.localConstants n) := by rw [Fri.sliceFrom, if_neg hn]; trivial
    exact Or.inr ⟨.bind_all fun _ => .bind_all fun _ => .bind (.bind hs _) _,
      .bind_all fun _ => .bind_all fun _ => .bind (.bind hs _) _⟩

attribute [local irreducible] evalFiltered Gates.evalFiltered

theorem zipIdx_map {γ δ : Type} (f : γ → δ) (l : List γ) (n : ℕ) :
    (l.map f).zipIdx n = (l.zipIdx n).map fun gi => (f gi.1, gi.2) := by
  induction l generalizing n with
  | nil => rfl
  | cons a l ih => simp [List.zipIdx_cons, ih]

theorem foldlM_map' {γ δ : Type} (f : β → δ → Circ β) (g : γ → δ) (l : List γ) (b : β) :
    (l.map g).foldlM f b = l.foldlM (fun b x => f b (g x)) b := by
  induction l generalizing b with
  | nil => rfl
  | cons a l ih =>
    rw [List.map_cons, List.foldlM_cons, List.foldlM_cons]
    exact bind_congr fun _ => ih _

theorem evaluateGateConstraints_agree {maxLen : ℕ} (gates : List Gate) (m : ℕ) (si : SelectorsInfo) {v : Vars}
    (hc : v.localConstants.length ≤ maxLen) (hw : v.localWires.length ≤ maxLen) (hL : maxLen ≤ L) :
    Agree (evaluateGateConstraints maxLen gates m si v)
      (Gates.evaluateGateConstraints (gates.map Gate.toNat) m si v) := by
  rw [evaluateGateConstraints, Gates.evaluateGateConstraints, zipIdx_map, foldlM_map']
  refine Agree.foldlM (fun gi _ => ?_) _
  by_cases h1 : gi.2 < si.selectorIndices.length
  swap
  · exact Or.inr ⟨fun _ => .bind (.idx (Nat.not_lt.1 h1)) _, fun _ => .bind (.idx (Nat.not_lt.1 h1)) _⟩
  by_cases h2 : si.selectorIndices[gi.2] < si.groups.length
  swap
  · right
    constructor <;> intro b
    · rw [gateStep, idx_of_lt h1, pure_bind]; exact .bind (.idx (Nat.not_lt.1 h2)) _
    · rw [Gates.gateStep, idx_of_lt h1, pure_bind]; exact .bind (.idx (Nat.not_lt.1 h2)) _
  have e1 : ∀ b, gateStep maxLen si v b gi = evalFiltered maxLen gi.1 v gi.2 si.selectorIndices[gi.2]
      si.groups[si.selectorIndices[gi.2]] si.groups.length >>= fun gc => addConstraints b gc := fun b => by
    rw [gateStep, idx_of_lt h1, pure_bind, idx_of_lt h2, pure_bind]
  have e2 : ∀ b, Gates.gateStep si v b (gi.1.toNat, gi.2) = Gates.evalFiltered gi.1.toNat v gi.2 si.selectorIndices[gi.2]
      si.groups[si.selectorIndices[gi.2]] si.groups.length >>= fun gc => addConstraints b gc := fun b => by
    rw [Gates.gateStep, idx_of_lt h1, pure_bind, idx_of_lt h2, pure_bind]
  rcases evalFiltered_agree gi.1 hc hw hL gi.2 si.selectorIndices[gi.2] si.groups[si.selectorIndices[gi.2]]
    si.groups.length with h | ⟨p1, p2⟩
  · exact Or.inl fun b => by rw [e1, e2, h]
  · exact Or.inr ⟨fun b => by rw [e1]; exact .bind p1 _, fun b => by rw [e2]; exact .bind p2 _⟩

/-! ## Gates read from identifiers -/

theorem atoi_lt {s : List Char} {n : ℕ} (h : atoi s = some n) : n < 2 ^ 63 := by
  rw [atoi] at h
  split_ifs at h with hc
  · cases h; exact hc.2.2

theorem parseUint_lt {s : List Char} {n : ℕ} (h : parseUint s = some n) : n < 2 ^ 64 := by
  rw [parseUint] at h
  split_ifs at h with hc
  · cases h; exact hc.2.2

theorem exists_u64 {n : ℕ} (h : n < 2 ^ 64) : ∃ u : UInt64, u.toNat = n := ⟨UInt64.ofNat n, toNat_ofNat_of h⟩

/-- The parameters of a gate made by any of the handlers fit in 64 bits. -/
theorem make_u64 {h : Handler} (hh : h ∈ gateRegexHandlers) {caps : List (List Char)} {g : Gates.Gate}
    (hm : h.make caps = some g) : ∃ u : Gate, u.toNat = g := by
  simp only [gateRegexHandlers, List.mem_cons, List.not_mem_nil, or_false] at hh
  rcases hh with rfl | rfl | rfl | rfl | rfl | rfl | rfl | rfl | rfl | rfl | rfl | rfl | rfl | rfl
  · simp only [arithmeticHandler] at hm
    split at hm
    · simp only [Option.bind_eq_bind, Option.bind_eq_some_iff, pure, Option.some.injEq] at hm
      obtain ⟨n, hn, rfl⟩ := hm
      obtain ⟨u, rfl⟩ := exists_u64 ((atoi_lt hn).trans (by decide))
      exact ⟨.arithmetic u, rfl⟩
    · cases hm
  · simp only [arithmeticExtensionHandler] at hm
    split at hm
    · simp only [Option.bind_eq_bind, Option.bind_eq_some_iff, pure, Option.some.injEq] at hm
      obtain ⟨n, hn, rfl⟩ := hm
      obtain ⟨u, rfl⟩ := exists_u64 ((atoi_lt hn).trans (by decide))
      exact ⟨.arithmeticExtension u, rfl⟩
    · cases hm
  · simp only [baseSumHandler] at hm
    split at hm
    · simp only [Option.bind_eq_bind, Option.bind_eq_some_iff, pure, Option.some.injEq] at hm
      obtain ⟨n, hn, b, hb, rfl⟩ := hm
      obtain ⟨u, rfl⟩ := exists_u64 ((atoi_lt hn).trans (by decide))
      obtain ⟨w, rfl⟩ := exists_u64 ((atoi_lt hb).trans (by decide))
      exact ⟨.baseSum u w, rfl⟩
    · cases hm
  · simp only [constantHandler] at hm
    split at hm
    · simp only [Option.bind_eq_bind, Option.bind_eq_some_iff, pure, Option.some.injEq] at hm
      obtain ⟨n, hn, rfl⟩ := hm
      obtain ⟨u, rfl⟩ := exists_u64 ((atoi_lt hn).trans (by decide))
      exact ⟨.constant u, rfl⟩
    · cases hm
  · simp only [cosetInterpolationHandler] at hm
    split at hm
    · simp only [Option.bind_eq_bind, Option.bind_eq_some_iff] at hm
      obtain ⟨b, hb, d, hd, hm⟩ := hm
      split_ifs at hm with hlt
      simp only [Option.bind_eq_some_iff, pure, Option.some.injEq] at hm
      obtain ⟨ws, _, rfl⟩ := hm
      obtain ⟨u, rfl⟩ := exists_u64 (parseUint_lt hb)
      obtain ⟨w, rfl⟩ := exists_u64 (parseUint_lt hd)
      exact ⟨.cosetInterpolation ⟨u, w, ws.map Nat.cast⟩, rfl⟩
    · cases hm
  · simp only [exponentiationHandler] at hm
    split at hm
    · simp only [Option.bind_eq_bind, Option.bind_eq_some_iff] at hm
      obtain ⟨n, hn, b, hb, hm⟩ := hm
      split_ifs at hm with hlt
      cases hm
      obtain ⟨u, rfl⟩ := exists_u64 ((atoi_lt hn).trans (by decide))
      exact ⟨.exponentiation u, rfl⟩
    · cases hm
  · simp only [mulExtensionHandler] at hm
    split at hm
    · simp only [Option.bind_eq_bind, Option.bind_eq_some_iff, pure, Option.some.injEq] at hm
      obtain ⟨n, hn, rfl⟩ := hm
      obtain ⟨u, rfl⟩ := exists_u64 ((atoi_lt hn).trans (by decide))
      exact ⟨.mulExtension u, rfl⟩
    · cases hm
  · simp only [noopHandler, Option.some.injEq] at hm
    exact ⟨.noop, hm⟩
  · simp only [poseidonHandler, Option.some.injEq] at hm
    exact ⟨.poseidon, hm⟩
  · simp only [poseidonMdsHandler, Option.some.injEq] at hm
    exact ⟨.poseidonMds, hm⟩
  · simp only [publicInputHandler, Option.some.injEq] at hm
    exact ⟨.publicInput, hm⟩
  · simp only [randomAccessHandler] at hm
    split at hm
    · simp only [Option.bind_eq_bind, Option.bind_eq_some_iff] at hm
      obtain ⟨b, hb, c, hc, e, he, d, _, hm⟩ := hm
      split_ifs at hm with hlt
      cases hm
      obtain ⟨u, rfl⟩ := exists_u64 (parseUint_lt hb)
      obtain ⟨w, rfl⟩ := exists_u64 (parseUint_lt hc)
      obtain ⟨x, rfl⟩ := exists_u64 (parseUint_lt he)
      exact ⟨.randomAccess ⟨u, w, x⟩, rfl⟩
    · cases hm
  · simp only [reducingExtensionHandler] at hm
    split at hm
    · simp only [Option.bind_eq_bind, Option.bind_eq_some_iff, pure, Option.some.injEq] at hm
      obtain ⟨n, hn, rfl⟩ := hm
      obtain ⟨u, rfl⟩ := exists_u64 ((atoi_lt hn).trans (by decide))
      exact ⟨.reducingExtension u, rfl⟩
    · cases hm
  · simp only [reducingHandler] at hm
    split at hm
    · simp only [Option.bind_eq_bind, Option.bind_eq_some_iff, pure, Option.some.injEq] at hm
      obtain ⟨n, hn, rfl⟩ := hm
      obtain ⟨u, rfl⟩ := exists_u64 ((atoi_lt hn).trans (by decide))
      exact ⟨.reducing u, rfl⟩
    · cases hm

theorem instance_u64 {order : List Handler} (ho : order ⊆ gateRegexHandlers) {id : List Char} {g : Gates.Gate}
    (h : gateInstanceFromId order id = some g) : ∃ u : Gate, u.toNat = g := by
  induction order with
  | nil => cases h
  | cons a order ih =>
    rw [gateInstanceFromId] at h
    split at h
    · exact make_u64 (ho (List.mem_cons_self ..)) h
    · exact ih (fun _ hx => ho (List.mem_cons_of_mem _ hx)) h

end Gates64

end Verif
