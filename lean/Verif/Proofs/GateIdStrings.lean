import Verif.Model.GateIdStrings
import Verif.Proofs.GateIds

/-!
# Parsing of what the methods `Id` return
-/

set_option autoImplicit false

namespace Verif.Gates

open Spec.Gates (gateId InRange HasWeights names Lost)

/-! ## A match needs all its literal characters -/

theorem tryLengths_ne_none {α : Type} {f : ℕ → Option α} {lo hi : ℕ} (h : tryLengths f lo hi ≠ none) :
    ∃ k, f k ≠ none := by
  induction hi with
  | zero =>
    rw [tryLengths] at h
    split at h
    · exact ⟨0, h⟩
    · exact absurd rfl h
  | succ hi ih =>
    rw [tryLengths] at h
    split at h
    · exact absurd rfl h
    · by_cases hf : f (hi + 1) = none
      · rw [hf, Option.none_or] at h; exact ih h
      · exact ⟨_, hf⟩

theorem mem_of_matchHere {c : Char} {re : List Tok} {s : List Char} (hc : Tok.chr c ∈ re) (h : matchHere re s ≠ none) :
    c ∈ s := by
  have key : ∀ {t : List Tok} {g : List Char → Option (List (List Char)) → Option (List (List Char))} {s : List Char} {lo hi : ℕ},
      (∀ s, Tok.chr c ∈ t → matchHere t s ≠ none → c ∈ s) → (∀ l, g l none = none) → Tok.chr c ∈ t →
      tryLengths (fun k => g (s.take k) (matchHere t (s.drop k))) lo hi ≠ none → c ∈ s := by
    intro t g s lo hi ih hg hc h
    obtain ⟨k, hk⟩ := tryLengths_ne_none h
    exact List.mem_of_mem_drop (ih _ hc fun h0 => hk (by rw [h0, hg]))
  induction re generalizing s with
  | nil => simp at hc
  | cons t re ih =>
    cases t with
    | chr d =>
      cases s with
      | nil => rw [matchHere] at h; exact absurd rfl h
      | cons x s =>
        rw [matchHere] at h
        split at h
        · rename_i hx
          rcases List.mem_cons.1 hc with hc | hc
          · rw [hx, Tok.chr.inj hc]; exact List.mem_cons_self ..
          · exact List.mem_cons_of_mem _ (ih hc h)
        · exact absurd rfl h
    | digits =>
      rw [matchHere] at h
      exact key (g := fun l o => o.map (l :: ·)) (fun s => ih) (fun _ => rfl) ((List.mem_cons.1 hc).resolve_left (by simp)) h
    | digitList =>
      rw [matchHere] at h
      exact key (g := fun l o => o.map (l :: ·)) (fun s => ih) (fun _ => rfl) ((List.mem_cons.1 hc).resolve_left (by simp)) h
    | anyStar =>
      rw [matchHere] at h
      exact key (g := fun _ o => o) (fun s => ih) (fun _ => rfl) ((List.mem_cons.1 hc).resolve_left (by simp)) h

theorem mem_of_find {c : Char} {re : List Tok} {s : List Char} (hc : Tok.chr c ∈ re) (h : findSubmatch re s ≠ none) :
    c ∈ s := by
  rw [findSubmatch, Ne, List.findSome?_eq_none_iff] at h
  push Not at h
  obtain ⟨t, ht, h⟩ := h
  exact ((List.mem_tails _ _).1 ht).subset (mem_of_matchHere hc h)

/-! ## The methods `Id` -/

theorem lost_regex {g : Gate} (h : Lost g) : Tok.chr '<' ∈ (handlerOf g).regex := by
  have hm : ∀ s : String, '<' ∈ s.toList → Tok.chr '<' ∈ lit s := fun s hs => List.mem_map.2 ⟨_, hs, rfl⟩
  cases g <;> simp only [Lost] at h
  · refine List.mem_append_right _ (List.mem_cons_of_mem _ (List.mem_append_right _ (List.mem_cons_of_mem _
      (List.mem_append_right _ (List.mem_cons_of_mem _ (hm _ ?_))))))
    decide +kernel
  · refine List.mem_append_right _ (List.mem_cons_of_mem _ (List.mem_append_left _ (hm _ ?_)))
    decide +kernel
  · refine List.mem_append_right _ (List.mem_cons_of_mem _ (List.mem_append_right _ (List.mem_cons_of_mem _
      (List.mem_append_right _ (List.mem_cons_of_mem _ (List.mem_append_left _ (hm _ ?_)))))))
    decide +kernel

theorem digits_ne_lt (n : ℕ) : '<' ∉ Nat.toDigits 10 n := fun h => by
  have := digits_isDigit _ h; revert this; decide

theorem names_alpha : ∀ N ∈ names, ∀ d ∈ N.toList, d.isAlpha = true := by decide +kernel

/-- Nothing in the identifier of such a gate is the name of another gate or `<`. -/
theorem lost_id {render : List Fp → String} (hr : ∀ w, ∀ c ∈ (render w).toList, c.isAlpha = false ∧ c ≠ '<') {g : Gate}
    (h : Lost g) : '<' ∉ (g.id render).toList ∧ ∀ N ∈ names, N ≠ nameOf g → ¬ N.toList <:+: (g.id render).toList := by
  cases g <;> simp only [Lost] at h
  · rename_i b d w
    have e : (Gate.id render (.cosetInterpolation b d w)).toList =
        "CosetInterpolationGate { subgroup_bits: ".toList ++ (Nat.toDigits 10 b ++ (", degree: ".toList ++
          (Nat.toDigits 10 d ++ (", barycentric_weights: ".toList ++ (((render w).toList ++ " }".toList) ++ []))))) := by
      show ("CosetInterpolationGate { subgroup_bits: " ++ toString b ++ ", degree: " ++ toString d ++
        ", barycentric_weights: " ++ render w ++ " }").toList = _
      simp only [String.toList_append, toList_nat, List.append_assoc, List.append_nil]
    have k : ∀ N ∈ names, N ≠ "CosetInterpolationGate" →
        ¬ N.toList <:+: "CosetInterpolationGate { subgroup_bits: ".toList ∧
        ¬ N.toList <:+: ", degree: ".toList ∧ ¬ N.toList <:+: ", barycentric_weights: ".toList ∧
        ¬ N.toList <:+: [] := by decide +kernel
    have k' : '<' ∉ "CosetInterpolationGate { subgroup_bits: ".toList ∧ '<' ∉ ", degree: ".toList ∧
      '<' ∉ ", barycentric_weights: ".toList ∧ '<' ∉ " }".toList := by decide +kernel
    rw [e]
    constructor
    · simp only [List.mem_append, not_or]
      exact ⟨k'.1, digits_ne_lt b, k'.2.1, digits_ne_lt d, k'.2.2.1, ⟨fun hc => (hr w _ hc).2 rfl, k'.2.2.2⟩, List.not_mem_nil⟩
    · intro N hN hne hc
      rcases infix_number hN hc with hc | hc
      · exact (k N hN hne).1 hc
      rcases infix_number hN hc with hc | hc
      · exact (k N hN hne).2.1 hc
      have hx : ∀ x ∈ (render w).toList ++ " }".toList, x ∉ N.toList := by
        intro x hx hxN
        have ha := names_alpha N hN x hxN
        rcases List.mem_append.1 hx with hx | hx
        · rw [(hr w x hx).1] at ha; exact absurd ha (by simp)
        · have : ∀ x ∈ " }".toList, x.isAlpha = false := by decide +kernel
          rw [this x hx] at ha; exact absurd ha (by simp)
      rcases infix_split (names_clean N hN).1 (by simp) hx hc with hc | hc
      · exact (k N hN hne).2.2.1 hc
      · exact (k N hN hne).2.2.2 hc
  · rename_i n
    have e : (Gate.id render (.exponentiation n)).toList =
        "ExponentiationGate { num_power_bits: ".toList ++ (Nat.toDigits 10 n ++ " }".toList) := by
      show ("ExponentiationGate { num_power_bits: " ++ toString n ++ " }").toList = _
      simp only [String.toList_append, toList_nat, List.append_assoc]
    have k : ∀ N ∈ names, N ≠ "ExponentiationGate" → ¬ N.toList <:+: "ExponentiationGate { num_power_bits: ".toList ∧
        ¬ N.toList <:+: " }".toList := by decide +kernel
    have k' : '<' ∉ "ExponentiationGate { num_power_bits: ".toList ∧ '<' ∉ " }".toList := by decide +kernel
    rw [e]
    constructor
    · simp only [List.mem_append, not_or]
      exact ⟨k'.1, digits_ne_lt n, k'.2⟩
    · intro N hN hne hc
      rcases infix_number hN hc with hc | hc
      · exact (k N hN hne).1 hc
      · exact (k N hN hne).2 hc
  · rename_i b c e
    have e : (Gate.id render (.randomAccess b c e)).toList =
        "RandomAccessGate { bits: ".toList ++ (Nat.toDigits 10 b ++ (", num_copies: ".toList ++ (Nat.toDigits 10 c ++
          (", num_extra_constants: ".toList ++ (Nat.toDigits 10 e ++ " }".toList))))) := by
      show ("RandomAccessGate { bits: " ++ toString b ++ ", num_copies: " ++ toString c ++
        ", num_extra_constants: " ++ toString e ++ " }").toList = _
      simp only [String.toList_append, toList_nat, List.append_assoc]
    have k : ∀ N ∈ names, N ≠ "RandomAccessGate" → ¬ N.toList <:+: "RandomAccessGate { bits: ".toList ∧
        ¬ N.toList <:+: ", num_copies: ".toList ∧ ¬ N.toList <:+: ", num_extra_constants: ".toList ∧
        ¬ N.toList <:+: " }".toList := by decide +kernel
    have k' : '<' ∉ "RandomAccessGate { bits: ".toList ∧ '<' ∉ ", num_copies: ".toList ∧
      '<' ∉ ", num_extra_constants: ".toList ∧ '<' ∉ " }".toList := by decide +kernel
    rw [e]
    constructor
    · simp only [List.mem_append, not_or]
      exact ⟨k'.1, digits_ne_lt b, k'.2.1, digits_ne_lt c, k'.2.2.1, digits_ne_lt _, k'.2.2.2⟩
    · intro N hN hne hc
      rcases infix_number hN hc with hc | hc
      · exact (k N hN hne).1 hc
      rcases infix_number hN hc with hc | hc
      · exact (k N hN hne).2.1 hc
      rcases infix_number hN hc with hc | hc
      · exact (k N hN hne).2.2.1 hc
      · exact (k N hN hne).2.2.2 hc

theorem lost_none {render : List Fp → String} (hr : ∀ w, ∀ c ∈ (render w).toList, c.isAlpha = false ∧ c ≠ '<') {g : Gate}
    (h : Lost g) {order : List Handler} (ho : order.Perm gateRegexHandlers) :
    gateInstanceFromId order (g.id render).toList = none := by
  refine instance_none fun x hx => ?_
  obtain ⟨N, hN, h1, h2⟩ := handler_name x (ho.subset hx)
  by_contra hc
  by_cases hn : N = nameOf g
  · have := h2 g hn; subst this
    exact (lost_id hr h).1 (mem_of_find (lost_regex h) hc)
  · exact (lost_id hr h).2 N hN hn (infix_of_find h1 hc)

/-- The other gates have the identifier of plonky2, possibly without its suffix. -/
theorem kept_id (render : List Fp → String) {g : Gate} (h : ¬ Lost g) :
    g.id render = gateId g ∨ g = .poseidon ∨ g = .poseidonMds := by
  cases g <;> first | exact Or.inl rfl | exact Or.inr (Or.inl rfl) | exact Or.inr (Or.inr rfl) | exact absurd trivial h

theorem kept_weights {g : Gate} (h : ¬ Lost g) : HasWeights g := by
  cases g <;> first | trivial | exact absurd trivial h

theorem kept_parse (render : List Fp → String) {g : Gate} (h : ¬ Lost g) {order : List Handler}
    (ho : order.Perm gateRegexHandlers) :
    gateInstanceFromId order (g.id render).toList = if InRange g then some g else none := by
  have short : ∀ (h0 : Handler) (s : String) (caps : List (List Char)), h0 ∈ gateRegexHandlers →
      findSubmatch h0.regex s.toList = some caps →
      (∀ i : Fin 14, (gateRegexHandlers.get i).regex = h0.regex ∧ (gateRegexHandlers.get i) = h0 ∨
        ¬ (names.get i).toList <:+: s.toList) → gateInstanceFromId order s.toList = h0.make caps := by
    intro h0 s caps hm hf hi
    refine instance_unique (ho.symm.subset hm) hf fun x hx => ?_
    obtain ⟨i, rfl⟩ := List.get_of_mem (ho.subset hx)
    rcases hi i with hi | hi
    · exact Or.inl hi.2
    · refine Or.inr ?_
      by_contra hc
      exact hi (infix_of_find (handler_start i) hc)
  rcases kept_id render h with e | rfl | rfl
  · rw [e]; exact instance_gateId (kept_weights h) ho
  · refine (short poseidonHandler "PoseidonGate" [] (handlerOf_mem .poseidon) (find_of_match ?_) fun i => ?_).trans ?_
    · rw [poseidonHandler, lit]
      have := matchHere_chrs "PoseidonGate".toList [.anyStar] []
      rw [List.append_nil] at this
      rw [this, matchHere_anyStar]
    · have k : ∀ i : Fin 14, i = 8 ∨ ¬ (names.get i).toList <:+: "PoseidonGate".toList := by decide +kernel
      rcases k i with rfl | hk
      · exact Or.inl ⟨rfl, rfl⟩
      · exact Or.inr hk
    · rfl
  · refine (short poseidonMdsHandler "PoseidonMdsGate" [] (handlerOf_mem .poseidonMds) (find_of_match ?_) fun i => ?_).trans ?_
    · rw [poseidonMdsHandler, lit]
      have := matchHere_chrs "PoseidonMdsGate".toList [.anyStar] []
      rw [List.append_nil] at this
      rw [this, matchHere_anyStar]
    · have k : ∀ i : Fin 14, i = 9 ∨ ¬ (names.get i).toList <:+: "PoseidonMdsGate".toList := by decide +kernel
      rcases k i with rfl | hk
      · exact Or.inl ⟨rfl, rfl⟩
      · exact Or.inr hk
    · rfl

end Verif.Gates
