import Verif.Spec.Deserialize

/-!
# Deserialisation
-/

set_option autoImplicit false

namespace Verif.Deserialize

open Spec.Deserialize

theorem mapM_iff {α β : Type} {f : α → Option β} {R : α → β → Prop} (h : ∀ a b, f a = some b ↔ R a b) (l : List α)
    (m : List β) : l.mapM f = some m ↔ l.Forall₂ R m := by
  induction l generalizing m with
  | nil =>
    rw [List.mapM_nil]
    constructor
    · intro e
      rw [← Option.some.inj e]
      exact List.Forall₂.nil
    · intro e
      cases e
      rfl
  | cons a l ih =>
    rw [List.mapM_cons]
    constructor
    · intro e
      cases ha : f a with
      | none => rw [ha] at e; exact absurd e (by simp)
      | some b =>
        cases hl : l.mapM f with
        | none => rw [ha, hl] at e; exact absurd e (by simp)
        | some m' =>
          rw [ha, hl] at e
          rw [← Option.some.inj e]
          exact List.Forall₂.cons ((h a b).1 ha) ((ih m').1 hl)
    · intro e
      cases e with
      | cons h1 h2 =>
        rw [(h _ _).2 h1, (ih _).2 h2]
        rfl

theorem map_iff {α β : Type} (f : α → β) (l : List α) (m : List β) :
    l.map f = m ↔ l.Forall₂ (fun a b => b = f a) m := by
  induction l generalizing m with
  | nil => cases m <;> simp
  | cons a l ih =>
    cases m with
    | nil => simp
    | cons b m => rw [List.map_cons, List.cons.injEq, List.forall₂_cons, ih, eq_comm (a := f a)]

theorem bigDigits_iff (s : List Char) (n : ℕ) :
    bigDigits s = some n ↔ s ≠ [] ∧ (∀ c ∈ s, c.isDigit = true) ∧ n = Nat.ofDigitChars 10 s 0 := by
  rw [bigDigits]
  simp only [List.all_eq_true]
  split
  · rename_i h
    rw [Option.some_inj]
    exact ⟨fun e => ⟨h.1, h.2, e.symm⟩, fun e => e.2.2.symm⟩
  · rename_i h
    exact ⟨fun e => absurd e (by simp), fun e => absurd ⟨e.1, e.2.1⟩ h⟩

theorem bigSetString_iff (s : String) (z : ℤ) : bigSetString s = some z ↔ Decimal s z := by
  have hd : ∀ c d, (∀ x ∈ c :: d, Char.isDigit x = true) → c ≠ '-' ∧ c ≠ '+' := by
    intro c d h
    have := h c (List.mem_cons_self ..)
    constructor <;> (rintro rfl; exact absurd this (by decide))
  rw [bigSetString, Decimal]
  split
  · rename_i t ht
    rw [Option.map_eq_some_iff]
    constructor
    · rintro ⟨n, hn, rfl⟩
      obtain ⟨h1, h2, rfl⟩ := (bigDigits_iff _ _).1 hn
      exact ⟨t, h1, h2, Or.inr ⟨ht, rfl⟩⟩
    · rintro ⟨d, h1, h2, ⟨h3 | h3, -⟩ | ⟨h3, rfl⟩⟩
      · rw [ht] at h3
        rw [← h3] at h2
        exact absurd rfl (hd _ _ h2).1
      · rw [ht] at h3
        exact absurd (List.cons.inj h3).1 (by decide)
      · rw [ht] at h3
        rw [(List.cons.inj h3).2]
        exact ⟨_, (bigDigits_iff _ _).2 ⟨h1, h2, rfl⟩, rfl⟩
  · rename_i t ht
    rw [Option.map_eq_some_iff]
    constructor
    · rintro ⟨n, hn, rfl⟩
      obtain ⟨h1, h2, rfl⟩ := (bigDigits_iff _ _).1 hn
      exact ⟨t, h1, h2, Or.inl ⟨Or.inr ht, rfl⟩⟩
    · rintro ⟨d, h1, h2, ⟨h3 | h3, rfl⟩ | ⟨h3, -⟩⟩
      · rw [ht] at h3
        rw [← h3] at h2
        exact absurd rfl (hd _ _ h2).2
      · rw [ht] at h3
        rw [(List.cons.inj h3).2]
        exact ⟨_, (bigDigits_iff _ _).2 ⟨h1, h2, rfl⟩, rfl⟩
      · rw [ht] at h3
        exact absurd (List.cons.inj h3).1 (by decide)
  · rename_i hm hp
    rw [Option.map_eq_some_iff]
    constructor
    · rintro ⟨n, hn, rfl⟩
      obtain ⟨h1, h2, rfl⟩ := (bigDigits_iff _ _).1 hn
      exact ⟨_, h1, h2, Or.inl ⟨Or.inl rfl, rfl⟩⟩
    · rintro ⟨d, h1, h2, ⟨h3 | h3, rfl⟩ | ⟨h3, -⟩⟩
      · rw [h3]
        exact ⟨_, (bigDigits_iff _ _).2 ⟨h1, h2, rfl⟩, rfl⟩
      · exact absurd h3 (hp _)
      · exact absurd h3 (hm _)

theorem hashVar_iff (s : String) (h : Fr) : hashVar s = some h ↔ Hash s h := by
  rw [hashVar, Option.map_eq_some_iff, Hash]
  constructor
  · rintro ⟨z, hz, rfl⟩
    exact ⟨z, (bigSetString_iff _ _).1 hz, rfl⟩
  · rintro ⟨z, hz, rfl⟩
    exact ⟨z, (bigSetString_iff _ _).2 hz, rfl⟩

theorem hashArray_iff (l : List String) (m : List Fr) : hashArray l = some m ↔ l.Forall₂ Hash m :=
  mapM_iff hashVar_iff l m

theorem ext_iff (l : List ℕ) (x : QEV) : uint64ArrayToQuadraticExtension l = some x ↔ Ext l x := by
  rw [Ext]
  match l with
  | [] => simp [uint64ArrayToQuadraticExtension]
  | [a] => simp [uint64ArrayToQuadraticExtension]
  | a :: b :: t =>
    rw [uint64ArrayToQuadraticExtension, Option.some_inj]
    constructor
    · rintro rfl
      exact ⟨a, b, t, rfl, rfl, rfl⟩
    · rintro ⟨a', b', t', h, h1, h2⟩
      rw [List.cons.injEq, List.cons.injEq] at h
      rw [h.1, h.2.1, ← h1, ← h2]

theorem extArray_iff (l : List (List ℕ)) (m : List QEV) :
    uint64ArrayToQuadraticExtensionArray l = some m ↔ l.Forall₂ Ext m := mapM_iff ext_iff l m

theorem eltArray_iff (l : List ℕ) (m : List Fr) : uint64ArrayToVariableArray l = m ↔ l.Forall₂ Elt m := map_iff _ l m

theorem bind_iff {α β : Type} {x : Option α} {f : α → Option β} {b : β} :
    (x >>= f) = some b ↔ ∃ a, x = some a ∧ f a = some b := Option.bind_eq_some_iff

theorem openings_iff (raw : OpeningsRaw) (o : OpeningSet QEV) :
    deserializeOpeningSet raw = some o ↔ Openings raw o := by
  rw [deserializeOpeningSet]
  constructor
  · intro h
    obtain ⟨_, h1, h⟩ := bind_iff.1 h
    obtain ⟨_, h2, h⟩ := bind_iff.1 h
    obtain ⟨_, h3, h⟩ := bind_iff.1 h
    obtain ⟨_, h4, h⟩ := bind_iff.1 h
    obtain ⟨_, h5, h⟩ := bind_iff.1 h
    obtain ⟨_, h6, h⟩ := bind_iff.1 h
    obtain ⟨_, h7, h⟩ := bind_iff.1 h
    rw [← Option.some.inj h]
    exact ⟨(extArray_iff _ _).1 h1, (extArray_iff _ _).1 h2, (extArray_iff _ _).1 h3, (extArray_iff _ _).1 h4,
      (extArray_iff _ _).1 h5, (extArray_iff _ _).1 h6, (extArray_iff _ _).1 h7⟩
  · rintro ⟨h1, h2, h3, h4, h5, h6, h7⟩
    rw [(extArray_iff _ _).2 h1, (extArray_iff _ _).2 h2, (extArray_iff _ _).2 h3, (extArray_iff _ _).2 h4,
      (extArray_iff _ _).2 h5, (extArray_iff _ _).2 h6, (extArray_iff _ _).2 h7]
    rfl

theorem evalProof_iff (raw : EvalProofRaw) (x : FriEvalProof Fr) :
    deserializeEvalProof raw = some x ↔ EvalProof raw x := by
  rw [deserializeEvalProof]
  constructor
  · intro h
    obtain ⟨_, h1, h⟩ := bind_iff.1 h
    rw [← Option.some.inj h]
    exact ⟨(eltArray_iff _ _).1 rfl, (hashArray_iff _ _).1 h1⟩
  · rintro ⟨h1, h2⟩
    rw [(hashArray_iff _ _).2 h2, (eltArray_iff _ _).2 h1]
    rfl

theorem step_iff (raw : StepRaw) (x : FriQueryStep QEV) : deserializeStep raw = some x ↔ Step raw x := by
  rw [deserializeStep]
  constructor
  · intro h
    obtain ⟨_, h1, h⟩ := bind_iff.1 h
    obtain ⟨_, h2, h⟩ := bind_iff.1 h
    rw [← Option.some.inj h]
    exact ⟨(extArray_iff _ _).1 h1, (hashArray_iff _ _).1 h2⟩
  · rintro ⟨h1, h2⟩
    rw [(extArray_iff _ _).2 h1, (hashArray_iff _ _).2 h2]
    rfl

theorem round_iff (raw : QueryRoundRaw) (x : FriQueryRound Fr QEV) :
    deserializeQueryRound raw = some x ↔ Round raw x := by
  rw [deserializeQueryRound]
  constructor
  · intro h
    obtain ⟨_, h1, h⟩ := bind_iff.1 h
    obtain ⟨_, h2, h⟩ := bind_iff.1 h
    rw [← Option.some.inj h]
    exact ⟨(mapM_iff evalProof_iff _ _).1 h1, (mapM_iff step_iff _ _).1 h2⟩
  · rintro ⟨h1, h2⟩
    rw [(mapM_iff evalProof_iff _ _).2 h1, (mapM_iff step_iff _ _).2 h2]
    rfl

theorem fri_iff (raw : FriProofRaw) (x : FriProof Fr QEV) : deserializeFriProof raw = some x ↔ Fri raw x := by
  rw [deserializeFriProof]
  constructor
  · intro h
    obtain ⟨_, h1, h⟩ := bind_iff.1 h
    obtain ⟨_, h2, h⟩ := bind_iff.1 h
    obtain ⟨_, h3, h⟩ := bind_iff.1 h
    rw [← Option.some.inj h]
    exact ⟨(mapM_iff hashArray_iff _ _).1 h2, (mapM_iff round_iff _ _).1 h3, (extArray_iff _ _).1 h1, rfl⟩
  · rintro ⟨h1, h2, h3, h4⟩
    rw [(extArray_iff _ _).2 h3, (mapM_iff hashArray_iff _ _).2 h1, (mapM_iff round_iff _ _).2 h2]
    rw [Elt] at h4
    rw [← h4]
    rfl

theorem withPublicInputs_iff (raw : ProofWithPublicInputsRaw) (x : ProofWithPublicInputs Fr QEV) :
    deserializeProofWithPublicInputs raw = some x ↔ WithPublicInputs raw x := by
  rw [deserializeProofWithPublicInputs]
  constructor
  · intro h
    obtain ⟨_, h1, h⟩ := bind_iff.1 h
    obtain ⟨_, h2, h⟩ := bind_iff.1 h
    obtain ⟨_, h3, h⟩ := bind_iff.1 h
    obtain ⟨_, h4, h⟩ := bind_iff.1 h
    obtain ⟨_, h5, h⟩ := bind_iff.1 h
    rw [← Option.some.inj h]
    exact ⟨(hashArray_iff _ _).1 h1, (hashArray_iff _ _).1 h2, (hashArray_iff _ _).1 h3, (openings_iff _ _).1 h4,
      (fri_iff _ _).1 h5, (eltArray_iff _ _).1 rfl⟩
  · rintro ⟨h1, h2, h3, h4, h5, h6⟩
    rw [(hashArray_iff _ _).2 h1, (hashArray_iff _ _).2 h2, (hashArray_iff _ _).2 h3, (openings_iff _ _).2 h4,
      (fri_iff _ _).2 h5, (eltArray_iff _ _).2 h6]
    rfl

theorem verifierOnly_iff (raw : VerifierOnlyCircuitDataRaw) (x : VerifierOnlyCircuitData) :
    deserializeVerifierOnlyCircuitData raw = some x ↔ VerifierOnly raw x := by
  rw [deserializeVerifierOnlyCircuitData]
  constructor
  · intro h
    obtain ⟨_, h1, h⟩ := bind_iff.1 h
    obtain ⟨_, h2, h⟩ := bind_iff.1 h
    rw [← Option.some.inj h]
    exact ⟨(hashArray_iff _ _).1 h1, (hashVar_iff _ _).1 h2⟩
  · rintro ⟨h1, h2⟩
    rw [(hashArray_iff _ _).2 h1, (hashVar_iff _ _).2 h2]
    rfl

/-! ## Serialised data -/

theorem hash_hashStr (h : Fr) : Hash (hashStr h) h := by
  refine ⟨h.val, ⟨Nat.toDigits 10 h.val, Nat.toDigits_ne_nil, fun c hc => Nat.isDigit_of_mem_toDigits (by norm_num)
    (by norm_num) hc, Or.inl ⟨Or.inl ?_, ?_⟩⟩, ?_⟩
  · show (String.ofList (Nat.toDigits 10 h.val)).toList = _
    rw [String.toList_ofList]
  · rw [Nat.ofDigitChars_toDigits (by norm_num) (by norm_num)]
  · rw [Int.cast_natCast, ZMod.natCast_zmod_val]

theorem ext_extArr (x : QE) : Ext (extArr x) (embQ x) := ⟨x.re.val, x.im.val, [], rfl, rfl, rfl⟩

theorem forall₂_map {α β γ : Type} {R : β → γ → Prop} {f : α → β} {g : α → γ} (h : ∀ a, R (f a) (g a)) (l : List α) :
    (l.map f).Forall₂ R (l.map g) := by
  induction l with
  | nil => exact List.Forall₂.nil
  | cons a l ih => exact List.Forall₂.cons (h a) ih

theorem hash_map (l : List Fr) : (l.map hashStr).Forall₂ Hash l := by
  conv => arg 3; rw [← List.map_id l]
  exact forall₂_map hash_hashStr l

theorem serialize_corresponds (x : Proof Fp QE) (pis : List Fp) :
    WithPublicInputs (serialize x pis) ⟨x.enc, pis.map emb⟩ := by
  refine ⟨hash_map _, hash_map _, hash_map _, ?_, ?_, forall₂_map (R := Elt) (g := emb) (fun _ => rfl) _⟩
  · exact ⟨forall₂_map ext_extArr _, forall₂_map ext_extArr _, forall₂_map ext_extArr _, forall₂_map ext_extArr _,
      forall₂_map ext_extArr _, forall₂_map ext_extArr _, forall₂_map ext_extArr _⟩
  · refine ⟨?_, ?_, forall₂_map ext_extArr _, rfl⟩
    · show (List.map _ _).Forall₂ _ x.openingProof.commitCaps
      conv => arg 3; rw [← List.map_id x.openingProof.commitCaps]
      exact forall₂_map (fun l => hash_map l) _
    · exact forall₂_map (fun q => ⟨forall₂_map (fun e => ⟨forall₂_map (R := Elt) (g := emb) (fun _ => rfl) _, hash_map _⟩) _,
        forall₂_map (fun s => ⟨forall₂_map ext_extArr _, hash_map _⟩) _⟩) _

end Verif.Deserialize

namespace Verif.TrustedSetup

theorem eval_cons {p : List Fr} (hp : p ≠ []) (a x : Fr) :
    eval (a :: p) x = (eval p x).map fun y => y * x + a := by
  rw [eval, eval, List.reverse_cons]
  cases h : p.reverse with
  | nil => exact absurd (List.reverse_eq_nil_iff.1 h) hp
  | cons b rest => simp [List.foldl_append]

theorem eval_eq {p : List Fr} (hp : p ≠ []) (x : Fr) :
    eval p x = some (∑ i ∈ Finset.range p.length, p.getD i 0 * x ^ i) := by
  induction p with
  | nil => exact absurd rfl hp
  | cons a p ih =>
    by_cases h : p = []
    · subst h; simp [eval]
    · rw [eval_cons h, ih h, Option.map_some, List.length_cons, Finset.sum_range_succ', Finset.sum_mul]
      congr 2
      · exact Finset.sum_congr rfl fun i _ => by rw [List.getD_cons_succ, pow_succ, mul_assoc]
      · rw [List.getD_cons_zero, pow_zero, mul_one]

variable {κ C : Type} {get : κ → Option C} {follows : C → C → Bool}

theorem loop_iff (ks : List κ) (cur next c : C) :
    (∃ d, contributionLoop get follows ks cur next = some (d, c)) ↔
      ∃ cs : List C, ks.Forall₂ (fun k c => get k = some c) cs ∧ (next :: cs).IsChain (fun a b => follows b a = true) ∧
        (next :: cs).getLast? = some c := by
  induction ks generalizing cur next with
  | nil =>
    rw [contributionLoop]
    constructor
    · rintro ⟨d, h⟩
      obtain ⟨-, rfl⟩ := Prod.mk.inj (Option.some.inj h)
      exact ⟨[], List.Forall₂.nil, List.isChain_singleton _, rfl⟩
    · rintro ⟨cs, h1, -, h3⟩
      cases h1
      exact ⟨cur, by rw [show next = c from Option.some.inj h3]⟩
  | cons k ks ih =>
    rw [contributionLoop]
    constructor
    · rintro ⟨d, h⟩
      obtain ⟨c', h1, h⟩ := Option.bind_eq_some_iff.1 h
      cases hf : follows c' next with
      | false => rw [hf] at h; exact absurd h (by simp)
      | true =>
        rw [hf] at h
        obtain ⟨cs, g1, g2, g3⟩ := (ih next c').1 ⟨d, h⟩
        exact ⟨c' :: cs, List.Forall₂.cons h1 g1, List.IsChain.cons_cons hf g2, by rw [List.getLast?_cons_cons]; exact g3⟩
    · rintro ⟨cs, h1, h2, h3⟩
      cases h1 with
      | cons h1 h1' =>
        rename_i c' cs
        rw [List.isChain_cons_cons] at h2
        rw [List.getLast?_cons_cons] at h3
        obtain ⟨d, h⟩ := (ih next c').2 ⟨cs, h1', h2.2, h3⟩
        refine ⟨d, ?_⟩
        show (get k >>= fun nxt => if (!follows nxt next) = true then none else contributionLoop get follows ks next nxt) = _
        rw [h1]
        show (if (!follows c' next) = true then none else contributionLoop get follows ks next c') = _
        rw [h2.1]
        exact h

theorem last_iff (ps : List κ) (startIdx : ℕ) (c : C) :
    lastContribution get follows ps startIdx = some c ↔
      ∃ cs : List C, 2 ≤ cs.length ∧ (ps.drop startIdx).Forall₂ (fun k c => get k = some c) cs ∧
        cs.IsChain (fun a b => follows b a = true) ∧ cs.getLast? = some c := by
  rw [lastContribution]
  constructor
  · intro h
    obtain ⟨k0, h0, h⟩ := Option.bind_eq_some_iff.1 h
    obtain ⟨c0, g0, h⟩ := Option.bind_eq_some_iff.1 h
    obtain ⟨k1, h1, h⟩ := Option.bind_eq_some_iff.1 h
    obtain ⟨c1, g1, h⟩ := Option.bind_eq_some_iff.1 h
    cases hf : follows c1 c0 with
    | false => rw [hf] at h; exact absurd h (by simp)
    | true =>
      rw [hf] at h
      obtain ⟨⟨d, c'⟩, h2, h⟩ := Option.bind_eq_some_iff.1 (show (contributionLoop get follows (ps.drop (startIdx + 2)) c0 c1
        >>= fun r => some r.2) = some c from h)
      obtain rfl : c' = c := Option.some.inj h
      obtain ⟨cs, e1, e2, e3⟩ := (loop_iff _ _ _ _).1 ⟨d, h2⟩
      have l0 := (List.getElem?_eq_some_iff.1 h0).1
      have l1 := (List.getElem?_eq_some_iff.1 h1).1
      refine ⟨c0 :: c1 :: cs, by simp, ?_, List.IsChain.cons_cons hf e2, by rw [List.getLast?_cons_cons]; exact e3⟩
      rw [List.drop_eq_getElem_cons l0, List.drop_eq_getElem_cons l1, (List.getElem?_eq_some_iff.1 h0).2,
        (List.getElem?_eq_some_iff.1 h1).2]
      exact List.Forall₂.cons g0 (List.Forall₂.cons g1 e1)
  · rintro ⟨cs, hl, h1, h2, h3⟩
    match cs, hl with
    | c0 :: c1 :: cs, _ =>
      have hlen := h1.length_eq
      rw [List.length_drop, List.length_cons, List.length_cons] at hlen
      have l0 : startIdx < ps.length := by omega
      have l1 : startIdx + 1 < ps.length := by omega
      rw [List.drop_eq_getElem_cons l0, List.drop_eq_getElem_cons l1, List.forall₂_cons, List.forall₂_cons] at h1
      rw [List.isChain_cons_cons] at h2
      rw [List.getLast?_cons_cons] at h3
      obtain ⟨d, h⟩ := (loop_iff _ c0 c1 c).2 ⟨cs, h1.2.2, h2.2, h3⟩
      rw [List.getElem?_eq_getElem l0, List.getElem?_eq_getElem l1]
      show (get ps[startIdx] >>= fun cur => get ps[startIdx + 1] >>= fun nxt => if (!follows nxt cur) = true then none else
        contributionLoop get follows (ps.drop (startIdx + 2)) cur nxt >>= fun r => some r.2) = _
      rw [h1.1, h1.2.1]
      show (if (!follows c1 c0) = true then none else
        contributionLoop get follows (ps.drop (startIdx + 2)) c0 c1 >>= fun r => some r.2) = _
      rw [h2.1, h]
      rfl

end Verif.TrustedSetup
