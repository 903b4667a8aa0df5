import Verif.Proofs.Kzg
import Mathlib.Algebra.Algebra.Bilinear

/-!
# Property C86: the sanity check of the reference string
-/

set_option autoImplicit false

namespace Verif

open TrustedSetup

variable {G₁ G₂ GT : Type} [AddCommGroup G₁] [AddCommGroup G₂] [AddCommGroup GT] [Module Fr G₁] [Module Fr G₂] [Module Fr GT]

/-- **C86** All polynomials of 60 coefficients pass exactly when there are at least 60 points and the first 60 satisfy the
pairing equations of neighbours. -/
theorem C86_all (e : G₁ →ₗ[Fr] G₂ →ₗ[Fr] GT) (srs : SRS G₁ G₂) (hv : srs.pkG1.head? = some srs.vkG1) :
    (∀ f : List Fr, f.length = 60 → sanityCheck e srs f = some ()) ↔
      60 ≤ srs.pkG1.length ∧
        ∀ i < 59, e (srs.pkG1.getD (i + 1) 0) srs.vkG2.1 = e (srs.pkG1.getD i 0) srs.vkG2.2 := by
  constructor
  · intro h
    refine ⟨?_, fun i hi => ?_⟩
    · have := ((check_iff e hv (f := List.replicate 60 0) (by simp)).1 (h _ (by simp))).1
      simpa using this
    · obtain ⟨f, hf⟩ := residual_exists e srs hi
      have := ((check_iff e hv (f := List.ofFn f) (by simp)).1 (h _ (by simp))).2
      rw [← quot, hf, defect, sub_eq_zero] at this
      exact this
  · rintro ⟨hl, h⟩ f hf
    refine (check_iff e hv (by omega)).2 ⟨by omega, ?_⟩
    rw [residual, length_synthetic, List.length_tail, hf]
    refine Finset.sum_eq_zero fun i hi => ?_
    rw [defect, h i (Finset.mem_range.1 hi), sub_self, smul_zero]

/-- **C86** With a nondegenerate pairing, all polynomials pass exactly when the first 60 points are the powers of the secret
times the first point. -/
theorem C86_powers (e : G₁ →ₗ[Fr] G₂ →ₗ[Fr] GT) (srs : SRS G₁ G₂) (hv : srs.pkG1.head? = some srs.vkG1) (τ : Fr)
    (hτ : srs.vkG2.2 = τ • srs.vkG2.1) (hnd : ∀ s, e s srs.vkG2.1 = 0 → s = 0) :
    (∀ f : List Fr, f.length = 60 → sanityCheck e srs f = some ()) ↔
      60 ≤ srs.pkG1.length ∧ ∀ i < 60, srs.pkG1.getD i 0 = τ ^ i • srs.vkG1 := by
  rw [C86_all e srs hv]
  have h0 : srs.pkG1.getD 0 0 = srs.vkG1 := by
    cases hp : srs.pkG1 with
    | nil => rw [hp] at hv; simp at hv
    | cons s g => rw [hp] at hv; simpa using hv
  refine and_congr_right fun _ => ⟨fun h i => ?_, fun h i hi => ?_⟩
  · induction i with
    | zero => intro _; rw [h0, pow_zero, one_smul]
    | succ i ih =>
      intro hi
      have h1 := h i (by omega)
      rw [hτ, map_smul, ih (by omega), ← LinearMap.smul_apply, ← map_smul, ← sub_eq_zero, ← LinearMap.sub_apply,
        ← map_sub] at h1
      rw [sub_eq_zero.1 (hnd _ h1), pow_succ', mul_smul]
  · rw [h i (by omega), h (i + 1) (by omega), hτ, pow_succ', mul_smul]
    simp only [map_smul, LinearMap.smul_apply]

/-- **C86** If one of the equations fails, at most one polynomial of 60 coefficients in `r` passes. -/
theorem C86_sound (e : G₁ →ₗ[Fr] G₂ →ₗ[Fr] GT) (srs : SRS G₁ G₂) (hv : srs.pkG1.head? = some srs.vkG1) {i : ℕ} (hi : i < 59)
    (h : e (srs.pkG1.getD (i + 1) 0) srs.vkG2.1 ≠ e (srs.pkG1.getD i 0) srs.vkG2.2) :
    Nat.card {f : Fin 60 → Fr // sanityCheck e srs (List.ofFn f) = some ()} * r ≤ Nat.card (Fin 60 → Fr) := by
  have hc := card_residual e srs hi (sub_ne_zero.2 h)
  have hle : Nat.card {f : Fin 60 → Fr // sanityCheck e srs (List.ofFn f) = some ()} ≤
      Nat.card {f : Fin (59 + 1) → Fr // residual e srs (quot f) = 0} := by
    refine Nat.card_le_card_of_injective
      (fun f => ⟨f.1, ((check_iff e hv (f := List.ofFn f.1) (by simp)).1 f.2).2⟩) fun f g hfg => ?_
    exact Subtype.ext (Subtype.mk.inj hfg)
  rw [Nat.card_fun, Nat.card_zmod, Nat.card_fin]
  exact (Nat.mul_le_mul_right r hle).trans hc

/-- **C86** A string of fewer than 60 points fails. -/
theorem C86_short (e : G₁ →ₗ[Fr] G₂ →ₗ[Fr] GT) (srs : SRS G₁ G₂) (f : List Fr) (hf : f.length = 60)
    (h : srs.pkG1.length < 60) : sanityCheck e srs f = none := by
  rw [sanityCheck, commit, if_pos (Or.inr (by omega))]; rfl

/-- **C86** Points from the 60th on are not looked at: replacing them changes no outcome. -/
theorem C86_blind (e : G₁ →ₗ[Fr] G₂ →ₗ[Fr] GT) (srs : SRS G₁ G₂) (hv : srs.pkG1.head? = some srs.vkG1) (f : List Fr)
    (hf : f.length = 60) (hl : 60 ≤ srs.pkG1.length) (g : List G₁) :
    sanityCheck e ⟨srs.pkG1.take 60 ++ g, srs.vkG1, srs.vkG2⟩ f = sanityCheck e srs f := by
  have hv' : (srs.pkG1.take 60 ++ g).head? = some srs.vkG1 := by
    cases hp : srs.pkG1 with
    | nil => rw [hp] at hl; simp at hl
    | cons s l => rw [hp] at hv; simpa using hv
  have hd : ∀ i < 60, (srs.pkG1.take 60 ++ g).getD i 0 = srs.pkG1.getD i 0 := by
    intro i hi
    simp only [List.getD_eq_getElem?_getD]
    rw [List.getElem?_append_left (by simp; omega), List.getElem?_take_of_lt hi]
  have hr : residual e ⟨srs.pkG1.take 60 ++ g, srs.vkG1, srs.vkG2⟩ (synthetic 4321 f.tail) =
      residual e srs (synthetic 4321 f.tail) := by
    rw [residual, residual, length_synthetic, List.length_tail, hf]
    refine Finset.sum_congr rfl fun i hi => ?_
    have hi := Finset.mem_range.1 hi
    simp only [defect, hd i (by omega), hd (i + 1) (by omega)]
  have hiff : sanityCheck e ⟨srs.pkG1.take 60 ++ g, srs.vkG1, srs.vkG2⟩ f = some () ↔ sanityCheck e srs f = some () := by
    rw [check_iff e hv' (by omega), check_iff e hv (by omega), hr, hf]
    simp [hl]
  exact Option.ext fun u => by cases u; exact hiff

/-- 59 powers are refused; two further points change nothing. -/
example (f : List Fr) (hf : f.length = 60) :
    sanityCheck (LinearMap.mul Fr Fr) ⟨(List.range 59).map fun i => (2 : Fr) ^ i, 1, (1, 2)⟩ f = none ∧
    sanityCheck (LinearMap.mul Fr Fr) ⟨((List.range 64).map fun i => (2 : Fr) ^ i).take 60 ++ [5, 6], 1, (1, 2)⟩ f =
      sanityCheck (LinearMap.mul Fr Fr) ⟨(List.range 64).map fun i => (2 : Fr) ^ i, 1, (1, 2)⟩ f :=
  ⟨C86_short _ _ _ hf (by simp), C86_blind _ ⟨(List.range 64).map fun i => (2 : Fr) ^ i, 1, (1, 2)⟩ (by simp [List.range, List.range.loop]) _ hf (by simp) _⟩

/-- **C86** A string is saved exactly when the contributions of the participants from `startIdx` on (at least two) could be
fetched, each follows its predecessor, the string has the points of the last of them, and it passes the check. -/
theorem C86_saved {κ : Type} (e : G₁ →ₗ[Fr] G₂ →ₗ[Fr] GT) (g2gen : G₂) (get : κ → Option (Contribution G₁ G₂))
    (follows : Contribution G₁ G₂ → Contribution G₁ G₂ → Bool) (participants : List κ) (startIdx : ℕ) (f : List Fr)
    (srs : SRS G₁ G₂) : download e g2gen get follows participants startIdx f = some srs ↔
      ∃ (cs : List (Contribution G₁ G₂)) (c : Contribution G₁ G₂), 2 ≤ cs.length ∧
        (participants.drop startIdx).Forall₂ (fun k c => get k = some c) cs ∧
        cs.IsChain (fun a b => follows b a = true) ∧ cs.getLast? = some c ∧
        srs.pkG1 = c.g1 ∧ c.g1.head? = some srs.vkG1 ∧ srs.vkG2.1 = g2gen ∧ c.g2.head? = some srs.vkG2.2 ∧
        sanityCheck e srs f = some () := by
  constructor
  · intro h
    rw [download] at h
    simp only [Option.bind_eq_bind, Option.bind_eq_some_iff] at h
    obtain ⟨c, hc, s, hs, _, hk, he⟩ := h
    cases he
    obtain ⟨cs, h1, h2, h3, h4⟩ := (last_iff participants startIdx c).1 hc
    rw [makeSrs] at hs
    simp only [Option.bind_eq_bind, Option.bind_eq_some_iff] at hs
    obtain ⟨v, hv, t, ht, he⟩ := hs
    cases he
    exact ⟨cs, c, h1, h2, h3, h4, rfl, by rw [List.head?_eq_getElem?]; exact hv, rfl,
      by rw [List.head?_eq_getElem?]; exact ht, hk⟩
  · rintro ⟨cs, c, h1, h2, h3, h4, h5, h6, h7, h8, h9⟩
    obtain ⟨pk, v, g, t⟩ := srs
    simp only at h5 h6 h7 h8
    subst h5 h7
    rw [List.head?_eq_getElem?] at h6 h8
    rw [download, (last_iff participants startIdx c).2 ⟨cs, h1, h2, h3, h4⟩]
    simp only [makeSrs, h6, h8, Option.bind_eq_bind, Option.bind_some, Option.pure_def, h9]

/-- **C86** The check also passes on a string of 60 zeros: that the first point generates the group is left to the ceremony's
own checks. -/
theorem C86_zeros (e : G₁ →ₗ[Fr] G₂ →ₗ[Fr] GT) (t : G₂ × G₂) (f : List Fr) (hf : f.length = 60) :
    sanityCheck e ⟨List.replicate 60 0, 0, t⟩ f = some () :=
  (C86_all e ⟨List.replicate 60 0, 0, t⟩ rfl).2 ⟨by simp, fun i hi => by
    simp only [List.getD_replicate (0 : G₁) (show i < 60 by omega), List.getD_replicate (0 : G₁) (show i + 1 < 60 by omega)]
    simp⟩ f hf

/-- With `Fr` for all groups and multiplication for the pairing: 64 powers of two pass; with a wrong 38th power at most one
polynomial in `r` does. -/
example : (∀ f : List Fr, f.length = 60 →
      sanityCheck (LinearMap.mul Fr Fr) ⟨(List.range 64).map fun i => (2 : Fr) ^ i, 1, (1, 2)⟩ f = some ()) ∧
    Nat.card {f : Fin 60 → Fr // sanityCheck (LinearMap.mul Fr Fr)
      ⟨((List.range 64).map fun i => (2 : Fr) ^ i).set 38 7, 1, (1, 2)⟩ (List.ofFn f) = some ()} * r ≤
        Nat.card (Fin 60 → Fr) := by
  refine ⟨(C86_powers _ _ rfl 2 (by simp) (by simp)).2 ⟨by simp, ?_⟩, C86_sound _ _ rfl (i := 37) (by norm_num) ?_⟩
  · intro i hi
    rw [List.getD_eq_getElem _ _ (by simp; omega)]
    simp
  · decide +kernel

end Verif
