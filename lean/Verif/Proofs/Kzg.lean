import Verif.Model.Kzg
import Verif.Proofs.Deserialize
import Verif.Proofs.ScalarField
import Mathlib.Data.ZMod.Basic
import Mathlib.Data.Fintype.Pi
import Mathlib.Data.Fintype.Prod
import Mathlib.Data.List.GetD
import Mathlib.SetTheory.Cardinal.Finite

/-!
# The sanity check of the reference string
-/

set_option autoImplicit false

namespace Verif.TrustedSetup

variable {G₁ G₂ GT : Type} [AddCommGroup G₁] [AddCommGroup G₂] [AddCommGroup GT] [Module Fr G₁] [Module Fr G₂] [Module Fr GT]

theorem msm_cons (c : Fr) (f : List Fr) (s : G₁) (g : List G₁) : msm (c :: f) (s :: g) = c • s + msm f g := by
  simp [msm]

theorem msm_nil_left (g : List G₁) : msm [] g = 0 := by simp [msm]

theorem msm_nil_right (f : List Fr) : msm f ([] : List G₁) = 0 := by simp [msm]

theorem synthetic_cons (a c : Fr) (f : List Fr) :
    synthetic a (c :: f) = (c + a * (synthetic a f).headD 0) :: synthetic a f := rfl

theorem length_synthetic (a : Fr) (f : List Fr) : (synthetic a f).length = f.length := by
  induction f with
  | nil => rfl
  | cons c f ih => rw [synthetic_cons, List.length_cons, List.length_cons, ih]

/-- The remainder is the value. -/
theorem eval_synthetic {f : List Fr} (hf : f ≠ []) (a : Fr) : eval f a = some ((synthetic a f).headD 0) := by
  induction f with
  | nil => exact absurd rfl hf
  | cons c f ih =>
    by_cases h : f = []
    · subst h; simp [eval, synthetic]
    · rw [eval_cons h, ih h, synthetic_cons]
      simp only [Option.map_some, List.headD_cons]
      rw [add_comm, mul_comm]

theorem msm_synthetic (a : Fr) (f : List Fr) (g : List G₁) :
    msm f g + a • msm (synthetic a f).tail g = msm (synthetic a f) g := by
  induction f generalizing g with
  | nil => simp [synthetic, msm_nil_left]
  | cons c f ih =>
    cases g with
    | nil => simp only [msm_nil_right]; simp
    | cons s g =>
      rw [synthetic_cons, msm_cons, msm_cons, List.tail_cons]
      have h : msm (synthetic a f) (s :: g) = (synthetic a f).headD 0 • s + msm (synthetic a f).tail g := by
        cases hq : synthetic a f with
        | nil => simp [msm_nil_left]
        | cons q l => rw [msm_cons]; rfl
      rw [h, ← ih g, smul_add, add_smul, mul_smul]
      abel

/-- The pairing of two neighbouring points of the string, which vanishes for powers of the secret. -/
def defect (e : G₁ →ₗ[Fr] G₂ →ₗ[Fr] GT) (srs : SRS G₁ G₂) (i : ℕ) : GT :=
  e (srs.pkG1.getD (i + 1) 0) srs.vkG2.1 - e (srs.pkG1.getD i 0) srs.vkG2.2

/-- The equation the check tests. -/
def residual (e : G₁ →ₗ[Fr] G₂ →ₗ[Fr] GT) (srs : SRS G₁ G₂) (h : List Fr) : GT :=
  ∑ i ∈ Finset.range h.length, h.getD i 0 • defect e srs i

theorem pair_msm (e : G₁ →ₗ[Fr] G₂ →ₗ[Fr] GT) (t : G₂) (h : List Fr) (g : List G₁) (hg : h.length ≤ g.length) :
    e (msm h g) t = ∑ i ∈ Finset.range h.length, h.getD i 0 • e (g.getD i 0) t := by
  induction h generalizing g with
  | nil => simp [msm_nil_left]
  | cons c h ih =>
    cases g with
    | nil => simp at hg
    | cons s g =>
      rw [msm_cons, map_add, map_smul, LinearMap.add_apply, LinearMap.smul_apply, ih g (by simpa using hg),
        List.length_cons, Finset.sum_range_succ']
      simp [add_comm]

theorem check_iff (e : G₁ →ₗ[Fr] G₂ →ₗ[Fr] GT) {srs : SRS G₁ G₂} (hv : srs.pkG1.head? = some srs.vkG1) {f : List Fr}
    (h2 : 2 ≤ f.length) : sanityCheck e srs f = some () ↔
      f.length ≤ srs.pkG1.length ∧ residual e srs (synthetic 4321 f.tail) = 0 := by
  obtain ⟨c, f, rfl⟩ : ∃ c f', f = c :: f' := by
    cases f with
    | nil => simp at h2
    | cons c f => exact ⟨c, f, rfl⟩
  obtain ⟨s, g, hs⟩ : ∃ s g', srs.pkG1 = s :: g' := by
    cases hp : srs.pkG1 with
    | nil => rw [hp] at hv; simp at hv
    | cons s g => exact ⟨s, g, rfl⟩
  have hv' : srs.vkG1 = s := by rw [hs] at hv; simpa using hv.symm
  have hf : f ≠ [] := by rintro rfl; simp at h2
  by_cases hl : (c :: f).length ≤ srs.pkG1.length
  swap
  · rw [sanityCheck, commit, if_pos (Or.inr (by omega))]
    simp only [Option.bind_eq_bind, Option.bind_none, reduceCtorEq, hl, false_and]
  have hlf : f.length ≤ g.length := by rw [hs] at hl; simpa using hl
  have hco : commit (c :: f) srs.pkG1 = some (msm (c :: f) srs.pkG1) := by
    rw [commit, if_neg]; rintro (h | h)
    · simp at h
    · omega
  have hev := eval_synthetic (List.cons_ne_nil c f) (4321 : Fr)
  rw [synthetic_cons, List.headD_cons] at hev
  set q := synthetic (4321 : Fr) f with hq
  have hlq : q.length = f.length := length_synthetic _ _
  have hcq : commit q srs.pkG1 = some (msm q srs.pkG1) := by
    rw [commit, if_neg]; rintro (h | h)
    · rw [hlq] at h; exact hf (List.length_eq_zero_iff.1 h)
    · rw [hlq, hs, List.length_cons] at h; omega
  have hop : openAt (c :: f) 4321 srs.pkG1 = some (c + 4321 * q.headD 0, msm q srs.pkG1) := by
    rw [openAt, if_neg, hev]
    · simp only [List.headD_cons, List.tail_cons, synthetic_cons, Option.bind_eq_bind, Option.bind_some, ← hq, hcq]; rfl
    · rintro (h | h)
      · simp at h
      · omega
  rw [sanityCheck, hco, hop, hev]
  simp only [Option.bind_eq_bind, Option.bind_some, ne_eq, not_true, if_false, List.tail_cons, ← hq]
  have key : verify e (msm (c :: f) srs.pkG1) (c + 4321 * q.headD 0, msm q srs.pkG1) 4321 srs ↔ residual e srs q = 0 := by
    rw [verify]
    have h1 : msm (c :: f) srs.pkG1 - (c + 4321 * q.headD 0) • srs.vkG1 + (4321 : Fr) • msm q srs.pkG1 = msm q g := by
      rw [hv', hs, msm_cons, ← msm_synthetic (4321 : Fr) f g, ← hq]
      have h : msm q (s :: g) = q.headD 0 • s + msm q.tail g := by
        cases q with
        | nil => simp [msm_nil_left]
        | cons q l => rw [msm_cons]; rfl
      rw [h, add_smul, smul_add, mul_smul]
      abel
    simp only [h1]
    rw [pair_msm e _ q g (by omega), pair_msm e _ q srs.pkG1 (by rw [hs, List.length_cons]; omega), ← sub_eq_zero,
      ← Finset.sum_sub_distrib, residual]
    have : ∀ i, q.getD i 0 • (e (g.getD i 0)) srs.vkG2.1 - q.getD i 0 • (e (srs.pkG1.getD i 0)) srs.vkG2.2 =
        q.getD i 0 • defect e srs i := by
      intro i
      rw [defect, smul_sub, hs, List.getD_cons_succ]
    simp only [this]
  by_cases hr : residual e srs q = 0
  · rw [if_neg (not_not.2 (key.2 hr))]
    simp only [hr, hl, and_self, iff_true]; rfl
  · rw [if_pos fun h => hr (key.1 h)]
    simp [hr]

/-! ## Linearity -/

/-- The quotient of polynomials given by functions. -/
def quot {n : ℕ} (f : Fin (n + 1) → Fr) : List Fr := synthetic 4321 (List.ofFn f).tail

theorem length_quot {n : ℕ} (f : Fin (n + 1) → Fr) : (quot f).length = n := by
  rw [quot, length_synthetic]; simp

theorem getD_synthetic (a : Fr) (f : List Fr) (i : ℕ) :
    (synthetic a f).getD i 0 = ∑ k ∈ Finset.range (f.length - i), f.getD (i + k) 0 * a ^ k := by
  induction f generalizing i with
  | nil => simp [synthetic]
  | cons c f ih =>
    cases i with
    | zero =>
      rw [synthetic_cons, List.getD_cons_zero]
      have h0 := ih 0
      have hh : (synthetic a f).headD 0 = (synthetic a f).getD 0 0 := by cases synthetic a f <;> rfl
      rw [hh, h0, List.length_cons, Nat.sub_zero, Nat.sub_zero, Finset.sum_range_succ', Finset.mul_sum]
      simp only [Nat.zero_add, List.getD_cons_succ, List.getD_cons_zero, pow_zero, mul_one]
      rw [add_comm]
      congr 1
      exact Finset.sum_congr rfl fun k _ => by rw [pow_succ]; ring
    | succ i =>
      rw [synthetic_cons, List.getD_cons_succ, ih i, List.length_cons]
      have : f.length + 1 - (i + 1) = f.length - i := by omega
      rw [this]
      exact Finset.sum_congr rfl fun k _ => by rw [show i + 1 + k = (i + k) + 1 by omega, List.getD_cons_succ]

theorem getD_quot_add {n : ℕ} (f g : Fin (n + 1) → Fr) (b : Fr) (i : ℕ) :
    (quot (f + b • g)).getD i 0 = (quot f).getD i 0 + b * (quot g).getD i 0 := by
  have ht : ∀ (f : Fin (n + 1) → Fr) (j : ℕ), (List.ofFn f).tail.getD j 0 = if h : j + 1 < n + 1 then f ⟨j + 1, h⟩ else 0 := by
    intro f j
    rw [List.ofFn_succ, List.tail_cons]
    by_cases h : j < n
    · rw [dif_pos (by omega), List.getD_eq_getElem _ _ (by simpa using h), List.getElem_ofFn]; rfl
    · rw [dif_neg (by omega), List.getD_eq_default _ _ (by simpa using h)]
  simp only [quot, getD_synthetic, ht, List.length_tail, List.length_ofFn]
  rw [Finset.mul_sum, ← Finset.sum_add_distrib]
  refine Finset.sum_congr rfl fun k _ => ?_
  by_cases h : i + k + 1 < n + 1
  · rw [dif_pos h, dif_pos h, dif_pos h, Pi.add_apply, Pi.smul_apply, smul_eq_mul]; ring
  · rw [dif_neg h, dif_neg h, dif_neg h]; ring

theorem residual_add (e : G₁ →ₗ[Fr] G₂ →ₗ[Fr] GT) (srs : SRS G₁ G₂) {n : ℕ} (f g : Fin (n + 1) → Fr) (b : Fr) :
    residual e srs (quot (f + b • g)) = residual e srs (quot f) + b • residual e srs (quot g) := by
  rw [residual, residual, residual, length_quot, length_quot, length_quot, Finset.smul_sum, ← Finset.sum_add_distrib]
  refine Finset.sum_congr rfl fun i _ => ?_
  rw [getD_quot_add, add_smul, mul_smul]

/-- Every entry of the quotient can be singled out: `(X - 4321) X^j` has the quotient `X^j`. -/
theorem exists_quot {n j : ℕ} (hj : j < n) : ∃ f : Fin (n + 1) → Fr, ∀ i, (quot f).getD i 0 = if i = j then 1 else 0 := by
  refine ⟨fun k => if (k : ℕ) = j + 1 then 1 else if (k : ℕ) = j then -4321 else 0, fun i => ?_⟩
  set F : Fin (n + 1) → Fr := fun k => if (k : ℕ) = j + 1 then 1 else if (k : ℕ) = j then -4321 else 0 with hF
  have ht : ∀ j' : ℕ, (List.ofFn F).tail.getD j' 0 = if j' = j then 1 else if j' + 1 = j then -4321 else 0 := by
    intro j'
    rw [List.ofFn_succ, List.tail_cons]
    by_cases h : j' < n
    · rw [List.getD_eq_getElem _ _ (by simpa using h), List.getElem_ofFn, hF]
      simp
    · rw [List.getD_eq_default _ _ (by simpa using h), if_neg (by omega), if_neg (by omega)]
  rw [quot, getD_synthetic]
  simp only [ht, List.length_tail, List.length_ofFn, Nat.add_sub_cancel]
  by_cases h1 : i = j
  · subst h1
    rw [if_pos rfl, Finset.sum_eq_single 0]
    · simp
    · intro k _ hk
      rw [if_neg (by omega), if_neg (by omega), zero_mul]
    · intro h; exact absurd (Finset.mem_range.2 (by omega)) h
  · rw [if_neg h1]
    by_cases h2 : i < j
    · rw [Finset.sum_eq_add (j - i) (j - i - 1) (by omega)]
      · rw [if_pos (by omega), if_neg (by omega), if_pos (by omega)]
        have : j - i = j - i - 1 + 1 := by omega
        rw [this, pow_succ, Nat.add_sub_cancel]; ring
      · intro k _ hk
        rw [if_neg (by omega), if_neg (by omega), zero_mul]
      · intro h; exact absurd (Finset.mem_range.2 (by omega)) h
      · intro h; exact absurd (Finset.mem_range.2 (by omega)) h
    · refine Finset.sum_eq_zero fun k _ => ?_
      rw [if_neg (by omega), if_neg (by omega), zero_mul]

theorem residual_exists (e : G₁ →ₗ[Fr] G₂ →ₗ[Fr] GT) (srs : SRS G₁ G₂) {n j : ℕ} (hj : j < n) :
    ∃ f : Fin (n + 1) → Fr, residual e srs (quot f) = defect e srs j := by
  obtain ⟨f, hf⟩ := exists_quot hj
  refine ⟨f, ?_⟩
  rw [residual, length_quot, Finset.sum_eq_single j]
  · rw [hf, if_pos rfl, one_smul]
  · intro i _ hi; rw [hf, if_neg hi, zero_smul]
  · intro h; exact absurd (Finset.mem_range.2 hj) h

/-- Either every polynomial passes or at most one in `r`. -/
theorem card_residual (e : G₁ →ₗ[Fr] G₂ →ₗ[Fr] GT) (srs : SRS G₁ G₂) {n j : ℕ} (hj : j < n) (hd : defect e srs j ≠ 0) :
    Nat.card {f : Fin (n + 1) → Fr // residual e srs (quot f) = 0} * r ≤ r ^ (n + 1) := by
  obtain ⟨g, hg⟩ := residual_exists e srs hj
  have hinj : Function.Injective (fun x : {f : Fin (n + 1) → Fr // residual e srs (quot f) = 0} × Fr => x.1.1 + x.2 • g) := by
    rintro ⟨⟨f, hf⟩, b⟩ ⟨⟨f', hf'⟩, b'⟩ h
    have h : f + b • g = f' + b' • g := h
    have h1 := residual_add e srs f g b
    rw [h, residual_add, hf, hf', hg, zero_add, zero_add] at h1
    have h2 : b' = b := by
      rw [← sub_eq_zero, ← sub_smul] at h1
      by_contra hne
      apply hd
      have h3 := congrArg ((b' - b)⁻¹ • ·) h1
      simpa [← mul_smul, inv_mul_cancel₀ (sub_ne_zero.2 hne)] using h3
    subst h2
    have : f = f' := add_right_cancel h
    subst this; rfl
  have hc := Nat.card_le_card_of_injective _ hinj
  rwa [Nat.card_prod, Nat.card_fun, Nat.card_zmod, Nat.card_fin] at hc

end Verif.TrustedSetup
