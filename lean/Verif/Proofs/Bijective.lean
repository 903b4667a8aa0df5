import Verif.Proofs.PoseidonBN
import Verif.Proofs.FreedomVerifier
import Verif.Proofs.ScalarField

/-!
# Both Poseidon permutations are bijective

The S-boxes are powers with exponents prime to the order of the multiplicative group; the matrices have explicit inverses.
-/

set_option autoImplicit false

namespace Verif.Bijective

/-! ## S-boxes -/

theorem sbox7 : Function.Injective fun x : Fp => x ^ 7 := by
  have h : ∀ x : Fp, (x ^ 7) ^ 10540996611094048183 = x := by
    intro x
    rcases eq_or_ne x 0 with rfl | hx
    · rw [zero_pow (by norm_num), zero_pow (by norm_num)]
    · have e : 7 * 10540996611094048183 = (p - 1) * 4 + 1 := by norm_num [p]
      rw [← pow_mul, e, pow_succ, pow_mul, ZMod.pow_card_sub_one_eq_one hx, one_pow, one_mul]
  intro x y hxy
  rw [← h x, ← h y]
  exact congrArg (· ^ 10540996611094048183) hxy

theorem sbox5 : Function.Injective fun x : Fr => x ^ 5 := by
  have h : ∀ x : Fr, (x ^ 5) ^ 17510594297471420177797124596205820070838691520332827474958563349260646796493 = x := by
    intro x
    rcases eq_or_ne x 0 with rfl | hx
    · rw [zero_pow (by norm_num), zero_pow (by norm_num)]
    · have e : 5 * 17510594297471420177797124596205820070838691520332827474958563349260646796493 = (r - 1) * 4 + 1 := by
        norm_num [r]
      rw [← pow_mul, e, pow_succ, pow_mul, ZMod.pow_card_sub_one_eq_one hx, one_pow, one_mul]
  intro x y hxy
  rw [← h x, ← h y]
  exact congrArg (· ^ 17510594297471420177797124596205820070838691520332827474958563349260646796493) hxy

/-! ## Matrices -/

/-- Inverse of the MDS matrix modulo `p`. -/
def invGL : List (List ℕ) :=
  [[2891478276878408554, 7123496211716975600, 2792499011700802346, 15046731739407394332, 6410245340094436434, 7372329164078188003, 13428475461483594930, 17159454736860167210, 14158379621130694125, 18371355498955898534, 4560121475298374916, 6968089110401027555],
   [6968089110401027555, 12665952108105860207, 17554403955230404538, 496719562732243969, 3966069705740507678, 7128070894764834394, 18360948357832051426, 17398923894478128366, 14545639727925577436, 9628159230077411243, 7469488439948578618, 14384315376451899266],
   [4560121475298374916, 1343089054943182702, 12239558723860853872, 17650707237194657990, 10584718175091408691, 8210291421292071025, 1129686729411870300, 11301721104518408112, 6882867935175067023, 11173460702287064452, 1779290966603982008, 7469488439948578618],
   [18371355498955898534, 9963564827820038973, 1177280366644348402, 14472390581364912377, 5278845790599327763, 7703493745629883262, 10562315004165152719, 468678927663289166, 15571952736825813724, 9121569064106077322, 11173460702287064452, 9628159230077411243],
   [14158379621130694125, 17705885695116005561, 3897240325230150643, 9746689866682589923, 17808499455397427455, 8887451184218647973, 8883727162586465222, 15722913892279841390, 2295443704351999741, 15571952736825813724, 6882867935175067023, 14545639727925577436],
   [17159454736860167210, 6113701443457804411, 15581803319430693456, 13606215340324125922, 3461238349614554975, 1480274134911063096, 214591790752956809, 13327264449340499668, 15722913892279841390, 468678927663289166, 11301721104518408112, 17398923894478128366],
   [13428475461483594930, 1364329046505537679, 6190952913522913855, 16434138627858689075, 8498436624474622748, 12020007687449131841, 5030707027883125620, 214591790752956809, 8883727162586465222, 10562315004165152719, 1129686729411870300, 18360948357832051426],
   [7372329164078188003, 13484425339609914190, 5837229360514110263, 8370718165562942351, 18287545747427792766, 13325566947137949947, 12020007687449131841, 1480274134911063096, 8887451184218647973, 7703493745629883262, 8210291421292071025, 7128070894764834394],
   [6410245340094436434, 5606386466065293762, 5174201521531423242, 6313814229429576995, 10947634719753150918, 18287545747427792766, 8498436624474622748, 3461238349614554975, 17808499455397427455, 5278845790599327763, 10584718175091408691, 3966069705740507678],
   [15046731739407394332, 9225162492632027557, 2680727443991262911, 12235082229167212012, 6313814229429576995, 8370718165562942351, 16434138627858689075, 13606215340324125922, 9746689866682589923, 14472390581364912377, 17650707237194657990, 496719562732243969],
   [2792499011700802346, 2555263881341987052, 3711099788214643511, 2680727443991262911, 5174201521531423242, 5837229360514110263, 6190952913522913855, 15581803319430693456, 3897240325230150643, 1177280366644348402, 12239558723860853872, 17554403955230404538],
   [7123496211716975600, 14011168963828279864, 2555263881341987052, 9225162492632027557, 5606386466065293762, 13484425339609914190, 1364329046505537679, 6113701443457804411, 17705885695116005561, 9963564827820038973, 1343089054943182702, 12665952108105860207]]

/-- Inverse of the MDS matrix modulo `r`. -/
def invBN : List (List ℕ) :=
  [[11239114693084128058350549425958125915870892581960291781646776687851667760511, 10105904584143632958783842630590907635614410488137638706977141480225053827069, 8104036960966147189101800989775920647625500664553165383841890478993922009615, 13547822514978294959002052115353920741235948502815086056188194139721200024529],
   [17180212420275995557616871030357493081845313999414438317117909921536406425240, 19496189677657170031134895716482846603070791663007046765701745588750816355082, 20717396551825803561945124640512316642676745150324919037843884938555531187946, 7233549595790842876984150095673077175891799131667941095056312107187582589289],
   [63293749764506713865852125670478415142242049702559418529190374291922314342, 20997613103829603118088736833887667029833486054585021560711906801368797395132, 11769043381262369061021694927441780830851691633245557709188905335734193934562, 14794618957752837215478846153093682160082798435133416241093865496020999948315],
   [18435995467914368338030649447291416156023519009803181931225356018791817292716, 11647559130835872936137947916676891100033865740710437890043099087099063384814, 9703722530472974316472023849920669712779958964331855495701344579696333617860, 11305307883196156176954142544556220438612092089945530529670534119088904997747]]

def invGLEnt (i j : Fin 12) : ℕ := (invGL.getD i []).getD j 0
def invBNEnt (i j : Fin 4) : ℕ := (invBN.getD i []).getD j 0

theorem check_invGL : ∀ i j : Fin 12,
    ((List.finRange 12).map fun k => invGLEnt i k * Spec.mds k j).sum % p = (if i = j then 1 else 0) % p := by
  decide +kernel

theorem check_invBN : ∀ i j : Fin 4,
    ((List.finRange 4).map fun k => invBNEnt i k * PoseidonBN.mEnt k j).sum % r = (if i = j then 1 else 0) % r := by
  decide +kernel

theorem sum_finRange {n : ℕ} (f : Fin n → ℕ) : ((List.finRange n).map f).sum = ∑ i, f i := by
  rw [← List.ofFn_eq_map, List.sum_ofFn]

theorem mixGL : Function.Injective (Spec.mix : (Fin 12 → Fp) → _) := by
  have h : ∀ (s : Fin 12 → Fp) (i : Fin 12), ∑ k, (invGLEnt i k : Fp) * Spec.mix s k = s i := by
    intro s i
    simp only [Spec.mix, Finset.mul_sum]
    rw [Finset.sum_comm]
    have e : ∀ j, ∑ k, (invGLEnt i k : Fp) * ((Spec.mds k j : Fp) * s j) = (if i = j then 1 else 0) * s j := by
      intro j
      have := (ZMod.natCast_eq_natCast_iff' _ _ p).2 (check_invGL i j)
      rw [sum_finRange] at this
      push_cast at this
      rw [← this, Finset.sum_mul]
      exact Finset.sum_congr rfl fun k _ => (mul_assoc _ _ _).symm
    rw [Finset.sum_congr rfl fun j _ => e j]
    simp
  intro s t hst
  funext i
  rw [← h s i, ← h t i, hst]

theorem mixBN : Function.Injective Spec.BN.mix := by
  have h : ∀ (s : Fin 4 → Fr) (i : Fin 4), ∑ k, (invBNEnt i k : Fr) * Spec.BN.mix s k = s i := by
    intro s i
    simp only [Spec.BN.mix, Finset.mul_sum, PoseidonBN.mds_eq]
    rw [Finset.sum_comm]
    have e : ∀ j, ∑ k, (invBNEnt i k : Fr) * ((PoseidonBN.mEnt k j : Fr) * s j) = (if i = j then 1 else 0) * s j := by
      intro j
      have := PoseidonBN.cast_eq_of_mod (check_invBN i j)
      rw [sum_finRange] at this
      push_cast at this
      rw [← this, Finset.sum_mul]
      exact Finset.sum_congr rfl fun k _ => (mul_assoc _ _ _).symm
    rw [Finset.sum_congr rfl fun j _ => e j]
    simp
  intro s t hst
  funext i
  rw [← h s i, ← h t i, hst]

/-! ## Permutations -/

theorem foldl_inj {S : Type} {f : S → ℕ → S} (h : ∀ k, Function.Injective fun s => f s k) (l : List ℕ) :
    Function.Injective fun s => l.foldl f s := by
  induction l with
  | nil => exact fun _ _ e => e
  | cons k l ih => exact fun s t e => h k (ih e)

theorem fullGL (k : ℕ) : Function.Injective fun s : Fin 12 → Fp => Spec.fullRound s k := by
  intro s t e
  funext i
  exact add_right_cancel (sbox7 (congrFun (mixGL e) i))

theorem partialGL (k : ℕ) : Function.Injective fun s : Fin 12 → Fp => Spec.partialRound s k := by
  intro s t e
  funext i
  have := congrFun (mixGL e) i
  by_cases hi : i = 0
  · rw [if_pos hi, if_pos hi] at this
    exact add_right_cancel (sbox7 this)
  · rw [if_neg hi, if_neg hi] at this
    exact add_right_cancel this

theorem injGL : Function.Injective (Spec.poseidon : (Fin 12 → Fp) → _) := by
  intro s t e
  exact foldl_inj fullGL _ (foldl_inj partialGL _ (foldl_inj fullGL _ e))

theorem fullBN (k : ℕ) : Function.Injective fun s => Spec.BN.fullRound s k := by
  intro s t e
  funext i
  exact add_right_cancel (sbox5 (congrFun (mixBN e) i))

theorem partialBN (k : ℕ) : Function.Injective fun s => Spec.BN.partialRound s k := by
  intro s t e
  funext i
  have := congrFun (mixBN e) i
  by_cases hi : i = 0
  · rw [if_pos hi, if_pos hi] at this
    exact add_right_cancel (sbox5 this)
  · rw [if_neg hi, if_neg hi] at this
    exact add_right_cancel this

theorem injBN : Function.Injective Spec.BN.poseidon := by
  intro s t e
  simp only [Spec.BN.poseidon_def] at e
  exact foldl_inj fullBN _ (foldl_inj partialBN _ (foldl_inj fullBN _ e))

/-! ## Sponge states -/

/-- The last block and the positions it leaves alone are determined by the final state. -/
theorem absorb_last {P : (Fin 12 → Fp) → Fin 12 → Fp} (hP : Function.Injective P) (s : Fin 12 → Fp)
    (c c' : List (List Fp)) (x x' : List Fp) (hx : x.length = x'.length) (h12 : x.length ≤ 12) :
    Spec.absorb P s (c ++ [x]) = Spec.absorb P s (c' ++ [x']) ↔
      x = x' ∧ ∀ j : Fin 12, x.length ≤ j → Spec.absorb P s c j = Spec.absorb P s c' j := by
  simp only [Spec.absorb, List.foldl_append, List.foldl_cons, List.foldl_nil]
  constructor
  · intro h
    have h := hP h
    refine ⟨List.ext_getElem hx fun i h1 h2 => ?_, fun j hj => ?_⟩
    · have := congrFun h ⟨i, h1.trans_le h12⟩
      simpa only [List.getElem?_eq_getElem h1, List.getElem?_eq_getElem h2, Option.getD_some] using this
    · have := congrFun h j
      simpa only [List.getElem?_eq_none hj, List.getElem?_eq_none (hx ▸ hj), Option.getD_none] using this
  · rintro ⟨rfl, h⟩
    refine congrArg P (funext fun j => ?_)
    by_cases hj : (j : ℕ) < x.length
    · simp only [List.getElem?_eq_getElem hj, Option.getD_some]
    · simp only [List.getElem?_eq_none (not_lt.1 hj), Option.getD_none]
      exact h j (not_lt.1 hj)

theorem chunks_last (l : List Fp) (hl : l ≠ []) : Spec.chunks l =
    Spec.chunks (l.take (8 * ((l.length - 1) / 8))) ++ [l.drop (8 * ((l.length - 1) / 8))] := by
  have hpos := List.length_pos_iff.2 hl
  conv_lhs => rw [← List.take_append_drop (8 * ((l.length - 1) / 8)) l]
  rw [Challenger.chunks_append _ _ (by rw [List.length_take, min_eq_left (by omega)]; exact dvd_mul_right _ _),
    Challenger.chunks_short (l.drop _) _ (by rw [List.length_drop]; omega)]
  intro e
  have := congrArg List.length e
  rw [List.length_drop, List.length_nil] at this
  omega

theorem absorb_inner {P : (Fin 12 → Fp) → Fin 12 → Fp} (hP : Function.Injective P) (l l' : List Fp)
    (hl : l.length = l'.length) (hne : l ≠ l') (s : Fin 12 → Fp)
    (h : Spec.absorb P s (Spec.chunks l) = Spec.absorb P s (Spec.chunks l')) :
    ∃ k, 8 * k < l.length ∧ l.take (8 * k) ≠ l'.take (8 * k) ∧ ∀ j : Fin 12, 8 ≤ (j : ℕ) →
      Spec.absorb P s (Spec.chunks (l.take (8 * k))) j = Spec.absorb P s (Spec.chunks (l'.take (8 * k))) j := by
  have h0 : l ≠ [] := by
    rintro rfl
    exact hne (List.length_eq_zero_iff.1 hl.symm).symm
  have h0' : l' ≠ [] := by
    rintro rfl
    exact h0 (List.length_eq_zero_iff.1 hl)
  have hpos := List.length_pos_iff.2 h0
  rw [chunks_last l h0, chunks_last l' h0', ← hl, absorb_last hP _ _ _ _ _ (by simp [hl])
    (by rw [List.length_drop]; omega)] at h
  obtain ⟨e, hc⟩ := h
  refine ⟨(l.length - 1) / 8, by omega, fun e' => hne ?_, fun j hj => hc j ?_⟩
  · rw [← List.take_append_drop (8 * ((l.length - 1) / 8)) l, e, e', List.take_append_drop]
  · rw [List.length_drop]; omega

/-! ## The quadratic extension -/

/-- An element of order 7. -/
def seventh : QE := ⟨5944920260829899519, 14626010055324763854⟩

theorem seventh_pow : seventh ^ 7 = 1 := by decide +kernel

theorem seventh_ne : seventh ≠ 1 := by decide +kernel

theorem not_inj_QE : ¬ Function.Injective (Spec.poseidon : (Fin 12 → QE) → _) := by
  intro h
  have hf : ∀ s t : Fin 12 → QE, Spec.fullRound s 0 = Spec.fullRound t 0 → Spec.poseidon s = Spec.poseidon t := by
    intro s t e
    simp only [Spec.poseidon, List.foldl_cons, List.foldl_nil, e]
  have := h (hf (fun j => if j = 0 then seventh - (Spec.rc 0 0 : QE) else 0)
    (fun j => if j = 0 then 1 - (Spec.rc 0 0 : QE) else 0) (by
      refine congrArg Spec.mix (funext fun j => ?_)
      beta_reduce
      by_cases hj : j = 0
      · subst hj
        rw [if_pos rfl, if_pos rfl, sub_add_cancel, sub_add_cancel, seventh_pow, one_pow]
      · rw [if_neg hj, if_neg hj]))
  have := congrFun this 0
  rw [if_pos rfl, if_pos rfl] at this
  exact seventh_ne (sub_left_inj.1 this)

/-! ## The S-box as a relation -/

open Spec.Free

theorem sbox7_surj (y : Fp) : ∃ x : Fp, x ^ 7 = y := Finite.surjective_of_injective sbox7 y

/-- Every result of the code's S-box is also a result for a different argument. -/
theorem sbox_other {a b : Fp} : ∃ a', a' ≠ a ∧ SBox a' b := by
  have hr : (r : Fp) ≠ 0 := PoseidonGL.r_fp_ne_zero
  have h : ∀ k : ℕ, k ≤ 5 → ∀ x : Fp, x ^ 7 = b - k * (r : Fp) → SBox x b := fun k hk x hx =>
    ⟨0, k, by norm_num, hk, by
      rw [Nat.cast_zero, zero_mul, add_zero, show x * (x ^ 3) ^ 2 = x ^ 7 by ring, hx, sub_add_cancel]⟩
  obtain ⟨x, hx⟩ := sbox7_surj (b - (0 : ℕ) * (r : Fp))
  obtain ⟨y, hy⟩ := sbox7_surj (b - (1 : ℕ) * (r : Fp))
  by_cases hxa : x = a
  · refine ⟨y, fun e => hr ?_, h 1 (by norm_num) y hy⟩
    rw [e, ← hxa, hx] at hy
    push_cast at hy
    linear_combination hy
  · exact ⟨x, hxa, h 0 (by norm_num) x hx⟩

/-- Every coordinate of the input of the relational permutation can be replaced, independently. -/
theorem perm_other {s t : St} (h : Perm SBox s t) :
    ∃ v : St, (∀ i, v i ≠ s i) ∧ ∀ s' : St, (∀ i, s' i = v i ∨ s' i = s i) → Perm SBox s' t := by
  obtain ⟨a, b, ⟨m, ⟨u, hu, rfl⟩, h1⟩, h2, h3⟩ := h
  choose x hx hs using fun i => sbox_other (a := s i + (Spec.rc 0 i : Fp)) (b := u i)
  refine ⟨fun i => x i - (Spec.rc 0 i : Fp), fun i e => hx i (by rw [← e, sub_add_cancel]), fun s' hs' =>
    ⟨a, b, ⟨_, ⟨u, fun j => ?_, rfl⟩, h1⟩, h2, h3⟩⟩
  rcases hs' j with e | e
  · rw [e, sub_add_cancel]
    exact hs j
  · rw [e]
    exact hu j

/-- The same for lists of blocks: `f k j` replaces element `j` of block `k`. -/
theorem absorb_other (bs : List (List Fp)) (hb : ∀ b ∈ bs, b.length ≤ 12) {s t : St} (h : Absorb (Perm SBox) bs s t) :
    ∃ f : ℕ → ℕ → Fp, (∀ k j, f k j ≠ (bs.getD k []).getD j 0) ∧
      ∀ bs' : List (List Fp), List.Forall₂ (fun b b' => b.length = b'.length) bs bs' →
        (∀ k j, (bs'.getD k []).getD j 0 = f k j ∨ (bs'.getD k []).getD j 0 = (bs.getD k []).getD j 0) →
        Absorb (Perm SBox) bs' s t := by
  induction bs generalizing s with
  | nil =>
    refine ⟨fun _ _ => 1, fun k j => by simp, fun bs' hf _ => ?_⟩
    cases hf
    exact h
  | cons b l ih =>
    obtain ⟨m, hm, hl⟩ := h
    obtain ⟨f, hf, hall⟩ := ih (fun b hb' => hb b (List.mem_cons_of_mem _ hb')) hl
    obtain ⟨v, hv, hp⟩ := perm_other hm
    refine ⟨fun k j => match k with
      | 0 => if h : j < b.length then v (Fin.ofNat 12 j) else 1
      | k + 1 => f k j, fun k j => ?_, fun bs' hf' hc => ?_⟩
    · cases k with
      | zero =>
        simp only [List.getD_cons_zero]
        by_cases hj : j < b.length
        · have hj12 : j % 12 = j := Nat.mod_eq_of_lt (hj.trans_le (hb b (by simp)) |>.trans_le le_rfl)
          rw [dif_pos hj]
          have := hv (Fin.ofNat 12 j)
          simp only [over, Fin.val_ofNat, hj12] at this
          rwa [List.getD_eq_getElem?_getD, List.getElem?_eq_getElem hj, Option.getD_some] at *
        · rw [dif_neg hj, List.getD_eq_default _ _ (by omega)]
          exact one_ne_zero
      | succ k => simpa only [List.getD_cons_succ] using hf k j
    · cases hf' with
      | cons hlen hf' =>
        rename_i b' l'
        refine ⟨m, hp _ fun i => ?_, hall _ hf' fun k j => by simpa only [List.getD_cons_succ] using hc (k + 1) j⟩
        have hc := hc 0 i
        simp only [List.getD_cons_zero] at hc
        by_cases hi : (i : ℕ) < b.length
        · rw [dif_pos hi] at hc
          have e : Fin.ofNat 12 (i : ℕ) = i := by ext; simp
          rw [e] at hc
          simp only [over, List.getElem?_eq_getElem hi, List.getElem?_eq_getElem (hlen ▸ hi), Option.getD_some]
          rwa [List.getD_eq_getElem?_getD, List.getD_eq_getElem?_getD, List.getElem?_eq_getElem hi,
            List.getElem?_eq_getElem (hlen ▸ hi), Option.getD_some, Option.getD_some] at hc
        · right
          simp only [over, List.getElem?_eq_none (not_lt.1 hi), List.getElem?_eq_none (hlen ▸ not_lt.1 hi)]

theorem chunks_getD (l : List Fp) (k j : ℕ) : ((Spec.chunks l).getD k []).getD j 0 = if j < 8 then l.getD (8 * k + j) 0 else 0 := by
  by_cases hk : k < (l.length + 7) / 8
  · have e : (Spec.chunks l).getD k [] = (l.drop (8 * k)).take 8 := by
      simp [Spec.chunks, List.getD_eq_getElem?_getD, List.getElem?_range hk]
    rw [e]
    simp only [List.getD_eq_getElem?_getD, List.getElem?_take, List.getElem?_drop]
    split_ifs <;> rfl
  · have e : (Spec.chunks l).getD k [] = [] := by
      rw [List.getD_eq_default]
      simp only [Spec.chunks, List.length_map, List.length_range]; omega
    rw [e, List.getD_nil, List.getD_eq_default _ _ (by omega), ite_self]

theorem chunks_forall2 (l l' : List Fp) (h : l.length = l'.length) :
    List.Forall₂ (fun b b' => b.length = b'.length) (Spec.chunks l) (Spec.chunks l') := by
  simp only [Spec.chunks, ← h, List.forall₂_map_left_iff, List.forall₂_map_right_iff]
  exact List.forall₂_same.2 fun k _ => by simp [h]

/-- Every element of a hashed list can be replaced, independently of the others. -/
theorem hash_other (l : List Fp) {h : Fin 4 → Fp} (hh : Hash (Perm SBox) l h) :
    ∃ f : ℕ → Fp, (∀ m, f m ≠ l.getD m 0) ∧ ∀ l' : List Fp, l'.length = l.length →
      (∀ m, l'.getD m 0 = f m ∨ l'.getD m 0 = l.getD m 0) → Hash (Perm SBox) l' h := by
  obtain ⟨t, ht, ho⟩ := hh
  obtain ⟨f, hf, hall⟩ := absorb_other _ (fun b hb => by
    simp only [Spec.chunks, List.mem_map] at hb
    obtain ⟨k, -, rfl⟩ := hb
    exact (List.length_take_le _ _).trans (by norm_num)) ht
  refine ⟨fun m => f (m / 8) (m % 8), fun m => ?_, fun l' hl hc => ⟨t, hall _ (chunks_forall2 _ _ hl.symm) ?_, ho⟩⟩
  · have := hf (m / 8) (m % 8)
    rwa [chunks_getD, if_pos (Nat.mod_lt _ (by norm_num)), Nat.div_add_mod] at this
  · intro k j
    rw [chunks_getD, chunks_getD]
    by_cases hj : j < 8
    · rw [if_pos hj, if_pos hj]
      have := hc (8 * k + j)
      beta_reduce at this
      rwa [show (8 * k + j) / 8 = k by omega, show (8 * k + j) % 8 = j by omega] at this
    · rw [if_neg hj, if_neg hj]
      exact .inr rfl

end Verif.Bijective
