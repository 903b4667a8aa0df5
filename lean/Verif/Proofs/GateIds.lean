import Verif.Model.GateIds
import Verif.Spec.GateIds

/-!
# Parsing of gate identifiers
-/

set_option autoImplicit false

namespace Verif.Gates

open Spec.Gates (gateId identifier Represents reducedWords InRange HasWeights names)

/-! ## Infixes -/

theorem infix_of_append_cons {N A B : List Char} {d : Char} (hd : d ∉ N) (h : N <:+: A ++ d :: B) :
    N <:+: A ∨ N <:+: B := by
  obtain ⟨s, t, h⟩ := h
  rw [List.append_assoc, List.append_eq_append_iff] at h
  rcases h with ⟨a, h1, h2⟩ | ⟨a, h1, h2⟩
  · -- `A = s ++ a`, `N ++ t = a ++ d :: B`
    rw [List.append_eq_append_iff] at h2
    rcases h2 with ⟨b, h3, h4⟩ | ⟨b, h3, h4⟩
    · exact Or.inl ⟨s, b, by rw [h1, h3, List.append_assoc]⟩
    · cases b with
      | nil => exact Or.inl ⟨s, [], by rw [h1, h3]; simp⟩
      | cons x b =>
        rw [List.cons_append, List.cons.injEq] at h4
        exact absurd (by rw [h3, h4.1]; simp) hd
  · -- `s = A ++ a`, `d :: B = a ++ (N ++ t)`
    cases a with
    | nil =>
      cases N with
      | nil => exact Or.inl (List.nil_infix)
      | cons x N =>
        rw [List.nil_append, List.cons_append, List.cons.injEq] at h2
        exact absurd (by rw [h2.1]; simp) hd
    | cons x a =>
      rw [List.cons_append, List.cons.injEq] at h2
      exact Or.inr ⟨a, t, by rw [h2.2, List.append_assoc]⟩

/-- A name cannot reach across a non-empty group of characters it does not contain. -/
theorem infix_split {N A ds B : List Char} (hN : N ≠ []) (hds : ds ≠ []) (hd : ∀ d ∈ ds, d ∉ N)
    (h : N <:+: A ++ (ds ++ B)) : N <:+: A ∨ N <:+: B := by
  have hB : ∀ ds : List Char, (∀ d ∈ ds, d ∉ N) → N <:+: ds ++ B → N <:+: B := by
    intro ds
    induction ds with
    | nil => intro _ h; exact h
    | cons d ds ih =>
      intro hd h
      rcases infix_of_append_cons (A := []) (hd d (List.mem_cons_self ..)) h with h | h
      · exact absurd (List.infix_nil.1 h) hN
      · exact ih (fun x hx => hd x (List.mem_cons_of_mem _ hx)) h
  cases ds with
  | nil => exact absurd rfl hds
  | cons d ds =>
    rcases infix_of_append_cons (hd d (List.mem_cons_self ..)) h with h | h
    · exact Or.inl h
    · exact Or.inr (hB ds (fun x hx => hd x (List.mem_cons_of_mem _ hx)) h)

/-! ## Matching -/

theorem matchHere_chrs (l : List Char) (t : List Tok) (s : List Char) :
    matchHere (l.map .chr ++ t) (l ++ s) = matchHere t s := by
  induction l with
  | nil => rfl
  | cons c l ih => rw [List.map_cons, List.cons_append, List.cons_append, matchHere, if_pos rfl, ih]

theorem prefix_of_matchHere {l : List Char} {t : List Tok} {s : List Char} (h : matchHere (l.map .chr ++ t) s ≠ none) :
    l <+: s := by
  induction l generalizing s with
  | nil => exact List.nil_prefix
  | cons c l ih =>
    cases s with
    | nil => exact absurd rfl h
    | cons x s =>
      rw [List.map_cons, List.cons_append, matchHere] at h
      by_cases hx : x = c
      · rw [if_pos hx] at h
        rw [hx]
        exact List.cons_prefix_cons.2 ⟨rfl, ih h⟩
      · rw [if_neg hx] at h; exact absurd rfl h

/-- A pattern starting with a literal matches only strings that contain it. -/
theorem infix_of_find {re : List Tok} {N : List Char} (hre : re.take N.length = N.map .chr) {s : List Char}
    (h : findSubmatch re s ≠ none) : N <:+: s := by
  have hre' : re = N.map .chr ++ re.drop N.length := by rw [← hre, List.take_append_drop]
  rw [findSubmatch, Ne, List.findSome?_eq_none_iff] at h
  push Not at h
  obtain ⟨u, hu, h⟩ := h
  rw [hre'] at h
  exact (prefix_of_matchHere h).isInfix.trans ((List.mem_tails _ _).1 hu).isInfix

theorem find_of_match {re : List Tok} {s : List Char} {caps : List (List Char)} (h : matchHere re s = some caps) :
    findSubmatch re s = some caps := by
  cases s with
  | nil => rw [findSubmatch, List.tails, List.findSome?_cons, h]
  | cons x s => rw [findSubmatch, List.tails_cons, List.findSome?_cons, h]

theorem tryLengths_top {α : Type} {f : ℕ → Option α} {lo hi : ℕ} (h : lo ≤ hi) {y : α} (hy : f hi = some y) :
    tryLengths f lo hi = some y := by
  cases hi with
  | zero => rw [tryLengths, if_pos (by omega), hy]
  | succ hi => rw [tryLengths, if_neg (by omega), hy]; rfl

theorem takeWhile_stop {q : Char → Bool} {ds s : List Char} (hd : ∀ d ∈ ds, q d = true)
    (hs : ∀ c ∈ s.head?, q c = false) : (ds ++ s).takeWhile q = ds := by
  rw [List.takeWhile_append_of_pos hd]
  cases s with
  | nil => simp
  | cons c s => rw [List.takeWhile_cons, hs c (by simp)]; simp

theorem matchHere_digits {t : List Tok} {ds s : List Char} (hne : ds ≠ []) (hd : ∀ d ∈ ds, isDigitC d = true)
    (hs : ∀ c ∈ s.head?, isDigitC c = false) {caps : List (List Char)} (h : matchHere t s = some caps) :
    matchHere (.digits :: t) (ds ++ s) = some (ds :: caps) := by
  rw [matchHere, takeWhile_stop hd hs]
  refine tryLengths_top (List.length_pos_iff.2 hne) ?_
  rw [List.drop_left, List.take_left, h]
  rfl

theorem matchHere_digitList {t : List Tok} {ds s : List Char} (hne : ds ≠ []) (hd : ∀ d ∈ ds, isListC d = true)
    (hs : ∀ c ∈ s.head?, isListC c = false) {caps : List (List Char)} (h : matchHere t s = some caps) :
    matchHere (.digitList :: t) (ds ++ s) = some (ds :: caps) := by
  rw [matchHere, takeWhile_stop hd hs]
  refine tryLengths_top (List.length_pos_iff.2 hne) ?_
  rw [List.drop_left, List.take_left, h]
  rfl

theorem matchHere_anyStar (s : List Char) : matchHere [.anyStar] s = some [] := by
  rw [matchHere]
  exact tryLengths_top (Nat.zero_le _) rfl

/-! ## Numbers -/

theorem digits_isDigit {n : ℕ} : ∀ d ∈ Nat.toDigits 10 n, isDigitC d = true := fun _ hd =>
  Nat.isDigit_of_mem_toDigits (by norm_num) (by norm_num) hd

theorem atoi_digits (n : ℕ) : atoi (Nat.toDigits 10 n) = if n < 2 ^ 63 then some n else none := by
  rw [atoi, Nat.ofDigitChars_toDigits (by norm_num) (by norm_num)]
  by_cases h : n < 2 ^ 63
  · rw [if_pos ⟨Nat.toDigits_ne_nil, List.all_eq_true.2 digits_isDigit, h⟩, if_pos h]
  · rw [if_neg fun hc => h hc.2.2, if_neg h]

theorem parseUint_digits (n : ℕ) : parseUint (Nat.toDigits 10 n) = if n < 2 ^ 64 then some n else none := by
  rw [parseUint, Nat.ofDigitChars_toDigits (by norm_num) (by norm_num)]
  by_cases h : n < 2 ^ 64
  · rw [if_pos ⟨Nat.toDigits_ne_nil, List.all_eq_true.2 digits_isDigit, h⟩, if_pos h]
  · rw [if_neg fun hc => h hc.2.2, if_neg h]

/-! ## Weights -/

/-- Characters of the list of weights. -/
def weightsText : List ℕ → List Char
  | [] => []
  | [n] => Nat.toDigits 10 n
  | n :: m :: l => Nat.toDigits 10 n ++ ',' :: ' ' :: weightsText (m :: l)

theorem intercalate_weights (l : List ℕ) : (", ".intercalate (l.map fun n => toString n)).toList = weightsText l := by
  induction l with
  | nil => simp [weightsText]
  | cons n l ih =>
    cases l with
    | nil => simp [weightsText, Nat.toList_repr]
    | cons m l =>
      rw [List.map_cons, List.map_cons, String.intercalate_cons_cons, ← List.map_cons, String.toList_append,
        String.toList_append, ih, weightsText]
      simp [Nat.toList_repr]

theorem weightsText_isList (l : List ℕ) : ∀ d ∈ weightsText l, isListC d = true := by
  have hdig : ∀ n : ℕ, ∀ d ∈ Nat.toDigits 10 n, isListC d = true := fun n d hd => by
    have := digits_isDigit d hd
    rw [isDigitC] at this
    simp [isListC, this]
  induction l with
  | nil => simp [weightsText]
  | cons n l ih =>
    cases l with
    | nil => exact hdig n
    | cons m l =>
      intro d hd
      rw [weightsText, List.mem_append, List.mem_cons, List.mem_cons] at hd
      rcases hd with hd | rfl | rfl | hd
      · exact hdig n d hd
      · rfl
      · rfl
      · exact ih d hd

theorem weightsText_ne_nil {l : List ℕ} (h : l ≠ []) : weightsText l ≠ [] := by
  match l with
  | [] => exact absurd rfl h
  | [n] => exact Nat.toDigits_ne_nil
  | n :: m :: l => simp [weightsText]

theorem trimSpace_digits (n : ℕ) : trimSpace (Nat.toDigits 10 n) = Nat.toDigits 10 n := by
  have hd : ∀ l : List Char, (∀ d ∈ l, isDigitC d = true) → l.dropWhile (· == ' ') = l := by
    intro l hl
    cases l with
    | nil => rfl
    | cons c l =>
      have := hl c (List.mem_cons_self ..)
      have hc : (c == ' ') = false := by
        rw [beq_eq_false_iff_ne]; rintro rfl; revert this; decide
      rw [List.dropWhile_cons, hc]; simp
  rw [trimSpace, hd _ digits_isDigit, hd _ (fun d hd => digits_isDigit d (List.mem_reverse.1 hd)), List.reverse_reverse]

theorem trimSpace_space_digits (n : ℕ) : trimSpace (' ' :: Nat.toDigits 10 n) = Nat.toDigits 10 n := by
  have h : trimSpace (' ' :: Nat.toDigits 10 n) = trimSpace (Nat.toDigits 10 n) := by
    rw [trimSpace, trimSpace, List.dropWhile_cons]; simp
  rw [h, trimSpace_digits]

theorem comma_not_mem (n : ℕ) : ',' ∉ Nat.toDigits 10 n := fun h => by
  have := digits_isDigit _ h; revert this; decide

theorem splitOn_weights (l : List ℕ) (h : l ≠ []) (sp : Bool) :
    (((if sp then [' '] else []) ++ weightsText l).splitOn ',').map trimSpace = l.map (Nat.toDigits 10) := by
  have key : ∀ (n : ℕ) (sp : Bool), trimSpace ((if sp then [' '] else []) ++ Nat.toDigits 10 n) = Nat.toDigits 10 n := by
    intro n sp
    cases sp with
    | true => exact trimSpace_space_digits n
    | false => exact trimSpace_digits n
  have hnc : ∀ (n : ℕ) (sp : Bool), ',' ∉ (if sp then [' '] else []) ++ Nat.toDigits 10 n := by
    intro n sp hc
    rcases List.mem_append.1 hc with hc | hc
    · cases sp <;> simp at hc
    · exact comma_not_mem n hc
  induction l generalizing sp with
  | nil => exact absurd rfl h
  | cons n l ih =>
    cases l with
    | nil =>
      rw [weightsText, List.splitOn_eq_singleton (hnc n sp)]
      simp only [List.map_cons, List.map_nil, key]
    | cons m l =>
      rw [weightsText, ← List.append_assoc, List.splitOn_append_cons_self, List.splitOn_eq_singleton (hnc n sp),
        List.map_append, List.map_cons, List.map_nil, key]
      exact congrArg (Nat.toDigits 10 n :: ·) (ih (by simp) true)

theorem parse_weights {l : List ℕ} (h : l ≠ []) (hl : ∀ n ∈ l, n < 2 ^ 64) :
    (((weightsText l).splitOn ',').mapM fun s => parseUint (trimSpace s)) = some l := by
  have h1 := splitOn_weights l h false
  rw [if_neg (by simp), List.nil_append] at h1
  have h2 : (((weightsText l).splitOn ',').mapM fun s => parseUint (trimSpace s)) =
      (((weightsText l).splitOn ',').map trimSpace).mapM parseUint := by rw [List.mapM_map]; rfl
  rw [h2, h1]
  clear h1 h2 h
  induction l with
  | nil => rfl
  | cons n l ih =>
    rw [List.map_cons, List.mapM_cons, ih fun m hm => hl m (List.mem_cons_of_mem _ hm), parseUint_digits,
      if_pos (hl n (List.mem_cons_self ..))]
    rfl

/-! ## Own pattern -/

/-- Name of the gate kind. -/
def nameOf : Gate → String
  | .arithmetic _ => "ArithmeticGate"
  | .arithmeticExtension _ => "ArithmeticExtensionGate"
  | .baseSum _ _ => "BaseSumGate"
  | .constant _ => "ConstantGate"
  | .cosetInterpolation _ _ _ => "CosetInterpolationGate"
  | .exponentiation _ => "ExponentiationGate"
  | .mulExtension _ => "MulExtensionGate"
  | .noop => "NoopGate"
  | .poseidon => "PoseidonGate"
  | .poseidonMds => "PoseidonMdsGate"
  | .publicInput => "PublicInputGate"
  | .randomAccess _ _ _ => "RandomAccessGate"
  | .reducing _ => "ReducingGate"
  | .reducingExtension _ => "ReducingExtensionGate"

/-- Handler of the gate kind. -/
def handlerOf : Gate → Handler
  | .arithmetic _ => arithmeticHandler
  | .arithmeticExtension _ => arithmeticExtensionHandler
  | .baseSum _ _ => baseSumHandler
  | .constant _ => constantHandler
  | .cosetInterpolation _ _ _ => cosetInterpolationHandler
  | .exponentiation _ => exponentiationHandler
  | .mulExtension _ => mulExtensionHandler
  | .noop => noopHandler
  | .poseidon => poseidonHandler
  | .poseidonMds => poseidonMdsHandler
  | .publicInput => publicInputHandler
  | .randomAccess _ _ _ => randomAccessHandler
  | .reducing _ => reducingHandler
  | .reducingExtension _ => reducingExtensionHandler

theorem toList_nat (n : ℕ) : (toString n).toList = Nat.toDigits 10 n := Nat.toList_repr

theorem head_lit {s : String} {c : Char} {l : List Char} (h : s.toList = c :: l) {q : Char → Bool} (hc : q c = false)
    (u : List Char) : ∀ d ∈ (s.toList ++ u).head?, q d = false := by
  rw [h]; intro d hd; simp at hd; rw [← hd]; exact hc

/-- Patterns with one number between two literals. -/
theorem match_one {a b : String} {c : Char} {l : List Char} (hb : b.toList = c :: l) (hc : isDigitC c = false) (n : ℕ) :
    findSubmatch (lit a ++ .digits :: lit b) (a ++ toString n ++ b).toList = some [Nat.toDigits 10 n] := by
  refine find_of_match ?_
  rw [String.toList_append, String.toList_append, toList_nat, lit, List.append_assoc, matchHere_chrs]
  refine matchHere_digits Nat.toDigits_ne_nil digits_isDigit ?_ ?_
  · rw [hb]; intro d hd; simp at hd; rw [← hd]; exact hc
  · have := matchHere_chrs b.toList [] []
    rw [List.append_nil, List.append_nil] at this
    rw [lit, this, matchHere]

theorem chrs_end (b : String) : matchHere (lit b) b.toList = some [] := by
  have := matchHere_chrs b.toList [] []
  rw [List.append_nil, List.append_nil] at this
  rw [lit, this, matchHere]

/-! Characters of the identifiers with several parameters. -/

theorem toList_baseSum {ws : List ℕ} (n b : ℕ) : (identifier ws (.baseSum n b)).toList =
    "BaseSumGate { num_limbs: ".toList ++ (Nat.toDigits 10 n ++ (" } + Base: ".toList ++ Nat.toDigits 10 b)) := by
  show ("BaseSumGate { num_limbs: " ++ toString n ++ " } + Base: " ++ toString b).toList = _
  rw [String.toList_append, String.toList_append, String.toList_append, toList_nat n, toList_nat b, List.append_assoc,
    List.append_assoc]

theorem toList_coset (ws : List ℕ) (b d : ℕ) (w : List Fp) : (identifier ws (.cosetInterpolation b d w)).toList =
    "CosetInterpolationGate { subgroup_bits: ".toList ++ (Nat.toDigits 10 b ++ (", degree: ".toList ++
      (Nat.toDigits 10 d ++ (", barycentric_weights: [".toList ++ (weightsText ws ++
        "], _phantom: PhantomData<plonky2_field::goldilocks_field::GoldilocksField> }<D=2>".toList))))) := by
  show ("CosetInterpolationGate { subgroup_bits: " ++ toString b ++ ", degree: " ++ toString d ++
      ", barycentric_weights: [" ++ ", ".intercalate (ws.map fun x => toString x) ++
      "], _phantom: PhantomData<plonky2_field::goldilocks_field::GoldilocksField> }<D=2>").toList = _
  rw [String.toList_append, String.toList_append, String.toList_append, String.toList_append,
    String.toList_append, String.toList_append, toList_nat b, toList_nat d, intercalate_weights, List.append_assoc,
    List.append_assoc, List.append_assoc, List.append_assoc, List.append_assoc]

theorem toList_randomAccess {ws : List ℕ} (b c e : ℕ) : (identifier ws (.randomAccess b c e)).toList =
    "RandomAccessGate { bits: ".toList ++ (Nat.toDigits 10 b ++ (", num_copies: ".toList ++ (Nat.toDigits 10 c ++
      (", num_extra_constants: ".toList ++ (Nat.toDigits 10 e ++
        ", _phantom: PhantomData<plonky2_field::goldilocks_field::GoldilocksField> }<D=2>".toList))))) := by
  show ("RandomAccessGate { bits: " ++ toString b ++ ", num_copies: " ++ toString c ++
      ", num_extra_constants: " ++ toString e ++
      ", _phantom: PhantomData<plonky2_field::goldilocks_field::GoldilocksField> }<D=2>").toList = _
  rw [String.toList_append, String.toList_append, String.toList_append, String.toList_append,
    String.toList_append, String.toList_append, toList_nat b, toList_nat c, toList_nat e, List.append_assoc,
    List.append_assoc, List.append_assoc, List.append_assoc, List.append_assoc]

theorem toList_exponentiation {ws : List ℕ} (n : ℕ) : (identifier ws (.exponentiation n)).toList =
    "ExponentiationGate { num_power_bits: ".toList ++ (Nat.toDigits 10 n ++
      ", _phantom: PhantomData<plonky2_field::goldilocks_field::GoldilocksField> }<D=2>".toList) := by
  show ("ExponentiationGate { num_power_bits: " ++ toString n ++
      ", _phantom: PhantomData<plonky2_field::goldilocks_field::GoldilocksField> }<D=2>").toList = _
  rw [String.toList_append, String.toList_append, toList_nat n, List.append_assoc]

theorem make_one {n : ℕ} {g : Gate} (mk : ℕ → Gate) (hg : mk n = g) (hr : InRange g ↔ n < 2 ^ 63) :
    (do return mk (← atoi (Nat.toDigits 10 n)) : Option Gate) = if InRange g then some g else none := by
  rw [atoi_digits, ← hg]
  by_cases h : n < 2 ^ 63
  · rw [if_pos h, if_pos (hg ▸ hr.2 h)]; rfl
  · rw [if_neg h, if_neg fun hc => h (hr.1 (hg ▸ hc))]; rfl

/-- The phantom suffix with `D` parsed as a number. -/
theorem match_phantom : matchHere (lit ", _phantom: PhantomData<plonky2_field::goldilocks_field::GoldilocksField> }<D=" ++
      .digits :: lit ">")
    ", _phantom: PhantomData<plonky2_field::goldilocks_field::GoldilocksField> }<D=2>".toList = some ["2".toList] := by
  decide +kernel

theorem head_phantom : ∀ d ∈ (", _phantom: PhantomData<plonky2_field::goldilocks_field::GoldilocksField> }<D=2>".toList).head?,
    isDigitC d = false := by decide +kernel

theorem own_match {g : Gate} {ws : List ℕ} (hr : Represents ws g) (hw : HasWeights g) :
    ∃ caps, findSubmatch (handlerOf g).regex (identifier ws g).toList = some caps ∧
      (handlerOf g).make caps = if InRange g then some g else none := by
  cases g with
  | arithmetic n => exact ⟨_, match_one (l := "}".toList) (c := ' ') rfl rfl n, make_one Gate.arithmetic rfl Iff.rfl⟩
  | arithmeticExtension n =>
    exact ⟨_, match_one (l := "}".toList) (c := ' ') rfl rfl n, make_one Gate.arithmeticExtension rfl Iff.rfl⟩
  | baseSum n b =>
    refine ⟨[Nat.toDigits 10 n, Nat.toDigits 10 b], find_of_match ?_, ?_⟩
    · rw [toList_baseSum]
      refine (matchHere_chrs _ _ _).trans ?_
      refine matchHere_digits Nat.toDigits_ne_nil digits_isDigit (head_lit (c := ' ') (l := "} + Base: ".toList) rfl rfl _) ?_
      refine (matchHere_chrs _ _ _).trans ?_
      have := matchHere_digits (t := []) (s := []) Nat.toDigits_ne_nil (digits_isDigit (n := b)) (by simp) (caps := []) rfl
      rwa [List.append_nil] at this
    · show (do return Gate.baseSum (← atoi (Nat.toDigits 10 n)) (← atoi (Nat.toDigits 10 b)) : Option Gate) = _
      rw [atoi_digits, atoi_digits]
      by_cases h1 : n < 2 ^ 63
      · by_cases h2 : b < 2 ^ 63
        · rw [if_pos h1, if_pos h2, if_pos (show InRange (.baseSum n b) from ⟨h1, h2⟩)]; rfl
        · rw [if_pos h1, if_neg h2, if_neg fun hc : InRange (.baseSum n b) => h2 hc.2]; rfl
      · rw [if_neg h1, if_neg fun hc : InRange (.baseSum n b) => h1 hc.1]; rfl
  | constant n => exact ⟨_, match_one (l := "}".toList) (c := ' ') rfl rfl n, make_one Gate.constant rfl Iff.rfl⟩
  | cosetInterpolation b d w =>
    obtain ⟨hback, hlt⟩ := hr
    have hne : ws ≠ [] := by
      rintro rfl; exact hw hback.symm
    refine ⟨[Nat.toDigits 10 b, Nat.toDigits 10 d, weightsText ws], find_of_match ?_, ?_⟩
    · rw [toList_coset]
      refine (matchHere_chrs _ _ _).trans ?_
      refine matchHere_digits Nat.toDigits_ne_nil digits_isDigit (head_lit (c := ',') (l := " degree: ".toList) rfl rfl _) ?_
      refine (matchHere_chrs _ _ _).trans ?_
      refine matchHere_digits Nat.toDigits_ne_nil digits_isDigit
        (head_lit (c := ',') (l := " barycentric_weights: [".toList) rfl rfl _) ?_
      refine (matchHere_chrs _ _ _).trans ?_
      refine matchHere_digitList (weightsText_ne_nil hne) (weightsText_isList _) ?_ (chrs_end _)
      decide +kernel
    · show (do
        let b ← parseUint (Nat.toDigits 10 b)
        let d ← parseUint (Nat.toDigits 10 d)
        if d < 2 then none
        else
          let ws ← ((weightsText ws).splitOn ',').mapM fun s => parseUint (trimSpace s)
          return .cosetInterpolation b d (ws.map (Nat.cast : ℕ → Fp)) : Option Gate) = _
      rw [parseUint_digits, parseUint_digits, parse_weights hne hlt]
      by_cases h1 : b < 2 ^ 64
      · rw [if_pos h1]
        by_cases h2 : d < 2 ^ 64
        · rw [if_pos h2]
          by_cases h3 : d < 2
          · rw [if_neg fun hc : InRange (.cosetInterpolation b d w) => absurd hc.2.2 (not_le.2 h3)]
            show (if d < 2 then none else _) = _
            rw [if_pos h3]
          · rw [if_pos (show InRange (.cosetInterpolation b d w) from ⟨h1, h2, not_lt.1 h3⟩)]
            show (if d < 2 then none else some (Gate.cosetInterpolation b d
              (List.map (Nat.cast : ℕ → Fp) ws))) = _
            rw [if_neg h3, hback]
        · rw [if_neg h2, if_neg fun hc : InRange (.cosetInterpolation b d w) => h2 hc.2.1]; rfl
      · rw [if_neg h1, if_neg fun hc : InRange (.cosetInterpolation b d w) => h1 hc.1]; rfl
  | exponentiation n =>
    refine ⟨[Nat.toDigits 10 n, "2".toList], find_of_match ?_, ?_⟩
    · rw [toList_exponentiation]
      refine (matchHere_chrs _ _ _).trans ?_
      exact matchHere_digits Nat.toDigits_ne_nil digits_isDigit head_phantom match_phantom
    · show (do
        let n ← atoi (Nat.toDigits 10 n)
        let base ← atoi "2".toList
        if base ≠ 2 then none else return .exponentiation n : Option Gate) = _
      rw [atoi_digits]
      by_cases h : n < 2 ^ 63
      · rw [if_pos h, if_pos (show InRange (.exponentiation n) from h)]; rfl
      · rw [if_neg h, if_neg fun hc : InRange (.exponentiation n) => h hc]; rfl
  | mulExtension n => exact ⟨_, match_one (l := "}".toList) (c := ' ') rfl rfl n, make_one Gate.mulExtension rfl Iff.rfl⟩
  | noop => exact ⟨[], find_of_match (chrs_end _), rfl⟩
  | poseidon =>
    refine ⟨[], find_of_match ?_, rfl⟩
    rw [show identifier ws .poseidon = identifier [] .poseidon from rfl]
    exact (matchHere_chrs "PoseidonGate".toList [.anyStar]
      "(PhantomData<plonky2_field::goldilocks_field::GoldilocksField>)<WIDTH=12>".toList).trans (matchHere_anyStar _)
  | poseidonMds =>
    refine ⟨[], find_of_match ?_, rfl⟩
    rw [show identifier ws .poseidonMds = identifier [] .poseidonMds from rfl]
    exact (matchHere_chrs "PoseidonMdsGate".toList [.anyStar]
      "(PhantomData<plonky2_field::goldilocks_field::GoldilocksField>)<WIDTH=12>".toList).trans (matchHere_anyStar _)
  | publicInput => exact ⟨[], find_of_match (chrs_end _), rfl⟩
  | randomAccess b c e =>
    refine ⟨[Nat.toDigits 10 b, Nat.toDigits 10 c, Nat.toDigits 10 e, "2".toList], find_of_match ?_, ?_⟩
    · rw [toList_randomAccess]
      refine (matchHere_chrs _ _ _).trans ?_
      refine matchHere_digits Nat.toDigits_ne_nil digits_isDigit (head_lit (c := ',') (l := " num_copies: ".toList) rfl rfl _) ?_
      refine (matchHere_chrs _ _ _).trans ?_
      refine matchHere_digits Nat.toDigits_ne_nil digits_isDigit
        (head_lit (c := ',') (l := " num_extra_constants: ".toList) rfl rfl _) ?_
      refine (matchHere_chrs _ _ _).trans ?_
      exact matchHere_digits Nat.toDigits_ne_nil digits_isDigit head_phantom match_phantom
    · show (do
        let bits ← parseUint (Nat.toDigits 10 b)
        let copies ← parseUint (Nat.toDigits 10 c)
        let extra ← parseUint (Nat.toDigits 10 e)
        let base ← atoi "2".toList
        if base ≠ 2 then none else return .randomAccess bits copies extra : Option Gate) = _
      rw [parseUint_digits, parseUint_digits, parseUint_digits]
      by_cases h1 : b < 2 ^ 64
      · by_cases h2 : c < 2 ^ 64
        · by_cases h3 : e < 2 ^ 64
          · rw [if_pos h1, if_pos h2, if_pos h3, if_pos (show InRange (.randomAccess b c e) from ⟨h1, h2, h3⟩)]; rfl
          · rw [if_pos h1, if_pos h2, if_neg h3, if_neg fun hc : InRange (.randomAccess b c e) => h3 hc.2.2]; rfl
        · rw [if_pos h1, if_neg h2, if_neg fun hc : InRange (.randomAccess b c e) => h2 hc.2.1]; rfl
      · rw [if_neg h1, if_neg fun hc : InRange (.randomAccess b c e) => h1 hc.1]; rfl
  | reducing n => exact ⟨_, match_one (l := "}".toList) (c := ' ') rfl rfl n, make_one Gate.reducing rfl Iff.rfl⟩
  | reducingExtension n =>
    exact ⟨_, match_one (l := "}".toList) (c := ' ') rfl rfl n, make_one Gate.reducingExtension rfl Iff.rfl⟩

/-! ## Other patterns -/

theorem names_clean : ∀ N ∈ names, N.toList ≠ [] ∧ ∀ d ∈ N.toList, isListC d = false := by decide +kernel

theorem names_nodigit {N : String} (hN : N ∈ names) {n : ℕ} : ∀ d ∈ Nat.toDigits 10 n, d ∉ N.toList := by
  intro d hd hc
  have h1 := (names_clean N hN).2 d hc
  have h2 := digits_isDigit d hd
  rw [isDigitC] at h2
  simp [isListC, h2] at h1

theorem names_nolist {N : String} (hN : N ∈ names) {l : List ℕ} : ∀ d ∈ weightsText l, d ∉ N.toList := by
  intro d hd hc
  have h1 := (names_clean N hN).2 d hc
  have h2 := weightsText_isList l d hd
  rw [h1] at h2; exact absurd h2 (by simp)

theorem infix_number {N : String} (hN : N ∈ names) {A B : List Char} {n : ℕ}
    (h : N.toList <:+: A ++ (Nat.toDigits 10 n ++ B)) : N.toList <:+: A ∨ N.toList <:+: B :=
  infix_split (names_clean N hN).1 Nat.toDigits_ne_nil (names_nodigit hN) h

theorem other_names {g : Gate} {ws : List ℕ} (hr : Represents ws g) (hw : HasWeights g) :
    ∀ N ∈ names, N ≠ nameOf g → ¬ N.toList <:+: (identifier ws g).toList := by
  have one : ∀ (name a b : String), (∀ N ∈ names, N ≠ name → ¬ N.toList <:+: a.toList ∧ ¬ N.toList <:+: b.toList) →
      ∀ n : ℕ, ∀ N ∈ names, N ≠ name → ¬ N.toList <:+: (a ++ toString n ++ b).toList := by
    intro name a b h n N hN hne hc
    rw [String.toList_append, String.toList_append, toList_nat, List.append_assoc] at hc
    rcases infix_number hN hc with hc | hc
    · exact (h N hN hne).1 hc
    · exact (h N hN hne).2 hc
  cases g with
  | arithmetic n => exact one "ArithmeticGate" _ _ (by decide +kernel) n
  | arithmeticExtension n => exact one "ArithmeticExtensionGate" _ _ (by decide +kernel) n
  | baseSum n b =>
    intro N hN hne hc
    rw [toList_baseSum] at hc
    have k : ∀ N ∈ names, N ≠ "BaseSumGate" → ¬ N.toList <:+: "BaseSumGate { num_limbs: ".toList ∧
      ¬ N.toList <:+: " } + Base: ".toList ∧ ¬ N.toList <:+: [] := by
      decide +kernel
    rcases infix_number hN hc with hc | hc
    · exact (k N hN hne).1 hc
    · rw [← List.append_nil (Nat.toDigits 10 b)] at hc
      rcases infix_number hN hc with hc | hc
      · exact (k N hN hne).2.1 hc
      · exact (k N hN hne).2.2 hc
  | constant n => exact one "ConstantGate" _ _ (by decide +kernel) n
  | cosetInterpolation b d w =>
    intro N hN hne hc
    have hne' : ws ≠ [] := by rintro rfl; exact hw hr.1.symm
    rw [toList_coset] at hc
    have k : ∀ N ∈ names, N ≠ "CosetInterpolationGate" →
      ¬ N.toList <:+: "CosetInterpolationGate { subgroup_bits: ".toList ∧
      ¬ N.toList <:+: ", degree: ".toList ∧ ¬ N.toList <:+: ", barycentric_weights: [".toList ∧
      ¬ N.toList <:+: "], _phantom: PhantomData<plonky2_field::goldilocks_field::GoldilocksField> }<D=2>".toList := by
        decide +kernel
    rcases infix_number hN hc with hc | hc
    · exact (k N hN hne).1 hc
    rcases infix_number hN hc with hc | hc
    · exact (k N hN hne).2.1 hc
    rcases infix_split (names_clean N hN).1 (weightsText_ne_nil hne') (names_nolist hN) hc with hc | hc
    · exact (k N hN hne).2.2.1 hc
    · exact (k N hN hne).2.2.2 hc
  | exponentiation n => exact one "ExponentiationGate" _ _ (by decide +kernel) n
  | mulExtension n => exact one "MulExtensionGate" _ _ (by decide +kernel) n
  | noop =>
    rw [show identifier ws .noop = identifier [] .noop from rfl]
    decide +kernel
  | poseidon =>
    rw [show identifier ws .poseidon = identifier [] .poseidon from rfl]
    decide +kernel
  | poseidonMds =>
    rw [show identifier ws .poseidonMds = identifier [] .poseidonMds from rfl]
    decide +kernel
  | publicInput =>
    rw [show identifier ws .publicInput = identifier [] .publicInput from rfl]
    decide +kernel
  | randomAccess b c e =>
    intro N hN hne hc
    rw [toList_randomAccess] at hc
    have k : ∀ N ∈ names, N ≠ "RandomAccessGate" →
      ¬ N.toList <:+: "RandomAccessGate { bits: ".toList ∧
      ¬ N.toList <:+: ", num_copies: ".toList ∧ ¬ N.toList <:+: ", num_extra_constants: ".toList ∧
      ¬ N.toList <:+: ", _phantom: PhantomData<plonky2_field::goldilocks_field::GoldilocksField> }<D=2>".toList := by
        decide +kernel
    rcases infix_number hN hc with hc | hc
    · exact (k N hN hne).1 hc
    rcases infix_number hN hc with hc | hc
    · exact (k N hN hne).2.1 hc
    rcases infix_number hN hc with hc | hc
    · exact (k N hN hne).2.2.1 hc
    · exact (k N hN hne).2.2.2 hc
  | reducing n => exact one "ReducingGate" _ _ (by decide +kernel) n
  | reducingExtension n => exact one "ReducingExtensionGate" _ _ (by decide +kernel) n

/-- Position of the gate's name and pattern in the tables. -/
def kindOf : Gate → ℕ
  | .arithmetic _ => 0
  | .arithmeticExtension _ => 1
  | .baseSum _ _ => 2
  | .constant _ => 3
  | .cosetInterpolation _ _ _ => 4
  | .exponentiation _ => 5
  | .mulExtension _ => 6
  | .noop => 7
  | .poseidon => 8
  | .poseidonMds => 9
  | .publicInput => 10
  | .randomAccess _ _ _ => 11
  | .reducingExtension _ => 12
  | .reducing _ => 13

theorem names_kindOf (g : Gate) : names[kindOf g]? = some (nameOf g) := by cases g <;> rfl

theorem handlers_kindOf (g : Gate) : gateRegexHandlers[kindOf g]? = some (handlerOf g) := by cases g <;> rfl

theorem handlerOf_mem (g : Gate) : handlerOf g ∈ gateRegexHandlers := List.mem_of_getElem? (handlers_kindOf g)

/-- Every handler's pattern starts with its name. -/
theorem handler_start : ∀ i : Fin 14, (gateRegexHandlers.get i).regex.take (names.get i).toList.length =
    (names.get i).toList.map .chr := by
  intro i
  fin_cases i <;> rfl

theorem handler_name : ∀ h ∈ gateRegexHandlers, ∃ N ∈ names, h.regex.take N.toList.length = N.toList.map .chr ∧
    ∀ g, N = nameOf g → h = handlerOf g := by
  intro h hh
  obtain ⟨i, rfl⟩ := List.get_of_mem hh
  refine ⟨names.get i, List.get_mem _ _, handler_start i, fun g hg => ?_⟩
  have h1 := names_kindOf g
  rw [← hg] at h1
  have hl : kindOf g < names.length := (List.getElem?_eq_some_iff.1 h1).1
  rw [List.getElem?_eq_getElem hl] at h1
  have h3 : kindOf g = i := (List.Nodup.getElem_inj_iff (show names.Nodup by decide)).1 (Option.some.inj h1)
  have h4 := handlers_kindOf g
  rw [h3] at h4
  have h5 : gateRegexHandlers[(i : ℕ)]? = some (gateRegexHandlers.get i) := List.getElem?_eq_getElem _
  exact Option.some.inj (h5.symm.trans h4)

theorem other_none {g : Gate} {ws : List ℕ} (hr : Represents ws g) (hw : HasWeights g) :
    ∀ h ∈ gateRegexHandlers, h = handlerOf g ∨ findSubmatch h.regex (identifier ws g).toList = none := by
  intro h hh
  obtain ⟨N, hN, h1, h2⟩ := handler_name h hh
  by_cases hn : N = nameOf g
  · exact Or.inl (h2 g hn)
  · refine Or.inr ?_
    by_contra hc
    exact other_names hr hw N hN hn (infix_of_find h1 hc)

/-! ## Lookup -/

theorem instance_none {order : List Handler} {id : List Char} (h : ∀ x ∈ order, findSubmatch x.regex id = none) :
    gateInstanceFromId order id = none := by
  induction order with
  | nil => rfl
  | cons x order ih =>
    rw [gateInstanceFromId, h x (List.mem_cons_self ..)]
    exact ih fun y hy => h y (List.mem_cons_of_mem _ hy)

theorem instance_unique {order : List Handler} {id : List Char} {h0 : Handler} {caps : List (List Char)}
    (hm : h0 ∈ order) (hc : findSubmatch h0.regex id = some caps)
    (h : ∀ x ∈ order, x = h0 ∨ findSubmatch x.regex id = none) : gateInstanceFromId order id = h0.make caps := by
  induction order with
  | nil => simp at hm
  | cons x order ih =>
    rw [gateInstanceFromId]
    rcases h x (List.mem_cons_self ..) with rfl | hx
    · rw [hc]
    · rw [hx]
      rcases List.mem_cons.1 hm with rfl | hm
      · rw [hc] at hx; exact absurd hx (by simp)
      · exact ih hm fun y hy => h y (List.mem_cons_of_mem _ hy)

theorem instance_identifier {g : Gate} {ws : List ℕ} (hr : Represents ws g) (hw : HasWeights g) {order : List Handler}
    (ho : order.Perm gateRegexHandlers) :
    gateInstanceFromId order (identifier ws g).toList = if InRange g then some g else none := by
  obtain ⟨caps, h1, h2⟩ := own_match hr hw
  rw [← h2]
  exact instance_unique (ho.symm.subset (handlerOf_mem g)) h1 fun x hx => other_none hr hw x (ho.subset hx)

theorem represents_reduced (g : Gate) : Represents (reducedWords g) g := by
  cases g <;> try exact trivial
  rename_i b d w
  refine ⟨?_, fun n hn => ?_⟩
  · rw [reducedWords, List.map_map]
    conv_rhs => rw [← List.map_id w]
    exact List.map_congr_left fun x _ => ZMod.natCast_zmod_val x
  · obtain ⟨x, _, rfl⟩ := List.mem_map.1 hn
    exact (ZMod.val_lt x).trans (by norm_num [p])

theorem instance_gateId {g : Gate} (hw : HasWeights g) {order : List Handler} (ho : order.Perm gateRegexHandlers) :
    gateInstanceFromId order (gateId g).toList = if InRange g then some g else none :=
  instance_identifier (represents_reduced g) hw ho

end Verif.Gates
