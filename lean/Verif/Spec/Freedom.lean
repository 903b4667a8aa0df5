import Verif.Spec.Verifier

/-!
# Specification: the verifier when S-boxes are relations

The same textbook permutation, sponge, transcript and checks as in `Spec/PoseidonGL.lean`, `Spec/Challenger.lean` and
`Spec/Verifier.lean`, but every application of the S-box may return any value related to its input, independently of all
other applications.
-/

set_option autoImplicit false

namespace Verif.Spec.Free

open Verif (Proof CommonCircuitData VerifierOnlyCircuitData ProofChallenges)

/-- A state of the permutation. -/
abbrev St := Fin 12 → Fp

/-- The code's S-box computes `t = x^3` and `x t^2`, each with one reduction modulo `p` whose quotient may have 192 bits:
up to five multiples of `r` may be added before each reduction. -/
def SBox (a b : Fp) : Prop :=
  ∃ k k' : ℕ, k ≤ 5 ∧ k' ≤ 5 ∧ b = a * (a ^ 3 + k * (r : Fp)) ^ 2 + k' * (r : Fp)

/-! ## The permutation, for an S-box relation `S` -/

variable (S : Fp → Fp → Prop)

/-- Full round number `i`. -/
def FullRound (i : ℕ) (s t : St) : Prop := ∃ u : St, (∀ j, S (s j + (rc i j : Fp)) (u j)) ∧ t = mix u

/-- Partial round number `i`. -/
def PartialRound (i : ℕ) (s t : St) : Prop :=
  ∃ u : Fp, S (s 0 + (rc i 0 : Fp)) u ∧ t = mix fun j => if j = 0 then u else s j + (rc i j : Fp)

/-- Consecutive rounds. -/
def Rounds (round : ℕ → St → St → Prop) : List ℕ → St → St → Prop
  | [], s, t => t = s
  | i :: l, s, t => ∃ m, round i s m ∧ Rounds round l m t

/-- The permutation. -/
def Perm (s t : St) : Prop :=
  ∃ a b, Rounds (FullRound S) [0, 1, 2, 3] s a ∧ Rounds (PartialRound S) (List.range' 4 22) a b ∧
    Rounds (FullRound S) [26, 27, 28, 29] b t

/-! ## Sponge and challenger, for a permutation relation `R` -/

variable (R : St → St → Prop)

/-- Overwrite the first positions of a state. -/
def over (s : St) (l : List Fp) : St := fun j => (l[(j : ℕ)]?).getD (s j)

/-- Absorb blocks in overwrite mode. -/
def Absorb : List (List Fp) → St → St → Prop
  | [], s, t => t = s
  | b :: l, s, t => ∃ m, R (over s b) m ∧ Absorb l m t

/-- Hash of public inputs: absorb blocks of eight, read four elements. -/
def Hash (l : List Fp) (h : Fin 4 → Fp) : Prop :=
  ∃ t, Absorb R (chunks l) (fun _ => 0) t ∧ ∀ i : Fin 4, h i = t (i.castLE (by norm_num))

/-- The challenger: state, elements waiting to be absorbed (fewer than eight), number of elements that can be read before the
next permutation. -/
structure Conf where
  state : St
  waiting : List Fr
  left : ℕ

/-- The fresh challenger. -/
def Conf.init : Conf := ⟨fun _ => 0, [], 0⟩

/-- One event: `o` are the elements read.  Eight waiting elements are absorbed at once; elements are read from position 7
to position 0 of a state; waiting elements are absorbed before reading.  Elements are absorbed modulo `p`. -/
def Step (k : Conf) (e : Ev) (o : List Fp) (k' : Conf) : Prop :=
  match e with
  | .absorb x => o = [] ∧
      if k.waiting.length < 7 then k' = ⟨k.state, k.waiting ++ [x], 0⟩
      else ∃ t, R (over k.state ((k.waiting ++ [x]).map residue)) t ∧ k' = ⟨t, [], 8⟩
  | .squeeze =>
      if k.waiting = [] ∧ k.left ≠ 0 then
        o = [k.state (Fin.ofNat 12 (k.left - 1))] ∧ k' = ⟨k.state, [], k.left - 1⟩
      else ∃ t, R (over k.state (k.waiting.map residue)) t ∧ o = [t 7] ∧ k' = ⟨t, [], 7⟩

/-- A run of the challenger. -/
def Run : List Ev → Conf → List Fp → Conf → Prop
  | [], k, o, k' => o = [] ∧ k' = k
  | e :: l, k, o, k' => ∃ m a b, Step R k e a m ∧ Run l m b k' ∧ o = a ++ b

/-! ## The verifier -/

/-- The verifier accepts for some outcome of all S-boxes. -/
def Accepts (c : CommonCircuitData) (gates : List Gates.Gate) (vd : VerifierOnlyCircuitData) (x : Proof Fp QE)
    (inputs : List Fp) : Prop :=
  ∃ (h : Fin 4 → Fp) (o : List Fp) (k : Conf), Hash (Perm S) inputs h ∧
    Run (Perm S) (transcript c.config.numChallenges c.config.friConfig.numQueryRounds vd.circuitDigest h x) .init o k ∧
    Verifier.Checks c gates vd x h (challengesOf c.config.numChallenges x.openingProof.commitCaps.length o)

end Verif.Spec.Free
