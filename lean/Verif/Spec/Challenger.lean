import Verif.Spec.PoseidonGL
import Verif.Model.Types

/-!
# Specification: duplex sponge and Fiat–Shamir transcript

A transcript is a sequence of events.  The sponge does not buffer: it remembers everything absorbed since the last
squeeze.
-/

set_option autoImplicit false

namespace Verif.Spec

/-- An event of the transcript. -/
inductive Ev
  | absorb (x : Fr)
  | squeeze

/-- Absorb a list of elements. -/
def absorbs (l : List Fr) : List Ev := l.map .absorb

/-- Squeeze `n` elements. -/
def squeezes (n : ℕ) : List Ev := List.replicate n .squeeze

/-- State of the sponge: state after the last phase, elements absorbed since, elements squeezed since. -/
structure Sponge where
  base : Fin 12 → Fp
  pending : List Fr
  taken : ℕ

/-- Fresh sponge. -/
def Sponge.init : Sponge := ⟨fun _ => 0, [], 0⟩

/-- Goldilocks element represented by a circuit value. -/
def residue (x : Fr) : Fp := (x.val : Fp)

variable (P : (Fin 12 → Fp) → Fin 12 → Fp)

/-- Permutation state in which the first squeeze after the pending elements finds the sponge: the elements are
absorbed in blocks of eight (overwrite mode, last block possibly shorter); at least one block, possibly empty. -/
def Sponge.soaked (s : Sponge) : Fin 12 → Fp :=
  if s.pending = [] then P s.base else absorb P s.base (chunks (s.pending.map residue))

/-- The next squeezed element: rate 8, from the last to the first position, a permutation after every eight. -/
def Sponge.next (s : Sponge) : Fp := P^[s.taken / 8] (s.soaked P) (Fin.ofNat 12 (7 - s.taken % 8))

/-- Sponge after an event. -/
def Sponge.step (s : Sponge) : Ev → Sponge
  | .squeeze => ⟨s.base, s.pending, s.taken + 1⟩
  | .absorb x => if s.taken = 0 then ⟨s.base, s.pending ++ [x], 0⟩
    else ⟨P^[(s.taken - 1) / 8] (s.soaked P), [x], 0⟩

/-- Sponge after a transcript. -/
def Sponge.after (s : Sponge) (h : List Ev) : Sponge := h.foldl (Sponge.step P) s

/-- All elements squeezed during a transcript. -/
def Sponge.outputs (s : Sponge) : List Ev → List Fp
  | [] => []
  | .squeeze :: h => s.next P :: (s.step P .squeeze).outputs h
  | .absorb x :: h => (s.step P (.absorb x)).outputs h

/-- Digest of BN254 as Goldilocks elements: base-`2^56` digits. -/
def limbs (h : Fr) : List Fr := [0, 56, 112, 168, 224].map fun i => ((h.val / 2 ^ i % 2 ^ 56 : ℕ) : Fr)

/-- Elements of a Merkle cap. -/
def capElems (cap : List Fr) : List Fr := cap.flatMap limbs

/-- Coordinates of extension elements. -/
def coords (l : List QE) : List Fr := l.flatMap fun e => [emb e.re, emb e.im]

/-- The transcript of the plonky2 verifier, for `n` challenges of each kind and `q` query rounds: circuit digest, public
inputs hash and wires cap; betas; gammas; Z and partial products cap; alphas; quotient cap; zeta; openings; FRI alpha;
for each commit-phase cap the cap and its beta; final polynomial and proof-of-work witness; proof-of-work response;
query indices. -/
def transcript (n q : ℕ) (digest : Fr) (pih : Fin 4 → Fp) (proof : Proof Fp QE) : List Ev :=
  let o := proof.openings
  absorbs (limbs digest ++ (List.ofFn pih).map emb ++ capElems proof.wiresCap) ++
  squeezes n ++ squeezes n ++
  absorbs (capElems proof.plonkZsPartialProductsCap) ++
  squeezes n ++
  absorbs (capElems proof.quotientPolysCap) ++
  squeezes 2 ++
  absorbs (coords (o.constants ++ o.plonkSigmas ++ o.wires ++ o.plonkZs ++ o.partialProducts ++ o.quotientPolys ++
    o.plonkZsNext)) ++
  squeezes 2 ++
  (proof.openingProof.commitCaps.flatMap fun cap => absorbs (capElems cap) ++ squeezes 2) ++
  absorbs (coords proof.openingProof.finalPoly ++ [emb proof.openingProof.powWitness]) ++
  squeezes 1 ++ squeezes q

/-- Extension element made of two consecutive squeezed elements. -/
def extAt (o : List Fp) (i : ℕ) : QE := ⟨o.getD i 0, o.getD (i + 1) 0⟩

/-- Interpretation of the squeezed elements, for `m` commit-phase caps. -/
def challengesOf (n m : ℕ) (o : List Fp) : ProofChallenges Fp QE where
  plonkBetas := o.take n
  plonkGammas := (o.drop n).take n
  plonkAlphas := (o.drop (2 * n)).take n
  plonkZeta := extAt o (3 * n)
  friChallenges :=
    { alpha := extAt o (3 * n + 2)
      betas := (List.range m).map fun i => extAt o (3 * n + 4 + 2 * i)
      powResponse := o.getD (3 * n + 4 + 2 * m) 0
      queryIndices := o.drop (3 * n + 4 + 2 * m + 1) }

/-- Challenges of a proof. -/
def challenges (n q : ℕ) (digest : Fr) (pih : Fin 4 → Fp) (proof : Proof Fp QE) : ProofChallenges Fp QE :=
  challengesOf n proof.openingProof.commitCaps.length (Sponge.init.outputs P (transcript n q digest pih proof))

end Verif.Spec
