import Verif.Model.EvaluateGates

/-!
# Model of `plonk/plonk.go`

The chip is represented by the common circuit data and the list of gates made from the identifiers.
-/

set_option autoImplicit false

namespace Verif.Plonk

open Circ Gates

/-- `DEGREE`, `plonk/plonk.go:46`: `1 << DegreeBits` computed as an `int`. -/
def degree (c : CommonCircuitData) : Fr := ((goShl1 c.degreeBits : ℤ) : Fr)

/-- `expPowerOf2Extension`, `plonk/plonk.go:55-61`. -/
def expPowerOf2Extension (c : CommonCircuitData) (x : QEV) : Circ QEV :=
  (List.range c.degreeBits).foldlM (fun x _ => mulExt x x) x

/-- `evalL0`, `plonk/plonk.go:63-83`. -/
def evalL0 (c : CommonCircuitData) (x xPowN : QEV) : Circ QEV := do
  let evalZeroPoly ← subExt xPowN oneExt
  let t ← scalarMulExt x (degree c)
  let denominator ← subExt t (degree c, 0)
  let q ← divExt evalZeroPoly denominator
  assertEq q.2 1
  pure q.1

/-- Product of the `quotDegreeFactor` entries from `start`, `plonk/plonk.go:104-109` (the two products
are computed in one loop in the code; neither affects the other). -/
def chunkProduct (l : List QEV) (start quotDegreeFactor : ℕ) : Circ QEV := do
  let first ← idx l start
  (List.range' 1 (quotDegreeFactor - 1)).foldlM (fun acc j => do
    let x ← idx l (start + j)
    mulExt acc x) first

/-- `checkPartialProducts`, `plonk/plonk.go:85-119`. -/
def checkPartialProducts (c : CommonCircuitData) (numerators denominators : List QEV) (challengeNum : ℕ)
    (openings : OpeningSet QEV) : Circ (List QEV) := do
  let z ← idx openings.plonkZs challengeNum
  let pp ← slice openings.partialProducts (challengeNum * c.numPartialProducts)
    ((challengeNum + 1) * c.numPartialProducts)
  let zNext ← idx openings.plonkZsNext challengeNum
  let productAccs := z :: (pp ++ [zNext])
  (List.range (c.numPartialProducts + 1)).mapM fun i => do
    let numeProduct ← chunkProduct numerators (i * c.quotientDegreeFactor) c.quotientDegreeFactor
    let denoProduct ← chunkProduct denominators (i * c.quotientDegreeFactor) c.quotientDegreeFactor
    let a ← idx productAccs i
    let l ← mulExt a numeProduct
    let b ← idx productAccs (i + 1)
    let r ← mulExt b denoProduct
    subExt l r

/-- Numerator and denominator of wire `j`, `plonk/plonk.go:152-174`. -/
def permutationTerm (beta gamma : Fr) (openings : OpeningSet QEV) (sIDs : List QEV) (j : ℕ) : Circ (QEV × QEV) := do
  let wire ← idx openings.wires j
  let wireValuePlusGamma ← addExt wire (gamma, 0)
  let sID ← idx sIDs j
  let t ← mulExt (beta, 0) sID
  let numerator ← addExt t wireValuePlusGamma
  let sigma ← idx openings.plonkSigmas j
  let t ← mulExt (beta, 0) sigma
  let denominator ← addExt t wireValuePlusGamma
  pure (numerator, denominator)

/-- Body of the loop over challenges, `plonk/plonk.go:142-183`. -/
def challengeTerms (c : CommonCircuitData) (ch : ProofChallenges Fr QEV) (openings : OpeningSet QEV) (sIDs : List QEV)
    (l0Zeta : QEV) (i : ℕ) : Circ (QEV × List QEV) := do
  let z ← idx openings.plonkZs i
  let t ← subExt z oneExt
  let z1 ← mulExt l0Zeta t
  let values ← (List.range c.config.numRoutedWires).mapM fun j => do
    let gamma ← idx ch.plonkGammas i
    let beta ← idx ch.plonkBetas i
    permutationTerm beta gamma openings sIDs j
  let pp ← checkPartialProducts c (values.map Prod.fst) (values.map Prod.snd) i openings
  pure (z1, pp)

/-- One step of the reverse reduction, `plonk/plonk.go:195-203`. -/
def reduceStep (c : CommonCircuitData) (alphas : List Fr) (reducedValues : List QEV) (term : QEV) : Circ (List QEV) :=
  (List.range c.config.numChallenges).mapM fun j => do
    let x ← idx reducedValues j
    let alpha ← idx alphas j
    let t ← scalarMulExt x alpha
    addExt term t

/-- `evalVanishingPoly`, `plonk/plonk.go:121-207`. -/
def evalVanishingPoly (c : CommonCircuitData) (gates : List Gate) (vars : Vars) (ch : ProofChallenges Fr QEV)
    (openings : OpeningSet QEV) (zetaPowN : QEV) : Circ (List QEV) := do
  let constraintTerms ← evaluateGateConstraints gates c.numGateConstraints c.selectorsInfo vars
  let sIDs ← (List.range c.config.numRoutedWires).mapM fun i => do
    let k ← idx c.kIs i
    scalarMulExt ch.plonkZeta (k : Fr)
  let l0Zeta ← evalL0 c ch.plonkZeta zetaPowN
  let terms ← (List.range c.config.numChallenges).mapM (challengeTerms c ch openings sIDs l0Zeta)
  let vanishingTerms := terms.map Prod.fst ++ terms.flatMap Prod.snd ++ constraintTerms
  vanishingTerms.reverse.foldlM (reduceStep c ch.plonkAlphas) (List.replicate c.config.numChallenges zeroExt)

/-- Check for challenge `i`, `plonk/plonk.go:238-248`. -/
def quotientCheck (c : CommonCircuitData) (openings : OpeningSet QEV) (zHZeta zetaPowN : QEV) (vi : QEV × ℕ) :
    Circ Unit := do
  let quotients ← slice openings.quotientPolys (vi.2 * c.quotientDegreeFactor)
    (vi.2 * c.quotientDegreeFactor + c.quotientDegreeFactor)
  let t ← reduceWithPowers quotients zetaPowN
  let prod ← mulExt zHZeta t
  assertIsEqualExt vi.1 prod

/-- `Verify`, `plonk/plonk.go:209-250`. -/
def verify (c : CommonCircuitData) (gates : List Gate) (ch : ProofChallenges Fr QEV) (openings : OpeningSet QEV)
    (publicInputsHash : Fin 4 → Fr) : Circ Unit := do
  let zetaPowN ← expPowerOf2Extension c ch.plonkZeta
  let vars : Vars := ⟨openings.constants, openings.wires, publicInputsHash⟩
  let vanishingPolysZeta ← evalVanishingPoly c gates vars ch openings zetaPowN
  let zHZeta ← subExt zetaPowN oneExt
  vanishingPolysZeta.zipIdx.forM (quotientCheck c openings zHZeta zetaPowN)

end Verif.Plonk
