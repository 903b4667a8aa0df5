import Verif.Model.TrustedSetup
import Mathlib.Algebra.Module.LinearMap.Defs
import Mathlib.LinearAlgebra.BilinearMap

/-!
# Model of `sanityCheck`, `trusted_setup/trusted_setup.go`, and of the reference string

The groups are modules over the scalar field, written additively, with a bilinear pairing `e`.  `commit`, `openAt` and `verify` are
the functions of gnark-crypto's package `kzg` that the code calls; they are described here, not taken from `/repo`.
-/

set_option autoImplicit false

namespace Verif.TrustedSetup

variable {G₁ G₂ GT : Type} [AddCommGroup G₁] [AddCommGroup G₂] [AddCommGroup GT] [Module Fr G₁] [Module Fr G₂] [Module Fr GT]

/-- `kzg_bn254.SRS`: `Pk.G1`, `Vk.G1` and `Vk.G2`. -/
structure SRS (G₁ G₂ : Type) where
  pkG1 : List G₁
  vkG1 : G₁
  vkG2 : G₂ × G₂

/-- Multi-exponentiation. -/
def msm (f : List Fr) (g : List G₁) : G₁ := ((f.zip g).map fun cg => cg.1 • cg.2).sum

/-- `kzg.Commit`; an empty polynomial or one with more coefficients than points is an error. -/
def commit (f : List Fr) (g : List G₁) : Option G₁ :=
  if f.length = 0 ∨ f.length > g.length then none else some (msm f g)

/-- Synthetic division by `X - a` from the highest coefficient down; the first entry is the remainder. -/
def synthetic (a : Fr) (f : List Fr) : List Fr := f.foldr (fun c q => (c + a * q.headD 0) :: q) []

/-- `kzg.Open`: the claimed value and the commitment to the quotient `(f - f(a))/(X - a)`. -/
def openAt (f : List Fr) (a : Fr) (g : List G₁) : Option (Fr × G₁) :=
  if f.length = 0 ∨ f.length > g.length then none
  else do
    let v ← eval f a
    let h ← commit (synthetic a ((f.headD 0 - v) :: f.tail)).tail g
    return (v, h)

/-- `kzg.Verify`: `e([f(α)]G₁ - [f(a)]G₁ + a [H(α)]G₁, G₂) = e([H(α)]G₁, [α]G₂)`. -/
def verify (e : G₁ →ₗ[Fr] G₂ →ₗ[Fr] GT) (digest : G₁) (proof : Fr × G₁) (a : Fr) (srs : SRS G₁ G₂) : Prop :=
  e (digest - proof.1 • srs.vkG1 + a • proof.2) srs.vkG2.1 = e proof.2 srs.vkG2.2

open Classical in
/-- `sanityCheck`, `trusted_setup/trusted_setup.go:13-43`; `f` is the result of `randomPolynomial(60)` (`:45-51`) and `none`
is `log.Fatal`. -/
noncomputable def sanityCheck (e : G₁ →ₗ[Fr] G₂ →ₗ[Fr] GT) (srs : SRS G₁ G₂) (f : List Fr) : Option Unit := do
  let digest ← commit f srs.pkG1
  let proof ← openAt f 4321 srs.pkG1
  let expected ← eval f 4321
  if proof.1 ≠ expected then none
  else if ¬ verify e digest proof 4321 srs then none
  else return ()

/-- A contribution of the ceremony. -/
structure Contribution (G₁ G₂ : Type) where
  g1 : List G₁
  g2 : List G₂

/-- The reference string made of the last contribution, `trusted_setup/trusted_setup.go:113-126`; `none` is an index out of
range. -/
def makeSrs (g2gen : G₂) (next : Contribution G₁ G₂) : Option (SRS G₁ G₂) := do
  let vkG1 ← next.g1[0]?
  let tau ← next.g2[0]?
  return ⟨next.g1, vkG1, (g2gen, tau)⟩

/-- `DownloadAndSaveAztecIgnitionSrs`, `trusted_setup/trusted_setup.go:65-150`, without the errors of the file system: what is
written to the file. -/
noncomputable def download {κ : Type} (e : G₁ →ₗ[Fr] G₂ →ₗ[Fr] GT) (g2gen : G₂) (get : κ → Option (Contribution G₁ G₂))
    (follows : Contribution G₁ G₂ → Contribution G₁ G₂ → Bool) (participants : List κ) (startIdx : ℕ) (f : List Fr) :
    Option (SRS G₁ G₂) := do
  let next ← lastContribution get follows participants startIdx
  let srs ← makeSrs g2gen next
  sanityCheck e srs f
  return srs

end Verif.TrustedSetup
