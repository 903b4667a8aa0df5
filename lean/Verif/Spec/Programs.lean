import Verif.Model.ExtAlgebra

/-!
# Straight-line programs over the Goldilocks chip

A user of the chip calls its methods one after the other, feeding results to later calls.  `Instr` lists the
calls; memory has one bank per type of variable.  `Instr.eval` is the intended meaning, in the fields
(`none`: an assertion fails or a divisor is zero); `Instr.emit` are the calls of the chip's methods.
-/

set_option autoImplicit false

namespace Verif.Prog

open Circ

/-- Memory with banks of base, extension and algebra elements. -/
structure Mem (B E A : Type) where
  b : ℕ → B
  e : ℕ → E
  a : ℕ → A

namespace Mem
variable {B E A : Type}
def setB (m : Mem B E A) (d : ℕ) (x : B) : Mem B E A := { m with b := Function.update m.b d x }
def setE (m : Mem B E A) (d : ℕ) (x : E) : Mem B E A := { m with e := Function.update m.e d x }
def setA (m : Mem B E A) (d : ℕ) (x : A) : Mem B E A := { m with a := Function.update m.a d x }
end Mem

/-- Canonical representatives of a memory. -/
def Mem.enc (m : Mem Fp QE QA) : Mem Fr QEV QAV :=
  ⟨fun i => emb (m.b i), fun i => embQ (m.e i), fun i => embA (m.a i)⟩

/-- Calls of the chip: destination first, then operands (indices in the banks). -/
inductive Instr
  | const (d : ℕ) (c : Fp)
  | add (d x y : ℕ)
  | sub (d x y : ℕ)
  | mul (d x y : ℕ)
  | mulAdd (d x y z : ℕ)
  | reduce (d x : ℕ)
  | reduceAdd (d x y : ℕ)
  | reduceSub (d x y : ℕ)
  | reduceMul (d x y : ℕ)
  | reduceMulAdd (d x y z : ℕ)
  | inverse (d x : ℕ)
  | rangeCheck (x : ℕ)
  | assertEq (x y : ℕ)
  | toExt (d x : ℕ)
  | addExt (d x y : ℕ)
  | subExt (d x y : ℕ)
  | mulExt (d x y : ℕ)
  | mulAddExt (d x y z : ℕ)
  | subMulExt (d x y z : ℕ)
  | scalarMulExt (d x y : ℕ)
  | innerProductExt (d c acc : ℕ) (pairs : List (ℕ × ℕ))
  | inverseExt (d x : ℕ)
  | divExt (d x y : ℕ)
  | expExt (d x : ℕ) (n : ℕ)
  | reduceExt (d x : ℕ)
  | reduceWithPowers (d : ℕ) (terms : List ℕ) (s : ℕ)
  | isZeroExt (d x : ℕ)
  | lookup (d s x y : ℕ)
  | lookup2 (d s t x y z w : ℕ)
  | assertEqExt (x y : ℕ)
  | rangeCheckExt (x : ℕ)
  | toAlg (d x : ℕ)
  | addAlg (d x y : ℕ)
  | subAlg (d x y : ℕ)
  | mulAlg (d x y : ℕ)
  | scalarMulAlg (d x y : ℕ)

open Classical in
/-- The meaning in the fields. -/
noncomputable def Instr.eval (m : Mem Fp QE QA) : Instr → Option (Mem Fp QE QA)
  | const d c => some (m.setB d c)
  | add d x y => some (m.setB d (m.b x + m.b y))
  | sub d x y => some (m.setB d (m.b x - m.b y))
  | mul d x y => some (m.setB d (m.b x * m.b y))
  | mulAdd d x y z => some (m.setB d (m.b x * m.b y + m.b z))
  | reduce d x => some (m.setB d (m.b x))
  | reduceAdd d x y => some (m.setB d (m.b x + m.b y))
  | reduceSub d x y => some (m.setB d (m.b x - m.b y))
  | reduceMul d x y => some (m.setB d (m.b x * m.b y))
  | reduceMulAdd d x y z => some (m.setB d (m.b x * m.b y + m.b z))
  | inverse d x => if m.b x = 0 then none else some (m.setB d (m.b x)⁻¹)
  | rangeCheck _ => some m
  | assertEq x y => if m.b x = m.b y then some m else none
  | toExt d x => some (m.setE d (ofBase (m.b x)))
  | addExt d x y => some (m.setE d (m.e x + m.e y))
  | subExt d x y => some (m.setE d (m.e x - m.e y))
  | mulExt d x y => some (m.setE d (m.e x * m.e y))
  | mulAddExt d x y z => some (m.setE d (m.e x * m.e y + m.e z))
  | subMulExt d x y z => some (m.setE d ((m.e x - m.e y) * m.e z))
  | scalarMulExt d x y => some (m.setE d (m.e x * ofBase (m.b y)))
  | innerProductExt d c acc pairs =>
    some (m.setE d (m.e acc + ofBase (m.b c) * (pairs.map fun xy => m.e xy.1 * m.e xy.2).sum))
  | inverseExt d x => if m.e x = 0 then none else some (m.setE d (m.e x)⁻¹)
  | divExt d x y => if m.e y = 0 then none else some (m.setE d (m.e x / m.e y))
  | expExt d x n => some (m.setE d (m.e x ^ n))
  | reduceExt d x => some (m.setE d (m.e x))
  | reduceWithPowers d terms s =>
    some (m.setE d (∑ i ∈ Finset.range terms.length, m.e (terms.getD i 0) * m.e s ^ i))
  | isZeroExt d x => some (m.setB d (if m.e x = 0 then 1 else 0))
  | lookup d s x y =>
    if m.b s = 0 then some (m.setE d (m.e x)) else if m.b s = 1 then some (m.setE d (m.e y)) else none
  | lookup2 d s t x y z w =>
    if (m.b s = 0 ∨ m.b s = 1) ∧ (m.b t = 0 ∨ m.b t = 1) then
      some (m.setE d (if m.b t = 0 then (if m.b s = 0 then m.e x else m.e y)
        else (if m.b s = 0 then m.e z else m.e w)))
    else none
  | assertEqExt x y => if m.e x = m.e y then some m else none
  | rangeCheckExt _ => some m
  | toAlg d x => some (m.setA d (ofExt (m.e x)))
  | addAlg d x y => some (m.setA d (m.a x + m.a y))
  | subAlg d x y => some (m.setA d (m.a x - m.a y))
  | mulAlg d x y => some (m.setA d (m.a x * m.a y))
  | scalarMulAlg d x y => some (m.setA d (ofExt (m.e x) * m.a y))

/-- The calls of the chip.  `Inverse`, `InverseExtension` and `DivExtension` return a flag; the caller asserts it. -/
def Instr.emit (m : Mem Fr QEV QAV) : Instr → Circ (Mem Fr QEV QAV)
  | const d c => pure (m.setB d (emb c))
  | add d x y => do pure (m.setB d (← Verif.add (m.b x) (m.b y)))
  | sub d x y => do pure (m.setB d (← Verif.sub (m.b x) (m.b y)))
  | mul d x y => do pure (m.setB d (← Verif.mul (m.b x) (m.b y)))
  | mulAdd d x y z => do pure (m.setB d (← Verif.mulAdd (m.b x) (m.b y) (m.b z)))
  | reduce d x => do pure (m.setB d (← Verif.reduce (m.b x)))
  | reduceAdd d x y => do pure (m.setB d (← Verif.reduce (addNoReduce (m.b x) (m.b y))))
  | reduceSub d x y => do pure (m.setB d (← Verif.reduce (subNoReduce (m.b x) (m.b y))))
  | reduceMul d x y => do pure (m.setB d (← Verif.reduce (mulNoReduce (m.b x) (m.b y))))
  | reduceMulAdd d x y z => do
    pure (m.setB d (← Verif.reduce (mulAddNoReduce (m.b x) (m.b y) (m.b z))))
  | inverse d x => do
    let (inv, hasInv) ← Verif.inverse (m.b x)
    glAssertIsEqual hasInv 1
    pure (m.setB d inv)
  | rangeCheck x => do Verif.rangeCheck (m.b x); pure m
  | assertEq x y => do glAssertIsEqual (m.b x) (m.b y); pure m
  | toExt d x => pure (m.setE d (toQE (m.b x)))
  | addExt d x y => do pure (m.setE d (← Verif.addExt (m.e x) (m.e y)))
  | subExt d x y => do pure (m.setE d (← Verif.subExt (m.e x) (m.e y)))
  | mulExt d x y => do pure (m.setE d (← Verif.mulExt (m.e x) (m.e y)))
  | mulAddExt d x y z => do pure (m.setE d (← Verif.mulAddExt (m.e x) (m.e y) (m.e z)))
  | subMulExt d x y z => do pure (m.setE d (← Verif.subMulExt (m.e x) (m.e y) (m.e z)))
  | scalarMulExt d x y => do pure (m.setE d (← Verif.scalarMulExt (m.e x) (m.b y)))
  | innerProductExt d c acc pairs => do
    pure (m.setE d (← Verif.innerProductExt (m.b c) (m.e acc) (pairs.map fun xy => (m.e xy.1, m.e xy.2))))
  | inverseExt d x => do
    let (inv, hasInv) ← Verif.inverseExt (m.e x)
    glAssertIsEqual hasInv 1
    pure (m.setE d inv)
  | divExt d x y => do
    let (q, hasInv) ← Verif.divExt (m.e x) (m.e y)
    glAssertIsEqual hasInv 1
    pure (m.setE d q)
  | expExt d x n => do pure (m.setE d (← Verif.expExt (m.e x) n))
  | reduceExt d x => do pure (m.setE d (← Verif.reduceExt (m.e x)))
  | reduceWithPowers d terms s => do
    pure (m.setE d (← Verif.reduceWithPowers (terms.map m.e) (m.e s)))
  | isZeroExt d x => pure (m.setB d (Verif.isZeroExt (m.e x)))
  | lookup d s x y => do pure (m.setE d (← Verif.lookup (m.b s) (m.e x) (m.e y)))
  | lookup2 d s t x y z w => do
    pure (m.setE d (← Verif.lookup2 (m.b s) (m.b t) (m.e x) (m.e y) (m.e z) (m.e w)))
  | assertEqExt x y => do assertIsEqualExt (m.e x) (m.e y); pure m
  | rangeCheckExt x => do rangeCheckQE (m.e x); pure m
  | toAlg d x => pure (m.setA d (toQA (m.e x)))
  | addAlg d x y => do pure (m.setA d (← Verif.addAlg (m.a x) (m.a y)))
  | subAlg d x y => do pure (m.setA d (← Verif.subAlg (m.a x) (m.a y)))
  | mulAlg d x y => do pure (m.setA d (← Verif.mulAlg (m.a x) (m.a y)))
  | scalarMulAlg d x y => do pure (m.setA d (← Verif.scalarMulAlg (m.e x) (m.a y)))

/-- Inner products are short (the code's own are at most a few hundred terms long). -/
def Instr.Short : Instr → Prop
  | innerProductExt _ _ _ pairs => pairs.length < 2 ^ 63
  | _ => True

/-- A program: the meaning, and the circuit. -/
noncomputable def eval (prog : List Instr) (m : Mem Fp QE QA) : Option (Mem Fp QE QA) :=
  prog.foldlM Instr.eval m

def emit (prog : List Instr) (m : Mem Fr QEV QAV) : Circ (Mem Fr QEV QAV) :=
  prog.foldlM Instr.emit m

end Verif.Prog
