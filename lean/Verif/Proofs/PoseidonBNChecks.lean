import Verif.Spec.PoseidonBN
import Verif.Model.PoseidonBN
import Verif.Proofs.PoseidonBNTables
import Mathlib.Algebra.BigOperators.Fin

/-! # Kernel-checked identities between the tables of the BN254 Poseidon -/

set_option autoImplicit false

namespace Verif.PoseidonBN



def sum4 (f : Fin 4 → ℕ) : ℕ := f 0 + f 1 + f 2 + f 3

theorem sum4_eq (f : Fin 4 → ℕ) : sum4 f = ∑ i, f i := by
  simp only [sum4, Fin.sum_univ_four]

/-! ## Tables -/

def mEnt (i j : Fin 4) : ℕ := (mdsN.getD i []).getD j 0
def mmEnt (i j : Fin 4) : ℕ := (mMatrix.getD j []).getD i 0
def ppEnt (i j : Fin 4) : ℕ := (pMatrix.getD j []).getD i 0
def qEnt (k : ℕ) (i j : Fin 4) : ℕ := ((auxQ.getD k []).getD i []).getD j 0
def dEnt (k : ℕ) (i : Fin 4) : ℕ := (auxD.getD k []).getD i 0
def rcEnt (k : ℕ) (i : Fin 4) : ℕ := Spec.BN.roundConstants.getD (4 * k + i) 0
def cEnt (k : ℕ) (i : Fin 4) : ℕ := cConstants.getD (k + i) 0
def fcEnt (k : ℕ) : ℕ := cConstants.getD (20 + k) 0
def fEnt (k : ℕ) (i j : Fin 4) : ℕ :=
  if i = 0 then sConstants.getD (7 * k + j) 0
  else if j = 0 then sConstants.getD (7 * k + 4 + i - 1) 0
  else if i = j then 1 else 0

theorem check_cauchy : ∀ i j : Fin 4,
    (mEnt i j * (Spec.BN.xs.getD i 0 + Spec.BN.ys.getD j 0)) % r = 1 % r := by decide +kernel
theorem check_m : ∀ i j : Fin 4, mmEnt i j = mEnt i j := by decide +kernel
theorem check_rc0 : ∀ i : Fin 4, cEnt 0 i = rcEnt 0 i := by decide +kernel
theorem check_rc_first : ∀ k < 3, ∀ i : Fin 4,
    sum4 (fun j => mEnt i j * cEnt (4 * (k + 1)) j) % r = rcEnt (k + 1) i % r := by decide +kernel
theorem check_rc_last : ∀ k < 3, ∀ i : Fin 4,
    sum4 (fun j => mEnt i j * cEnt (76 + 4 * k) j) % r = rcEnt (61 + k) i % r := by decide +kernel
theorem check_p : ∀ i j : Fin 4,
    sum4 (fun k => qEnt 0 i k * mEnt k j) % r = ppEnt i j % r := by decide +kernel
theorem check_p_off : ∀ i : Fin 4, sum4 (fun k => ppEnt i k * cEnt 16 k) % r =
    (dEnt 0 i + sum4 (fun k => qEnt 0 i k * rcEnt 4 k)) % r := by decide +kernel
theorem check_mul : ∀ k < 56, ∀ i j : Fin 4,
    sum4 (fun l => fEnt k i l * qEnt k l j) % r =
      sum4 (fun l => qEnt (k + 1) i l * mEnt l j) % r := by decide +kernel
theorem check_block : ∀ k < 57, ∀ i : Fin 4,
    qEnt k 0 i = (if i = 0 then 1 else 0) ∧ qEnt k i 0 = (if i = 0 then 1 else 0) := by decide +kernel
theorem check_d0 : ∀ k < 56, dEnt k 0 = 0 := by decide +kernel
theorem check_offset : ∀ k < 56, ∀ i : Fin 4,
    sum4 (fun l => fEnt k i l * (dEnt k l + if l = 0 then fcEnt k else 0)) % r =
      (dEnt (k + 1) i + sum4 (fun l => qEnt (k + 1) i l * rcEnt (5 + k) l)) % r := by decide +kernel
theorem check_last : ∀ i : Fin 4, dEnt 56 i = 0 ∧ ∀ j, qEnt 56 i j = if i = j then 1 else 0 := by
  decide +kernel

end Verif.PoseidonBN
