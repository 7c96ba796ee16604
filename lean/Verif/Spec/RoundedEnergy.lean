/-
Rounded arithmetic with elementary functions, and energies computed with it.
-/
import Verif.Spec.Rounding
import Verif.Model.Expr
import Verif.Model.Fun.Kernel
import Verif.Spec.Energy
import Verif.Proofs.CTMath

namespace XCFun.Spec
open XCFun

variable {V : Type} [Zero V] [One V] [Add V] [Sub V] [Mul V] [Neg V]

/-- Constants and elementary functions for the arithmetic `A`, all with relative error at most `w`.  The exponent of a power is itself a
    rounded constant.  Only what the functionals of `steps` need is assumed, and only where the exact functions are defined. -/
structure MathLib (A : Rounded V) where
  w : ℝ
  u_le : A.u ≤ w
  w_le : w ≤ 1e-6
  /-- a constant of the source -/
  const : ℝ → V
  const_err : ∀ c, |A.val (const c) - c| ≤ w * |c|
  /-- the powers of the C library -/
  pow : V → V → V
  pow_err : ∀ x y, 0 < A.val x → |A.val (pow x y) - A.val x ^ A.val y| ≤ w * |A.val x ^ A.val y|
  /-- the other functions, by their names -/
  fn : Prim → V → V
  inv_err : ∀ x, A.val x ≠ 0 → |A.val (fn .inv x) - (A.val x)⁻¹| ≤ w * |(A.val x)⁻¹|
  expm1_err : ∀ x, |A.val (fn .expm1 x) - (Real.exp (A.val x) - 1)| ≤ w * |Real.exp (A.val x) - 1|

open Classical in
/-- The value of an expression computed with rounding: `Expr.evalR` with the operations of `A` and `L` (see Model/Expr for the citations). -/
noncomputable def evalV {A : Rounded V} (L : MathLib A) {ι : Type} (ρ : ι → V) : Expr ι → V
  | .var i => ρ i
  | .lit c => L.const c
  | .add x y => evalV L ρ x + evalV L ρ y
  | .sub x y => evalV L ρ x - evalV L ρ y
  | .mul x y => evalV L ρ x * evalV L ρ y
  | .neg x => -evalV L ρ x
  | .prim (.pow a) x => L.pow (evalV L ρ x) (L.const a)
  | .prim p x => L.fn p (evalV L ρ x)
  | .reg x => if A.val (evalV L ρ x) < A.val (L.const 1e-14) then L.const 1e-14 else evalV L ρ x
  | .iflt x y a b => if A.val (evalV L ρ x) < A.val (evalV L ρ y) then evalV L ρ a else evalV L ρ b

/-- An upper bound for the number of relative errors that accumulate in the energy of a functional, for densities and gradients as in `InRange`.
    A power counts with its exponent, and the rounding of its exponent with the logarithm of its base. -/
def steps : ℕ → Option ℕ
  | 0 => some 139 -- SLATERX
  | 1 => some 1000 -- PW86X
  | 5 | 19 | 68 | 74 => some 1700 -- PBEX, REVPBEX, APBEX, PBESOLX
  | 72 => some 4700 -- PBEINTX
  | 17 | 18 => some 2200 -- OPTX, OPTXCORR
  | 20 => some 450 -- RPBEX
  | 23 => some 150 -- KTX
  | 24 => some 174 -- TFK
  | 58 => some 800 -- BTK
  | 59 => some 10 -- VWK
  | _ => none

/-- Two spin densities between `1.01·10⁻¹⁴` and `10²¹`, and squared gradients up to `10²¹`, in the order of `XC_A_B_GAA_GAB_GBB`. -/
structure InRange (x : ℕ → ℝ) : Prop where
  a : 1.01e-14 ≤ x 0 ∧ x 0 ≤ 1e21
  b : 1.01e-14 ≤ x 1 ∧ x 1 ≤ 1e21
  gaa : 0 ≤ x 2 ∧ x 2 ≤ 1e21
  gbb : 0 ≤ x 4 ∧ x 4 ≤ 1e21

/-- The functionals computed with rounding, at order 0: every coefficient but the first is left 0. -/
noncomputable def roundedKernel {A : Rounded V} (L : MathLib A) : Kernel V where
  reads := DV.reads
  fp v par id N ins := CT.const N (evalV L (fun i => (ins i).get 0) (fullExpr (fun i => A.val (par i)) v id))

/-- Binary arithmetic with `p` bits, unlimited exponent and correctly rounded functions. -/
noncomputable def Bits.lib (p : ℕ) (hp : 20 ≤ p) : MathLib (Bits.rounded p) where
  w := (1 / 2) ^ p
  u_le := le_rfl
  w_le := (pow_le_pow_of_le_one (by norm_num) (by norm_num) hp).trans (by norm_num)
  const c := ⟨roundBits p c⟩
  const_err c := Bits.round_err c
  pow x y := ⟨roundBits p (x.real ^ y.real)⟩
  pow_err _ _ _ := Bits.round_err _
  fn q x := ⟨roundBits p (q.fn x.real)⟩
  inv_err x _ := by
    have : Prim.fn .inv x.real = x.real⁻¹ := one_div _
    rw [this]
    exact Bits.round_err _
  expm1_err x := by
    rw [Prim.fn_expm1]
    exact Bits.round_err _

end XCFun.Spec
