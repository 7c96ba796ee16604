/-
Rounded arithmetic with logarithms, square roots and arc tangents, for the correlation energies of the local density approximation.
-/
import Verif.Spec.RoundedEnergy

namespace XCFun.Spec
open XCFun

variable {V : Type} [Zero V] [One V] [Add V] [Sub V] [Mul V] [Neg V]

/-- `MathLib` with relative error at most `w` for three more functions, where the exact functions are defined. -/
structure CorrLib (A : Rounded V) extends MathLib A where
  log_err : ∀ x, 0 < A.val x → |A.val (fn .log x) - Real.log (A.val x)| ≤ w * |Real.log (A.val x)|
  sqrt_err : ∀ x, 0 ≤ A.val x → |A.val (fn .sqrt x) - √(A.val x)| ≤ w * |√(A.val x)|
  atan_err : ∀ x, |A.val (fn .atan x) - Real.arctan (A.val x)| ≤ w * |Real.arctan (A.val x)|

/-- Two spin densities between `1.01·10⁻¹⁴` and `10²¹`, neither more than 99 times the other: polarisation at most 98 percent. -/
structure InRangeSpin (x : ℕ → ℝ) : Prop where
  a : 1.01e-14 ≤ x 0 ∧ x 0 ≤ 1e21
  b : 1.01e-14 ≤ x 1 ∧ x 1 ≤ 1e21
  ab : x 0 ≤ 99 * x 1
  ba : x 1 ≤ 99 * x 0

/-- The radius of a sphere that holds one electron at density `n`. -/
noncomputable def wignerSeitz (n : ℝ) : ℝ := (3 / (4 * Real.pi * n)) ^ (1 / 3 : ℝ)

/-- What the error of a correlation energy density is measured by, at total density `n`: a multiple of `n`, and for PW92C also of `n` times
    the radius `wignerSeitz n`, since there a logarithm of a number near 1 is multiplied by the radius. -/
noncomputable def corrUnit (n : ℝ) : ℕ → Option ℝ
  | 2 | 3 => some (49 * n) -- VWN3C, VWN5C
  | 28 => some (24 * (1 + wignerSeitz n) * n) -- PW92C
  | _ => none

/-- The steps of all functionals whose rounding errors are bounded. -/
def allSteps : ℕ → Option ℕ
  | 2 | 3 | 28 => some 1500
  | id => steps id

/-- What the error of functional `id` is measured by, where its energy density is `e`. -/
noncomputable def errUnit (n e : ℝ) (id : ℕ) : ℝ := (corrUnit n id).getD |e|

/-- Binary arithmetic with `p` bits, unlimited exponent and correctly rounded functions. -/
noncomputable def Bits.corrLib (p : ℕ) (hp : 20 ≤ p) : CorrLib (Bits.rounded p) :=
  { Bits.lib p hp with
    log_err := fun _ _ => Bits.round_err _
    sqrt_err := fun _ _ => Bits.round_err _
    atan_err := fun _ => Bits.round_err _ }

end XCFun.Spec
