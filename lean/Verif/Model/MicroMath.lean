/-
The mathematical functions that the library brings along for Visual C++, external/upstream/taylor/micromath.hpp.  The file is included instead of relying on the C library if `_MSC_VER` is
defined (tmath.hpp:29-31, taylor_math.hpp:10-12).

Scalars are real numbers: no rounding, `pow`, `sqrt`, `log`, `exp` of the C library as the mathematical functions.  Loops and calls get a bound on their number; `diverge` when it is used up.
The `int` counter `j` of `erf` is a natural number: the loop is shown to end long before `2 * j + 1` exceeds the range of `int`.
-/
import Mathlib.Analysis.SpecialFunctions.Pow.Real
import Mathlib.Analysis.SpecialFunctions.Sqrt
import Verif.Model.Outcome

namespace XCFun.MicroMath

noncomputable section

/-- `cbrt` (micromath.hpp:10).  `pow` of a negative number with the exponent `1.0 / 3.0` is not a number: `none`. -/
def cbrt (x : ℝ) : Option ℝ := if x < 0 then none else some (x ^ ((1 : ℝ) / 3))

/-- `asinh` (micromath.hpp:12) -/
def asinh (x : ℝ) : ℝ := Real.log (x + √(x * x + 1))

/-- `erf_rel_error` (micromath.hpp:26) -/
def relError : ℝ := 1e-12

/-- The condition `fabs(term) / sum > erf_rel_error` (micromath.hpp:49).  Division by zero: `fabs(term) / 0` is infinite, and not a number (the comparison is false) if `term` is zero too. -/
def erfGoesOn (term sum : ℝ) : Prop := if sum = 0 then term ≠ 0 else |term| / sum > relError

/-- The loop of `erf` (micromath.hpp:42-49); the arguments are the local variables. -/
def erfLoop (xsqr : ℝ) : ℕ → ℕ → ℝ → ℝ → Outcome ℝ
  | 0, _, _, _ => .diverge
  | fuel + 1, j, sum, term =>
    let term := term * (xsqr / j)
    let sum := sum - term / (2 * j + 1)
    let j := j + 1
    let term := term * (xsqr / j)
    let sum := sum + term / (2 * j + 1)
    let j := j + 1
    open Classical in if erfGoesOn term sum then erfLoop xsqr fuel j sum term else .ok sum

/-- The loop of `erfc` (micromath.hpp:70-80); the arguments are the local variables.  It is entered with `x > 0` only, for which `d` and `q2` stay positive. -/
def erfcLoop (x : ℝ) : ℕ → ℝ → ℝ → ℝ → ℝ → ℝ → ℝ → Outcome ℝ
  | 0, _, _, _, _, _, _ => .diverge
  | fuel + 1, a, b, c, d, q2, n =>
    let t := a * n + b * x
    let a := b
    let b := t
    let t := c * n + d * x
    let c := d
    let d := t
    let n := n + 0.5
    let q1 := q2
    let q2 := b / d
    open Classical in if |q1 - q2| / q2 > relError then erfcLoop x fuel a b c d q2 n else .ok q2

mutual

/-- `erf` (micromath.hpp:31-51) -/
def erf : ℕ → ℝ → Outcome ℝ
  | 0, _ => .diverge
  | fuel + 1, x => do
    if |x| > 2.2 then
      let r ← erfc fuel x
      .ok (1.0 - r)
    else
      let sum ← erfLoop (x * x) fuel 1 x x
      .ok (1.128379167095512574 * sum)

/-- `erfc` (micromath.hpp:53-82) -/
def erfc : ℕ → ℝ → Outcome ℝ
  | 0, _ => .diverge
  | fuel + 1, x => do
    if |x| < 2.2 then
      let r ← erf fuel x
      .ok (1.0 - r)
    else if x < 0 then
      let r ← erfc fuel (-x)
      .ok (2.0 - r)
    else
      let q2 ← erfcLoop x fuel 1 x x (x * x + 0.5) (x / (x * x + 0.5)) 1.0
      .ok (0.564189583547756287 * Real.exp (-x * x) * q2)

end

end
end XCFun.MicroMath
