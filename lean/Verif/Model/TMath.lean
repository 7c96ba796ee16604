/-
One-variable Taylor arithmetic and the expansions of the elementary functions:
external/upstream/taylor/tmath.hpp.  Scalars are real numbers: `T = double` without
rounding, the C library functions as the mathematical ones, and `M_PI` as `π`.
The assertions (`x0 > 0` and so on) are the domain hypotheses of the theorems.

An array `T t[N+1]` is a function `ℕ → ℝ` of which the entries `0..N` matter.
-/
import Mathlib.Analysis.SpecialFunctions.Pow.Real
import Mathlib.Analysis.SpecialFunctions.Trigonometric.Arctan
import Mathlib.Analysis.SpecialFunctions.Arsinh
import Mathlib.MeasureTheory.Integral.IntervalIntegral.Basic

namespace XCFun

noncomputable section

/-- The C library's `erf` (used in tmath.hpp:224): `2/√π ∫₀ˣ exp(-t²) dt`. -/
def erf (x : ℝ) : ℝ := 2 / √Real.pi * ∫ t in (0 : ℝ)..x, Real.exp (-t ^ 2)

/-- Coefficient arrays of tmath.hpp. -/
abbrev Coefs := ℕ → ℝ

/-- One store `t[i] = v`. tmath.hpp, e.g. 39. -/
def Coefs.wr (t : Coefs) (i : ℕ) (v : ℝ) : Coefs := fun j => if j = i then v else t j

/-- A loop counting up, `for (i = lo; i < lo + count; i++)` (e.g. tmath.hpp:38). -/
def loopUp {S : Type*} (body : ℕ → S → S) (lo : ℕ) : ℕ → S → S
  | 0, s => s
  | k + 1, s => body (lo + k) (loopUp body lo k s)

/-- A loop counting down, `for (i = lo + count - 1; i >= lo; i--)` (e.g. tmath.hpp:46). -/
def loopDown {S : Type*} (body : ℕ → S → S) (lo : ℕ) : ℕ → S → S
  | 0, s => s
  | k + 1, s => loopDown body lo k (body (lo + k) s)

namespace TFuns

/-- `tfuns<T,N>::mul` (tmath.hpp:37-43): `z = x*y` truncated at degree `N`. -/
def mul (N : ℕ) (z x y : Coefs) : Coefs :=
  loopUp (fun i z =>
    loopUp (fun j z => z.wr i (z i + x j * y (i - j))) 1 i (z.wr i (x 0 * y i)))
    0 (N + 1) z

/-- `tfuns<T,N>::multo` (tmath.hpp:45-51): `z *= x`, counting down. -/
def multo (N : ℕ) (z x : Coefs) : Coefs :=
  loopDown (fun i z =>
    loopUp (fun j z => z.wr i (z i + x j * z (i - j))) 1 i (z.wr i (x 0 * z i)))
    0 (N + 1) z

/-- `tfuns<T,N>::integrate` (tmath.hpp:53-56). -/
def integrate (N : ℕ) (x : Coefs) : Coefs :=
  loopDown (fun i x => x.wr i (x (i - 1) / i)) 1 N x

/-- `tfuns<T,N>::differentiate` (tmath.hpp:57-61). -/
def differentiate (N : ℕ) (x : Coefs) : Coefs :=
  (loopUp (fun i x => x.wr (i - 1) (i * x i)) 1 N x).wr N 0

/-- The powers `dn[0..N]` of `shift` (tmath.hpp:64-67). -/
def powers (d : ℝ) : Coefs
  | 0 => 1
  | i + 1 => d * powers d i

/-- `tfuns<T,N>::shift` (tmath.hpp:63-78): re-expand a polynomial around `d`.
    The integer `fac` is carried along with the array, with C integer division. -/
def shift (N : ℕ) (x : Coefs) (d : ℝ) : Coefs :=
  loopUp (fun n x =>
    let r := loopUp (fun m (s : Coefs × ℕ) =>
      (s.1.wr n (s.1 n + s.2 * powers d (m - n) * s.1 m), s.2 * (m + 1) / (m - n + 1)))
      (n + 1) (N - (n + 1)) (x, n + 1)
    r.1.wr n (r.1 n + r.2 * powers d (N - n) * r.1 N))
    0 N x

/-- `tfuns<T,N>::compose` (tmath.hpp:80-113): the `switch (N)` whose cases fall through
    from `N` down to 1.  For `N > 6` the assertion at 111 fails; with assertions
    disabled nothing is written, which is what this definition does. -/
def compose (N : ℕ) (f x : Coefs) : Coefs :=
  let case (k : ℕ) (e : Coefs → ℝ) (f : Coefs) : Coefs := if k ≤ N ∧ N ≤ 6 then f.wr k (e f) else f
  let f := case 6 (fun f => f 1 * x 6 + 2 * f 2 * x 5 * x 1 + 2 * f 2 * x 4 * x 2 +
      f 2 * x 3 * x 3 + 3 * f 3 * x 4 * x 1 * x 1 + 6 * f 3 * x 3 * x 2 * x 1 +
      f 3 * x 2 * x 2 * x 2 + 4 * f 4 * x 3 * x 1 * x 1 * x 1 +
      6 * f 4 * x 2 * x 2 * x 1 * x 1 + 5 * f 5 * x 2 * x 1 * x 1 * x 1 * x 1 +
      f 6 * x 1 * x 1 * x 1 * x 1 * x 1 * x 1) f
  let f := case 5 (fun f => f 1 * x 5 + x 1 * (2 * f 2 * x 4 + x 1 * (3 * f 3 * x 3 +
      x 1 * (4 * f 4 * x 2 + f 5 * x 1 * x 1)) + 3 * f 3 * x 2 * x 2) + 2 * f 2 * x 2 * x 3) f
  let f := case 4 (fun f => f 1 * x 4 + x 1 * (2 * f 2 * x 3 +
      x 1 * (3 * f 3 * x 2 + f 4 * x 1 * x 1)) + f 2 * x 2 * x 2) f
  let f := case 3 (fun f => f 1 * x 3 + x 1 * (2 * f 2 * x 2 + f 3 * x 1 * x 1)) f
  let f := case 2 (fun f => f 1 * x 2 + f 2 * x 1 * x 1) f
  case 1 (fun f => f 1 * x 1) f

/-- The running power `an` of `stretch` before iteration `i` (tmath.hpp:115, 118). -/
def stretchFac (a : ℝ) : ℕ → ℝ
  | 0 => a
  | i + 1 => stretchFac a i * a

/-- `tfuns<T,N>::stretch` (tmath.hpp:114-120). -/
def stretch (N : ℕ) (t : Coefs) (a : ℝ) : Coefs :=
  loopUp (fun i t => t.wr i (t i * stretchFac a (i - 1))) 1 N t

end TFuns

/-- `inv_expand` (tmath.hpp:124-129): entry `i` of `t`. -/
def invExpand (a : ℝ) : Coefs
  | 0 => 1 / a
  | i + 1 => -invExpand a i * (1 / a)

/-- The running factorial `ifac` of `exp_expand` after iteration `i` (tmath.hpp:133-136). -/
def expFac : ℕ → ℝ
  | 0 => 1
  | i + 1 => expFac i * ((i + 1 : ℕ) : ℝ)

/-- `exp_expand` (tmath.hpp:132-139). -/
def expExpand (x0 : ℝ) : Coefs
  | 0 => Real.exp x0
  | i + 1 => Real.exp x0 / expFac (i + 1)

/-- The running power `xn` of `log_expand` in iteration `i` (tmath.hpp:145-149). -/
def logPow (x0 : ℝ) : ℕ → ℝ
  | 0 => 1
  | i + 1 => if i = 0 then 1 / x0 else logPow x0 i * (1 / x0)

/-- `log_expand` (tmath.hpp:142-151); `2 * (i & 1) - 1` is integer arithmetic. -/
def logExpand (x0 : ℝ) : Coefs
  | 0 => Real.log x0
  | i + 1 => (logPow x0 (i + 1) / ((i + 1 : ℕ) : ℝ)) *
      ((2 * (((i + 1) &&& 1 : ℕ) : ℤ) - 1 : ℤ) : ℝ)

/-- `pow_expand` (tmath.hpp:154-161). -/
def powExpand (x0 a : ℝ) : Coefs
  | 0 => x0 ^ a
  | i + 1 => powExpand x0 a i * (1 / x0) * (a - ((i + 1 : ℕ) : ℝ) + 1) / ((i + 1 : ℕ) : ℝ)

/-- `sqrt_expand` (tmath.hpp:164-170). -/
def sqrtExpand (x0 : ℝ) : Coefs
  | 0 => √x0
  | i + 1 => sqrtExpand x0 i * ((3 * (1 / x0)) / ((2 * (i + 1) : ℕ) : ℝ) - 1 / x0)

/-- The C library's `cbrt` on positive arguments (used in tmath.hpp:174): the real cube
    root; on negative arguments it is odd. -/
def cbrt (x : ℝ) : ℝ := if 0 ≤ x then x ^ ((1 : ℝ) / 3) else -((-x) ^ ((1 : ℝ) / 3))

/-- `cbrt_expand` (tmath.hpp:172-178). -/
def cbrtExpand (x0 : ℝ) : Coefs
  | 0 => cbrt x0
  | i + 1 => cbrtExpand x0 i * ((4 * (1 / x0)) / ((3 * (i + 1) : ℕ) : ℝ) - 1 / x0)

/-- The array `x` of `atan_expand` (tmath.hpp:184-193), the expansion of
    `2*a*x + x^2`. -/
def atanInner (a : ℝ) : Coefs
  | 0 => 0
  | 1 => 2 * a
  | 2 => 1
  | _ => 0

/-- `atan_expand` (tmath.hpp:182-198). -/
def atanExpand (N : ℕ) (a : ℝ) : Coefs :=
  (TFuns.integrate N (TFuns.compose N (invExpand (1 + a * a)) (atanInner a))).wr 0 (Real.arctan a)

/-- The array `g` of `gauss_expand` (tmath.hpp:208-213), the expansion of
    `exp(-x^2)`. -/
def gaussG : Coefs
  | 0 => 1
  | 1 => 0
  | i + 2 => if i % 2 = 0 then -gaussG i / ((i / 2 + 1 : ℕ) : ℝ) else 0

/-- `gauss_expand` (tmath.hpp:205-215). -/
def gaussExpand (N : ℕ) (a : ℝ) : Coefs :=
  TFuns.multo N (TFuns.stretch N (expExpand (-a * a)) (-2 * a)) gaussG

/-- `erf_expand` (tmath.hpp:219-225). -/
def erfExpand (N : ℕ) (a : ℝ) : Coefs :=
  (TFuns.integrate N (fun i => gaussExpand N a i * (2 / √Real.pi))).wr 0 (erf a)

/-- The running factor `fac` of `sin_expand` at the start of iteration `i`
    (tmath.hpp:229-235). -/
def sinFac : ℕ → ℝ
  | 0 => 1
  | i + 1 => sinFac i / ((2 * i + 1 : ℕ) : ℝ) / (-((2 * i + 2 : ℕ) : ℝ))

/-- `sin_expand` (tmath.hpp:227-241).  Entry `2i` is written by iteration `i`, or after
    the loop when it is the last one; entry `2i+1` by iteration `i`. -/
def sinExpand (a : ℝ) : Coefs := fun k =>
  if k % 2 = 0 then sinFac (k / 2) * Real.sin a
  else sinFac (k / 2) / ((2 * (k / 2) + 1 : ℕ) : ℝ) * Real.cos a

/-- The running factor `fac` of `cos_expand` at the start of iteration `i`
    (tmath.hpp:245-251). -/
def cosFac : ℕ → ℝ
  | 0 => 1
  | i + 1 => cosFac i / (-((2 * i + 1 : ℕ) : ℝ)) / ((2 * i + 2 : ℕ) : ℝ)

/-- `cos_expand` (tmath.hpp:243-257), organised as `sin_expand`. -/
def cosExpand (a : ℝ) : Coefs := fun k =>
  if k % 2 = 0 then cosFac (k / 2) * Real.cos a
  else cosFac (k / 2) / (-((2 * (k / 2) + 1 : ℕ) : ℝ)) * Real.sin a

/-- The array `tmp` of `asinh_expand` (tmath.hpp:262-269), the expansion of
    `1 + (a+x)^2`. -/
def asinhInner (a : ℝ) : Coefs
  | 0 => 1 + a * a
  | 1 => 2 * a
  | 2 => 1
  | _ => 0

/-- `asinh_expand` (tmath.hpp:261-274). -/
def asinhExpand (N : ℕ) (a : ℝ) : Coefs :=
  (TFuns.integrate N (TFuns.compose N (powExpand (1 + a * a) (-(1 / 2))) (asinhInner a))).wr 0
    (Real.arsinh a)

/-- The array `tmp` of `asin_expand` and `acos_expand` (tmath.hpp:279-286, 300-307),
    the expansion of `1 - (a+x)^2`. -/
def asinInner (a : ℝ) : Coefs
  | 0 => 1 - a * a
  | 1 => -2 * a
  | 2 => -1
  | _ => 0

/-- `asin_expand` (tmath.hpp:278-291); entry 0 is `asinh(a)`, as in the source. -/
def asinExpand (N : ℕ) (a : ℝ) : Coefs :=
  (TFuns.integrate N (TFuns.compose N (powExpand (1 - a * a) (-(1 / 2))) (asinInner a))).wr 0
    (Real.arsinh a)

/-- `acos_expand` (tmath.hpp:299-314); the sign loop stops before `Ndeg` and entry 0 is
    `asinh(a)`, as in the source. -/
def acosExpand (N : ℕ) (a : ℝ) : Coefs :=
  (loopUp (fun i t => t.wr i (t i * (-1))) 1 (N - 1)
    (TFuns.integrate N (TFuns.compose N (powExpand (1 - a * a) (-(1 / 2))) (asinInner a)))).wr 0
    (Real.arsinh a)

end
end XCFun
