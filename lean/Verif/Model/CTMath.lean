/-
Elementary functions on multilinear expansions:
external/upstream/taylor/ctaylor_math.hpp, and the Becke-Roussel solver of
src/functionals/brx.cpp.  `CTAYLOR_SPARSE` is not defined (ctaylor.hpp:10).
-/
import Verif.Model.CT
import Verif.Model.TMath

namespace XCFun

noncomputable section

/-- The array `tmp` of `expm1` (ctaylor_math.hpp:89-97). -/
def expm1Expand (x0 : ℝ) : Coefs := fun i =>
  if i = 0 then
    (if |x0| > (1e-3 : ℝ) then expExpand x0 0 - 1 else 2 * Real.exp (x0 / 2) * Real.sinh (x0 / 2))
  else expExpand x0 i

/-- Numerator coefficients `P` (ctaylor_math.hpp:281-289). -/
def padeP : Coefs
  | 0 => 0
  | 1 => 3.510921856028398e3
  | 2 => 1.23624388373212e4
  | 3 => 1.734847003883674e4
  | 4 => 1.235072285222234e4
  | 5 => 4.691117148130619e3
  | 6 => 9.119186273274577e2
  | 7 => 7.815848629220836e1
  | 8 => 1.96088643023654e0
  | _ => 0

/-- Denominator coefficients `Q` (ctaylor_math.hpp:290-298). -/
def padeQ : Coefs
  | 0 => 3.510921856028398e3
  | 1 => 1.29475924799926e4
  | 2 => 1.924308297963337e4
  | 3 => 1.474357149568687e4
  | 4 => 6.176496729255528e3
  | 5 => 1.379806958043824e3
  | 6 => 1.471833349002349e2
  | 7 => 5.666278232986776e0
  | 8 => 2.865104054302032e-2
  | _ => 0

/-- The array `tmp` of `sqrtx_asinh_sqrtx` in its Pade branch (ctaylor_math.hpp:302-311). -/
def padeExpand (N : ℕ) (x0 : ℝ) : Coefs :=
  let q := TFuns.shift 8 padeQ x0
  let tmp := TFuns.compose N (invExpand (q 0)) q
  TFuns.multo N tmp (TFuns.shift 8 padeP x0)

/-! Becke-Roussel solver -/

/-- `NR_step` (brx.cpp:25-27). -/
def brStep (x z : ℝ) : ℝ :=
  (x * (3 * x * (Real.exp (-2 / 3 * x) * z - 1) + 6)) / (x * (2 * x - 4) + 6)

/-- The loop of `BR(double)` (brx.cpp:40-45) with `i` iterations left; a non-converged
    iterate is returned after the message at 46. -/
def brIter (z : ℝ) : ℕ → ℝ → ℝ
  | 0, x0 => x0
  | i + 1, x0 =>
    let x1 := x0 + brStep x0 z
    if |x0 - x1| < 1e-15 * (1 + x1) then x1 else brIter z i x1

/-- `BR(double)` (brx.cpp:30-48). -/
def brSolve (z : ℝ) : ℝ :=
  brIter z 20 <|
    if z < -1e4 then -2 / z
    else if z < -2 then (√(9 * z * z + 6 * z + 49) + 3 * z + 1) / 4
    else if z < 1 then 2 * (z * Real.exp (-4 / 3) + 1)
    else 3 / 2 * Real.log z + 3.75 / (1.5 + Real.log z)

/-- Product of truncated one-variable series (`taylormul`, taylor.hpp:251-257; the
    unrolled code of polymul.hpp is represented by the sum it computes). -/
def serMul (x y : Coefs) : Coefs := fun k => ∑ j ∈ Finset.range (k + 1), x j * y (k - j)

/-- Powers of a series. -/
def serPow (x : Coefs) : ℕ → Coefs
  | 0 => fun k => if k = 0 then 1 else 0
  | i + 1 => serMul (serPow x i) x

/-- `taylor<T,1,D>::compose` (taylor.hpp:139-147): `∑ c_i (t - t_0)^i` up to degree `D`
    (polymul's `taylorcompose0` represented by the sum it computes). -/
def serCompose (D : ℕ) (c t : Coefs) : Coefs := fun k =>
  ∑ i ∈ Finset.range (D + 1), c i * serPow (t.wr 0 0) i k

/-- `BR_z` on series (brx.cpp:21-23). -/
def brZ (D : ℕ) (t : Coefs) : Coefs :=
  serMul (serMul (t.wr 0 (t 0 - 2)) (serCompose D (invExpand (t 0)) t))
    (serCompose D (expExpand (2 / 3 * t 0)) (fun k => 2 / 3 * t k))

/-- `BR_taylor` (brx.cpp:52-71) for degree `D`. -/
def brTaylor (D : ℕ) (z0 : ℝ) : Coefs :=
  let t : Coefs := fun k => if k = 0 then brSolve z0 else if k = 1 then 1 else 0
  let t := t.wr 1 (1 / brZ D t 1)
  loopUp (fun i t => t.wr i (-brZ D t i * t 1)) 2 (D - 1) t

/-! Elementary functions as coefficient arrays -/

/-- The one-argument functions of ctaylor_math.hpp that apply `ctaylor_rec::compose` to
    an array of coefficients, and `BR` of brx.cpp. -/
inductive Prim where
  /-- the reciprocal in `operator/`, ctaylor_math.hpp:22-26, 41-43 -/
  | inv
  /-- ctaylor_math.hpp:70-81 -/
  | exp
  /-- ctaylor_math.hpp:84-102 -/
  | expm1
  /-- ctaylor_math.hpp:104-115 -/
  | log
  /-- ctaylor_math.hpp:119-131 -/
  | pow (a : ℝ)
  /-- ctaylor_math.hpp:133-145 -/
  | sqrt
  /-- ctaylor_math.hpp:147-159 -/
  | cbrt
  /-- ctaylor_math.hpp:180-192 -/
  | atan
  /-- ctaylor_math.hpp:194-206 -/
  | erf
  /-- ctaylor_math.hpp:208-220 -/
  | sin
  /-- ctaylor_math.hpp:222-234 -/
  | cos
  /-- ctaylor_math.hpp:256-268 -/
  | asinh
  /-- first branch of sqrtx_asinh_sqrtx, ctaylor_math.hpp:299-315 -/
  | pade
  /-- brx.cpp:77-89; the sum `∑ tmp[i] * pow(t - t.c[0], i)` is a composition -/
  | br

/-- The coefficient array used by a primitive for `ctaylor<double,N>` at `x0`. -/
def Prim.coef : Prim → ℕ → ℝ → Coefs
  | .inv, _, x => invExpand x
  | .exp, _, x => expExpand x
  | .expm1, _, x => expm1Expand x
  | .log, _, x => logExpand x
  | .pow a, _, x => powExpand x a
  | .sqrt, _, x => sqrtExpand x
  | .cbrt, _, x => cbrtExpand x
  | .atan, N, x => atanExpand N x
  | .erf, N, x => erfExpand N x
  | .sin, _, x => sinExpand x
  | .cos, _, x => cosExpand x
  | .asinh, N, x => asinhExpand N x
  | .pade, N, x => padeExpand N x
  | .br, N, x => brTaylor (max N 3) x

/-- A primitive applied to a `ctaylor<double,N>`, e.g. `exp` (ctaylor_math.hpp:70-81):
    `ctaylor_rec<T,Nvar>::compose(res.c, t.c, tmp)`. -/
def CT.prim {N : ℕ} (p : Prim) (t : CT ℝ N) : CT ℝ N := t.compose (p.coef N t.c0)

/-- The value part of a primitive, which is all there is for `N = 0`. -/
def Prim.fn (p : Prim) (x : ℝ) : ℝ := p.coef 0 x 0

/-- `operator/(ctaylor, ctaylor)` (ctaylor_math.hpp:30-46): `res = 1/t2; res *= t1`. -/
def CT.div {N : ℕ} (t1 t2 : CT ℝ N) : CT ℝ N := t2.prim .inv * t1

/-- `operator/(scalar, ctaylor)` (ctaylor_math.hpp:6-28). -/
def CT.scalarDiv {N : ℕ} (x : ℝ) (t : CT ℝ N) : CT ℝ N :=
  t.compose (fun i => invExpand t.c0 i * x)

/-- `operator/(ctaylor, scalar)` (ctaylor_math.hpp:48-60): `tmp *= 1/x`. -/
def CT.divScalar {N : ℕ} (t : CT ℝ N) (x : ℝ) : CT ℝ N := t.smul (1 / x)

/-- The loop of the integer power: `res = t; while (n-- > 1) res *= t;`
    (ctaylor_math.hpp:167-170). -/
def CT.npow {N : ℕ} (t : CT ℝ N) : ℕ → CT ℝ N
  | 0 => CT.const N 1
  | 1 => t
  | n + 2 => CT.npow t (n + 1) * t

/-- `pow(ctaylor, int)` (ctaylor_math.hpp:165-178). -/
def CT.powi {N : ℕ} (t : CT ℝ N) : ℤ → CT ℝ N
  | .ofNat n => t.npow n
  | .negSucc n => t.prim (.pow (Int.negSucc n : ℝ))

/-- `regularize` (densvars.hpp:22-25): only the constant coefficient is replaced. -/
def CT.regularize {N : ℕ} (x : CT ℝ N) : CT ℝ N :=
  if x.c0 < 1e-14 then x.setC0 1e-14 else x

end
end XCFun
