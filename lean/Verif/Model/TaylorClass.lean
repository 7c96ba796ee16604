/-
Taylor expansions in several variables, external/upstream/taylor/taylor.hpp and taylor_math.hpp, and the solver of src/functionals/brx.cpp that uses them.

`taylor<double, n, N>` is the list of its coefficients; `double` is ℝ, the C library functions are the mathematical ones and `M_PI` is `π`.  A declared but not yet
assigned array is `fresh u _`: `u` stands for whatever the memory contains.  A failing `assert` is the outcome `die`; the range checks of `operator[]` are the bounds
of the array, outside of which the outcome is `ub`.  Copies are not modelled as loops.  `taylor_logging`, printing, `as_taylor` and
`tensored_taylor` are left out; the comparison operators and `pick_order` are in TaylorPick.lean.
-/
import Verif.Model.Polymul
import Verif.Model.CTMath

namespace XCFun.Tay
open XCFun Polymul

noncomputable section

/-- An array of `k` coefficients without initial values (`polynomial(void) {}`, polymul.hpp:1169). -/
def fresh (u : ℕ → ℝ) (k : ℕ) : List ℝ := (List.range k).map u

/-- `assert(p)` (taylor.hpp:3 includes polymul.hpp, which includes assert.h) -/
def assert (p : Prop) [Decidable p] : Outcome Unit := if p then .ok () else .die

/-- `for (int i = lo; i < lo + cnt; i++) c[i] = f(c[i]);` (e.g. taylor.hpp:107-108) -/
def updLoop (f : ℝ → ℝ) (cnt lo : ℕ) (c : List ℝ) : Outcome (List ℝ) := forLoop (fun i c => do
  let x ← rdBuf c i
  wrBuf c i (f x)) cnt lo c

/-! ### taylor.hpp -/

/-- `operator=(c0)` and the constructor from a number (taylor.hpp:25-26, 46-49; polymul.hpp:1170-1180) -/
def assign (n N : ℕ) (c0 : ℝ) (c : List ℝ) : Outcome (List ℝ) := do
  let c ← wrBuf c 0 c0
  clear 1 (polylen n N - 1) c

/-- `taylor(c0, var, var_value)` (taylor.hpp:31-45; without `var_value` it is 1) -/
def mkVar (u : ℕ → ℝ) (n N : ℕ) (c0 : ℝ) (var : ℕ) (value : ℝ) : Outcome (List ℝ) := do
  let c ← assign n N c0 (fresh u (polylen n N))
  assert (var < n)
  if 0 < N then wrBuf c (var + 1) value else .ok c

/-- `integrate` (taylor.hpp:70-72): the loop from `i` down to 1, then `c[0] = 0` -/
def integrateLoop : ℕ → List ℝ → Outcome (List ℝ)
  | 0, c => wrBuf c 0 0
  | i + 1, c => do
    let x ← rdBuf c i
    let c ← wrBuf c (i + 1) (x / ((i + 1 : ℕ) : ℝ))
    integrateLoop i c

/-- `integrate` (taylor.hpp:68-73) -/
def integrate (n N : ℕ) (c : List ℝ) : Outcome (List ℝ) := do
  assert (n = 1)
  integrateLoop N c

/-- `stretch` (taylor.hpp:75-83) -/
def stretch (n N : ℕ) (alpha : ℝ) (c : List ℝ) : Outcome (List ℝ) := do
  let r ← forLoop (fun i (r : ℝ × ℕ × List ℝ) => do
    let len ← taylorlen n i
    let c ← updLoop (· * r.1) (len.toNat - r.2.1) r.2.1 r.2.2
    .ok (r.1 * alpha, max r.2.1 len.toNat, c)) N 1 (alpha, 1, c)
  .ok r.2.2

/-- `invert_parity` (taylor.hpp:84-86) -/
def invertParity (n N : ℕ) (c : List ℝ) : Outcome (List ℝ) := stretch n N (-1) c

/-- `shift` (taylor.hpp:92-104) of a `taylor<T, n, N>` to a `taylor<T, 1, M>` -/
def shift (u : ℕ → ℝ) (n N M : ℕ) (c out : List ℝ) (dx : ℝ) : Outcome (List ℝ) := do
  assert (n = 1)
  assert (M ≤ N)
  let out ← assign 1 M 0 out
  let dxpow ← wrBuf (fresh u (N + 1)) 0 1
  let dxpow ← forLoop (fun i dxpow => do
    let p ← rdBuf dxpow (i - 1)
    wrBuf dxpow i (dx * p)) N 1 dxpow
  forLoop (fun i out => forLoop (fun j out => do
    let k ← taylorlen ((j : ℤ) - i) i
    let p ← rdBuf dxpow (j - i)
    let x ← rdBuf c j
    let y ← rdBuf out i
    wrBuf out i (y + (k : ℝ) * p * x)) (N + 1 - i) i out) (M + 1) 0 out

/-- `operator-()` (taylor.hpp:105-110) -/
def neg (n N : ℕ) (c : List ℝ) : Outcome (List ℝ) := updLoop (· * -1) (polylen n N) 0 c

/-- `operator*=(scale)` (taylor.hpp:121-124, 133-136) -/
def scale (n N : ℕ) (x : ℝ) (c : List ℝ) : Outcome (List ℝ) := updLoop (· * x) (polylen n N) 0 c

/-- `operator/=(scale)` (taylor.hpp:125-128) -/
def divScalar (n N : ℕ) (x : ℝ) (c : List ℝ) : Outcome (List ℝ) := updLoop (· / x) (polylen n N) 0 c

/-- `operator+=(x)` (taylor.hpp:120) and the sums with a number (258-272) -/
def addScalar (c : List ℝ) (x : ℝ) : Outcome (List ℝ) := do
  let y ← rdBuf c 0
  wrBuf c 0 (y + x)

/-- `operator-=(x)` (taylor.hpp:119) and `t - x` (291-297) -/
def subScalar (c : List ℝ) (x : ℝ) : Outcome (List ℝ) := do
  let y ← rdBuf c 0
  wrBuf c 0 (y - x)

/-- `x - t` (taylor.hpp:283-289) -/
def scalarSub (n N : ℕ) (x : ℝ) (t : List ℝ) : Outcome (List ℝ) := do
  let tmp ← neg n N t
  addScalar tmp x

/-- `for (int i = 0; i < size; i++) c[i] = f(a[i], b[i]);` (taylor.hpp:111-118, 274-281, 317-324) -/
def zip (f : ℝ → ℝ → ℝ) (n N : ℕ) (dst a b : List ℝ) : Outcome (List ℝ) := forLoop (fun i dst => do
  let x ← rdBuf a i
  let y ← rdBuf b i
  wrBuf dst i (f x y)) (polylen n N) 0 dst

/-- `t1 + t2` (taylor.hpp:274-281) -/
def add (u : ℕ → ℝ) (n N : ℕ) (t1 t2 : List ℝ) : Outcome (List ℝ) := zip (· + ·) n N (fresh u (polylen n N)) t1 t2

/-- `t1 - t2` (taylor.hpp:317-324) -/
def sub (u : ℕ → ℝ) (n N : ℕ) (t1 t2 : List ℝ) : Outcome (List ℝ) := zip (· - ·) n N (fresh u (polylen n N)) t1 t2

/-- `x * t` and `t * x` (taylor.hpp:232-248) -/
def scalarMul (u : ℕ → ℝ) (n N : ℕ) (x : ℝ) (t : List ℝ) : Outcome (List ℝ) := forLoop (fun i tmp => do
  let y ← rdBuf t i
  wrBuf tmp i (x * y)) (polylen n N) 0 (fresh u (polylen n N))

/-- `t1 * t2` (taylor.hpp:250-256) -/
def mul (u : ℕ → ℝ) (n N : ℕ) (t1 t2 : List ℝ) : Outcome (List ℝ) := taylormul n N (fresh u (polylen n N)) t1 t2

/-- `t *= t2` for a different object `t2` (taylor.hpp:137-139) -/
def mulBy (n N N2 : ℕ) (t t2 : List ℝ) : Outcome (List ℝ) := taylormulIn n N N2 t t2

/-- `compose(res, coeff)` (taylor.hpp:142-148; the template arguments of the call require `Nres = Ndeg`) -/
def compose (n N : ℕ) (t res coeff : List ℝ) : Outcome (List ℝ) := do
  let tmp ← wrBuf t 0 0
  taylorcompose0 n N N res tmp coeff

/-- `compose(coeff)` (taylor.hpp:156-164) -/
def composeTo (u : ℕ → ℝ) (n N M : ℕ) (t coeff : List ℝ) : Outcome (List ℝ) := do
  assert (N ≤ M)
  let tmp ← wrBuf t 0 0
  taylorcompose0 n M N (fresh u (polylen n M)) tmp coeff

/-- `compose0(res, coeff)` (taylor.hpp:150-155) -/
def compose0 (n N : ℕ) (t res coeff : List ℝ) : Outcome (List ℝ) := taylorcompose0 n N N res t coeff

/-- `dot` (taylor.hpp:165-170) -/
def dot (n N : ℕ) (c t : List ℝ) : Outcome ℝ := forLoop (fun i sum => do
  let x ← rdBuf c i
  let y ← rdBuf t i
  .ok (sum + x * y)) (polylen n N) 0 0

/-! ### taylor_math.hpp: expansions in one variable -/

/-- `inv_taylor` (taylor_math.hpp:15-20) -/
def invTaylor (N : ℕ) (t : List ℝ) (a : ℝ) : Outcome (List ℝ) := do
  assert (a ≠ 0)
  let t ← wrBuf t 0 (1 / a)
  forLoop (fun i t => do
    let x ← rdBuf t (i - 1)
    let y ← rdBuf t 0
    wrBuf t i (-x * y)) N 1 t

/-- `exp_taylor` (taylor_math.hpp:100-108); the state of the loop is `ifac` and the array. -/
def expTaylor (N : ℕ) (t : List ℝ) (x0 : ℝ) : Outcome (List ℝ) := do
  let t ← wrBuf t 0 (Real.exp x0)
  let r ← forLoop (fun i (r : ℝ × List ℝ) => do
    let y ← rdBuf r.2 0
    let t ← wrBuf r.2 i (y / (r.1 * (i : ℝ)))
    .ok (r.1 * (i : ℝ), t)) N 1 (1, t)
  .ok r.2

/-- `log_taylor` (taylor_math.hpp:150-159); the state of the loop is `xn` and the array. -/
def logTaylor (N : ℕ) (t : List ℝ) (x0 : ℝ) : Outcome (List ℝ) := do
  assert (0 < x0)
  let t ← wrBuf t 0 (Real.log x0)
  let r ← forLoop (fun i (r : ℝ × List ℝ) => do
    let t ← wrBuf r.2 i (r.1 / (i : ℝ) * ((2 * ((i &&& 1 : ℕ) : ℤ) - 1 : ℤ) : ℝ))
    .ok (r.1 * (1 / x0), t)) N 1 (1 / x0, t)
  .ok r.2

/-- `pow_taylor` (taylor_math.hpp:172-180) -/
def powTaylor (N : ℕ) (t : List ℝ) (x0 a : ℝ) : Outcome (List ℝ) := do
  assert (0 < x0)
  let t ← wrBuf t 0 (x0 ^ a)
  forLoop (fun i t => do
    let x ← rdBuf t (i - 1)
    wrBuf t i (x * (1 / x0) * (a - (i : ℝ) + 1) / (i : ℝ))) N 1 t

/-- `sqrt_taylor` (taylor_math.hpp:218-226) -/
def sqrtTaylor (N : ℕ) (t : List ℝ) (x0 : ℝ) : Outcome (List ℝ) := do
  assert (0 < x0)
  let t ← wrBuf t 0 (√x0)
  forLoop (fun i t => do
    let x ← rdBuf t (i - 1)
    wrBuf t i (x * ((3 * (1 / x0)) / ((2 * i : ℕ) : ℝ) - 1 / x0))) N 1 t

/-- `cbrt_taylor` (taylor_math.hpp:241-248) -/
def cbrtTaylor (N : ℕ) (t : List ℝ) (x0 : ℝ) : Outcome (List ℝ) := do
  assert (0 < x0)
  let t ← wrBuf t 0 (cbrt x0)
  forLoop (fun i t => do
    let x ← rdBuf t (i - 1)
    wrBuf t i (x * ((4 * (1 / x0)) / ((3 * i : ℕ) : ℝ) - 1 / x0))) N 1 t

/-- `pow(t, a)` with a real exponent (taylor_math.hpp:184-202) -/
def pow (u : ℕ → ℝ) (n N : ℕ) (t : List ℝ) (a : ℝ) : Outcome (List ℝ) := do
  let t0 ← rdBuf t 0
  let tmp ← powTaylor N (fresh u (polylen 1 N)) t0 a
  compose n N t (fresh u (polylen n N)) tmp

/-- `if (p) x[i] = v;` (taylor_math.hpp:288-291, 429-432) -/
def setIf (p : Prop) [Decidable p] (x : List ℝ) (i : ℕ) (v : ℝ) : Outcome (List ℝ) := if p then wrBuf x i v else .ok x

/-- `atan_taylor` (taylor_math.hpp:281-296) -/
def atanTaylor (u : ℕ → ℝ) (N : ℕ) (t : List ℝ) (a : ℝ) : Outcome (List ℝ) := do
  let invt ← invTaylor N (fresh u (polylen 1 N)) (1 + a * a)
  let x ← assign 1 N 0 (fresh u (polylen 1 N))
  let x ← setIf (0 < N) x 1 (2 * a)
  let x ← setIf (1 < N) x 2 1
  let t ← compose0 1 N x t invt
  let t ← integrate 1 N t
  wrBuf t 0 (Real.arctan a)

/-- `gauss_taylor` (taylor_math.hpp:312-321) -/
def gaussTaylor (u : ℕ → ℝ) (N : ℕ) (t : List ℝ) (a : ℝ) : Outcome (List ℝ) := do
  let t ← expTaylor N t (-a * a)
  let t ← stretch 1 N (-2 * a) t
  let g ← assign 1 N 1 (fresh u (polylen 1 N))
  let g ← forLoop (fun i g => do
    let x ← rdBuf g (2 * (i - 1))
    wrBuf g (2 * i) (-x / (i : ℝ))) (N / 2) 1 g
  mulBy 1 N N t g

/-- `erf_taylor` (taylor_math.hpp:350-357) -/
def erfTaylor (u : ℕ → ℝ) (N : ℕ) (t : List ℝ) (a : ℝ) : Outcome (List ℝ) := do
  let t ← gaussTaylor u N t a
  let t ← scale 1 N (2 / √Real.pi) t
  let t ← integrate 1 N t
  wrBuf t 0 (XCFun.erf a)

/-- `sin_taylor` (taylor_math.hpp:369-384); the state of the loop is `fac` and the array. -/
def sinTaylor (N : ℕ) (t : List ℝ) (a : ℝ) : Outcome (List ℝ) :=
  if 0 < N then do
    let r ← forLoop (fun i (r : ℝ × List ℝ) => do
      let t ← wrBuf r.2 (2 * i) (r.1 * Real.sin a)
      let fac := r.1 / ((2 * i + 1 : ℕ) : ℝ)
      let t ← wrBuf t (2 * i + 1) (fac * Real.cos a)
      .ok (fac / -((2 * i + 2 : ℕ) : ℝ), t)) ((N + 1) / 2) 0 (1, t)
    if N % 2 = 0 then wrBuf r.2 N (Real.sin a * r.1) else .ok r.2
  else wrBuf t 0 (Real.sin a)

/-- `cos_taylor` (taylor_math.hpp:396-411) -/
def cosTaylor (N : ℕ) (t : List ℝ) (a : ℝ) : Outcome (List ℝ) :=
  if 0 < N then do
    let r ← forLoop (fun i (r : ℝ × List ℝ) => do
      let t ← wrBuf r.2 (2 * i) (r.1 * Real.cos a)
      let fac := r.1 / -((2 * i + 1 : ℕ) : ℝ)
      let t ← wrBuf t (2 * i + 1) (fac * Real.sin a)
      .ok (fac / ((2 * i + 2 : ℕ) : ℝ), t)) ((N + 1) / 2) 0 (1, t)
    if N % 2 = 0 then wrBuf r.2 N (Real.cos a * r.1) else .ok r.2
  else wrBuf t 0 (Real.cos a)

/-- `asinh_taylor` (taylor_math.hpp:425-435); `t` is overwritten by the result of `pow`. -/
def asinhTaylor (u : ℕ → ℝ) (N : ℕ) (a : ℝ) : Outcome (List ℝ) := do
  let tmp ← assign 1 N (1 + a * a) (fresh u (polylen 1 N))
  let tmp ← setIf (0 < N) tmp 1 (2 * a)
  let tmp ← setIf (1 < N) tmp 2 1
  let t ← pow u 1 N tmp (-0.5)
  let t ← integrate 1 N t
  wrBuf t 0 (Real.arsinh a)

/-- `sinc_taylor_at0` (taylor_math.hpp:447-458); the state of the loop is `fac` and the array. -/
def sincTaylorAt0 (N : ℕ) (t : List ℝ) : Outcome (List ℝ) := do
  let t ← wrBuf t 0 1
  let r ← forLoop (fun i (r : ℝ × List ℝ) => do
    let fac := r.1 / ((2 * i : ℕ) : ℝ)
    let t ← wrBuf r.2 (2 * i - 1) 0
    let fac := fac / -((2 * i + 1 : ℕ) : ℝ)
    let t ← wrBuf t (2 * i) fac
    .ok (fac, t)) (N / 2) 1 (1, t)
  if N % 2 = 1 then wrBuf r.2 N 0 else .ok r.2

/-! ### taylor_math.hpp: functions of expansions -/

section
variable (u : ℕ → ℝ) (n N : ℕ)

/-- A function that fills an array in one variable at `t[0]` and composes (the pattern of taylor_math.hpp:110-118, 161-169, 228-236, 250-258, 298-306, 359-367, 386-394,
413-421, 437-445) -/
def apply (expand : List ℝ → ℝ → Outcome (List ℝ)) (t : List ℝ) : Outcome (List ℝ) := do
  let t0 ← rdBuf t 0
  let tmp ← expand (fresh u (polylen 1 N)) t0
  compose n N t (fresh u (polylen n N)) tmp

/-- `exp` (taylor_math.hpp:110-118) -/
def exp : List ℝ → Outcome (List ℝ) := apply u n N (expTaylor N)

/-- `expm1` (taylor_math.hpp:120-135) -/
def expm1 : List ℝ → Outcome (List ℝ) := apply u n N fun tmp t0 => do
  let tmp ← expTaylor N tmp t0
  if |t0| > (1e-3 : ℝ) then subScalar tmp 1 else wrBuf tmp 0 (2 * Real.exp (t0 / 2) * Real.sinh (t0 / 2))

/-- `log` (taylor_math.hpp:161-169) -/
def log : List ℝ → Outcome (List ℝ) := apply u n N (logTaylor N)

/-- `sqrt` (taylor_math.hpp:228-236) -/
def sqrt : List ℝ → Outcome (List ℝ) := apply u n N (sqrtTaylor N)

/-- `cbrt` (taylor_math.hpp:250-258) -/
def cbrt : List ℝ → Outcome (List ℝ) := apply u n N (cbrtTaylor N)

/-- `atan` (taylor_math.hpp:298-306) -/
def atan : List ℝ → Outcome (List ℝ) := apply u n N (atanTaylor u N)

/-- `erf` (taylor_math.hpp:359-367) -/
def erf : List ℝ → Outcome (List ℝ) := apply u n N (erfTaylor u N)

/-- `sin` (taylor_math.hpp:386-394) -/
def sin : List ℝ → Outcome (List ℝ) := apply u n N (sinTaylor N)

/-- `cos` (taylor_math.hpp:413-421) -/
def cos : List ℝ → Outcome (List ℝ) := apply u n N (cosTaylor N)

/-- `asinh` (taylor_math.hpp:437-445) -/
def asinh : List ℝ → Outcome (List ℝ) := apply u n N fun _ => asinhTaylor u N

/-- `x / t` for a number `x` (taylor_math.hpp:49-62) -/
def scalarDiv (x : ℝ) : List ℝ → Outcome (List ℝ) := apply u n N fun tmp t0 => do
  let tmp ← invTaylor N tmp t0
  scale 1 N x tmp

/-- `t / x` for a number `x` (taylor_math.hpp:64-86) -/
def overScalar (t : List ℝ) (x : ℝ) : Outcome (List ℝ) := scale n N (1 / x) t

/-- `t1 / t2` (taylor_math.hpp:88-97) -/
def div (t1 t2 : List ℝ) : Outcome (List ℝ) := do
  let res ← apply u n N (invTaylor N) t2
  mulBy n N N res t1

/-- `t /= t2` (taylor.hpp:129-132) -/
def divBy (t t2 : List ℝ) : Outcome (List ℝ) := do
  let tinv ← scalarDiv u n N 1 t2
  mulBy n N N t tinv

/-- One step of `taylor_reciprocal` (taylor_math.hpp:40-45) -/
def newton (a t : List ℝ) : Outcome (List ℝ) := do
  let tmp ← mulBy n N N a t
  let tmp ← subScalar tmp 2
  let tmp ← mulBy n N N tmp t
  forLoop (fun j t => do
    let x ← rdBuf tmp j
    wrBuf t j (-x)) (polylen n N) 0 t

/-- `taylor_reciprocal` (taylor_math.hpp:27-47); `(int)log2(Ndeg + 1)` is the logarithm rounded down. -/
def reciprocal (t a : List ℝ) : Outcome (List ℝ) := do
  let a0 ← rdBuf a 0
  assert (a0 ≠ 0)
  let t ← wrBuf t 0 (1 / a0)
  if N = 0 then .ok t else
  let t0 ← rdBuf t 0
  let t ← forLoop (fun i t => do
    let x ← rdBuf a i
    wrBuf t i (-t0 * t0 * x)) (polylen n N - 1) 1 t
  forLoop (fun _ t => newton n N a t) (Nat.log 2 (N + 1)) 1 t

/-- `while (n-- > 1) res *= t;` (taylor_math.hpp:268-269) -/
def powLoop (t : List ℝ) : ℕ → List ℝ → Outcome (List ℝ)
  | 0, res => .ok res
  | k + 1, res => do
    let res ← mulBy n N N res t
    powLoop t k res

/-- `pow(t, n)` with an integer exponent (taylor_math.hpp:264-277) -/
def powInt (t : List ℝ) (m : ℤ) : Outcome (List ℝ) :=
  if 0 < m then powLoop n N t (m.toNat - 1) t
  else if m < 0 then do
    let k ← int32 (-m)
    let p ← powLoop n N t (k.toNat - 1) t
    scalarDiv u n N 1 p
  else assign n N 1 (fresh u (polylen n N))

/-- `sinc` (taylor_math.hpp:460-474) -/
def sinc (t : List ℝ) : Outcome (List ℝ) := do
  let t0 ← rdBuf t 0
  if |t0| < (1e-3 : ℝ) then do
    let tmp ← sincTaylorAt0 (N + 8) (fresh u (polylen 1 (N + 8)))
    let tmp2 ← shift u 1 (N + 8) N tmp (fresh u (polylen 1 N)) t0
    compose n N t (fresh u (polylen n N)) tmp2
  else do
    let s ← sin u n N t
    div u n N s t

/-- `sqrtx_asinh_sqrtx` (taylor_math.hpp:481-518); the tables are those of ctaylor_math.hpp. -/
def sqrtxAsinhSqrtx (t : List ℝ) : Outcome (List ℝ) := do
  let t0 ← rdBuf t 0
  assert (-0.5 < t0)
  if |t0| < (0.5 : ℝ) then do
    assert (N ≤ 8)
    let pp ← shift u 1 8 N ((List.range 9).map padeP) (fresh u (polylen 1 N)) t0
    let pq ← shift u 1 8 N ((List.range 9).map padeQ) (fresh u (polylen 1 N)) t0
    let ppade ← div u 1 N pp pq
    compose n N t (fresh u (polylen n N)) ppade
  else do
    let s ← sqrt u n N t
    let r ← asinh u n N s
    mul u n N s r

/-- `min` (taylor_math.hpp:520-527) -/
def min (a b : List ℝ) : Outcome (List ℝ) := do
  let x ← rdBuf a 0
  let y ← rdBuf b 0
  .ok (if x ≤ y then a else b)

/-- `max` (taylor_math.hpp:529-536) -/
def max (a b : List ℝ) : Outcome (List ℝ) := do
  let x ← rdBuf a 0
  let y ← rdBuf b 0
  .ok (if x > y then a else b)

end

/-! ### brx.cpp -/

/-- `BR_z` of a `taylor<T, 1, D>` (brx.cpp:21-23) -/
def brZ (u : ℕ → ℝ) (D : ℕ) (x : List ℝ) : Outcome (List ℝ) := do
  let a ← subScalar x 2
  let b ← div u 1 D a x
  let c ← scalarMul u 1 D (2 / 3) x
  let d ← exp u 1 D c
  mul u 1 D b d

/-- `BR_taylor<T, D>` (brx.cpp:52-71) -/
def brTaylor (u : ℕ → ℝ) (D : ℕ) (z0 : ℝ) : Outcome (List ℝ) := do
  let t ← assign 1 D 0 (fresh u (polylen 1 D))
  let t ← wrBuf t 0 (brSolve z0)
  let t ← wrBuf t 1 1
  let f ← brZ u D t
  let f1 ← rdBuf f 1
  let t ← wrBuf t 1 (1 / f1)
  forLoop (fun i t => do
    let f ← brZ u D t
    let fi ← rdBuf f i
    let t1 ← rdBuf t 1
    wrBuf t i (-fi * t1)) (D - 1) 2 t

end
end XCFun.Tay
