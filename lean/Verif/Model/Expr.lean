/-
The numeric code of the functionals as expression trees.

A functional is a C++ template `num f(const densvars<num>&)`.  It is written down once
as an `Expr`; instantiating the template at `ctaylor<double,N>` (functional.hpp:24-25,
`ENERGY_FUNCTION`) is `Expr.evalCT`.  Evaluation at `N = 0` is the order-0 function and is
spelled out over the real numbers as `Expr.evalR`.

Scalar operands (`double`, `int`) are promoted to constant expansions; that the mixed
operators of ctaylor.hpp / ctaylor_math.hpp give the same coefficients is
`Props.C26_scalar_operands` and `Props.C26_scalar_division`.
-/
import Verif.Model.CTMath

namespace XCFun

/-- Expression trees over variables `ι`. -/
inductive Expr (ι : Type) where
  /-- an input -/
  | var (i : ι)
  /-- a `double` constant -/
  | lit (c : ℝ)
  /-- ctaylor.hpp:468-475 -/
  | add (x y : Expr ι)
  /-- ctaylor.hpp:504-511 -/
  | sub (x y : Expr ι)
  /-- ctaylor.hpp:442-452 -/
  | mul (x y : Expr ι)
  /-- ctaylor.hpp:263-277 -/
  | neg (x : Expr ι)
  /-- ctaylor_math.hpp and brx.cpp:77-89 -/
  | prim (p : Prim) (x : Expr ι)
  /-- densvars.hpp:22-30 -/
  | reg (x : Expr ι)
  /-- `if (x < y) a else b`; comparisons look at the constant coefficient only
      (ctaylor.hpp:385-413) -/
  | iflt (x y a b : Expr ι)

namespace Expr

variable {ι : Type}

noncomputable section

instance : Add (Expr ι) := ⟨add⟩
instance : Sub (Expr ι) := ⟨sub⟩
instance : Mul (Expr ι) := ⟨mul⟩
instance : Neg (Expr ι) := ⟨neg⟩
/-- `t1 / t2` is `res = 1/t2; res *= t1` (ctaylor_math.hpp:30-46). -/
instance : Div (Expr ι) := ⟨fun x y => mul (prim .inv y) x⟩
instance (n : ℕ) [n.AtLeastTwo] : OfNat (Expr ι) n := ⟨lit (OfNat.ofNat n)⟩
instance : OfNat (Expr ι) 0 := ⟨lit 0⟩
instance : OfNat (Expr ι) 1 := ⟨lit 1⟩
instance : OfScientific (Expr ι) := ⟨fun m s e => lit (OfScientific.ofScientific m s e)⟩
instance : Coe ℝ (Expr ι) := ⟨lit⟩

/-- Functions of ctaylor_math.hpp, by their C++ names. -/
def exp (x : Expr ι) : Expr ι := prim .exp x
/-- ctaylor_math.hpp:84-102 -/
def expm1 (x : Expr ι) : Expr ι := prim .expm1 x
/-- ctaylor_math.hpp:104-115 -/
def log (x : Expr ι) : Expr ι := prim .log x
/-- `pow(t, double)`, ctaylor_math.hpp:119-131 -/
def pow (x : Expr ι) (a : ℝ) : Expr ι := prim (.pow a) x
/-- ctaylor_math.hpp:133-145 -/
def sqrt (x : Expr ι) : Expr ι := prim .sqrt x
/-- ctaylor_math.hpp:147-159 -/
def cbrt (x : Expr ι) : Expr ι := prim .cbrt x
/-- ctaylor_math.hpp:180-192 -/
def atan (x : Expr ι) : Expr ι := prim .atan x
/-- ctaylor_math.hpp:194-206 -/
def erf (x : Expr ι) : Expr ι := prim .erf x
/-- ctaylor_math.hpp:256-268 -/
def asinh (x : Expr ι) : Expr ι := prim .asinh x
/-- brx.cpp:77-89 -/
def br (x : Expr ι) : Expr ι := prim .br x

/-- `pow(t, n)` for an `int` literal `n > 0` (ctaylor_math.hpp:167-171). -/
def npow (x : Expr ι) : ℕ → Expr ι
  | 0 => 1
  | 1 => x
  | n + 2 => npow x (n + 1) * x

/-- `pow(t, n)` for an `int` `n` (ctaylor_math.hpp:165-178). -/
def powi (x : Expr ι) : ℤ → Expr ι
  | .ofNat n => npow x n
  | .negSucc n => pow x (Int.negSucc n : ℝ)

/-- `pow2` (specmath.hpp:20). -/
def pow2 (x : Expr ι) : Expr ι := x * x
/-- `pow3` (specmath.hpp:22). -/
def pow3 (x : Expr ι) : Expr ι := x * x * x

/-- `poly(x, n, coeffs)` (specmath.hpp:24-33): Horner's rule from the last coefficient. -/
def poly (x : Expr ι) : List ℝ → Expr ι
  | [] => 0
  | [c] => c
  | c :: d :: cs => poly x (d :: cs) * x + c

/-- `ufunc` (specmath.hpp:35-37). -/
def ufunc (x : Expr ι) (a : ℝ) : Expr ι := pow (1 + x) a + pow (1 - x) a

/-- `abs` (ctaylor_math.hpp:62-68). -/
def abs (x : Expr ι) : Expr ι := iflt x 0 (-x) x

/-- `max` (ctaylor_math.hpp:335-341): `a > b ? a : b`. -/
def max (a b : Expr ι) : Expr ι := iflt b a a b

/-- `sqrtx_asinh_sqrtx` (ctaylor_math.hpp:275-325): `fabs(t.c[0]) < 0.5` selects the Pade
    approximant. -/
def sqrtxAsinhSqrtx (t : Expr ι) : Expr ι :=
  let far := sqrt t * asinh (sqrt t)
  iflt t 0.5 (iflt (-0.5) t (prim .pade t) far) far

/-- Evaluation on `ctaylor<double,N>`. -/
def evalCT {N : ℕ} (ρ : ι → CT ℝ N) : Expr ι → CT ℝ N
  | var i => ρ i
  | lit c => CT.const N c
  | add x y => evalCT ρ x + evalCT ρ y
  | sub x y => evalCT ρ x - evalCT ρ y
  | mul x y => evalCT ρ x * evalCT ρ y
  | neg x => -evalCT ρ x
  | prim p x => (evalCT ρ x).prim p
  | reg x => (evalCT ρ x).regularize
  | iflt x y a b => if (evalCT ρ x).c0 < (evalCT ρ y).c0 then evalCT ρ a else evalCT ρ b

/-- Evaluation on real numbers. -/
def evalR (ρ : ι → ℝ) : Expr ι → ℝ
  | var i => ρ i
  | lit c => c
  | add x y => evalR ρ x + evalR ρ y
  | sub x y => evalR ρ x - evalR ρ y
  | mul x y => evalR ρ x * evalR ρ y
  | neg x => -evalR ρ x
  | prim p x => p.fn (evalR ρ x)
  | reg x => if evalR ρ x < 1e-14 then 1e-14 else evalR ρ x
  | iflt x y a b => if evalR ρ x < evalR ρ y then evalR ρ a else evalR ρ b

end
end Expr
end XCFun
