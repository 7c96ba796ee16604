/-
Members of `densvars` by name and the constants of src/functionals/constants.hpp.
-/
import Verif.Model.Densvars

namespace XCFun.Fun

noncomputable section

/-- The argument `const densvars<num> & d` of a functional: `d.a`, `d.gaa`, ...
    (densvars.hpp:223-244). -/
def d : DV Field where
  a := .var .a
  b := .var .b
  gaa := .var .gaa
  gab := .var .gab
  gbb := .var .gbb
  n := .var .n
  s := .var .s
  gnn := .var .gnn
  gns := .var .gns
  gss := .var .gss
  tau := .var .tau
  taua := .var .taua
  taub := .var .taub
  lapa := .var .lapa
  lapb := .var .lapb
  zeta := .var .zeta
  r_s := .var .r_s
  n_m13 := .var .n_m13
  a_43 := .var .a_43
  b_43 := .var .b_43
  jpaa := .var .jpaa
  jpbb := .var .jpbb

/-- `d.get_param(i)` (densvars.hpp:221) -/
def getParam (i : ℕ) : Expr Field := .var (.param i)

/-- XC_RANGESEP_MU (src/functionals/list_of_functionals.hpp:100): the first parameter id -/
def RANGESEP_MU : ℕ := 78
/-- XC_EXX (list_of_functionals.hpp:101) -/
def EXX : ℕ := 79
/-- XC_CAM_ALPHA (list_of_functionals.hpp:102) -/
def CAM_ALPHA : ℕ := 80
/-- XC_CAM_BETA (list_of_functionals.hpp:103) -/
def CAM_BETA : ℕ := 81

/-- constants.hpp:30 -/
def c_slater : ℝ := (81 / (32 * Real.pi)) ^ (1 / 3 : ℝ)
/-- constants.hpp:25-27 -/
def PI2 : ℝ := Real.pi * Real.pi
/-- constants.hpp:31 -/
def CF : ℝ := 0.3 * (3 * PI2) ^ (2 / 3 : ℝ)
/-- constants.hpp:34 -/
def param_gamma : ℝ := (1 - Real.log 2) / PI2
/-- constants.hpp:35 -/
def param_beta_pbe_paper : ℝ := 0.066725
/-- constants.hpp:36 -/
def param_beta_accurate : ℝ := 0.06672455060314922
/-- constants.hpp:37 -/
def param_beta_gamma : ℝ := param_beta_accurate / param_gamma

/-! The functions of ctaylor_math.hpp and specmath.hpp on expressions in the density variables
(definitions and citations in Model/Expr). -/

abbrev exp (x : Expr Field) : Expr Field := Expr.exp x
abbrev expm1 (x : Expr Field) : Expr Field := Expr.expm1 x
abbrev log (x : Expr Field) : Expr Field := Expr.log x
abbrev pow (x : Expr Field) (a : ℝ) : Expr Field := Expr.pow x a
abbrev sqrt (x : Expr Field) : Expr Field := Expr.sqrt x
abbrev cbrt (x : Expr Field) : Expr Field := Expr.cbrt x
abbrev atan (x : Expr Field) : Expr Field := Expr.atan x
abbrev erf (x : Expr Field) : Expr Field := Expr.erf x
abbrev br (x : Expr Field) : Expr Field := Expr.br x
abbrev npow (x : Expr Field) (n : ℕ) : Expr Field := Expr.npow x n
abbrev powi (x : Expr Field) (n : ℤ) : Expr Field := Expr.powi x n
abbrev pow2 (x : Expr Field) : Expr Field := Expr.pow2 x
abbrev pow3 (x : Expr Field) : Expr Field := Expr.pow3 x
abbrev poly (x : Expr Field) (c : List ℝ) : Expr Field := Expr.poly x c
abbrev ufunc (x : Expr Field) (a : ℝ) : Expr Field := Expr.ufunc x a
abbrev abs (x : Expr Field) : Expr Field := Expr.abs x
abbrev max (x y : Expr Field) : Expr Field := Expr.max x y
abbrev iflt (x y a b : Expr Field) : Expr Field := Expr.iflt x y a b
abbrev sqrtxAsinhSqrtx (x : Expr Field) : Expr Field := Expr.sqrtxAsinhSqrtx x

/-- The real cube root `cbrt(double)` of a non-negative constant (C library). -/
def rcbrt (x : ℝ) : ℝ := x ^ (1 / 3 : ℝ)

end
end XCFun.Fun
