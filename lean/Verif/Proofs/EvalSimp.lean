/-
Evaluation of expressions on real numbers, as rewriting rules.
-/
import Verif.Proofs.CTMath
import Verif.Model.Densvars
import Verif.Spec.Domain

namespace XCFun.Expr

variable {ι : Type} (ρ : ι → ℝ)

@[simp] theorem evalR_var (i : ι) : (Expr.var i).evalR ρ = ρ i := rfl
@[simp] theorem evalR_lit (c : ℝ) : (Expr.lit c).evalR ρ = c := rfl
@[simp] theorem evalR_add (x y : Expr ι) : (x + y).evalR ρ = x.evalR ρ + y.evalR ρ := rfl
@[simp] theorem evalR_sub (x y : Expr ι) : (x - y).evalR ρ = x.evalR ρ - y.evalR ρ := rfl
@[simp] theorem evalR_mul (x y : Expr ι) : (x * y).evalR ρ = x.evalR ρ * y.evalR ρ := rfl
@[simp] theorem evalR_neg (x : Expr ι) : (-x).evalR ρ = -x.evalR ρ := rfl
@[simp] theorem evalR_div (x y : Expr ι) : (x / y).evalR ρ = x.evalR ρ / y.evalR ρ := by
  show 1 / y.evalR ρ * x.evalR ρ = _
  rw [one_div, div_eq_inv_mul]
@[simp] theorem evalR_zero : (0 : Expr ι).evalR ρ = 0 := rfl
@[simp] theorem evalR_one : (1 : Expr ι).evalR ρ = 1 := rfl
@[simp] theorem evalR_ofNat (n : ℕ) [n.AtLeastTwo] :
    (ofNat(n) : Expr ι).evalR ρ = (ofNat(n) : ℝ) := rfl
@[simp] theorem evalR_ofScientific (m : ℕ) (s : Bool) (e : ℕ) :
    (OfScientific.ofScientific m s e : Expr ι).evalR ρ = (OfScientific.ofScientific m s e : ℝ) := rfl
@[simp] theorem evalR_exp (x : Expr ι) : x.exp.evalR ρ = Real.exp (x.evalR ρ) := rfl
@[simp] theorem evalR_expm1 (x : Expr ι) : x.expm1.evalR ρ = Real.exp (x.evalR ρ) - 1 :=
  Prim.fn_expm1 _
@[simp] theorem evalR_log (x : Expr ι) : x.log.evalR ρ = Real.log (x.evalR ρ) := rfl
@[simp] theorem evalR_pow (x : Expr ι) (a : ℝ) : (x.pow a).evalR ρ = x.evalR ρ ^ a := rfl
@[simp] theorem evalR_sqrt (x : Expr ι) : x.sqrt.evalR ρ = √(x.evalR ρ) := rfl
@[simp] theorem evalR_cbrt (x : Expr ι) : x.cbrt.evalR ρ = XCFun.cbrt (x.evalR ρ) := rfl
@[simp] theorem evalR_atan (x : Expr ι) : x.atan.evalR ρ = Real.arctan (x.evalR ρ) := rfl
@[simp] theorem evalR_erf (x : Expr ι) : x.erf.evalR ρ = XCFun.erf (x.evalR ρ) := rfl
@[simp] theorem evalR_asinh (x : Expr ι) : x.asinh.evalR ρ = Real.arsinh (x.evalR ρ) := rfl
@[simp] theorem evalR_br (x : Expr ι) : x.br.evalR ρ = Prim.br.fn (x.evalR ρ) := rfl
@[simp] theorem evalR_npow (x : Expr ι) (n : ℕ) : (x.npow n).evalR ρ = x.evalR ρ ^ n := by
  induction n with
  | zero => simp [npow]
  | succ n ih =>
    cases n with
    | zero => simp [npow]
    | succ n => rw [npow, evalR_mul, ih, pow_succ _ (n + 1)]
@[simp] theorem evalR_powi_ofNat (x : Expr ι) (n : ℕ) [n.AtLeastTwo] :
    (x.powi (ofNat(n))).evalR ρ = x.evalR ρ ^ n := evalR_npow ρ x n
@[simp] theorem evalR_powi_negSucc (x : Expr ι) (n : ℕ) :
    (x.powi (Int.negSucc n)).evalR ρ = x.evalR ρ ^ (Int.negSucc n : ℝ) := rfl
@[simp] theorem evalR_pow2 (x : Expr ι) : x.pow2.evalR ρ = x.evalR ρ ^ 2 := by
  simp [pow2, _root_.pow_two]
@[simp] theorem evalR_pow3 (x : Expr ι) : x.pow3.evalR ρ = x.evalR ρ ^ 3 := by
  rw [pow3, evalR_mul, evalR_mul]; ring
@[simp] theorem evalR_ufunc (x : Expr ι) (a : ℝ) :
    (x.ufunc a).evalR ρ = (1 + x.evalR ρ) ^ a + (1 - x.evalR ρ) ^ a := rfl
@[simp] theorem evalR_iflt (x y a b : Expr ι) : (Expr.iflt x y a b).evalR ρ =
    if x.evalR ρ < y.evalR ρ then a.evalR ρ else b.evalR ρ := rfl
@[simp] theorem evalR_reg (x : Expr ι) : (Expr.reg x).evalR ρ =
    if x.evalR ρ < 1e-14 then 1e-14 else x.evalR ρ := rfl
@[simp] theorem evalR_abs (x : Expr ι) : x.abs.evalR ρ = |x.evalR ρ| := by
  rw [abs, evalR_iflt, evalR_neg, evalR_zero]
  split
  · rw [abs_of_neg]; assumption
  · rw [abs_of_nonneg]; exact not_lt.1 ‹_›
@[simp] theorem evalR_max (x y : Expr ι) :
    (x.max y).evalR ρ = Max.max (x.evalR ρ) (y.evalR ρ) := by
  rw [max, evalR_iflt]
  split
  · rw [max_eq_left]; exact le_of_lt ‹_›
  · rw [max_eq_right]; exact not_lt.1 ‹_›
@[simp] theorem evalR_prim (p : Prim) (x : Expr ι) : (Expr.prim p x).evalR ρ = p.fn (x.evalR ρ) := rfl

/-- Substitution and evaluation. -/
theorem evalR_subst' {κ : Type} (σ : ι → Expr κ) (ρ : κ → ℝ) (e : Expr ι) :
    (e.subst σ).evalR ρ = e.evalR fun i => (σ i).evalR ρ := by
  induction e <;> simp_all [subst, evalR]

theorem evalR_poly_congr {κ : Type} {x : Expr ι} {y : Expr κ} {ρ : ι → ℝ} {ρ' : κ → ℝ}
    (h : x.evalR ρ = y.evalR ρ') : ∀ c : List ℝ, (x.poly c).evalR ρ = (y.poly c).evalR ρ'
  | [] => rfl
  | [_] => rfl
  | c :: d :: cs => by
    show (x.poly (d :: cs)).evalR ρ * x.evalR ρ + c = (y.poly (d :: cs)).evalR ρ' * y.evalR ρ' + c
    rw [h, evalR_poly_congr h (d :: cs)]

end XCFun.Expr
