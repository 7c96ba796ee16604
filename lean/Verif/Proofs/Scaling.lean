/-
Homogeneity of expressions under uniform scaling.
-/
import Verif.Spec.Scaling
import Verif.Model.Fun.Table
import Verif.Proofs.EvalSimp

namespace XCFun.Fun
open Spec

/-- The densities are positive. -/
structure Pos (ρ : Field → ℝ) : Prop where
  a : 0 < ρ .a
  b : 0 < ρ .b
  n : 0 < ρ .n

/-- The expression scales with the power `k`. -/
structure Deg (x : Expr Field) (k : ℝ) : Prop where
  eq : ∀ {g : ℝ} {ρ : Field → ℝ}, 0 < g → Pos ρ → x.evalR (scaleField g ρ) = g ^ k * x.evalR ρ

/-- The expression is non-negative. -/
structure Nn (x : Expr Field) : Prop where
  le : ∀ {ρ : Field → ℝ}, Pos ρ → 0 ≤ x.evalR ρ

namespace Nn
variable {x y : Expr Field}
theorem a : Nn d.a := ⟨fun h => h.a.le⟩
theorem b : Nn d.b := ⟨fun h => h.b.le⟩
theorem n : Nn d.n := ⟨fun h => h.n.le⟩
theorem lit {c : ℝ} (h : 0 ≤ c) : Nn (.lit c) := ⟨fun _ => h⟩
theorem mul (hx : Nn x) (hy : Nn y) : Nn (x * y) := ⟨fun h => mul_nonneg (hx.le h) (hy.le h)⟩
theorem div (hx : Nn x) (hy : Nn y) : Nn (x / y) := ⟨fun h => by
  rw [Expr.evalR_div]; exact div_nonneg (hx.le h) (hy.le h)⟩
end Nn

namespace Deg
variable {x y a b : Expr Field} {k l m : ℝ}

theorem lit (c : ℝ) (e : m = 0) : Deg (.lit c) m := ⟨fun _ _ => by subst e; simp⟩
theorem zero : Deg 0 m := ⟨fun _ _ => by simp⟩
theorem var (f : Field) (e : m = (fieldDeg f : ℝ)) : Deg (.var f) m := ⟨fun {g ρ} hg _ => by
  subst e; rw [Real.rpow_intCast]; rfl⟩
theorem add (hx : Deg x m) (hy : Deg y m) : Deg (x + y) m := ⟨fun hg h => by
  rw [Expr.evalR_add, Expr.evalR_add, hx.eq hg h, hy.eq hg h, mul_add]⟩
theorem sub (hx : Deg x m) (hy : Deg y m) : Deg (x - y) m := ⟨fun hg h => by
  rw [Expr.evalR_sub, Expr.evalR_sub, hx.eq hg h, hy.eq hg h, mul_sub]⟩
theorem neg (hx : Deg x m) : Deg (-x) m := ⟨fun hg h => by
  rw [Expr.evalR_neg, Expr.evalR_neg, hx.eq hg h, mul_neg]⟩
theorem mul (hx : Deg x k) (hy : Deg y l) (e : m = k + l) : Deg (x * y) m := ⟨fun hg h => by
  rw [Expr.evalR_mul, Expr.evalR_mul, hx.eq hg h, hy.eq hg h, e, Real.rpow_add hg]; ring⟩
theorem div (hx : Deg x k) (hy : Deg y l) (e : m = k - l) : Deg (x / y) m := ⟨fun hg h => by
  rw [Expr.evalR_div, Expr.evalR_div, hx.eq hg h, hy.eq hg h, e, Real.rpow_sub hg, mul_div_mul_comm]⟩
theorem npow (hx : Deg x k) {n : ℕ} (e : m = n * k) : Deg (x.npow n) m := ⟨fun hg h => by
  rw [Expr.evalR_npow, Expr.evalR_npow, hx.eq hg h, e, mul_pow, mul_comm (n : ℝ), Real.rpow_mul_natCast hg.le]⟩
theorem pow2 (hx : Deg x k) (e : m = 2 * k) : Deg x.pow2 m := mul hx hx (by rw [e, two_mul])
theorem pow3 (hx : Deg x k) (e : m = 3 * k) : Deg x.pow3 m := mul (mul hx hx rfl) hx (by rw [e]; ring)
theorem prim (p : Prim) (hx : Deg x 0) (e : m = 0) : Deg (.prim p x) m := ⟨fun hg h => by
  show p.fn _ = _ * p.fn _
  rw [hx.eq hg h, e, Real.rpow_zero, one_mul, one_mul]⟩
theorem powi_neg (hx : Deg x k) {n : ℕ} (e : m = (Int.negSucc n : ℝ) * k) : Deg (x.powi (.negSucc n)) m := ⟨fun hg h => by
  rw [Expr.evalR_powi_negSucc, Expr.evalR_powi_negSucc, hx.eq hg h, e, Real.rpow_intCast, Real.rpow_intCast, mul_zpow,
    mul_comm ((Int.negSucc n : ℤ) : ℝ), Real.rpow_mul hg.le, Real.rpow_intCast]⟩
theorem pow (c : ℝ) (hp : Nn x) (hx : Deg x k) (e : m = k * c) : Deg (x.pow c) m := ⟨fun hg h => by
  rw [Expr.evalR_pow, Expr.evalR_pow, hx.eq hg h, Real.mul_rpow (Real.rpow_nonneg hg.le _) (hp.le h), e,
    Real.rpow_mul hg.le]⟩
theorem sqrt (hx : Deg x k) (e : m = k / 2) : Deg x.sqrt m := ⟨fun hg h => by
  rw [Expr.evalR_sqrt, Expr.evalR_sqrt, hx.eq hg h, Real.sqrt_mul (Real.rpow_nonneg hg.le _), e, Real.sqrt_eq_rpow,
    ← Real.rpow_mul hg.le, mul_one_div]⟩
theorem cbrt (hx : Deg x k) (e : m = k / 3) : Deg x.cbrt m := ⟨fun {g ρ} hg h => by
  rw [Expr.evalR_cbrt, Expr.evalR_cbrt, hx.eq hg h, e]
  have hk := Real.rpow_pos_of_pos hg k
  have hk3 : (g ^ k) ^ ((1 : ℝ) / 3) = g ^ (k / 3) := by rw [← Real.rpow_mul hg.le, mul_one_div]
  unfold XCFun.cbrt
  by_cases hc : 0 ≤ x.evalR ρ
  · rw [if_pos hc, if_pos (mul_nonneg hk.le hc), Real.mul_rpow hk.le hc, hk3]
  · have hc' := not_le.1 hc
    rw [if_neg hc, if_neg (not_le.2 (mul_neg_of_pos_of_neg hk hc')), ← mul_neg, Real.mul_rpow hk.le (by linarith), hk3,
      mul_neg]⟩
theorem iflt (hx : Deg x k) (hy : Deg y k) (ha : Deg a m) (hb : Deg b m) : Deg (.iflt x y a b) m := ⟨fun {g ρ} hg h => by
  have hk : 0 < g ^ k := Real.rpow_pos_of_pos hg k
  rw [Expr.evalR_iflt, Expr.evalR_iflt, hx.eq hg h, hy.eq hg h, ha.eq hg h, hb.eq hg h]
  by_cases hc : x.evalR ρ < y.evalR ρ
  · rw [if_pos hc, if_pos ((mul_lt_mul_iff_right₀ hk).2 hc)]
  · rw [if_neg hc, if_neg (fun h' => hc ((mul_lt_mul_iff_right₀ hk).1 h'))]⟩
theorem abs (hx : Deg x m) : Deg x.abs m := iflt hx zero hx.neg hx
theorem sqrtxAsinhSqrtx (hx : Deg x 0) (e : m = 0) : Deg x.sqrtxAsinhSqrtx m := by
  subst e
  have far : Deg (Expr.sqrt x * Expr.asinh (Expr.sqrt x)) 0 :=
    mul (sqrt hx rfl) (prim _ (sqrt hx (by simp)) rfl) (by simp)
  exact iflt hx (lit _ rfl) (iflt (neg (lit _ rfl)) hx (prim _ hx rfl) far) far
theorem poly (hx : Deg x 0) (e : m = 0) (c : List ℝ) : Deg (x.poly c) m := by
  subst e
  refine ⟨fun {g ρ} hg h => ?_⟩
  rw [Real.rpow_zero, one_mul]
  exact Expr.evalR_poly_congr (by rw [hx.eq hg h, Real.rpow_zero, one_mul]) c

end Deg

end XCFun.Fun
