/-
Constants, uniform-gas limit and bounds of the exchange functionals.
-/
import Verif.Spec.Limits
import Verif.Model.Fun.Table
import Verif.Proofs.EvalSimp

namespace XCFun.Fun
open Spec Expr

/-- `(3/4) (6/π)^(1/3)` -/
noncomputable def cx : ℝ := 3 / 4 * (6 / Real.pi) ^ (1 / 3 : ℝ)

theorem cx_pos : 0 < cx := by unfold cx; positivity

theorem cube_root_mul {c x : ℝ} (hc : 0 ≤ c) (hx : 0 ≤ x) : (c ^ 3 * x) ^ (1 / 3 : ℝ) = c * x ^ (1 / 3 : ℝ) := by
  rw [Real.mul_rpow (by positivity) hx, ← Real.rpow_natCast, ← Real.rpow_mul hc]
  norm_num

theorem c_slater_eq : c_slater = cx := by
  have h : (81 / (32 * Real.pi) : ℝ) = (3 / 4) ^ 3 * (6 / Real.pi) := by field_simp; norm_num
  rw [c_slater, h, cube_root_mul (by norm_num) (by positivity), cx]

theorem cLda_eq : cLda = cx := by
  have h : (81 / (4 * Real.pi) : ℝ) = (3 / 2) ^ 3 * (6 / Real.pi) := by field_simp; norm_num
  rw [cLda, h, cube_root_mul (by norm_num) (by positivity), cx]
  ring

theorem prefactorConst_eq : prefactorConst / Real.pi = -cx := by
  have h : 2 ^ (1 / 3 : ℝ) * (3 * Real.pi * Real.pi) ^ (1 / 3 : ℝ) = Real.pi * (6 / Real.pi) ^ (1 / 3 : ℝ) := by
    rw [← Real.mul_rpow (by norm_num) (by positivity), ← cube_root_mul Real.pi_pos.le (by positivity)]
    congr 1
    field_simp
    norm_num
  rw [prefactorConst, cx, mul_assoc, h]
  field_simp
  norm_num

theorem pw86Const_eq : 0.5 * (-(3 / Real.pi) ^ (1 / 3 : ℝ) * 3 / 4) * 2 ^ (4 / 3 : ℝ) = -cx := by
  have h : (2 : ℝ) ^ (4 / 3 : ℝ) = 2 * 2 ^ (1 / 3 : ℝ) := by
    rw [show (4 / 3 : ℝ) = 1 + 1 / 3 by norm_num, Real.rpow_add (by norm_num), Real.rpow_one]
  have h2 : (6 / Real.pi : ℝ) ^ (1 / 3 : ℝ) = 2 ^ (1 / 3 : ℝ) * (3 / Real.pi) ^ (1 / 3 : ℝ) := by
    rw [← Real.mul_rpow (by norm_num) (by positivity)]
    congr 1
    ring
  rw [cx, h, h2]
  ring

variable {ρ : Field → ℝ} {n g : Expr Field}

theorem prefactor_evalR : (prefactor n).evalR ρ = -cx * n.evalR ρ ^ (4 / 3 : ℝ) := by
  rw [← prefactorConst_eq]
  simp only [prefactor, evalR_div, evalR_mul, evalR_lit, evalR_pow]
  ring

theorem S2const_pos : 0 < S2const := by unfold S2const; positivity

theorem S2_evalR : (S2 n g).evalR ρ = g.evalR ρ / n.evalR ρ ^ (8 / 3 : ℝ) * S2const := by
  simp only [S2, evalR_div, evalR_mul, evalR_lit, evalR_pow]

theorem S2_nonneg (hn : 0 < n.evalR ρ) (hg : 0 ≤ g.evalR ρ) : 0 ≤ (S2 n g).evalR ρ := by
  have := S2const_pos
  rw [S2_evalR]
  positivity

theorem S2_zero (hg : g.evalR ρ = 0) : (S2 n g).evalR ρ = 0 := by
  rw [S2_evalR, hg, zero_div, zero_mul]

/-! ### Enhancement factors -/

/-- `1 + κ - κ / (1 + μ s / κ)` lies between 1 and `1 + κ`. -/
theorem pbe_form {κ m : ℝ} (hκ : 0 < κ) (hm : 0 ≤ m) : 1 ≤ 1 + κ - κ / (1 + m / κ) ∧ 1 + κ - κ / (1 + m / κ) ≤ 1 + κ := by
  have h : 1 ≤ 1 + m / κ := by have := div_nonneg hm hκ.le; linarith
  have h1 : κ / (1 + m / κ) ≤ κ := div_le_self hκ.le h
  have h2 : 0 ≤ κ / (1 + m / κ) := by positivity
  constructor <;> linarith

theorem enhancement_evalR (R : ℝ) : (enhancement R n g).evalR ρ = 1 + R - R / (1 + mu_pbe * (S2 n g).evalR ρ / R) := by
  simp [enhancement]

theorem mu_pbe_pos : 0 < mu_pbe := by unfold mu_pbe; positivity

theorem enhancement_bounds {R : ℝ} (hR : 0 < R) (hn : 0 < n.evalR ρ) (hg : 0 ≤ g.evalR ρ) :
    1 ≤ (enhancement R n g).evalR ρ ∧ (enhancement R n g).evalR ρ ≤ 1 + R := by
  rw [enhancement_evalR]
  exact pbe_form hR (mul_nonneg mu_pbe_pos.le (S2_nonneg hn hg))

theorem enhancement_zero {R : ℝ} (hg : g.evalR ρ = 0) : (enhancement R n g).evalR ρ = 1 := by
  rw [enhancement_evalR, S2_zero hg]; simp

theorem rpbe_evalR : (enhancement_RPBE n g).evalR ρ = 1 - R_pbe * (Real.exp (-mu_rpbe / R_pbe * (S2 n g).evalR ρ) - 1) := by
  simp [enhancement_RPBE]

theorem rpbe_bounds (hn : 0 < n.evalR ρ) (hg : 0 ≤ g.evalR ρ) :
    1 ≤ (enhancement_RPBE n g).evalR ρ ∧ (enhancement_RPBE n g).evalR ρ ≤ 1 + R_pbe := by
  rw [rpbe_evalR]
  have hs := S2_nonneg hn hg
  have h1 : Real.exp (-mu_rpbe / R_pbe * (S2 n g).evalR ρ) ≤ 1 := by
    rw [Real.exp_le_one_iff]
    have : mu_rpbe / R_pbe * (S2 n g).evalR ρ ≥ 0 := by unfold mu_rpbe R_pbe; positivity
    rw [neg_div]
    linarith
  have h2 := Real.exp_pos (-mu_rpbe / R_pbe * (S2 n g).evalR ρ)
  have hR : (0 : ℝ) < R_pbe := by norm_num [R_pbe]
  constructor <;> nlinarith

theorem rpbe_zero (hg : g.evalR ρ = 0) : (enhancement_RPBE n g).evalR ρ = 1 := by
  rw [rpbe_evalR, S2_zero hg]; simp

theorem pbesol_bounds (hn : 0 < n.evalR ρ) (hg : 0 ≤ g.evalR ρ) :
    1 ≤ (pbesol_enhancement n g).evalR ρ ∧ (pbesol_enhancement n g).evalR ρ ≤ 1 + 0.804 := by
  have hs := S2_nonneg hn hg
  have e : (pbesol_enhancement n g).evalR ρ = 1 + 0.804 - 0.804 / (1 + 0.123456790123 * (S2 n g).evalR ρ / 0.804) := by
    simp [pbesol_enhancement]
  rw [e]
  exact pbe_form (by norm_num) (by positivity)

theorem pbesol_zero (hg : g.evalR ρ = 0) : (pbesol_enhancement n g).evalR ρ = 1 := by
  simp [pbesol_enhancement, S2_zero hg]

theorem apbe_bounds (hn : 0 < n.evalR ρ) (hg : 0 ≤ g.evalR ρ) :
    1 ≤ (apbe_enhancement n g).evalR ρ ∧ (apbe_enhancement n g).evalR ρ ≤ 1 + 0.804 := by
  have hs := S2_nonneg hn hg
  have e : (apbe_enhancement n g).evalR ρ = 1 + 0.804 - 0.804 / (1 + 0.26 * (S2 n g).evalR ρ / 0.804) := by
    simp [apbe_enhancement]
  rw [e]
  exact pbe_form (by norm_num) (by positivity)

theorem apbe_zero (hg : g.evalR ρ = 0) : (apbe_enhancement n g).evalR ρ = 1 := by
  simp [apbe_enhancement, S2_zero hg]

theorem pbeint_bounds (hn : 0 < n.evalR ρ) (hg : 0 ≤ g.evalR ρ) :
    1 ≤ (pbeint_enhancement n g).evalR ρ ∧ (pbeint_enhancement n g).evalR ρ ≤ 1 + 0.804 := by
  have hs := S2_nonneg hn hg
  have e : (pbeint_enhancement n g).evalR ρ = 1 + 0.804 - 0.804 / (1 + (0.123456790123 +
      (0.21951 - 0.123456790123) * 0.197 * (S2 n g).evalR ρ / (1 + 0.197 * (S2 n g).evalR ρ)) * (S2 n g).evalR ρ / 0.804) := by
    simp [pbeint_enhancement]
  rw [e]
  refine pbe_form (by norm_num) ?_
  have : (0 : ℝ) ≤ (0.21951 - 0.123456790123) * 0.197 := by norm_num
  positivity

theorem pbeint_zero (hg : g.evalR ρ = 0) : (pbeint_enhancement n g).evalR ρ = 1 := by
  simp [pbeint_enhancement, S2_zero hg]

/-! ### `sqrt x asinh (sqrt x)` -/

theorem sas_evalR (x : Expr Field) : x.sqrtxAsinhSqrtx.evalR ρ =
    if x.evalR ρ < 0.5 then (if -0.5 < x.evalR ρ then padeNum (x.evalR ρ) * (1 / padeDen (x.evalR ρ))
      else √(x.evalR ρ) * Real.arsinh √(x.evalR ρ)) else √(x.evalR ρ) * Real.arsinh √(x.evalR ρ) := by
  simp [Expr.sqrtxAsinhSqrtx]

theorem sas_nonneg {x : Expr Field} (hx : 0 ≤ x.evalR ρ) : 0 ≤ x.sqrtxAsinhSqrtx.evalR ρ := by
  have far : 0 ≤ √(x.evalR ρ) * Real.arsinh √(x.evalR ρ) :=
    mul_nonneg (Real.sqrt_nonneg _) (Real.arsinh_nonneg_iff.2 (Real.sqrt_nonneg _))
  have near : 0 ≤ padeNum (x.evalR ρ) * (1 / padeDen (x.evalR ρ)) := by
    have h1 : 0 < padeDen (x.evalR ρ) := padeDen_pos (by linarith)
    have h2 : 0 ≤ padeNum (x.evalR ρ) := by
      simp only [padeNum, Finset.sum_range_succ, Finset.range_zero, Finset.sum_empty, padeP]
      positivity
    positivity
  rw [sas_evalR]
  split
  · split
    · exact near
    · exact far
  · exact far

theorem sas_zero {x : Expr Field} (hx : x.evalR ρ = 0) : x.sqrtxAsinhSqrtx.evalR ρ = 0 := by
  rw [sas_evalR, hx]
  have : padeNum 0 = 0 := by
    simp [padeNum, Finset.sum_range_succ, padeP]
  simp [this]

/-! ### Whole functionals -/

theorem uniformExchange_eq (a b : ℝ) : uniformExchange a b = -cx * a ^ (4 / 3 : ℝ) + -cx * b ^ (4 / 3 : ℝ) := by
  rw [uniformExchange, cx]; ring

theorem uniformExchange_neg {a b : ℝ} (ha : 0 < a) (hb : 0 < b) : uniformExchange a b < 0 := by
  have := cx_pos
  have h1 : 0 < cx * a ^ (4 / 3 : ℝ) := by positivity
  have h2 : 0 < cx * b ^ (4 / 3 : ℝ) := by positivity
  rw [uniformExchange_eq]
  linarith

theorem R_pbe_pos : 0 < R_pbe := by norm_num [R_pbe]
theorem R_revpbe_pos : 0 < R_revpbe := by norm_num [R_revpbe]

/-- Energies of the form `-cx n^(4/3) F` with `1 ≤ F ≤ 1 + κ`. -/
theorem pbe_bounds {a b F G κ : ℝ} (ha : 0 < a) (hb : 0 < b) (hF : 1 ≤ F ∧ F ≤ 1 + κ) (hG : 1 ≤ G ∧ G ≤ 1 + κ) :
    (1 + κ) * uniformExchange a b ≤ -cx * a ^ (4 / 3 : ℝ) * F + -cx * b ^ (4 / 3 : ℝ) * G ∧
    -cx * a ^ (4 / 3 : ℝ) * F + -cx * b ^ (4 / 3 : ℝ) * G ≤ uniformExchange a b := by
  have := cx_pos
  have h1 : 0 < cx * a ^ (4 / 3 : ℝ) := by positivity
  have h2 : 0 < cx * b ^ (4 / 3 : ℝ) := by positivity
  rw [uniformExchange_eq]
  constructor <;> nlinarith

theorem slaterx_evalR (h : Physical ρ) : slaterx.evalR ρ = uniformExchange (ρ .a) (ρ .b) := by
  rw [uniformExchange_eq, ← c_slater_eq]
  simp only [slaterx, evalR_mul, evalR_add, evalR_lit]
  show -c_slater * (ρ .a_43 + ρ .b_43) = _
  rw [h.a_43, h.b_43]
  ring

theorem pbex_evalR (R : ℝ) : (energy_pbe_ab R d.a d.gaa + energy_pbe_ab R d.b d.gbb).evalR ρ =
    -cx * ρ .a ^ (4 / 3 : ℝ) * (enhancement R d.a d.gaa).evalR ρ +
      -cx * ρ .b ^ (4 / 3 : ℝ) * (enhancement R d.b d.gbb).evalR ρ := by
  simp only [energy_pbe_ab, evalR_add, evalR_mul, prefactor_evalR]
  rfl

theorem rpbex_evalR : rpbex.evalR ρ = -cx * ρ .a ^ (4 / 3 : ℝ) * (enhancement_RPBE d.a d.gaa).evalR ρ +
      -cx * ρ .b ^ (4 / 3 : ℝ) * (enhancement_RPBE d.b d.gbb).evalR ρ := by
  simp only [rpbex, evalR_add, evalR_mul, prefactor_evalR]
  rfl

theorem pbesolx_evalR : pbesolx.evalR ρ = -cx * ρ .a ^ (4 / 3 : ℝ) * (pbesol_enhancement d.a d.gaa).evalR ρ +
      -cx * ρ .b ^ (4 / 3 : ℝ) * (pbesol_enhancement d.b d.gbb).evalR ρ := by
  simp only [pbesolx, energy_pbesolx, evalR_add, evalR_mul, evalR_lit, evalR_pow, cLda_eq]
  rfl

theorem apbex_evalR : apbex.evalR ρ = -cx * ρ .a ^ (4 / 3 : ℝ) * (apbe_enhancement d.a d.gaa).evalR ρ +
      -cx * ρ .b ^ (4 / 3 : ℝ) * (apbe_enhancement d.b d.gbb).evalR ρ := by
  simp only [apbex, energy_apbex, evalR_add, evalR_mul, evalR_lit, evalR_pow, cLda_eq]
  rfl

theorem pbeintx_evalR : pbeintx.evalR ρ = -cx * ρ .a ^ (4 / 3 : ℝ) * (pbeint_enhancement d.a d.gaa).evalR ρ +
      -cx * ρ .b ^ (4 / 3 : ℝ) * (pbeint_enhancement d.b d.gbb).evalR ρ := by
  simp only [pbeintx, energy_pbeintx, evalR_add, evalR_mul, evalR_lit, evalR_pow, cLda_eq]
  rfl

theorem pw91x_evalR : pw91x.evalR ρ = -cx * ρ .a ^ (4 / 3 : ℝ) * (pw91xk_enhancement pw91xParam d.a d.gaa).evalR ρ +
      -cx * ρ .b ^ (4 / 3 : ℝ) * (pw91xk_enhancement pw91xParam d.b d.gbb).evalR ρ := by
  simp only [pw91x, evalR_add, evalR_mul, prefactor_evalR]
  rfl

theorem pw91_evalR (q : ParamAB) : (pw91xk_enhancement q n g).evalR ρ =
    (1 + q.p0 * (Expr.sqrtxAsinhSqrtx (((q.p1 ^ 2 : ℝ) : Expr Field) * S2 n g)).evalR ρ / q.p1 +
      (S2 n g).evalR ρ * (q.p2 - q.p3 * Real.exp (-q.p4 * (S2 n g).evalR ρ))) /
    (1 + q.p0 * (Expr.sqrtxAsinhSqrtx (((q.p1 ^ 2 : ℝ) : Expr Field) * S2 n g)).evalR ρ / q.p1 +
      q.p5 * (S2 n g).evalR ρ * (S2 n g).evalR ρ) := by
  simp [pw91xk_enhancement]

theorem pw91_zero (q : ParamAB) (hg : g.evalR ρ = 0) : (pw91xk_enhancement q n g).evalR ρ = 1 := by
  have h := S2_zero (n := n) hg
  rw [pw91_evalR, sas_zero (by simp [h]), h]
  simp

/-- Constants of PW91 for which the enhancement factor is positive. -/
structure ParamAB.Good (q : ParamAB) : Prop where
  p0 : 0 ≤ q.p0
  p1 : 0 < q.p1
  p3 : 0 ≤ q.p3
  p23 : q.p3 ≤ q.p2
  p4 : 0 ≤ q.p4
  p5 : 0 ≤ q.p5

theorem pw91_pos {q : ParamAB} (hq : q.Good) (hn : 0 < n.evalR ρ) (hg : 0 ≤ g.evalR ρ) :
    0 < (pw91xk_enhancement q n g).evalR ρ := by
  have hs := S2_nonneg hn hg
  have h1 : 0 ≤ (Expr.sqrtxAsinhSqrtx (((q.p1 ^ 2 : ℝ) : Expr Field) * S2 n g)).evalR ρ :=
    sas_nonneg (by rw [evalR_mul, evalR_lit]; positivity)
  have h2 : Real.exp (-q.p4 * (S2 n g).evalR ρ) ≤ 1 := by
    rw [Real.exp_le_one_iff]
    nlinarith [mul_nonneg hq.p4 hs]
  have h3 : 0 ≤ q.p2 - q.p3 * Real.exp (-q.p4 * (S2 n g).evalR ρ) := by
    have := mul_le_of_le_one_right hq.p3 h2
    have := hq.p23
    linarith
  have h4 : 0 ≤ q.p0 * (Expr.sqrtxAsinhSqrtx (((q.p1 ^ 2 : ℝ) : Expr Field) * S2 n g)).evalR ρ / q.p1 :=
    div_nonneg (mul_nonneg hq.p0 h1) hq.p1.le
  have h5 := mul_nonneg (mul_nonneg hq.p5 hs) hs
  rw [pw91_evalR]
  have := mul_nonneg hs h3
  exact div_pos (by linarith) (by linarith)

theorem pw91x_good : pw91xParam.Good := by constructor <;> norm_num [pw91xParam]
theorem pw91k_good : pw91kParam.Good := by constructor <;> norm_num [pw91kParam]

/-- The Becke correction of one spin. -/
theorem becke_corr_nonpos (hn : 0 < n.evalR ρ) (hg : 0 ≤ g.evalR ρ) : (becke_corr n g).evalR ρ ≤ 0 := by
  have hc : 0 ≤ (g * Expr.pow n (-8 / 3)).evalR ρ := by
    rw [evalR_mul, evalR_pow]; positivity
  have hs := sas_nonneg hc
  have hD : (0 : ℝ) < beckeD := by norm_num [beckeD]
  simp only [becke_corr, evalR_div, evalR_neg, evalR_mul, evalR_add, evalR_one, evalR_lit, evalR_pow] at hs hc ⊢
  refine div_nonpos_of_nonpos_of_nonneg (neg_nonpos.2 (by positivity)) (by positivity)

theorem becke_corr_zero (hg : g.evalR ρ = 0) : (becke_corr n g).evalR ρ = 0 := by
  simp [becke_corr, hg]

theorem beckex_evalR : beckex.evalR ρ = uniformExchange (ρ .a) (ρ .b) + beckexcorr.evalR ρ := by
  rw [uniformExchange_eq, ← cLda_eq]
  simp only [beckex, becke_alpha, beckexcorr, becke_corr, evalR_add, evalR_mul, evalR_lit, evalR_pow]
  show (-cLda * ρ .a ^ (4 / 3 : ℝ) + _) + (-cLda * ρ .b ^ (4 / 3 : ℝ) + _) = _
  ring

/-- The factor `F` of PW86. -/
noncomputable def pw86F (n g : ℝ) : ℝ :=
  let s2 := 4 * g / (2 * (3 * Real.pi ^ 2 * (2 * n)) ^ (1 / 3 : ℝ) * (2 * n)) ^ 2
  (1 + s2 * (1.296 + s2 * (14 + 0.20 * s2))) ^ (1 / 15 : ℝ)

theorem pw86xSpin_evalR (hn : 0 < n.evalR ρ) : 0.5 * (pw86xSpin n g).evalR ρ =
    -cx * n.evalR ρ ^ (4 / 3 : ℝ) * pw86F (n.evalR ρ) (g.evalR ρ) := by
  rw [← pw86Const_eq, pw86F]
  simp only [pw86xSpin, evalR_mul, evalR_add, evalR_div, evalR_lit, evalR_pow, evalR_npow, evalR_ofNat]
  rw [Real.mul_rpow (by norm_num) hn.le]
  ring

theorem pw86F_zero (n : ℝ) : pw86F n 0 = 1 := by simp [pw86F]

theorem pw86F_ge {n g : ℝ} (hn : 0 < n) (hg : 0 ≤ g) : 1 ≤ pw86F n g := by
  simp only [pw86F]
  have : 0 ≤ 4 * g / (2 * (3 * Real.pi ^ 2 * (2 * n)) ^ (1 / 3 : ℝ) * (2 * n)) ^ 2 := by positivity
  generalize 4 * g / (2 * (3 * Real.pi ^ 2 * (2 * n)) ^ (1 / 3 : ℝ) * (2 * n)) ^ 2 = s2 at this
  refine Real.one_le_rpow ?_ (by norm_num)
  have : 0 ≤ s2 * (1.296 + s2 * (14 + 0.20 * s2)) := by positivity
  linarith

theorem pw86x_evalR (h : Physical ρ) : pw86x.evalR ρ = -cx * ρ .a ^ (4 / 3 : ℝ) * pw86F (ρ .a) (ρ .gaa) +
    -cx * ρ .b ^ (4 / 3 : ℝ) * pw86F (ρ .b) (ρ .gbb) := by
  have e : pw86x.evalR ρ = 0.5 * (pw86xSpin d.a d.gaa).evalR ρ + 0.5 * (pw86xSpin d.b d.gbb).evalR ρ := by
    simp only [pw86x, evalR_mul, evalR_add, evalR_ofScientific]
    ring
  rw [e, pw86xSpin_evalR (n := d.a) h.a, pw86xSpin_evalR (n := d.b) h.b]
  rfl

theorem optx_evalR (h : Physical ρ) : optx.evalR ρ = 1.05151 * uniformExchange (ρ .a) (ρ .b) -
    1.43169 * optxcorr.evalR ρ := by
  rw [uniformExchange_eq, ← c_slater_eq, ← h.a_43, ← h.b_43]
  simp only [optx, optxcorr, evalR_sub, evalR_neg, evalR_mul, evalR_add, evalR_lit, evalR_npow]
  show -(ρ .a_43 * _) - ρ .b_43 * _ = _ - _ * (ρ .a_43 * _ + ρ .b_43 * _)
  ring

theorem optxcorr_nonneg (h : Physical ρ) (ga : 0 ≤ ρ .gaa) (gb : 0 ≤ ρ .gbb) : 0 ≤ optxcorr.evalR ρ := by
  have e : ∀ x : Expr Field, 0 ≤ x.evalR ρ → 0 ≤ (powi (1 + x) (-2)).evalR ρ := by
    intro x hx
    have h := evalR_powi_negSucc (ρ := ρ) (1 + x) 1
    refine le_of_le_of_eq ?_ h.symm
    rw [evalR_add, evalR_one]
    positivity
  have xa : 0 ≤ (((0.006 : ℝ) : Expr Field) * d.gaa * Expr.pow d.a (-8 / 3)).evalR ρ :=
    mul_nonneg (mul_nonneg (by show (0 : ℝ) ≤ 0.006; norm_num) ga) (Real.rpow_nonneg h.a.le _)
  have xb : 0 ≤ (((0.006 : ℝ) : Expr Field) * d.gbb * Expr.pow d.b (-8 / 3)).evalR ρ :=
    mul_nonneg (mul_nonneg (by show (0 : ℝ) ≤ 0.006; norm_num) gb) (Real.rpow_nonneg h.b.le _)
  have ha := h.a
  have hb := h.b
  have e1 : 0 ≤ d.a_43.evalR ρ := by show 0 ≤ ρ .a_43; rw [h.a_43]; positivity
  have e2 : 0 ≤ d.b_43.evalR ρ := by show 0 ≤ ρ .b_43; rw [h.b_43]; positivity
  have e3 := e _ xa
  have e4 := e _ xb
  simp only [optxcorr, evalR_add, evalR_mul, evalR_npow]
  positivity

theorem b97_nonpos {c : ℝ × ℝ × ℝ} (h1 : 0 ≤ c.1) (h2 : 0 ≤ c.2.1) (h3 : 0 ≤ c.2.2) {m : Expr Field} (hm : 0 ≤ m.evalR ρ) :
    (energy_b97x_ab b97x_Gamma c m g).evalR ρ ≤ 0 := by
  have hG : (0 : ℝ) ≤ b97x_Gamma := by norm_num [b97x_Gamma]
  have hx : 0 ≤ |g.evalR ρ| / m.evalR ρ / m.evalR ρ := by positivity
  simp only [energy_b97x_ab, e_x_LSDA_ab, b97enhancement, ux_ab, spin_dens_gradient_ab2, evalR_mul, evalR_add, evalR_div, evalR_lit,
    evalR_neg, evalR_one, evalR_ofScientific, evalR_abs]
  generalize |g.evalR ρ| / m.evalR ρ / m.evalR ρ = x at hx
  have : 0 ≤ c.1 + c.2.1 * (b97x_Gamma * x / (1 + b97x_Gamma * x)) +
      c.2.2 * (b97x_Gamma * x / (1 + b97x_Gamma * x)) * (b97x_Gamma * x / (1 + b97x_Gamma * x)) := by positivity
  exact mul_nonpos_of_nonpos_of_nonneg (by nlinarith) this

theorem ktx_nonneg (h : Physical ρ) (ga : 0 ≤ ρ .gaa) (gb : 0 ≤ ρ .gbb) : 0 ≤ ktx.evalR ρ := by
  have ha := h.a
  have hb := h.b
  simp only [ktx, evalR_add, evalR_div, evalR_pow, evalR_lit]
  show 0 ≤ ρ .gaa / (0.1 + ρ .a ^ (4 / 3 : ℝ)) + ρ .gbb / (0.1 + ρ .b ^ (4 / 3 : ℝ))
  positivity

theorem kinetic_nonneg (h : Physical ρ) (ga : 0 ≤ ρ .gaa) (gb : 0 ≤ ρ .gbb) :
    0 < tfk.evalR ρ ∧ 0 ≤ tw.evalR ρ ∧ 0 ≤ vW.evalR ρ ∧ 0 < pw91k.evalR ρ ∧ 0 < btk.evalR ρ := by
  have ha := h.a
  have hb := h.b
  have hn := h.n
  have hCF : 0 < CF := by unfold CF PI2; positivity
  have hA := pw91_pos pw91k_good (n := d.a) (g := d.gaa) ha ga
  have hB := pw91_pos pw91k_good (n := d.b) (g := d.gbb) hb gb
  refine ⟨?_, ?_, ?_, ?_, ?_⟩
  · simp only [tfk, evalR_mul, evalR_lit, evalR_pow]
    show 0 < CF * ρ .n ^ (5 / 3 : ℝ)
    positivity
  · simp only [tw, evalR_mul, evalR_lit, evalR_pow, evalR_div, evalR_add]
    show 0 ≤ 1 / 8 * (ρ .gaa + ρ .gbb) ^ (2 : ℝ) / ρ .n
    positivity
  · simp only [vW, vW_alpha, evalR_mul, evalR_div, evalR_add, evalR_ofNat]
    show 0 ≤ ρ .gaa / (8 * ρ .a) + ρ .gbb / (8 * ρ .b)
    positivity
  · simp only [pw91k, pw91k_prefactor, evalR_add, evalR_mul, evalR_lit, evalR_pow]
    show 0 < CF * 2 ^ (2 / 3 : ℝ) * ρ .a ^ (5 / 3 : ℝ) * _ + CF * 2 ^ (2 / 3 : ℝ) * ρ .b ^ (5 / 3 : ℝ) * _
    positivity
  · simp only [btk, btk_alpha, evalR_add, evalR_mul, evalR_lit, evalR_pow, evalR_div, evalR_ofNat, evalR_ofScientific]
    show 0 < 0.5 * (1.990328 * (2 * ρ .a) ^ (5 / 3 : ℝ) * (1e-24 + 4 * ρ .gaa) ^ (0.5 * 0.3434125 : ℝ) /
      (2 * ρ .a) ^ (4 / 3 * 0.3434125 : ℝ) + 1.990328 * (2 * ρ .b) ^ (5 / 3 : ℝ) * (1e-24 + 4 * ρ .gbb) ^ (0.5 * 0.3434125 : ℝ) /
      (2 * ρ .b) ^ (4 / 3 * 0.3434125 : ℝ))
    positivity

/-! ### Correlation at zero gradient -/

theorem pbecD2_zero (h : ρ .gnn = 0) (u : Expr Field) : (pbecD2 u).evalR ρ = 0 := by
  have e : d.gnn.evalR ρ = 0 := h
  simp [pbecD2, e]

theorem pbeLikeH_zero {bg eps u3 d2 : Expr Field} (h : d2.evalR ρ = 0) : (pbeLikeH bg eps u3 d2).evalR ρ = 0 := by
  simp [pbeLikeH, h]

theorem pbecH_zero {eps u3 d2 : Expr Field} (h : d2.evalR ρ = 0) : (pbecH d2 eps u3).evalR ρ = 0 := by
  simp [pbecH, h]

theorem localCorrelation_evalR (h : ρ .gnn = 0) {i j : ℕ} (hij : (i, j) ∈ localCorrelation) {e l : Expr Field}
    (he : energy i = some e) (hl : energy j = some l) : e.evalR ρ = l.evalR ρ := by
  have hg : d.gnn.evalR ρ = 0 := h
  simp only [localCorrelation, List.mem_cons, Prod.mk.injEq, List.not_mem_nil, or_false] at hij
  rcases hij with ⟨rfl, rfl⟩ | ⟨rfl, rfl⟩ | ⟨rfl, rfl⟩ | ⟨rfl, rfl⟩ | ⟨rfl, rfl⟩ | ⟨rfl, rfl⟩ | ⟨rfl, rfl⟩ | ⟨rfl, rfl⟩ |
    ⟨rfl, rfl⟩ <;> cases he <;> cases hl
  · simp [pbec, pw92c, pbecH_zero (pbecD2_zero h _), mul_comm]
  · simp [apbec, pw92c, pbeLikeH_zero (pbecD2_zero h _), mul_comm]
  · simp [zvpbesolc, zvpbe, pw92c, pbeLikeH_zero (pbecD2_zero h _), mul_comm]
  · simp [pbeintc, pw92c, pbeLikeH_zero (pbecD2_zero h _), mul_comm]
  · simp [pbelocc, pbeloc_eps, pw92c, pbeLikeH_zero (pbecD2_zero h _), mul_comm]
  · simp [zvpbeintc, zvpbe, pw92c, pbeLikeH_zero (pbecD2_zero h _), mul_comm]
  · simp [spbec, vwn5c, H_spbe, hg]
  · simp [vwn_pbec, vwn5c, pbecH_zero (pbecD2_zero h _)]
  · simp [p86c, pz81c, hg, mul_comm]

end XCFun.Fun
