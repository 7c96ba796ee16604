/-
The tail of the error function.
-/
import Mathlib.Analysis.SpecialFunctions.Gaussian.GaussianIntegral
import Mathlib.Analysis.Real.Pi.Bounds
import Verif.Proofs.Expansions

namespace XCFun
open Filter Topology MeasureTheory

theorem erf_tendsto : Tendsto erf atTop (𝓝 1) := by
  have hi : IntegrableOn (fun t : ℝ => Real.exp (-t ^ 2)) (Set.Ioi 0) := by
    have := (integrable_exp_neg_mul_sq (b := 1) one_pos).integrableOn (s := Set.Ioi (0 : ℝ))
    simpa using this
  have h := intervalIntegral_tendsto_integral_Ioi 0 hi tendsto_id
  have e : ∫ t in Set.Ioi (0 : ℝ), Real.exp (-t ^ 2) = √Real.pi / 2 := by
    have := integral_gaussian_Ioi 1
    simpa using this
  rw [e] at h
  have h2 := h.const_mul (2 / √Real.pi)
  have : 2 / √Real.pi * (√Real.pi / 2) = 1 := by
    have : √Real.pi ≠ 0 := (Real.sqrt_pos.2 Real.pi_pos).ne'
    field_simp
  rw [this] at h2
  exact h2

theorem erf_le_one (x : ℝ) : erf x ≤ 1 := by
  have hm : Monotone erf := monotone_of_deriv_nonneg (fun x => (erf_hasDerivAt x).differentiableAt) fun x => by
    rw [(erf_hasDerivAt x).deriv]; positivity
  exact hm.ge_of_tendsto erf_tendsto x

theorem erf_tail {x : ℝ} (hx : 1 ≤ x) : 1 - Real.exp (-x ^ 2) ≤ erf x := by
  have hd : ∀ y : ℝ, HasDerivAt (fun y => erf y + Real.exp (-y ^ 2))
      (2 / √Real.pi * Real.exp (-y ^ 2) + Real.exp (-y ^ 2) * (-(2 * y))) y := by
    intro y
    have h1 : HasDerivAt (fun y : ℝ => -y ^ 2) (-(2 * y)) y := by
      have := (hasDerivAt_pow 2 y).fun_neg
      refine this.congr_deriv ?_
      norm_num
    exact (erf_hasDerivAt y).add h1.exp
  have ha : AntitoneOn (fun y => erf y + Real.exp (-y ^ 2)) (Set.Ici 1) := by
    refine antitoneOn_of_deriv_nonpos (convex_Ici 1) (fun y _ => (hd y).continuousAt.continuousWithinAt)
      (fun y _ => (hd y).differentiableAt.differentiableWithinAt) fun y hy => ?_
    rw [interior_Ici, Set.mem_Ioi] at hy
    rw [(hd y).deriv]
    have h1 : 2 / √Real.pi ≤ 2 := by
      refine div_le_self (by norm_num) (Real.one_le_sqrt.2 ?_)
      linarith [Real.pi_gt_three]
    have := Real.exp_pos (-y ^ 2)
    nlinarith
  have ht : Tendsto (fun y => erf y + Real.exp (-y ^ 2)) atTop (𝓝 (1 + 0)) := by
    refine erf_tendsto.add (Real.tendsto_exp_atBot.comp ?_)
    exact tendsto_neg_atTop_atBot.comp (tendsto_pow_atTop (by norm_num))
  have h : (1 : ℝ) + 0 ≤ erf x + Real.exp (-x ^ 2) := by
    refine le_of_tendsto ht ?_
    filter_upwards [eventually_ge_atTop x] with y hy
    exact ha hx (hx.trans hy) hy
  linarith

end XCFun
