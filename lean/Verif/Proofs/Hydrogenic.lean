/-
Lemmas about hydrogen-like densities.
-/
import Mathlib.MeasureTheory.Integral.IntegralEqImproper
import Mathlib.Analysis.SpecialFunctions.Pow.Asymptotics
import Mathlib.Analysis.SpecialFunctions.Arsinh
import Verif.Spec.Hydrogenic
import Verif.Props.BeckeRoussel

namespace XCFun.Hyd
open Spec Filter Topology

variable {a r : ℝ}

theorem density_pos (ha : 0 < a) : 0 < density1s a r := by
  have := Real.pi_pos
  unfold density1s
  positivity

theorem hasDeriv_exp (a r : ℝ) : HasDerivAt (fun r => Real.exp (-(a * r))) (-a * Real.exp (-(a * r))) r := by
  have h : HasDerivAt (fun r => -(a * r)) (-a) r := by
    have h1 : HasDerivAt (fun r : ℝ => -a * r) (-a * 1) r := (hasDerivAt_id' r).const_mul (-a)
    rw [mul_one] at h1
    exact h1.congr_of_eventuallyEq (.of_forall fun y => by ring)
  simpa [mul_comm] using h.exp

theorem hasDeriv_density (a r : ℝ) : HasDerivAt (density1s a) (-a * density1s a r) r := by
  have := (hasDeriv_exp a r).const_mul (a ^ 3 / (8 * Real.pi))
  refine this.congr_deriv ?_
  unfold density1s
  ring

theorem deriv_density (a : ℝ) : deriv (density1s a) = fun r => -a * density1s a r := funext fun r => (hasDeriv_density a r).deriv

theorem deriv2_density (a : ℝ) : deriv (deriv (density1s a)) = fun r => a ^ 2 * density1s a r := by
  rw [deriv_density]
  funext r
  rw [((hasDeriv_density a r).const_mul (-a)).deriv]
  ring

theorem deriv_orbital (ha : 0 < a) (r : ℝ) : deriv (fun r => √(density1s a r)) r = -a / 2 * √(density1s a r) := by
  have hp := density_pos (r := r) ha
  rw [((hasDeriv_density a r).sqrt hp.ne').deriv]
  have := Real.sqrt_pos.2 hp
  field_simp
  rw [Real.sq_sqrt hp.le]

/-- The density variables of a 1s electron in closed form. -/
theorem closed {n g l τ : ℝ} (ha : 0 < a) (h : OneOrbital (density1s a) r n g l τ) :
    n = density1s a r ∧ g = (a * n) ^ 2 ∧ l = n * (a ^ 2 - 2 * a / r) ∧ τ = a ^ 2 * n / 8 := by
  have hn := h.density
  refine ⟨hn, ?_, ?_, ?_⟩
  · rw [h.gradient, deriv_density, hn]; ring
  · rw [h.laplacian, deriv2_density, deriv_density, hn]; ring
  · rw [h.kinetic, deriv_orbital ha, hn, mul_pow, Real.sq_sqrt (density_pos ha).le]; ring

theorem of_closed (ha : 0 < a) (r : ℝ) :
    OneOrbital (density1s a) r (density1s a r) ((a * density1s a r) ^ 2) (density1s a r * (a ^ 2 - 2 * a / r)) (a ^ 2 * density1s a r / 8) := by
  refine ⟨rfl, ?_, ?_, ?_⟩
  · rw [deriv_density]; ring
  · rw [deriv2_density, deriv_density]; ring
  · rw [deriv_orbital ha, mul_pow, Real.sq_sqrt (density_pos ha).le]; ring

theorem density_rpow (ha : 0 < a) (r : ℝ) : Real.pi ^ (2 / 3 : ℝ) * density1s a r ^ (2 / 3 : ℝ) = a ^ 2 / 4 * Real.exp (-(2 * (a * r) / 3)) := by
  have hp := Real.pi_pos
  rw [← Real.mul_rpow hp.le (density_pos ha).le,
    show Real.pi * density1s a r = (a / 2 * Real.exp (-(a * r / 3))) ^ 3 by
      rw [mul_pow, ← Real.exp_nat_mul, density1s]
      push_cast
      rw [show (3 : ℝ) * -(a * r / 3) = -(a * r) by ring]
      field_simp
      norm_num,
    ← Real.rpow_natCast, ← Real.rpow_mul (by positivity), show ((3 : ℕ) : ℝ) * (2 / 3) = (2 : ℕ) by norm_num, Real.rpow_natCast, mul_pow,
    ← Real.exp_nat_mul]
  push_cast
  rw [show (2 : ℝ) * -(a * r / 3) = -(2 * (a * r) / 3) by ring]
  ring

/-- A single real orbital has `D = 0`. -/
theorem holeD_zero {n g l τ : ℝ} (ha : 0 < a) (h : OneOrbital (density1s a) r n g l τ) : holeD n g (2 * τ) 0 = 0 := by
  obtain ⟨hn, hg, -, ht⟩ := closed ha h
  have hp : 0 < n := hn ▸ density_pos ha
  rw [holeD, hg, ht]
  field_simp
  ring

/-- The solution of the hole equation is `a r`. -/
theorem holeX_1s {n g l τ : ℝ} (ha : 0 < a) (hr : 0 < r) (h : OneOrbital (density1s a) r n g l τ) : holeX n g l (2 * τ) 0 = a * r := by
  obtain ⟨hn, hg, hl, ht⟩ := closed ha h
  have hp : 0 < n := hn ▸ density_pos ha
  have har : 0 < a * r := mul_pos ha hr
  rw [holeX]
  symm
  refine (Props.C56_holeRoot _ _).2 ⟨har, ?_⟩
  have e := density_rpow ha r
  rw [← hn] at e
  have h53 : n ^ (5 / 3 : ℝ) = n * n ^ (2 / 3 : ℝ) := by
    rw [show (5 / 3 : ℝ) = 1 + 2 / 3 by norm_num, Real.rpow_add hp, Real.rpow_one]
  rw [holeQ, holeD_zero ha h, hl, h53,
    show 2 / 3 * Real.pi ^ (2 / 3 : ℝ) * (n * n ^ (2 / 3 : ℝ)) = 2 / 3 * n * (Real.pi ^ (2 / 3 : ℝ) * n ^ (2 / 3 : ℝ)) by ring, e, Real.exp_neg,
    show 2 / 3 * (a * r) = 2 * (a * r) / 3 by ring]
  have := Real.exp_pos (2 * (a * r) / 3)
  field_simp
  ring

theorem holeB_1s (ha : 0 < a) (hr : 0 < r) : holeB (density1s a r) (a * r) = r := by
  have hp := Real.pi_pos
  rw [holeB, density1s, show (a * r) ^ 3 * Real.exp (-(a * r)) / (8 * Real.pi * (a ^ 3 / (8 * Real.pi) * Real.exp (-(a * r)))) = r ^ 3 by
    have := Real.exp_pos (-(a * r))
    field_simp, ← Real.rpow_natCast, ← Real.rpow_mul hr.le]
  norm_num

/-- The potential of the hole is minus the electrostatic potential of the electron. -/
theorem holeU_1s {n g l τ : ℝ} (ha : 0 < a) (hr : 0 < r) (h : OneOrbital (density1s a) r n g l τ) : holeU n g l (2 * τ) 0 = -potential1s a r := by
  have hn := h.density
  rw [holeU, holeX_1s ha hr h, hn, holeB_1s ha hr, potential1s]
  ring

theorem potential_pos (ha : 0 < a) (hr : 0 < r) : 0 < potential1s a r := by
  have h : (1 + a * r / 2) * Real.exp (-(a * r)) < 1 := by
    have h0 := Real.add_one_lt_exp (x := a * r) (by positivity)
    rw [Real.exp_neg, ← div_eq_mul_inv, div_lt_one (Real.exp_pos _)]
    have : 0 < a * r := mul_pos ha hr
    linarith
  exact div_pos (by linarith) hr

/-! ### Poisson's equation -/

/-- `r V(r)`. -/
theorem r_potential (a : ℝ) {r : ℝ} (hr : r ≠ 0) : r * potential1s a r = 1 - (1 + a * r / 2) * Real.exp (-(a * r)) := by
  rw [potential1s]; field_simp

theorem hasDeriv_lin (a b c r : ℝ) : HasDerivAt (fun r => (b + c * r) * Real.exp (-(a * r))) ((c - a * (b + c * r)) * Real.exp (-(a * r))) r := by
  have h : HasDerivAt (fun r : ℝ => b + c * r) c r := by
    simpa using ((hasDerivAt_id r).const_mul c).const_add b
  refine (h.mul (hasDeriv_exp a r)).congr_deriv ?_
  ring

theorem poisson (ha : 0 < a) (hr : 0 < r) :
    deriv (deriv fun r => r * potential1s a r) r = -4 * Real.pi * (r * density1s a r) := by
  have e1 : ∀ r : ℝ, 0 < r → deriv (fun r => r * potential1s a r) r = (a / 2 + a ^ 2 / 2 * r) * Real.exp (-(a * r)) := by
    intro r hr
    have : (fun r => r * potential1s a r) =ᶠ[𝓝 r] fun r => 1 - (1 + a / 2 * r) * Real.exp (-(a * r)) := by
      filter_upwards [lt_mem_nhds hr] with y hy
      rw [r_potential a hy.ne']
      ring
    rw [this.deriv_eq, ((hasDeriv_lin a 1 (a / 2) r).const_sub 1).deriv]
    ring
  have e2 : deriv (fun r => r * potential1s a r) =ᶠ[𝓝 r] fun r => (a / 2 + a ^ 2 / 2 * r) * Real.exp (-(a * r)) := by
    filter_upwards [lt_mem_nhds hr] with y hy using e1 y hy
  rw [e2.deriv_eq, (hasDeriv_lin a (a / 2) (a ^ 2 / 2) r).deriv, density1s]
  have := Real.pi_pos
  field_simp
  ring

theorem tendsto_poly_exp (ha : 0 < a) (k : ℕ) : Tendsto (fun r : ℝ => r ^ k * Real.exp (-(a * r))) atTop (𝓝 0) := by
  have h := (Real.tendsto_pow_mul_exp_neg_atTop_nhds_zero k).comp (tendsto_id.const_mul_atTop ha)
  have h2 := h.const_mul ((a ^ k)⁻¹)
  rw [mul_zero] at h2
  refine h2.congr fun r => ?_
  have : a ^ k ≠ 0 := by positivity
  simp only [Function.comp, id, mul_pow]
  field_simp

theorem potential_far (ha : 0 < a) : Tendsto (fun r => r * potential1s a r) atTop (𝓝 1) := by
  have h0 := tendsto_poly_exp ha 0
  have h1 := (tendsto_poly_exp ha 1).const_mul (a / 2)
  have h := (h0.add h1).const_sub 1
  rw [mul_zero, add_zero, sub_zero] at h
  refine h.congr' ?_
  filter_upwards [eventually_gt_atTop 0] with r hr
  rw [r_potential a hr.ne']
  ring

theorem potential_near (a : ℝ) : Tendsto (fun r => r * potential1s a r) (𝓝[>] 0) (𝓝 0) := by
  have h : Tendsto (fun r : ℝ => 1 - (1 + a * r / 2) * Real.exp (-(a * r))) (𝓝[>] 0) (𝓝 (1 - (1 + a * 0 / 2) * Real.exp (-(a * 0)))) := by
    refine (Continuous.tendsto ?_ 0).mono_left nhdsWithin_le_nhds
    fun_prop
  rw [show 1 - (1 + a * 0 / 2) * Real.exp (-(a * 0)) = 0 by simp] at h
  refine h.congr' ?_
  filter_upwards [self_mem_nhdsWithin] with r hr
  rw [r_potential a (ne_of_gt hr)]

/-! ### Integrals over space -/

theorem hasDeriv_quad (a b c e r : ℝ) : HasDerivAt (fun r => (b + c * r + e * r ^ 2) * Real.exp (-(a * r)))
    ((c + 2 * e * r - a * (b + c * r + e * r ^ 2)) * Real.exp (-(a * r))) r := by
  have h : HasDerivAt (fun r : ℝ => b + c * r + e * r ^ 2) (c + e * (2 * r)) r := by
    have h1 := (((hasDerivAt_id' r).const_mul c).const_add b).fun_add (((hasDerivAt_id' r).fun_pow 2).const_mul e)
    exact h1.congr_deriv (by norm_num)
  refine (h.mul (hasDeriv_exp a r)).congr_deriv ?_
  ring

theorem tendsto_quad (ha : 0 < a) (b c e : ℝ) : Tendsto (fun r : ℝ => (b + c * r + e * r ^ 2) * Real.exp (-(a * r))) atTop (𝓝 0) := by
  have h := (((tendsto_poly_exp ha 0).const_mul b).add ((tendsto_poly_exp ha 1).const_mul c)).add ((tendsto_poly_exp ha 2).const_mul e)
  simp only [mul_zero, add_zero] at h
  refine h.congr fun r => ?_
  ring

theorem integral_density (ha : 0 < a) : ∫ r in Set.Ioi 0, 4 * Real.pi * r ^ 2 * density1s a r = 1 := by
  have hp := Real.pi_pos
  have h := MeasureTheory.integral_Ioi_of_hasDerivAt_of_nonneg (a := 0) (g := fun r => (-1 + -a * r + -(a ^ 2 / 2) * r ^ 2) * Real.exp (-(a * r)))
    (g' := fun r => 4 * Real.pi * r ^ 2 * density1s a r) (l := 0) (by fun_prop)
    (fun r _ => (hasDeriv_quad a (-1) (-a) (-(a ^ 2 / 2)) r).congr_deriv (by rw [density1s]; field_simp; ring))
    (fun r _ => by have := density_pos (r := r) ha; positivity) (tendsto_quad ha _ _ _)
  rw [h]
  simp

theorem integral_exchange (ha : 0 < a) : ∫ r in Set.Ioi 0, 4 * Real.pi * r ^ 2 * (density1s a r * potential1s a r / 2) = 5 * a / 32 := by
  have hp := Real.pi_pos
  have h := MeasureTheory.integral_Ioi_of_hasDerivAt_of_nonneg (a := 0)
    (g := fun r => (-(a / 4) + -(a ^ 2 / 4) * r + 0 * r ^ 2) * Real.exp (-(a * r)) +
      (3 * a / 32 + 3 * a ^ 2 / 16 * r + a ^ 3 / 16 * r ^ 2) * Real.exp (-(2 * a * r)))
    (g' := fun r => 4 * Real.pi * r ^ 2 * (density1s a r * potential1s a r / 2)) (l := 0 + 0) (by fun_prop)
    (fun r hr => ((hasDeriv_quad a _ _ _ r).add (hasDeriv_quad (2 * a) _ _ _ r)).congr_deriv (by
      have hr : (0 : ℝ) < r := hr
      rw [density1s, potential1s, show -(2 * a * r) = -(a * r) + -(a * r) by ring, Real.exp_add]
      field_simp
      ring))
    (fun r hr => by have := density_pos (r := r) ha; have := potential_pos ha (show (0 : ℝ) < r from hr); positivity)
    ((tendsto_quad ha _ _ _).add (tendsto_quad (by positivity) _ _ _))
  rw [h]
  simp
  ring

/-! ### The limit of far distances -/

theorem arsinh_log : Tendsto (fun χ => Real.arsinh χ / Real.log χ) atTop (𝓝 1) := by
  have h0 : Tendsto (fun χ => Real.log 3 / Real.log χ) atTop (𝓝 0) := Real.tendsto_log_atTop.const_div_atTop _
  have h1 : Tendsto (fun χ => 1 + Real.log 3 / Real.log χ) atTop (𝓝 1) := by simpa using h0.const_add 1
  refine tendsto_of_tendsto_of_tendsto_of_le_of_le' tendsto_const_nhds h1 ?_ ?_
  · filter_upwards [eventually_gt_atTop 1] with χ hχ
    have hl := Real.log_pos hχ
    rw [le_div_iff₀ hl, one_mul, Real.arsinh]
    exact Real.log_le_log (by linarith) (by have := Real.sqrt_nonneg (1 + χ ^ 2); linarith)
  · filter_upwards [eventually_gt_atTop 1] with χ hχ
    have hl := Real.log_pos hχ
    rw [div_le_iff₀ hl, add_mul, one_mul, div_mul_cancel₀ _ hl.ne', add_comm, ← Real.log_mul (by norm_num) (by linarith), Real.arsinh]
    have : √(1 + χ ^ 2) ≤ 2 * χ := Real.sqrt_le_iff.2 ⟨by linarith, by nlinarith⟩
    exact Real.log_le_log (by have := Real.sqrt_nonneg (1 + χ ^ 2); linarith) (by linarith)

/-- A single real orbital has the kinetic energy density of von Weizsaecker. -/
theorem kinetic {f : ℝ → ℝ} {n g l τ : ℝ} (hf : DifferentiableAt ℝ f r) (hp : 0 < f r) (h : OneOrbital f r n g l τ) : τ = g / (8 * n) := by
  rw [h.kinetic, h.gradient, h.density, (hf.hasDerivAt.sqrt hp.ne').deriv, div_pow, mul_pow, Real.sq_sqrt hp.le]
  field_simp
  norm_num

/-- Gradient correction of Becke exchange where a density of exponent `α` has the value `m`. -/
theorem b88_far {m k d C : ℝ} (hk : 0 < k) (hd : 0 < d) {R : ℝ → ℝ} (hR : ∀ α, 0 < α → α * R α = 3 * Real.log α - m) :
    Tendsto (fun α => R α * C - R α * (d * k * (α / k) ^ 2 / (1 + 6 * d * (α / k) * Real.arsinh (α / k)))) atTop (𝓝 (-(1 / 2))) := by
  have hlog := Real.tendsto_log_atTop
  have hχ : Tendsto (fun α : ℝ => α / k) atTop atTop := tendsto_id.atTop_div_const hk
  have hlχ := hlog.comp hχ
  -- the distance tends to zero
  have hR0 : Tendsto R atTop (𝓝 0) := by
    have h1 : Tendsto (fun α => Real.log α / α) atTop (𝓝 0) := by
      simpa using Real.tendsto_pow_log_div_mul_add_atTop 1 0 1 one_ne_zero
    have h2 : Tendsto (fun α : ℝ => m / α) atTop (𝓝 0) := tendsto_id.const_div_atTop m
    have h3 := (h1.const_mul 3).sub h2
    rw [mul_zero, sub_zero] at h3
    refine h3.congr' ?_
    filter_upwards [eventually_gt_atTop 0] with α hα
    have := hR α hα
    field_simp
    linarith
  have t1 : Tendsto (fun α => (3 * Real.log α - m) / Real.log (α / k)) atTop (𝓝 3) := by
    have h1 : Tendsto (fun α => (3 * Real.log k - m) / Real.log (α / k)) atTop (𝓝 0) := hlχ.const_div_atTop _
    have h2 := h1.const_add 3
    rw [add_zero] at h2
    refine h2.congr' ?_
    filter_upwards [eventually_gt_atTop 0, hlχ.eventually_gt_atTop 0] with α hα hl
    have hl : 0 < Real.log (α / k) := hl
    have : Real.log α = Real.log (α / k) + Real.log k := by
      rw [← Real.log_mul (by positivity) hk.ne', div_mul_cancel₀ _ hk.ne']
    rw [this]
    field_simp
    ring
  have t2 : Tendsto (fun α => 1 / ((α / k) * Real.log (α / k)) + 6 * d * (Real.arsinh (α / k) / Real.log (α / k))) atTop (𝓝 (0 + 6 * d * 1)) :=
    ((hχ.atTop_mul_atTop₀ hlχ).const_div_atTop 1).add ((arsinh_log.comp hχ).const_mul _)
  have t3 := (hR0.mul_const C).sub ((t1.mul_const d).div t2 (by positivity))
  rw [show 0 * C - 3 * d / (0 + 6 * d * 1) = -(1 / 2) by field_simp; ring] at t3
  refine t3.congr' ?_
  filter_upwards [eventually_gt_atTop 0, hlχ.eventually_gt_atTop 0, hχ.eventually_gt_atTop 1] with α hα hl h1
  have hl : 0 < Real.log (α / k) := hl
  have hs : 0 < Real.arsinh (α / k) := Real.arsinh_pos_iff.2 (by linarith)
  have e := hR α hα
  have hRα : R α = (3 * Real.log α - m) / α := by rw [← e]; field_simp
  simp only [Pi.div_apply]
  congr 1
  rw [← e]
  set q := α / k with hq
  have hα : α = q * k := by rw [hq]; field_simp
  have hq0 : 0 < q := by linarith
  set l := Real.log q
  set z := Real.arsinh q
  rw [hα]
  have : 0 < 1 + 6 * d * q * z := by positivity
  have h5 : 1 / (q * l) + 6 * d * (z / l) = (1 + 6 * d * q * z) / (q * l) := by field_simp
  rw [h5]
  field_simp

end XCFun.Hyd
