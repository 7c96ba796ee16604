/-
The short-range correlation functionals for small and large range separation.
-/
import Verif.Proofs.SmoothTies
import Mathlib.Topology.Algebra.Order.LiminfLimsup
import Mathlib.Analysis.SpecialFunctions.Log.Basic

namespace XCFun.Fun
open XCFun Expr Lit Filter Topology

/-! ### The function `Q` of the small-range limit -/

/-- The coefficient by which numerator and denominator of `qErf` differ in second order. -/
noncomputable def qGap : ℝ := 3 * Real.pi * αrs / (4 * (1 - Real.log 2))

theorem one_sub_log_two : 0 < 1 - Real.log 2 := by
  have := Real.log_lt_sub_one_of_pos (show (0 : ℝ) < 2 by norm_num) (by norm_num); linarith

theorem αrs_pos : 0 < αrs := by have := Real.pi_pos; unfold αrs; positivity

theorem qGap_pos : 0 < qGap := by
  have := one_sub_log_two; have := αrs_pos; have := Real.pi_pos; unfold qGap; positivity

/-- Relative difference of numerator and denominator. -/
noncomputable def qRatio (x : ℝ) : ℝ := (qGap * x ^ 2 + 3.91744 * x ^ 3) / (1 + 5.84605 * x + 3.44851 * x ^ 2)

theorem qErf_eq {x : ℝ} (hx : 0 ≤ x) : qErf x = -(2 * (1 - Real.log 2) / Real.pi ^ 2) * Real.log (1 + qRatio x) := by
  have hd : 0 < 1 + 5.84605 * x + 3.44851 * x ^ 2 := by positivity
  have hb : 3 * Real.pi * αrs / (4 * Real.log 2 - 4) = -qGap := by
    rw [qGap, show 4 * Real.log 2 - 4 = -(4 * (1 - Real.log 2)) by ring, div_neg]
  have e : (1 + 5.84605 * x + (3.44851 - 3 * Real.pi * αrs / (4 * Real.log 2 - 4)) * x ^ 2 + 3.91744 * x ^ 3) / (1 + 5.84605 * x + 3.44851 * x ^ 2) =
      1 + qRatio x := by
    rw [hb, qRatio, eq_comm, ← sub_eq_zero]
    field_simp
    ring
  simp only [qErf]
  rw [e]
  ring

theorem qRatio_nonneg {x : ℝ} (hx : 0 ≤ x) : 0 ≤ qRatio x := by have := qGap_pos; unfold qRatio; positivity

theorem qRatio_le {x : ℝ} (hx : 0 ≤ x) : qRatio x ≤ qGap * x ^ 2 + 3.91744 * x ^ 3 := by
  have := qGap_pos
  exact div_le_self (by positivity) (by nlinarith [sq_nonneg x])

/-- `Q` grows at most with the third power. -/
theorem qErf_abs {x : ℝ} (hx : 0 ≤ x) : |qErf x| ≤ 2 * (1 - Real.log 2) / Real.pi ^ 2 * (qGap * x ^ 2 + 3.91744 * x ^ 3) := by
  have hq := qRatio_nonneg hx
  have h1 : Real.log (1 + qRatio x) ≤ qGap * x ^ 2 + 3.91744 * x ^ 3 := by
    have := Real.log_le_sub_one_of_pos (show 0 < 1 + qRatio x by linarith)
    linarith [qRatio_le hx]
  have h0 : 0 ≤ Real.log (1 + qRatio x) := Real.log_nonneg (by linarith)
  have hc : 0 < 2 * (1 - Real.log 2) / Real.pi ^ 2 := by have := one_sub_log_two; have := Real.pi_pos; positivity
  rw [qErf_eq hx, abs_mul, abs_neg, abs_of_pos hc, abs_of_nonneg h0]
  exact mul_le_mul_of_nonneg_left h1 hc.le

theorem qErf_zero : qErf 0 = 0 := by rw [qErf_eq le_rfl]; simp [qRatio]

/-- `Q` starts quadratically, with the coefficient of the random phase approximation. -/
theorem qErf_small : Tendsto (fun x => qErf x / x ^ 2) (𝓝[>] 0) (𝓝 (-(3 * αrs / (2 * Real.pi)))) := by
  have hl := one_sub_log_two
  have hp := Real.pi_pos
  have ec : -(3 * αrs / (2 * Real.pi)) = -(2 * (1 - Real.log 2) / Real.pi ^ 2) * qGap := by
    rw [qGap]; field_simp; norm_num
  have hr : Tendsto (fun x : ℝ => (qGap + 3.91744 * x) / (1 + 5.84605 * x + 3.44851 * x ^ 2)) (𝓝[>] 0) (𝓝 qGap) := by
    have hc : ContinuousAt (fun x : ℝ => (qGap + 3.91744 * x) / (1 + 5.84605 * x + 3.44851 * x ^ 2)) 0 := by
      apply ContinuousAt.div <;> first | fun_prop | norm_num
    have := hc.tendsto
    rw [show (qGap + 3.91744 * 0) / (1 + 5.84605 * 0 + 3.44851 * 0 ^ 2) = qGap by norm_num] at this
    exact this.mono_left nhdsWithin_le_nhds
  have hq : Tendsto (fun x : ℝ => 1 + qRatio x) (𝓝[>] 0) (𝓝 1) := by
    have hc : ContinuousAt (fun x : ℝ => 1 + qRatio x) 0 := by
      unfold qRatio
      apply ContinuousAt.add continuousAt_const
      apply ContinuousAt.div <;> first | fun_prop | norm_num
    have := hc.tendsto
    rw [show 1 + qRatio 0 = 1 by norm_num [qRatio]] at this
    exact this.mono_left nhdsWithin_le_nhds
  have hlow : Tendsto (fun x : ℝ => (qGap + 3.91744 * x) / (1 + 5.84605 * x + 3.44851 * x ^ 2) / (1 + qRatio x)) (𝓝[>] 0) (𝓝 qGap) := by
    have := hr.div hq one_ne_zero
    rwa [div_one] at this
  have key : Tendsto (fun x => Real.log (1 + qRatio x) / x ^ 2) (𝓝[>] 0) (𝓝 qGap) := by
    refine tendsto_of_tendsto_of_tendsto_of_le_of_le' hlow hr ?_ ?_
    all_goals
      filter_upwards [self_mem_nhdsWithin] with x hx
      have hx : 0 < x := hx
      have hq0 := qRatio_nonneg hx.le
      have e : qRatio x = x ^ 2 * ((qGap + 3.91744 * x) / (1 + 5.84605 * x + 3.44851 * x ^ 2)) := by rw [qRatio]; ring
      have hx2 : 0 < x ^ 2 := by positivity
    · rw [div_le_div_iff₀ (by linarith) hx2, mul_comm, ← e]
      have := Real.one_sub_inv_le_log_of_pos (show 0 < 1 + qRatio x by linarith)
      have h1 : 1 - (1 + qRatio x)⁻¹ = qRatio x / (1 + qRatio x) := by field_simp; ring
      rwa [h1, div_le_iff₀ (by linarith)] at this
    · rw [div_le_iff₀ hx2, mul_comm, ← e]
      have := Real.log_le_sub_one_of_pos (show 0 < 1 + qRatio x by linarith)
      linarith
  rw [ec]
  refine (key.const_mul (-(2 * (1 - Real.log 2) / Real.pi ^ 2))).congr' ?_
  filter_upwards [self_mem_nhdsWithin] with x hx
  rw [qErf_eq (le_of_lt hx)]
  ring

/-! ### The interpolation -/

/-- The interpolation between the two ranges, by its coefficients. -/
noncomputable def ecForm (b f w c1 c2 c3 C2 ε μ : ℝ) : ℝ :=
  (f ^ 3 * qErf (μ * w) + c1 * μ ^ 3 + c2 * μ ^ 4 + c3 * μ ^ 5 + (b ^ 8 * C2 + 4 * b ^ 6 * ε) * μ ^ 6 + b ^ 8 * ε * μ ^ 8) / (1 + b ^ 2 * μ ^ 2) ^ 4

theorem ecForm_small {b f w c1 c2 c3 C2 ε : ℝ} (hw : 0 < w) :
    Tendsto (fun μ => (-ecForm b f w c1 c2 c3 C2 ε μ) / μ ^ 2) (𝓝[>] 0) (𝓝 (f ^ 3 * w ^ 2 * (3 * αrs / (2 * Real.pi)))) := by
  have h1 : Tendsto (fun μ : ℝ => μ * w) (𝓝[>] 0) (𝓝[>] 0) := by
    refine tendsto_nhdsWithin_iff.2 ⟨?_, ?_⟩
    · have : Continuous fun μ : ℝ => μ * w := by fun_prop
      have := this.tendsto 0
      rw [zero_mul] at this
      exact this.mono_left nhdsWithin_le_nhds
    · filter_upwards [self_mem_nhdsWithin] with μ hμ
      exact mul_pos hμ hw
  have h2 := (qErf_small.comp h1).const_mul (f ^ 3 * w ^ 2)
  have hP : Tendsto (fun μ : ℝ => c1 * μ + c2 * μ ^ 2 + c3 * μ ^ 3 + (b ^ 8 * C2 + 4 * b ^ 6 * ε) * μ ^ 4 + b ^ 8 * ε * μ ^ 6) (𝓝[>] 0) (𝓝 0) := by
    have : Continuous fun μ : ℝ => c1 * μ + c2 * μ ^ 2 + c3 * μ ^ 3 + (b ^ 8 * C2 + 4 * b ^ 6 * ε) * μ ^ 4 + b ^ 8 * ε * μ ^ 6 := by fun_prop
    have := this.tendsto 0
    norm_num at this
    exact this.mono_left nhdsWithin_le_nhds
  have hD : Tendsto (fun μ : ℝ => (1 + b ^ 2 * μ ^ 2) ^ 4) (𝓝[>] 0) (𝓝 1) := by
    have : Continuous fun μ : ℝ => (1 + b ^ 2 * μ ^ 2) ^ 4 := by fun_prop
    have := this.tendsto 0
    norm_num at this
    exact this.mono_left nhdsWithin_le_nhds
  have h3 := ((h2.add hP).neg).div hD one_ne_zero
  have el : -(f ^ 3 * w ^ 2 * -(3 * αrs / (2 * Real.pi)) + 0) / 1 = f ^ 3 * w ^ 2 * (3 * αrs / (2 * Real.pi)) := by ring
  rw [el] at h3
  refine h3.congr' ?_
  filter_upwards [self_mem_nhdsWithin] with μ hμ
  have hμ : 0 < μ := hμ
  simp only [Pi.div_apply, Function.comp, ecForm]
  generalize qErf (μ * w) = q
  have : 0 < (1 + b ^ 2 * μ ^ 2) ^ 4 := by positivity
  field_simp
  ring

theorem ecForm_zero {b f w c1 c2 c3 C2 ε : ℝ} : ecForm b f w c1 c2 c3 C2 ε 0 = 0 := by simp [ecForm, qErf_zero]

/-- What is missing in the long-range energy, for large range separation. -/
theorem ecForm_large {b f w c1 c2 c3 C2 ε : ℝ} (hb : 0 < b) (hw : 0 < w) :
    Tendsto (fun μ => μ ^ 2 * (ε - ecForm b f w c1 c2 c3 C2 ε μ)) atTop (𝓝 (-C2)) := by
  have hi : Tendsto (fun μ : ℝ => μ⁻¹) atTop (𝓝 0) := tendsto_inv_atTop_zero
  have hK : 0 < 2 * (1 - Real.log 2) / Real.pi ^ 2 := by have := one_sub_log_two; have := Real.pi_pos; positivity
  set K := 2 * (1 - Real.log 2) / Real.pi ^ 2 with hKd
  have hq : Tendsto (fun μ : ℝ => qErf (μ * w) * μ⁻¹ ^ 6) atTop (𝓝 0) := by
    have hB : Tendsto (fun μ : ℝ => K * (qGap * w ^ 2 * μ⁻¹ ^ 4 + 3.91744 * w ^ 3 * μ⁻¹ ^ 3)) atTop (𝓝 0) := by
      have hc : Continuous fun t : ℝ => K * (qGap * w ^ 2 * t ^ 4 + 3.91744 * w ^ 3 * t ^ 3) := by fun_prop
      have := (hc.tendsto 0).comp hi
      rw [show K * (qGap * w ^ 2 * 0 ^ 4 + 3.91744 * w ^ 3 * 0 ^ 3) = 0 by norm_num] at this
      exact this
    refine squeeze_zero_norm' ?_ hB
    filter_upwards [eventually_gt_atTop 0] with μ hμ
    rw [Real.norm_eq_abs, abs_mul, abs_of_pos (show 0 < μ⁻¹ ^ 6 by positivity)]
    have := qErf_abs (x := μ * w) (by positivity)
    calc |qErf (μ * w)| * μ⁻¹ ^ 6 ≤ K * (qGap * (μ * w) ^ 2 + 3.91744 * (μ * w) ^ 3) * μ⁻¹ ^ 6 :=
          mul_le_mul_of_nonneg_right this (by positivity)
      _ = _ := by field_simp
  have hP : Tendsto (fun μ : ℝ => ε * μ⁻¹ ^ 6 + 4 * b ^ 2 * ε * μ⁻¹ ^ 4 + (6 * b ^ 4 * ε - c2) * μ⁻¹ ^ 2 - c1 * μ⁻¹ ^ 3 - c3 * μ⁻¹ - b ^ 8 * C2) atTop
      (𝓝 (-(b ^ 8 * C2))) := by
    have hc : Continuous fun t : ℝ => ε * t ^ 6 + 4 * b ^ 2 * ε * t ^ 4 + (6 * b ^ 4 * ε - c2) * t ^ 2 - c1 * t ^ 3 - c3 * t - b ^ 8 * C2 := by fun_prop
    have := (hc.tendsto 0).comp hi
    norm_num at this
    exact this.congr fun μ => by simp
  have hD : Tendsto (fun μ : ℝ => (μ⁻¹ ^ 2 + b ^ 2) ^ 4) atTop (𝓝 (b ^ 8)) := by
    have hc : Continuous fun t : ℝ => (t ^ 2 + b ^ 2) ^ 4 := by fun_prop
    have := (hc.tendsto 0).comp hi
    rw [show ((0 : ℝ) ^ 2 + b ^ 2) ^ 4 = b ^ 8 by ring] at this
    exact this
  have h3 := (hP.sub (hq.const_mul (f ^ 3))).div hD (by positivity)
  have el : (-(b ^ 8 * C2) - f ^ 3 * 0) / b ^ 8 = -C2 := by field_simp; ring
  rw [el] at h3
  refine h3.congr' ?_
  filter_upwards [eventually_gt_atTop 0] with μ hμ
  simp only [Pi.div_apply, ecForm]
  generalize qErf (μ * w) = q
  have h1 : 0 < 1 + b ^ 2 * μ ^ 2 := by positivity
  have h2 : (μ⁻¹ ^ 2 + b ^ 2) ^ 4 = (1 + b ^ 2 * μ ^ 2) ^ 4 / μ ^ 8 := by field_simp
  rw [h2]
  field_simp
  ring

/-- A quantity that decays with the square of its argument vanishes. -/
theorem tendsto_zero_of_sq {f : ℝ → ℝ} {c : ℝ} (h : Tendsto (fun μ => μ ^ 2 * f μ) atTop (𝓝 c)) : Tendsto f atTop (𝓝 0) := by
  have hi : Tendsto (fun μ : ℝ => μ⁻¹ ^ 2) atTop (𝓝 0) := by
    have := (tendsto_inv_atTop_zero (𝕜 := ℝ)).pow 2
    simpa using this
  have := h.mul hi
  rw [mul_zero] at this
  refine this.congr' ?_
  filter_upwards [eventually_gt_atTop 0] with μ hμ
  field_simp

/-! ### The forms of the code -/

variable {ρ : Field → ℝ}

/-- The long-range energy of the code, at whatever members. -/
theorem ecorrlr_eval (mu ec : Expr Field) :
    (ecorrlr mu ec).evalR ρ = ecLong (mu.evalR ρ) (ρ .r_s) (ρ .zeta) (ec.evalR ρ) := by
  have hc : (1 / (4 / 9 / Real.pi) ^ (1 / 3 : ℝ)) ^ 2 / 10 = 1 / (5 * αrs ^ 2) / 2 := by
    rw [αrs, div_div, div_pow, one_pow, div_div, div_div]; congr 1; ring
  have hphi : ((1 + ρ .zeta) ^ (2 / 3 : ℝ) + (1 - ρ .zeta) ^ (2 / 3 : ℝ)) / 2 = Lit.phi (ρ .zeta) := rfl
  have drs : (d.r_s : Expr Field).evalR ρ = ρ .r_s := rfl
  have dzeta : (d.zeta : Expr Field).evalR ρ = ρ .zeta := rfl
  simp only [ecorrlr, evalR_mul, evalR_add, evalR_sub, evalR_neg, evalR_div, evalR_exp, evalR_sqrt, evalR_pow, evalR_npow, evalR_lit, evalR_one,
    evalR_ofNat, evalR_ofScientific, Qrpa_eq, dpol_eq, g0f_eq, drs, dzeta, hc, hphi, ecLong, pol]
  generalize g2Par (ρ .r_s * (2 / (1 + ρ .zeta)) ^ (1 / 3 : ℝ)) = X
  generalize g2Par (ρ .r_s * (2 / (1 - ρ .zeta)) ^ (1 / 3 : ℝ)) = Y
  generalize qErf _ = Q
  generalize g0Erf _ = G
  generalize √(2 * Real.pi) = S
  generalize αrs = A
  generalize ρ .r_s = r at *
  norm_num
  ring

/-- The long-range energy has the form of the interpolation. -/
theorem ecLong_form (r z ε : ℝ) : ∃ c1 c2 c3, ∀ μ, ecLong μ r z ε =
    ecForm (0.784949 * r) (Lit.phi z) (√r / Lit.phi z) c1 c2 c3 (-3 * (1 - z ^ 2) * (g0Erf r - 1 / 2) / (8 * r ^ 3)) ε μ :=
  ⟨_, _, _, fun μ => by simp only [ecLong, ecForm, mul_div_assoc]; rfl⟩

/-- LDAERFC by its coefficients. -/
theorem ldaerfc_eval : ldaerfc.evalR ρ =
    ρ .n * (pw92eps.evalR ρ - ecLong (ρ (.param RANGESEP_MU)) (ρ .r_s) (ρ .zeta) (pw92eps.evalR ρ)) := by
  simp only [ldaerfc]
  rw [evalR_mul, evalR_sub, ecorrlr_eval]
  rfl

/-- Coefficient of `μ` in the denominator of LDAERFC_JT. -/
noncomputable def jt1 (r : ℝ) : ℝ := (1.0270741452992294 * r - 0.230160617208092 * r ^ 2) / (1 + 0.6196884832404359 * r)

/-- On-top pair density of LDAERFC_JT. -/
noncomputable def jtG0 (r : ℝ) : ℝ := 3.39530545262710070631 * ((4.7125 + r) ^ (3 / 2 : ℝ) + 163.44) * Real.exp (-3.2581 * √(4.7125 + r))

/-- Coefficient of `μ²`. -/
noncomputable def jt2 (r n ε : ℝ) : ℝ := ε / (Real.pi / 2 * n * (jtG0 r - 1 / 2))

theorem ldaerfc_jt_eval (h : Spec.Sound ρ) : ldaerfc_jt.evalR ρ = ρ .n * vwn5_eps.evalR ρ /
    (1 + jt1 (ρ .r_s) * ρ (.param RANGESEP_MU) + jt2 (ρ .r_s) (ρ .n) (vwn5_eps.evalR ρ) * ρ (.param RANGESEP_MU) ^ 2) := by
  have hn := h.n
  have drs : (d.r_s : Expr Field).evalR ρ = ρ .r_s := rfl
  have dn : (d.n : Expr Field).evalR ρ = ρ .n := rfl
  have dm : (getParam RANGESEP_MU).evalR ρ = ρ (.param RANGESEP_MU) := rfl
  simp only [ldaerfc_jt, jtC1, jtC2, evalR_mul, evalR_add, evalR_sub, evalR_div, evalR_exp, evalR_sqrt, evalR_pow, evalR_lit, evalR_one,
    evalR_ofScientific, drs, dn, dm, jt1, jt2, jtG0]
  rw [show (1.5 : ℝ) = 3 / 2 by norm_num]
  generalize (4.7125 + ρ .r_s) ^ (3 / 2 : ℝ) = X
  generalize Real.exp _ = Y
  have e : ∀ t : ℝ, ρ .n * vwn5_eps.evalR ρ / (0.5 * Real.pi * (ρ .n * ρ .n) * (t - 0.5)) = vwn5_eps.evalR ρ / (Real.pi / 2 * ρ .n * (t - 1 / 2)) := by
    intro t
    rw [show 0.5 * Real.pi * (ρ .n * ρ .n) * (t - 0.5) = ρ .n * (Real.pi / 2 * ρ .n * (t - 1 / 2)) by ring, mul_div_mul_left _ _ hn.ne']
  rw [e]
  congr 1
  ring

theorem jtG0_lt {r : ℝ} (hr : 0 < r) : jtG0 r < 1 / 2 := jt_g0_lt hr

theorem jt2_pos {r n ε : ℝ} (hr : 0 < r) (hn : 0 < n) (hε : ε < 0) : 0 < jt2 r n ε := by
  have := jtG0_lt hr
  have hp := Real.pi_pos
  exact div_pos_of_neg_of_neg hε (mul_neg_of_pos_of_neg (by positivity) (by linarith))

/-- For large range separation. -/
theorem jt_large {A c1 c2 : ℝ} (h2 : 0 < c2) : Tendsto (fun μ : ℝ => μ ^ 2 * (A / (1 + c1 * μ + c2 * μ ^ 2))) atTop (𝓝 (A / c2)) := by
  have hi : Tendsto (fun μ : ℝ => μ⁻¹) atTop (𝓝 0) := tendsto_inv_atTop_zero
  have hc : ContinuousAt (fun t : ℝ => A / (t ^ 2 + c1 * t + c2)) 0 := by
    apply ContinuousAt.div
    · fun_prop
    · fun_prop
    · norm_num; exact h2.ne'
  have := hc.tendsto.comp hi
  rw [show A / ((0 : ℝ) ^ 2 + c1 * 0 + c2) = A / c2 by norm_num] at this
  refine this.congr' ?_
  filter_upwards [eventually_gt_atTop 0] with μ hμ
  simp only [Function.comp]
  have e : μ⁻¹ ^ 2 + c1 * μ⁻¹ + c2 = (1 + c1 * μ + c2 * μ ^ 2) / μ ^ 2 := by field_simp
  rw [e, div_div_eq_mul_div]
  ring

/-- The on-top pair density of LDAERFC stays below its value at infinite density. -/
theorem g0Erf_lt {r : ℝ} (hr : 0 < r) : g0Erf r < 1 / 2 := by
  have he := Real.sum_le_exp_of_nonneg (x := 0.752411 * r) (by positivity) 5
  norm_num [Finset.sum_range_succ, Nat.factorial] at he
  unfold g0Erf
  rw [div_lt_div_iff_of_pos_right (by norm_num), neg_mul, Real.exp_neg, ← div_eq_mul_inv, div_lt_one (Real.exp_pos _)]
  have h2 : 0 < r ^ 2 := by positivity
  have h3 : 0 < r ^ 3 := by positivity
  have h4 : 0 < r ^ 4 := by positivity
  norm_num at he ⊢
  nlinarith

end XCFun.Fun
