/-
Signs of the correlation energies per particle: PW92, VWN, PW91 local part, PZ81.
-/
import Mathlib.Analysis.Convex.SpecificFunctions.Basic
import Mathlib.Analysis.SpecialFunctions.Trigonometric.ArctanDeriv
import Mathlib.Analysis.Calculus.Deriv.MeanValue
import Verif.Proofs.SmoothFun

namespace XCFun.Fun
open Spec Expr

/-! ### Interpolation in the spin polarisation -/

theorem cbrt_two_bounds : 1.2599 < (2 : ℝ) ^ (1 / 3 : ℝ) ∧ (2 : ℝ) ^ (1 / 3 : ℝ) < 1.26 := by
  have e : ∀ c : ℝ, 0 ≤ c → (c ^ 3) ^ (1 / 3 : ℝ) = c := by
    intro c hc
    rw [← Real.rpow_natCast, ← Real.rpow_mul hc]
    norm_num
  constructor
  · rw [← e 1.2599 (by norm_num)]
    exact Real.rpow_lt_rpow (by norm_num) (by norm_num) (by norm_num)
  · rw [← e 1.26 (by norm_num)]
    exact Real.rpow_lt_rpow (by norm_num) (by norm_num) (by norm_num)

/-- `(1+z)^(4/3) + (1-z)^(4/3) - 2` between the values at 0 and 1. -/
theorem spinf_bounds {z : ℝ} (h1 : -1 < z) (h2 : z < 1) :
    0 ≤ (1 + z) ^ (4 / 3 : ℝ) + (1 - z) ^ (4 / 3 : ℝ) - 2 ∧
    (1 + z) ^ (4 / 3 : ℝ) + (1 - z) ^ (4 / 3 : ℝ) - 2 ≤ |z| * (2 * 2 ^ (1 / 3 : ℝ) - 2) := by
  have hc : ∀ ⦃x : ℝ⦄, x ∈ Set.Ici 0 → ∀ ⦃y : ℝ⦄, y ∈ Set.Ici 0 → ∀ ⦃a b : ℝ⦄, 0 ≤ a → 0 ≤ b → a + b = 1 →
      (a • x + b • y) ^ (4 / 3 : ℝ) ≤ a • x ^ (4 / 3 : ℝ) + b • y ^ (4 / 3 : ℝ) := (convexOn_rpow (p := 4 / 3) (by norm_num)).2
  have h43 : (2 : ℝ) ^ (4 / 3 : ℝ) = 2 * 2 ^ (1 / 3 : ℝ) := by
    rw [show (4 / 3 : ℝ) = 1 + 1 / 3 by norm_num, Real.rpow_add (by norm_num), Real.rpow_one]
  have up : ∀ w : ℝ, 0 ≤ w → w < 1 → (1 + w) ^ (4 / 3 : ℝ) + (1 - w) ^ (4 / 3 : ℝ) - 2 ≤ w * (2 * 2 ^ (1 / 3 : ℝ) - 2) := by
    intro w hw hw1
    have a1 := hc (x := 1) (y := 2) (by simp) (by simp) (a := 1 - w) (b := w) (by linarith) hw (by ring)
    have a2 := hc (x := 1) (y := 0) (by simp) (by simp) (a := 1 - w) (b := w) (by linarith) hw (by ring)
    simp only [smul_eq_mul, Real.one_rpow, h43] at a1 a2
    rw [Real.zero_rpow (by norm_num)] at a2
    rw [show (1 - w) * 1 + w * 2 = 1 + w by ring] at a1
    rw [show (1 - w) * 1 + w * 0 = 1 - w by ring] at a2
    linarith
  constructor
  · have a1 := hc (x := 1 + z) (y := 1 - z) (by simp; linarith) (by simp; linarith) (a := 1 / 2) (b := 1 / 2) (by norm_num)
      (by norm_num) (by norm_num)
    simp only [smul_eq_mul] at a1
    rw [show 1 / 2 * (1 + z) + 1 / 2 * (1 - z) = 1 by ring, Real.one_rpow] at a1
    linarith
  · rcases le_total 0 z with hz | hz
    · rw [abs_of_nonneg hz]; exact up z hz h2
    · rw [abs_of_nonpos hz]
      have := up (-z) (by linarith) (by linarith)
      rw [show 1 + -z = 1 - z by ring, show 1 - -z = 1 + z by ring] at this
      linarith

/-- The interpolation `e0 + α f (1-z⁴) / f'' + (e1 - e0) f z⁴` of negative energies is below a fifth of the first. -/
theorem interpolation_lt {e0 e1 e2 w z c : ℝ} (h0 : e0 < 0) (h1 : e1 ≤ 0.3 * e0) (h2 : 0 ≤ -e2) (h3 : -e2 ≤ 2 * -e0)
    (hw : 0 ≤ w) (hz : |z| < 1) (hwz : w ≤ 1.0005 * |z|) (hc : 1.7 ≤ c) :
    e0 - e2 * w * (1 - z ^ 4) / c + (e1 - e0) * w * z ^ 4 < 0.2 * e0 := by
  set t := |z| with ht
  have ht0 : 0 ≤ t := abs_nonneg z
  have hz4 : z ^ 4 = t ^ 4 := by rw [ht]; exact (Even.pow_abs (by decide) z).symm
  rw [hz4]
  have t4 : t ^ 4 ≤ 1 := pow_le_one₀ ht0 hz.le
  have t40 : 0 ≤ t ^ 4 := by positivity
  have k1 : -e2 * w * (1 - t ^ 4) / c ≤ 2 * -e0 * w * (1 - t ^ 4) / 1.7 := by
    have hn : 0 ≤ -e2 * w * (1 - t ^ 4) := by apply mul_nonneg (mul_nonneg h2 hw); linarith
    calc -e2 * w * (1 - t ^ 4) / c ≤ -e2 * w * (1 - t ^ 4) / 1.7 := div_le_div_of_nonneg_left hn (by norm_num) hc
      _ ≤ _ := by
        gcongr
  have k2 : (e1 - e0) * w * t ^ 4 ≤ -0.7 * e0 * w * t ^ 4 := by
    have : e1 - e0 ≤ -0.7 * e0 := by linarith
    gcongr
  have k3 : e0 + 2 * -e0 * w * (1 - t ^ 4) / 1.7 + -0.7 * e0 * w * t ^ 4 < 0.2 * e0 := by
    have : e0 + 2 * -e0 * w * (1 - t ^ 4) / 1.7 + -0.7 * e0 * w * t ^ 4 =
      e0 * (1 - w * (2 / 1.7 * (1 - t ^ 4) + 0.7 * t ^ 4)) := by ring
    rw [this, mul_comm 0.2]
    apply mul_lt_mul_of_neg_left _ h0
    have : w * (2 / 1.7 * (1 - t ^ 4) + 0.7 * t ^ 4) ≤ 1.0005 * t * (2 / 1.7 * (1 - t ^ 4) + 0.7 * t ^ 4) := by
      apply mul_le_mul_of_nonneg_right hwz
      have : 0 ≤ 2 / 1.7 * (1 - t ^ 4) := by apply mul_nonneg (by norm_num); linarith
      linarith
    have : 1.0005 * t * (2 / 1.7 * (1 - t ^ 4) + 0.7 * t ^ 4) < 0.8 := by
      have : t * (2 / 1.7 * (1 - t ^ 4) + 0.7 * t ^ 4) ≤ 0.798 := by
        have := mul_nonneg (sq_nonneg (t - 0.84)) (show 0 ≤ t ^ 3 + 2 * 0.84 * t ^ 2 + 3 * 0.84 ^ 2 * t + 4 * 0.84 ^ 3 by positivity)
        nlinarith
      nlinarith
    linarith
  have : -e2 * w * (1 - t ^ 4) / c = - (e2 * w * (1 - t ^ 4) / c) := by ring
  linarith

theorem interpolation_neg {e0 e1 e2 w z c : ℝ} (h0 : e0 < 0) (h1 : e1 ≤ 0.3 * e0) (h2 : 0 ≤ -e2) (h3 : -e2 ≤ 2 * -e0)
    (hw : 0 ≤ w) (hz : |z| < 1) (hwz : w ≤ 1.0005 * |z|) (hc : 1.7 ≤ c) :
    e0 - e2 * w * (1 - z ^ 4) / c + (e1 - e0) * w * z ^ 4 < 0 := by
  have := interpolation_lt h0 h1 h2 h3 hw hz hwz hc
  linarith

/-! ### PW92 -/

/-- The value of `eopt`. -/
noncomputable def eoptR (t : Pw92P) (s : ℝ) : ℝ :=
  -2 * t.t0 * (1 + t.t1 * s * s) * Real.log (1 + 0.5 / (t.t0 * (s * (t.t2 + s * (t.t3 + s * (t.t4 + t.t5 * s))))))

variable {ρ : Field → ℝ}

theorem eopt_evalR (s : Expr Field) (t : Pw92P) : (eopt s t).evalR ρ = eoptR t (s.evalR ρ) := by
  simp [eopt, eoptR]

theorem eoptR_neg {t : Pw92P} (ht : t.Good) {s : ℝ} (hs : 0 < s) : eoptR t s < 0 := by
  obtain ⟨h0, h1, h2, h3, h4, h5⟩ := ht
  have : 0 < Real.log (1 + 0.5 / (t.t0 * (s * (t.t2 + s * (t.t3 + s * (t.t4 + t.t5 * s)))))) := by
    apply Real.log_pos
    have : 0 < 0.5 / (t.t0 * (s * (t.t2 + s * (t.t3 + s * (t.t4 + t.t5 * s))))) := by positivity
    linarith
  have h : 0 < t.t0 * (1 + t.t1 * s * s) * Real.log (1 + 0.5 / (t.t0 * (s * (t.t2 + s * (t.t3 + s * (t.t4 + t.t5 * s)))))) := by
    positivity
  unfold eoptR
  linarith

theorem log_one_add_mul_le {m y : ℝ} (hm : 1 ≤ m) (hy : 0 ≤ y) : Real.log (1 + m * y) ≤ m * Real.log (1 + y) := by
  rw [← Real.log_rpow (by linarith)]
  exact Real.log_le_log (by nlinarith) (one_add_mul_self_le_rpow_one_add (by linarith) hm)

/-- Comparison of two interpolation formulas. -/
theorem eoptR_le {t u : Pw92P} (ht : t.Good) (hu : u.Good) {m k s : ℝ} (hm : 1 ≤ m) (hs : 0 < s)
    (h2 : t.t0 * t.t2 ≤ m * (u.t0 * u.t2)) (h3 : t.t0 * t.t3 ≤ m * (u.t0 * u.t3)) (h4 : t.t0 * t.t4 ≤ m * (u.t0 * u.t4))
    (h5 : t.t0 * t.t5 ≤ m * (u.t0 * u.t5)) (h0 : u.t0 * m ≤ k * t.t0) (h1 : u.t0 * u.t1 * m ≤ k * (t.t0 * t.t1)) :
    -eoptR u s ≤ k * -eoptR t s := by
  have T := ht
  have U := hu
  obtain ⟨t0, t1, t2, t3, t4, t5⟩ := ht
  obtain ⟨u0, u1, u2, u3, u4, u5⟩ := hu
  set x := t.t0 * (s * (t.t2 + s * (t.t3 + s * (t.t4 + t.t5 * s)))) with hx
  set y := u.t0 * (s * (u.t2 + s * (u.t3 + s * (u.t4 + u.t5 * s)))) with hy
  have x0 : 0 < x := by positivity
  have y0 : 0 < y := by positivity
  have hxy : x ≤ m * y := by
    have e1 : x = t.t0 * t.t2 * s + t.t0 * t.t3 * s ^ 2 + t.t0 * t.t4 * s ^ 3 + t.t0 * t.t5 * s ^ 4 := by rw [hx]; ring
    have e2 : m * y = m * (u.t0 * u.t2) * s + m * (u.t0 * u.t3) * s ^ 2 + m * (u.t0 * u.t4) * s ^ 3 + m * (u.t0 * u.t5) * s ^ 4 := by
      rw [hy]; ring
    rw [e1, e2]
    gcongr
  have hl : Real.log (1 + 0.5 / y) ≤ m * Real.log (1 + 0.5 / x) := by
    refine le_trans (Real.log_le_log (by positivity) ?_) (log_one_add_mul_le hm (by positivity))
    have : 0.5 / y ≤ m * (0.5 / x) := by
      rw [← mul_div_assoc, div_le_div_iff₀ y0 x0]
      nlinarith
    linarith
  have hlx : 0 < Real.log (1 + 0.5 / x) := Real.log_pos (by have : 0 < 0.5 / x := by positivity
                                                            linarith)
  have e1 : -eoptR u s = 2 * (u.t0 * (1 + u.t1 * s * s)) * Real.log (1 + 0.5 / y) := by rw [eoptR, hy]; ring
  have e2 : -eoptR t s = 2 * (t.t0 * (1 + t.t1 * s * s)) * Real.log (1 + 0.5 / x) := by rw [eoptR, hx]; ring
  rw [e1, e2]
  have hk : u.t0 * (1 + u.t1 * s * s) * m ≤ k * (t.t0 * (1 + t.t1 * s * s)) := by nlinarith [mul_pos hs hs]
  calc 2 * (u.t0 * (1 + u.t1 * s * s)) * Real.log (1 + 0.5 / y)
      ≤ 2 * (u.t0 * (1 + u.t1 * s * s)) * (m * Real.log (1 + 0.5 / x)) := by gcongr
    _ = 2 * (u.t0 * (1 + u.t1 * s * s) * m) * Real.log (1 + 0.5 / x) := by ring
    _ ≤ 2 * (k * (t.t0 * (1 + t.t1 * s * s))) * Real.log (1 + 0.5 / x) := by gcongr
    _ = _ := by ring

theorem pw92_ratios {s : ℝ} (hs : 0 < s) : -eoptR pw92_2 s ≤ 2 * -eoptR pw92_0 s ∧ eoptR pw92_1 s ≤ 0.3 * eoptR pw92_0 s := by
  constructor
  · refine eoptR_le (m := 3.5) pw92_0_good pw92_2_good ?_ hs ?_ ?_ ?_ ?_ ?_ ?_ <;> norm_num [pw92_0, pw92_2]
  · have : -eoptR pw92_0 s ≤ 2.2 * -eoptR pw92_1 s := by
      refine eoptR_le (m := 1.03) pw92_1_good pw92_0_good ?_ hs ?_ ?_ ?_ ?_ ?_ ?_ <;> norm_num [pw92_0, pw92_1]
    have := eoptR_neg pw92_0_good hs
    linarith

theorem fpp_ge : 1.7 ≤ 8 / (9 * (2 * (2 : ℝ) ^ (1 / 3 : ℝ) - 2)) := by
  have := cbrt_two_bounds
  rw [le_div_iff₀ (by linarith)]
  linarith

theorem _root_.XCFun.Spec.Sound.abs_zeta (h : Sound ρ) : |ρ .zeta| < 1 := by
  have := h.zeta_bounds
  rw [abs_lt]; constructor <;> linarith

theorem omega_bounds (h : Sound ρ) : 0 ≤ (omega d.zeta).evalR ρ ∧ (omega d.zeta).evalR ρ ≤ |ρ .zeta| := by
  have hz := abs_lt.1 h.abs_zeta
  have hb := spinf_bounds hz.1 hz.2
  have hc := cbrt_two_bounds
  have e : (omega d.zeta).evalR ρ = ((1 + ρ .zeta) ^ (4 / 3 : ℝ) + (1 - ρ .zeta) ^ (4 / 3 : ℝ) - 2) / (2 * 2 ^ (1 / 3 : ℝ) - 2) := by
    simp only [omega, evalR_div, evalR_sub, evalR_ufunc, evalR_ofNat, evalR_lit]
    rfl
  rw [e]
  have : (0 : ℝ) < 2 * 2 ^ (1 / 3 : ℝ) - 2 := by linarith
  exact ⟨div_nonneg hb.1 this.le, (div_le_iff₀ this).2 hb.2⟩

theorem pw92eps_neg (h : Sound ρ) : pw92eps.evalR ρ < 0 := by
  have hs : 0 < √(ρ .r_s) := Real.sqrt_pos.2 h.r_s_pos
  have hr := pw92_ratios hs
  have ho := omega_bounds h
  have e : pw92eps.evalR ρ = eoptR pw92_0 √(ρ .r_s) - eoptR pw92_2 √(ρ .r_s) * (omega d.zeta).evalR ρ * (1 - ρ .zeta ^ 4) /
      (8 / (9 * (2 * 2 ^ (1 / 3 : ℝ) - 2))) +
      (eoptR pw92_1 √(ρ .r_s) - eoptR pw92_0 √(ρ .r_s)) * (omega d.zeta).evalR ρ * ρ .zeta ^ 4 := by
    simp only [pw92eps, evalR_add, evalR_sub, evalR_mul, evalR_div, evalR_one, evalR_npow, evalR_lit, eopt_evalR, evalR_sqrt]
    rfl
  rw [e]
  have := abs_nonneg (ρ .zeta)
  exact interpolation_neg (eoptR_neg pw92_0_good hs) hr.2 (by have := eoptR_neg pw92_2_good hs; linarith) hr.1 ho.1 h.abs_zeta
    (by linarith) fpp_ge

/-! ### VWN -/

/-- Parameters of VWN: the zero `x0` is negative and the quadratic has no real zero. -/
structure VwnP.Good (p : VwnP) : Prop where
  p0 : p.p0 < 0
  p2 : 0 < p.p2
  p3 : 0 < p.p3
  disc : p.p2 * p.p2 < 4 * p.p3

theorem vwn5_para_good : vwn5_para.Good := by constructor <;> norm_num [vwn5_para]
theorem vwn5_ferro_good : vwn5_ferro.Good := by constructor <;> norm_num [vwn5_ferro]
theorem vwn5_inter_good : vwn5_inter.Good := by constructor <;> norm_num [vwn5_inter]
theorem vwn3_para_good : vwn3_para.Good := by constructor <;> norm_num [vwn3_para]
theorem vwn3_ferro_good : vwn3_ferro.Good := by constructor <;> norm_num [vwn3_ferro]

/-- The bracket of `vwn_f`. -/
noncomputable def vwnF (p : VwnP) (s : ℝ) : ℝ :=
  2 * Real.log s + vwn_a p * Real.log (s * s + p.p2 * s + p.p3) - vwn_b p * Real.log (s - p.p0) +
    vwn_c p * Real.arctan (√(4 * p.p3 - p.p2 * p.p2) / (2 * s + p.p2))

theorem vwn_f_evalR (s : Expr Field) (p : VwnP) : (vwn_f s p).evalR ρ = 0.5 * p.p1 * vwnF p (s.evalR ρ) := by
  simp [vwn_f, vwn_x, vwn_y, vwn_z, vwnF]

/-- Half the derivative of `vwnF`. -/
noncomputable def vwnD (p : VwnP) (s : ℝ) : ℝ :=
  ((p.p3 - p.p2 * p.p0) * s - p.p3 * p.p0) / (s * (s * s + p.p2 * s + p.p3) * (s - p.p0))

theorem vwnF_deriv {p : VwnP} (hp : p.Good) {s : ℝ} (hs : 0 < s) : HasDerivAt (vwnF p) (2 * vwnD p s) s := by
  obtain ⟨h0, h2, h3, hd⟩ := hp
  have hX : 0 < s * s + p.p2 * s + p.p3 := by positivity
  have hX0 : 0 < p.p0 * p.p0 + p.p0 * p.p2 + p.p3 := by nlinarith [sq_nonneg (2 * p.p0 + p.p2)]
  have hy : 0 < s - p.p0 := by linarith
  have hb : 0 < 2 * s + p.p2 := by positivity
  set Q := √(4 * p.p3 - p.p2 * p.p2) with hQ
  have hQ0 : 0 < Q := Real.sqrt_pos.2 (by linarith)
  have hQ2 : Q ^ 2 = 4 * p.p3 - p.p2 * p.p2 := Real.sq_sqrt (by linarith)
  have d1 := (Real.hasDerivAt_log hs.ne').const_mul 2
  have dX : HasDerivAt (fun s : ℝ => s * s + p.p2 * s + p.p3) (s + s + p.p2) s := by
    have := (((hasDerivAt_id s).mul (hasDerivAt_id s)).add ((hasDerivAt_id s).const_mul p.p2)).add_const p.p3
    simpa using this
  have d2 := (dX.log hX.ne').const_mul (vwn_a p)
  have d3 := ((((hasDerivAt_id s).sub_const p.p0).log hy.ne').const_mul (vwn_b p))
  have dz : HasDerivAt (fun s : ℝ => Q / (2 * s + p.p2)) (-(Q * 2) / (2 * s + p.p2) ^ 2) s := by
    have h : HasDerivAt (fun s : ℝ => 2 * s + p.p2) 2 s := by simpa using ((hasDerivAt_id s).const_mul 2).add_const p.p2
    have := (hasDerivAt_const s Q).div h hb.ne'
    rw [zero_mul, zero_sub] at this
    exact this
  have d4 := dz.arctan.const_mul (vwn_c p)
  have := ((d1.add d2).sub d3).add d4
  have e : 2 * vwnD p s = 2 * s⁻¹ + vwn_a p * ((s + s + p.p2) / (s * s + p.p2 * s + p.p3)) - vwn_b p * (1 / (s - p.p0)) +
      vwn_c p * (1 / (1 + (Q / (2 * s + p.p2)) ^ 2) * (-(Q * 2) / (2 * s + p.p2) ^ 2)) := by
    have e1 : 1 / (1 + (Q / (2 * s + p.p2)) ^ 2) * (-(Q * 2) / (2 * s + p.p2) ^ 2) = -Q / (2 * (s * s + p.p2 * s + p.p3)) := by
      have : 1 + (Q / (2 * s + p.p2)) ^ 2 = 4 * (s * s + p.p2 * s + p.p3) / (2 * s + p.p2) ^ 2 := by
        rw [div_pow, hQ2]; field_simp; ring
      rw [this]; field_simp; ring
    rw [e1]
    have e2 : vwn_c p = 2 * p.p2 / Q * (1 - p.p0 * (p.p2 + 2 * p.p0) / (p.p0 * p.p0 + p.p0 * p.p2 + p.p3)) := by
      unfold vwn_c
      rw [← hQ]
      by_cases hz : p.p2 + 2 * p.p0 = 0
      · rw [hz]; simp; field_simp
      · field_simp
    rw [e2, vwnD, vwn_a, vwn_b]
    obtain ⟨X0, hX0d⟩ : ∃ X0, X0 = p.p0 * p.p0 + p.p0 * p.p2 + p.p3 := ⟨_, rfl⟩
    rw [← hX0d] at hX0 ⊢
    have hne := hX0.ne'
    field_simp
    rw [hX0d]
    ring
  rw [e]
  exact this

open Filter Topology in
theorem vwnF_tendsto {p : VwnP} (hp : p.Good) : Tendsto (vwnF p) atTop (𝓝 0) := by
  obtain ⟨h0, h2, h3, hd⟩ := hp
  have hi : Tendsto (fun s : ℝ => s⁻¹) atTop (𝓝 0) := tendsto_inv_atTop_zero
  have t1 : Tendsto (fun s : ℝ => Real.log (1 + p.p2 * s⁻¹ + p.p3 * (s⁻¹ * s⁻¹))) atTop (𝓝 0) := by
    have h : Tendsto (fun s : ℝ => 1 + p.p2 * s⁻¹ + p.p3 * (s⁻¹ * s⁻¹)) atTop (𝓝 1) := by
      simpa using ((hi.const_mul p.p2).const_add 1).add ((hi.mul hi).const_mul p.p3)
    simpa using h.log one_ne_zero
  have t2 : Tendsto (fun s : ℝ => Real.log (1 - p.p0 * s⁻¹)) atTop (𝓝 0) := by
    have h : Tendsto (fun s : ℝ => 1 - p.p0 * s⁻¹) atTop (𝓝 1) := by
      simpa using (hi.const_mul p.p0).const_sub 1
    simpa using h.log one_ne_zero
  have t3 : Tendsto (fun s : ℝ => Real.arctan (√(4 * p.p3 - p.p2 * p.p2) / (2 * s + p.p2))) atTop (𝓝 0) := by
    have h : Tendsto (fun s : ℝ => √(4 * p.p3 - p.p2 * p.p2) / (2 * s + p.p2)) atTop (𝓝 0) := by
      apply Tendsto.div_atTop tendsto_const_nhds
      exact tendsto_atTop_add_const_right _ _ (tendsto_id.const_mul_atTop (by norm_num))
    have := (Real.continuous_arctan.tendsto 0).comp h
    rw [Real.arctan_zero] at this
    exact this
  have := ((t1.const_mul (vwn_a p)).sub (t2.const_mul (vwn_b p))).add (t3.const_mul (vwn_c p))
  simp only [mul_zero, sub_zero, add_zero] at this
  refine this.congr' ?_
  filter_upwards [eventually_gt_atTop 0] with s hs
  have e1 : Real.log (s * s + p.p2 * s + p.p3) = 2 * Real.log s + Real.log (1 + p.p2 * s⁻¹ + p.p3 * (s⁻¹ * s⁻¹)) := by
    rw [show s * s + p.p2 * s + p.p3 = s * s * (1 + p.p2 * s⁻¹ + p.p3 * (s⁻¹ * s⁻¹)) by field_simp,
      Real.log_mul (by positivity) (by positivity), Real.log_mul hs.ne' hs.ne']
    ring
  have hq : 0 < 1 - p.p0 * s⁻¹ := by
    have : p.p0 * s⁻¹ < 0 := mul_neg_of_neg_of_pos h0 (by positivity)
    linarith
  have e2 : Real.log (s - p.p0) = Real.log s + Real.log (1 - p.p0 * s⁻¹) := by
    rw [show s - p.p0 = s * (1 - p.p0 * s⁻¹) by field_simp, Real.log_mul hs.ne' hq.ne']
  rw [vwnF, e1, e2]
  have : vwn_b p = 2 * vwn_a p + 2 := rfl
  rw [this]
  ring

open Filter Topology in
/-- A function that increases on the positive numbers towards 0 is negative. -/
theorem neg_of_deriv_pos {f f' : ℝ → ℝ} (hd : ∀ s, 0 < s → HasDerivAt f (f' s) s) (hp : ∀ s, 0 < s → 0 < f' s)
    (hl : Tendsto f atTop (𝓝 0)) {s : ℝ} (hs : 0 < s) : f s < 0 := by
  have mono : StrictMonoOn f (Set.Ioi 0) := by
    apply strictMonoOn_of_deriv_pos (convex_Ioi 0)
    · exact fun x hx => (hd x hx).continuousAt.continuousWithinAt
    · intro x hx
      rw [interior_Ioi] at hx
      rw [(hd x hx).deriv]; exact hp x hx
  have h1 : f s < f (s + 1) := mono hs (by simp; linarith) (by linarith)
  have h2 : f (s + 1) ≤ 0 := by
    refine ge_of_tendsto hl ?_
    filter_upwards [eventually_ge_atTop (s + 1)] with x hx
    exact mono.monotoneOn (by simp; linarith) (by simp; linarith) hx
  linarith

theorem vwnD_pos {p : VwnP} (hp : p.Good) {s : ℝ} (hs : 0 < s) : 0 < vwnD p s := by
  obtain ⟨h0, h2, h3, -⟩ := hp
  have h1 : p.p2 * p.p0 < 0 := mul_neg_of_pos_of_neg h2 h0
  have h4 : p.p3 * p.p0 < 0 := mul_neg_of_pos_of_neg h3 h0
  have h5 : 0 < s - p.p0 := by linarith
  have h6 : 0 < (p.p3 - p.p2 * p.p0) * s := mul_pos (by linarith) hs
  unfold vwnD
  apply div_pos (by linarith)
  positivity

theorem vwnF_neg {p : VwnP} (hp : p.Good) {s : ℝ} (hs : 0 < s) : vwnF p s < 0 :=
  neg_of_deriv_pos (fun _ h => vwnF_deriv hp h) (fun _ h => by have := vwnD_pos hp h; positivity) (vwnF_tendsto hp) hs

/-- Comparison of two parametrisations by their derivatives. -/
theorem vwnF_compare {p q : VwnP} (hp : p.Good) (hq : q.Good) {α β : ℝ}
    (h : ∀ s, 0 < s → β * vwnD q s < α * vwnD p s) {s : ℝ} (hs : 0 < s) : α * vwnF p s < β * vwnF q s := by
  have hd : ∀ s, 0 < s → HasDerivAt (fun s => α * vwnF p s - β * vwnF q s) (α * (2 * vwnD p s) - β * (2 * vwnD q s)) s :=
    fun s hs => ((vwnF_deriv hp hs).const_mul α).sub ((vwnF_deriv hq hs).const_mul β)
  have hl := ((vwnF_tendsto hp).const_mul α).sub ((vwnF_tendsto hq).const_mul β)
  simp only [mul_zero, sub_zero] at hl
  have := neg_of_deriv_pos hd (fun s hs => by have := h s hs; linarith) hl hs
  linarith

/-- Comparison of two parametrisations by the coefficients of the derivatives. -/
theorem vwnD_compare {p q : VwnP} (hp : p.Good) (hq : q.Good) {α β s : ℝ} (hs : 0 < s)
    (h : β * (((q.p3 - q.p2 * q.p0) * s - q.p3 * q.p0) * ((s * s + p.p2 * s + p.p3) * (s - p.p0))) <
      α * (((p.p3 - p.p2 * p.p0) * s - p.p3 * p.p0) * ((s * s + q.p2 * s + q.p3) * (s - q.p0)))) :
    β * vwnD q s < α * vwnD p s := by
  obtain ⟨h0, h2, h3, -⟩ := hp
  obtain ⟨k0, k2, k3, -⟩ := hq
  have a1 : 0 < s - p.p0 := by linarith
  have a2 : 0 < s - q.p0 := by linarith
  have a3 : 0 < s * s + p.p2 * s + p.p3 := by positivity
  have a4 : 0 < s * s + q.p2 * s + q.p3 := by positivity
  unfold vwnD
  rw [← mul_div_assoc, ← mul_div_assoc, div_lt_div_iff₀ (by positivity) (by positivity)]
  nlinarith

theorem vwn5_ratios {s : ℝ} (hs : 0 < s) : 0.0310907 * vwnF vwn5_ferro s ≤ 0.3 * (0.0621814 * vwnF vwn5_para s) ∧
    (3 * Real.pi * Real.pi)⁻¹ * -vwnF vwn5_inter s ≤ 2 * (0.0621814 * -vwnF vwn5_para s) := by
  have hpi : 0.033 < (3 * Real.pi * Real.pi)⁻¹ ∧ (3 * Real.pi * Real.pi)⁻¹ < 0.034 := by
    have h1 := Real.pi_gt_d2
    have h2 := Real.pi_lt_d2
    constructor
    · rw [lt_inv_comm₀ (by norm_num) (by positivity)]; nlinarith
    · rw [inv_lt_comm₀ (by positivity) (by norm_num)]; nlinarith
  constructor
  · have := vwnF_compare vwn5_ferro_good vwn5_para_good (α := 0.0310907) (β := 0.3 * 0.0621814) (fun s hs =>
      vwnD_compare vwn5_ferro_good vwn5_para_good hs (by
        simp only [vwn5_para, vwn5_ferro]
        nlinarith [pow_pos hs 2, pow_pos hs 3, pow_pos hs 4])) hs
    linarith
  · have := vwnF_compare vwn5_para_good vwn5_inter_good (α := 2 * 0.0621814) (β := 0.034) (fun s hs =>
      vwnD_compare vwn5_para_good vwn5_inter_good hs (by
        simp only [vwn5_para, vwn5_inter]
        nlinarith [pow_pos hs 2, pow_pos hs 3, pow_pos hs 4])) hs
    have hn := vwnF_neg vwn5_inter_good hs
    nlinarith

theorem vwn3_ratio {s : ℝ} (hs : 0 < s) : 0.0310907 * vwnF vwn3_ferro s ≤ 0.3 * (0.0621814 * vwnF vwn3_para s) := by
  have := vwnF_compare vwn3_ferro_good vwn3_para_good (α := 0.0310907) (β := 0.3 * 0.0621814) (fun s hs =>
    vwnD_compare vwn3_ferro_good vwn3_para_good hs (by
      simp only [vwn3_para, vwn3_ferro]
      nlinarith [pow_pos hs 2, pow_pos hs 3, pow_pos hs 4])) hs
  linarith

/-- The factor `g` of the interpolation, with the rounded constant of the code. -/
theorem vwn_g_bounds (h : Sound ρ) : 0 ≤ 1.92366105093154 * ((1 + ρ .zeta) ^ (4 / 3 : ℝ) + (1 - ρ .zeta) ^ (4 / 3 : ℝ) - 2) ∧
    1.92366105093154 * ((1 + ρ .zeta) ^ (4 / 3 : ℝ) + (1 - ρ .zeta) ^ (4 / 3 : ℝ) - 2) ≤ 1.0005 * |ρ .zeta| := by
  have hz := abs_lt.1 h.abs_zeta
  have hb := spinf_bounds hz.1 hz.2
  have hc := cbrt_two_bounds
  have := abs_nonneg (ρ .zeta)
  constructor
  · nlinarith
  · nlinarith

theorem vwn5_eps_lt (h : Sound ρ) : vwn5_eps.evalR ρ < 0.2 * (0.5 * 0.0621814 * vwnF vwn5_para √(ρ .r_s)) := by
  have hs : 0 < √(ρ .r_s) := Real.sqrt_pos.2 h.r_s_pos
  obtain ⟨r1, r2⟩ := vwn5_ratios hs
  have hg := vwn_g_bounds h
  have hP := vwnF_neg vwn5_para_good hs
  have hI := vwnF_neg vwn5_inter_good hs
  have hc := cbrt_two_bounds
  set w := 1.92366105093154 * ((1 + ρ .zeta) ^ (4 / 3 : ℝ) + (1 - ρ .zeta) ^ (4 / 3 : ℝ) - 2) with hw
  have hpinv : (3 * Real.pi * Real.pi) ^ (-1 : ℝ) = (3 * Real.pi * Real.pi)⁻¹ := Real.rpow_neg_one _
  have e : vwn5_eps.evalR ρ = 0.5 * 0.0621814 * vwnF vwn5_para √(ρ .r_s) -
      0.5 * ((3 * Real.pi * Real.pi)⁻¹ * vwnF vwn5_inter √(ρ .r_s)) * w * (1 - ρ .zeta ^ 4) / (4 / (9 * (2 ^ (1 / 3 : ℝ) - 1))) +
      (0.5 * 0.0310907 * vwnF vwn5_ferro √(ρ .r_s) - 0.5 * 0.0621814 * vwnF vwn5_para √(ρ .r_s)) * w * ρ .zeta ^ 4 := by
    simp only [vwn5_eps, evalR_add, evalR_sub, evalR_mul, evalR_one, evalR_npow, evalR_lit, vwn_f_evalR, evalR_sqrt, evalR_ufunc,
      evalR_ofScientific, evalR_ofNat]
    have e1 : vwn5_inter.p1 = -(3 * Real.pi * Real.pi)⁻¹ := by rw [← hpinv]; rfl
    have e2 : vwn5_para.p1 = 0.0621814 := rfl
    have e3 : vwn5_ferro.p1 = 0.0310907 := rfl
    rw [e1, e2, e3]
    show _ + 1.92366105093154 * ((1 + ρ .zeta) ^ (4 / 3 : ℝ) + (1 - ρ .zeta) ^ (4 / 3 : ℝ) - 2) * (_ * ρ .zeta ^ 4 + _ * (1 - ρ .zeta ^ 4) * _) = _
    rw [← hw]
    rw [div_div_eq_mul_div]
    show 0.5 * 0.0621814 * vwnF vwn5_para √(ρ .r_s) + w * ((0.5 * 0.0310907 * vwnF vwn5_ferro √(ρ .r_s) -
      0.5 * 0.0621814 * vwnF vwn5_para √(ρ .r_s)) * ρ .zeta ^ 4 + 0.5 * -(3 * Real.pi * Real.pi)⁻¹ * vwnF vwn5_inter √(ρ .r_s) *
      (1 - ρ .zeta ^ 4) * _) = _
    ring
  rw [e]
  have hpi : 0 < (3 * Real.pi * Real.pi)⁻¹ := by have := Real.pi_pos; positivity
  have := abs_nonneg (ρ .zeta)
  refine interpolation_lt (by linarith) (by linarith) (by nlinarith) (by linarith) hg.1 h.abs_zeta hg.2 ?_
  rw [le_div_iff₀ (by linarith)]
  linarith

theorem vwn5_eps_neg (h : Sound ρ) : vwn5_eps.evalR ρ < 0 := by
  have := vwn5_eps_lt h
  have := vwnF_neg vwn5_para_good (Real.sqrt_pos.2 h.r_s_pos)
  linarith

theorem vwn3_eps_neg (h : Sound ρ) : vwn3_eps.evalR ρ < 0 := by
  have hs : 0 < √(ρ .r_s) := Real.sqrt_pos.2 h.r_s_pos
  have r1 := vwn3_ratio hs
  have hg := vwn_g_bounds h
  have hz := h.abs_zeta
  have hP := vwnF_neg vwn3_para_good hs
  set w := 1.92366105093154 * ((1 + ρ .zeta) ^ (4 / 3 : ℝ) + (1 - ρ .zeta) ^ (4 / 3 : ℝ) - 2) with hw
  have e : vwn3_eps.evalR ρ = 0.5 * 0.0621814 * vwnF vwn3_para √(ρ .r_s) +
      w * (0.5 * 0.0310907 * vwnF vwn3_ferro √(ρ .r_s) - 0.5 * 0.0621814 * vwnF vwn3_para √(ρ .r_s)) := by
    simp only [vwn3_eps, evalR_add, evalR_sub, evalR_mul, vwn_f_evalR, evalR_sqrt, evalR_ufunc,
      evalR_ofScientific, evalR_ofNat]
    rfl
  rw [e]
  nlinarith

theorem vwn_f_reg {s : Expr Field} {p : VwnP} (hp : p.Good) (hs : PosReg ρ s) : (vwn_f s p).Reg ρ := by
  obtain ⟨h0, h2, h3, hd⟩ := hp
  have hy : PosReg ρ (s - (p.p0 : Expr Field)) := ⟨⟨hs.reg, trivial⟩, by
    have := hs.pos
    rw [evalR_sub, evalR_lit]; linarith⟩
  unfold vwn_f vwn_x vwn_y vwn_z
  rg

theorem vwn5_eps_reg (h : Sound ρ) : vwn5_eps.Reg ρ := by
  signs h
  have s : PosReg ρ (sqrt d.r_s) := by rg
  have p1 : PosReg ρ (1 + d.zeta) := ⟨⟨trivial, trivial⟩, by assumption⟩
  have p2 : PosReg ρ (1 - d.zeta) := ⟨⟨trivial, trivial⟩, by assumption⟩
  have e0 := vwn_f_reg vwn5_para_good s
  have e1 := vwn_f_reg vwn5_ferro_good s
  have e2 := vwn_f_reg vwn5_inter_good s
  unfold vwn5_eps Fun.ufunc Expr.ufunc
  rg

theorem vwn3_eps_reg (h : Sound ρ) : vwn3_eps.Reg ρ := by
  signs h
  have s : PosReg ρ (sqrt d.r_s) := by rg
  have p1 : PosReg ρ (1 + d.zeta) := ⟨⟨trivial, trivial⟩, by assumption⟩
  have p2 : PosReg ρ (1 - d.zeta) := ⟨⟨trivial, trivial⟩, by assumption⟩
  have e0 := vwn_f_reg vwn3_para_good s
  have e1 := vwn_f_reg vwn3_ferro_good s
  unfold vwn3_eps Fun.ufunc Expr.ufunc
  rg

/-! ### The gradient correction of PBE -/

theorem param_gamma_pos : 0 < param_gamma := by
  have : Real.log 2 < 1 := by have := Real.log_lt_sub_one_of_pos (x := 2) (by norm_num) (by norm_num); linarith
  unfold param_gamma PI2
  have := Real.pi_pos
  exact div_pos (by linarith) (by positivity)

theorem param_beta_gamma_pos : 0 < param_beta_gamma := div_pos (by norm_num [param_beta_accurate]) param_gamma_pos

/-- The gradient correction as a function of numbers. -/
noncomputable def pbeHR (γ bg e u d2 : ℝ) : ℝ :=
  γ * u * Real.log (1 + bg * d2 * (1 + d2 * (bg / (Real.exp (-e / (γ * u)) - 1))) /
    (1 + d2 * (bg / (Real.exp (-e / (γ * u)) - 1)) * (1 + d2 * (bg / (Real.exp (-e / (γ * u)) - 1)))))

theorem pbeLikeH_evalR (bg eps u3 d2 : Expr Field) : (pbeLikeH bg eps u3 d2).evalR ρ =
    pbeHR param_gamma (bg.evalR ρ) (eps.evalR ρ) (u3.evalR ρ) (d2.evalR ρ) := by
  simp [pbeLikeH, pbeHR]

theorem pbecH_eq (d2 eps u3 : Expr Field) : pbecH d2 eps u3 = pbeLikeH (param_beta_gamma : Expr Field) eps u3 d2 := rfl

/-- The correction lies between 0 and the negative of the local energy. -/
theorem pbeHR_bounds {γ bg e u d2 : ℝ} (hγ : 0 < γ) (hb : 0 < bg) (he : e < 0) (hu : 0 < u) (hd : 0 ≤ d2) :
    0 ≤ pbeHR γ bg e u d2 ∧ pbeHR γ bg e u d2 < -e := by
  have hE : 1 < Real.exp (-e / (γ * u)) := by
    rw [Real.one_lt_exp_iff]; apply div_pos <;> [linarith; positivity]
  have hx : 0 < Real.exp (-e / (γ * u)) - 1 := by linarith
  set X := Real.exp (-e / (γ * u)) - 1 with hX
  have hA : 0 < bg / X := by positivity
  have hden : 0 < 1 + d2 * (bg / X) * (1 + d2 * (bg / X)) := by positivity
  have hq : 0 ≤ bg * d2 * (1 + d2 * (bg / X)) / (1 + d2 * (bg / X) * (1 + d2 * (bg / X))) := by positivity
  have hlt : bg * d2 * (1 + d2 * (bg / X)) / (1 + d2 * (bg / X) * (1 + d2 * (bg / X))) < X := by
    rw [div_lt_iff₀ hden]
    have : X * (d2 * (bg / X) * (1 + d2 * (bg / X))) = bg * d2 * (1 + d2 * (bg / X)) := by field_simp
    nlinarith
  unfold pbeHR
  rw [← hX]
  constructor
  · exact mul_nonneg (by positivity) (Real.log_nonneg (by linarith))
  · have : Real.log (1 + bg * d2 * (1 + d2 * (bg / X)) / (1 + d2 * (bg / X) * (1 + d2 * (bg / X)))) < -e / (γ * u) := by
      rw [Real.log_lt_iff_lt_exp (by linarith)]
      linarith
    rw [lt_div_iff₀ (by positivity)] at this
    linarith

theorem pbeLikeH_reg {bg eps u3 d2 : Expr Field} (hb : PosReg ρ bg) (he : eps.Reg ρ) (hn : eps.evalR ρ < 0) (hu : PosReg ρ u3)
    (hd : NonnegReg ρ d2) : (pbeLikeH bg eps u3 d2).Reg ρ := by
  have hγ := param_gamma_pos
  have hX : PosReg ρ (expm1 (-eps / ((param_gamma : Expr Field) * u3))) := by
    refine ⟨by rg, ?_⟩
    rw [evalR_expm1, sub_pos, Real.one_lt_exp_iff, evalR_div, evalR_neg, evalR_mul, evalR_lit]
    exact div_pos (by linarith) (mul_pos hγ hu.pos)
  unfold pbeLikeH
  rg

theorem phi_pos (h : Sound ρ) : PosReg ρ phi := by
  signs h
  unfold phi
  rg

theorem t2const_pos : 0 < t2const := by
  have := Real.pi_pos
  unfold t2const; positivity

theorem pbecD2_nonneg (h : Sound ρ) : NonnegReg ρ (pbecD2 phi) := by
  signs h
  have := phi_pos h
  have := t2const_pos
  unfold pbecD2
  rg

theorem u3_pos (h : Sound ρ) : PosReg ρ (pow3 phi) := by
  have := phi_pos h
  rg

/-- Energies `n (ε + f H)` with `0 ≤ f ≤ 1`. -/
theorem pbe_like_neg {n e H f : ℝ} (hn : 0 < n) (hH : 0 ≤ H ∧ H < -e) (hf : 0 ≤ f ∧ f ≤ 1) : n * (e + f * H) < 0 := by
  apply mul_neg_of_pos_of_neg hn
  nlinarith

section
variable (h : Sound ρ)
include h

theorem pbeH_bounds {bg : Expr Field} {eps : Expr Field} (hb : PosReg ρ bg) (he : eps.evalR ρ < 0) :
    0 ≤ (pbeLikeH bg eps (pow3 phi) (pbecD2 phi)).evalR ρ ∧ (pbeLikeH bg eps (pow3 phi) (pbecD2 phi)).evalR ρ < -eps.evalR ρ := by
  rw [pbeLikeH_evalR]
  exact pbeHR_bounds param_gamma_pos hb.pos he (u3_pos h).pos (pbecD2_nonneg h).nonneg

omit h in
theorem bg_pos : PosReg ρ (param_beta_gamma : Expr Field) := pos_lit param_beta_gamma_pos

theorem pbec_reg : pbec.Reg ρ :=
  ⟨trivial, pw92eps_reg h, pbeLikeH_reg bg_pos (pw92eps_reg h) (pw92eps_neg h) (u3_pos h) (pbecD2_nonneg h)⟩

theorem pbec_neg : pbec.evalR ρ < 0 := by
  have := pbe_like_neg h.n (pbeH_bounds h bg_pos (pw92eps_neg h)) (f := 1) (by norm_num)
  rw [one_mul] at this
  exact this

theorem vwn_pbec_reg : vwn_pbec.Reg ρ :=
  ⟨trivial, vwn5_eps_reg h, pbeLikeH_reg bg_pos (vwn5_eps_reg h) (vwn5_eps_neg h) (u3_pos h) (pbecD2_nonneg h)⟩

theorem vwn_pbec_neg : vwn_pbec.evalR ρ < 0 := by
  have := pbe_like_neg h.n (pbeH_bounds h bg_pos (vwn5_eps_neg h)) (f := 1) (by norm_num)
  rw [one_mul] at this
  exact this

omit h in
theorem ratio_pos {c : ℝ} (hc : 0 < c) : PosReg ρ ((c / param_gamma : ℝ) : Expr Field) := pos_lit (div_pos hc param_gamma_pos)

theorem apbec_reg : apbec.Reg ρ :=
  ⟨trivial, pw92eps_reg h, pbeLikeH_reg (ratio_pos (by norm_num)) (pw92eps_reg h) (pw92eps_neg h) (u3_pos h) (pbecD2_nonneg h)⟩

theorem apbec_neg : apbec.evalR ρ < 0 := by
  have := pbe_like_neg h.n (pbeH_bounds h (ratio_pos (c := 0.079030523241) (by norm_num)) (pw92eps_neg h)) (f := 1) (by norm_num)
  rw [one_mul] at this
  exact this

theorem pbeintc_reg : pbeintc.Reg ρ :=
  ⟨trivial, pw92eps_reg h, pbeLikeH_reg (ratio_pos (by norm_num)) (pw92eps_reg h) (pw92eps_neg h) (u3_pos h) (pbecD2_nonneg h)⟩

theorem pbeintc_neg : pbeintc.evalR ρ < 0 := by
  have := pbe_like_neg h.n (pbeH_bounds h (ratio_pos (c := 0.052) (by norm_num)) (pw92eps_neg h)) (f := 1) (by norm_num)
  rw [one_mul] at this
  exact this

theorem pbeloc_bg_pos : PosReg ρ ((((0.0375 : ℝ) : Expr Field) + ((0.08 : ℝ) : Expr Field) * pbecD2 phi * (1 - exp (-d.r_s * d.r_s))) /
    (param_gamma : Expr Field)) := by
  signs h
  have hd := pbecD2_nonneg h
  have hγ := param_gamma_pos
  have hf : NonnegReg ρ (1 - exp (-d.r_s * d.r_s)) := by
    refine ⟨by rg, ?_⟩
    rw [evalR_sub, evalR_one, sub_nonneg, evalR_exp, Real.exp_le_one_iff]
    show -ρ .r_s * ρ .r_s ≤ 0
    nlinarith
  rg

theorem pbeloc_eps_reg : pbeloc_eps.Reg ρ :=
  ⟨pw92eps_reg h, pbeLikeH_reg (pbeloc_bg_pos h) (pw92eps_reg h) (pw92eps_neg h) (u3_pos h) (pbecD2_nonneg h)⟩

theorem pbeloc_eps_neg : pbeloc_eps.evalR ρ < 0 := by
  have := (pbeH_bounds h (pbeloc_bg_pos h) (pw92eps_neg h)).2
  have e : pbeloc_eps.evalR ρ = pw92eps.evalR ρ + (pbeLikeH ((((0.0375 : ℝ) : Expr Field) + ((0.08 : ℝ) : Expr Field) * pbecD2 phi *
    (1 - exp (-d.r_s * d.r_s))) / (param_gamma : Expr Field)) pw92eps (pow3 phi) (pbecD2 phi)).evalR ρ := rfl
  rw [e]
  linarith

theorem pbelocc_reg : pbelocc.Reg ρ := ⟨trivial, pbeloc_eps_reg h⟩
theorem pbelocc_neg : pbelocc.evalR ρ < 0 := mul_neg_of_pos_of_neg h.n (pbeloc_eps_neg h)

end

theorem zvFit_nonneg (h : Sound ρ) : NonnegReg ρ zvFit := by
  refine ⟨by unfold zvFit; rg, ?_⟩
  have hz := abs_lt.1 h.abs_zeta
  have hz2 : ρ .zeta ^ 2 ≤ 1 := by nlinarith
  have e : zvFit.evalR ρ = (0.462757 + 1.30129 * ρ .zeta ^ 2 - 1.59546 * (ρ .zeta ^ 2) ^ 2 + 1.19635 * (ρ .zeta ^ 2) ^ 3 -
      0.36519 * (ρ .zeta ^ 2) ^ 4) * (ρ .zeta ^ 2) ^ 2 := by
    simp only [zvFit, evalR_mul, evalR_add, evalR_sub, evalR_ofScientific]
    show (0.462757 + 1.30129 * ρ .zeta * ρ .zeta - 1.59546 * ρ .zeta * ρ .zeta * ρ .zeta * ρ .zeta + 1.19635 * ρ .zeta * ρ .zeta *
      ρ .zeta * ρ .zeta * ρ .zeta * ρ .zeta - 0.36519 * ρ .zeta * ρ .zeta * ρ .zeta * ρ .zeta * ρ .zeta * ρ .zeta * ρ .zeta *
      ρ .zeta) * ρ .zeta * ρ .zeta * ρ .zeta * ρ .zeta = _
    ring
  rw [e]
  have hq : 0 ≤ ρ .zeta ^ 2 := sq_nonneg _
  generalize ρ .zeta ^ 2 = q at hq hz2
  apply mul_nonneg _ (by positivity)
  have h2 : q ^ 2 ≤ q := by nlinarith
  have h4 : q ^ 4 ≤ q ^ 3 := by nlinarith [pow_nonneg hq 3]
  have h3 : 0 ≤ q ^ 3 := by positivity
  nlinarith

theorem zvpbe_reg {β α : ℝ} (hβ : 0 < β) (h : Sound ρ) (hg : 0 < ρ .gnn) : (zvpbe β α).Reg ρ := by
  signs h
  have hu := phi_pos h
  have hd : PosReg ρ (pbecD2 phi) := by
    have := t2const_pos
    unfold pbecD2; rg
  have hz := zvFit_nonneg h
  have hH := pbeLikeH_reg (ratio_pos hβ) (pw92eps_reg h) (pw92eps_neg h) (u3_pos h) (pbecD2_nonneg h)
  have he := pw92eps_reg h
  unfold zvpbe
  rg

theorem zvpbe_neg {β α : ℝ} (hβ : 0 < β) (hα : 0 ≤ α) (h : Sound ρ) : (zvpbe β α).evalR ρ < 0 := by
  signs h
  have hu := phi_pos h
  have hz := (zvFit_nonneg h).nonneg
  have hd := (pbecD2_nonneg h).nonneg
  have hv : 0 ≤ (pow3 (pow (pbecD2 phi) 0.5 * phi * pow (d.r_s / 3) (-1 / 6))).evalR ρ := by
    rw [evalR_pow3, evalR_mul, evalR_mul, evalR_pow, evalR_pow, evalR_div, evalR_ofNat]
    have hr : 0 < d.r_s.evalR ρ := by assumption
    have := hu.pos
    positivity
  have hf : 0 ≤ Real.exp (-α * (pow3 (pow (pbecD2 phi) 0.5 * phi * pow (d.r_s / 3) (-1 / 6))).evalR ρ * zvFit.evalR ρ) ∧
      Real.exp (-α * (pow3 (pow (pbecD2 phi) 0.5 * phi * pow (d.r_s / 3) (-1 / 6))).evalR ρ * zvFit.evalR ρ) ≤ 1 := by
    refine ⟨(Real.exp_pos _).le, ?_⟩
    rw [Real.exp_le_one_iff]
    have := mul_nonneg (mul_nonneg hα hv) hz
    linarith
  exact pbe_like_neg h.n (pbeH_bounds h (ratio_pos hβ) (pw92eps_neg h)) hf

end XCFun.Fun
