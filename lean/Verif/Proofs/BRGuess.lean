/-
The starting points of the Newton iteration of brx.cpp lie in the basin of convergence.
-/
import Mathlib.Analysis.Complex.ExponentialBounds
import Verif.Proofs.BRSolve

namespace XCFun.BR
open XCFun Spec

theorem err_le {r x c : ℝ} (hr : 0 < r) (h : |x - r| * (r + 1) ≤ c * r) : err r x ≤ c := by
  rw [err, show |x - r| * (1 + 1 / r) = |x - r| * (r + 1) / r by field_simp, div_le_iff₀ hr]
  exact h

theorem exp_upper {y : ℝ} (h0 : 0 ≤ y) (h1 : y ≤ 2 / 3) : Real.exp y ≤ 1 + y + 0.65 * y ^ 2 := by
  have := Real.exp_bound' h0 (by linarith) (n := 4) (by norm_num)
  simp only [Finset.sum_range_succ, Finset.sum_range_zero, Nat.factorial] at this
  norm_num at this ⊢
  nlinarith [sq_nonneg y, mul_nonneg h0 h0, mul_nonneg (mul_nonneg h0 h0) h0, mul_nonneg (mul_nonneg h0 h0) (sub_nonneg.2 h1),
    mul_nonneg (mul_nonneg (mul_nonneg h0 h0) h0) (sub_nonneg.2 h1)]

theorem curve_one : -2 < holeCurve 1 := by
  have := exp_upper (y := 2 * 1 / 3) (by norm_num) (by norm_num)
  rw [holeCurve]
  norm_num at *
  linarith

/-! ## Large negative arguments -/

theorem lt_one_of_curve {r : ℝ} (hr : 0 < r) (h : holeCurve r < -2) : r < 1 := root_lt hr one_pos (h.trans curve_one)

theorem guess_far {r : ℝ} (hr : 0 < r) (h : holeCurve r < -1e4) : err r (-2 / holeCurve r) ≤ r / 4 := by
  have h1 : r < 1 := lt_one_of_curve hr (h.trans (by norm_num))
  have hE : Real.exp (2 * r / 3) ≤ 2 := by
    have := exp_upper (y := 2 * r / 3) (by positivity) (by linarith)
    nlinarith
  have hp := Real.exp_pos (2 * r / 3)
  have hsmall : r ≤ 1 / 1000 := by
    rw [holeCurve, div_mul_eq_mul_div, div_lt_iff₀ hr] at h
    norm_num at h
    nlinarith
  have e : -2 / holeCurve r = 2 * r * Real.exp (-(2 * r / 3)) / (2 - r) := by
    rw [holeCurve, Real.exp_neg]
    have : r - 2 ≠ 0 := by linarith
    have : 2 - r ≠ 0 := by linarith
    field_simp
    ring
  have hy : |(-(2 * r / 3))| ≤ 1 := by rw [abs_neg, abs_of_nonneg (by positivity)]; linarith
  have hq := abs_le.1 (Real.abs_exp_sub_one_sub_id_le hy)
  refine err_le hr ?_
  rw [e]
  have h2 : 0 < 2 - r := by linarith
  generalize Real.exp (-(2 * r / 3)) = q at hq
  obtain ⟨q1, q2⟩ := hq
  have ec : 2 * r * q / (2 - r) - r = r * (2 * q - 2 + r) / (2 - r) := by field_simp; ring
  have hb : |2 * q - 2 + r| ≤ r / 3 + 2 * r ^ 2 := abs_le.2 ⟨by nlinarith, by nlinarith⟩
  rw [ec, abs_div, abs_of_pos h2, abs_mul, abs_of_pos hr, div_mul_eq_mul_div, div_le_iff₀ h2]
  have : r * |2 * q - 2 + r| * (r + 1) ≤ r * (r / 3 + 2 * r ^ 2) * (r + 1) := by gcongr
  refine this.trans ?_
  have : r * r * ((1 / 3 + 2 * r) * (r + 1)) ≤ r * r * ((2 - r) / 4) := by
    refine mul_le_mul_of_nonneg_left ?_ (by positivity)
    nlinarith
  nlinarith

/-! ## Negative arguments below -2 -/

theorem guess_mid {r : ℝ} (hr : 0 < r) (h : holeCurve r < -2) :
    err r ((√(9 * holeCurve r * holeCurve r + 6 * holeCurve r + 49) + 3 * holeCurve r + 1) / 4) ≤ r / 4 := by
  have h1 : r < 1 := lt_one_of_curve hr h
  have hE := exp_upper (y := 2 * r / 3) (by positivity) (by linarith)
  have hL := Real.quadratic_le_exp_of_nonneg (x := 2 * r / 3) (by positivity)
  have hz : r * holeCurve r = (r - 2) * Real.exp (2 * r / 3) := by rw [holeCurve]; field_simp
  set z := holeCurve r with hzdef
  set q := Real.exp (2 * r / 3)
  have hs : √(9 * z * z + 6 * z + 49) ^ 2 = (3 * z + 1) ^ 2 + 48 := by
    rw [Real.sq_sqrt (by nlinarith [sq_nonneg (3 * z + 1)])]; ring
  have hs0 := Real.sqrt_nonneg (9 * z * z + 6 * z + 49)
  set s := √(9 * z * z + 6 * z + 49)
  have hx : 0 < (s + 3 * z + 1) / 4 := by
    have : -(3 * z + 1) < s := by
      by_contra hc
      nlinarith
    linarith
  have hroot : 2 * ((s + 3 * z + 1) / 4) ^ 2 - (3 * z + 1) * ((s + 3 * z + 1) / 4) - 6 = 0 := by nlinarith
  generalize (s + 3 * z + 1) / 4 = x at *
  -- the quadratic is negative to the left of its root
  have left : ∀ y : ℝ, 0 < y → 2 * y ^ 2 - (3 * z + 1) * y - 6 ≤ 0 → y ≤ x := by
    intro y hy h
    by_contra hc
    have hc := not_le.1 hc
    have : 0 < (y - x) * (x * y + 3) := mul_pos (by linarith) (by positivity)
    nlinarith
  have right : ∀ y : ℝ, 0 < y → 0 ≤ 2 * y ^ 2 - (3 * z + 1) * y - 6 → x ≤ y := by
    intro y hy h
    by_contra hc
    have hc := not_le.1 hc
    have : 0 < (x - y) * (x * y + 3) := mul_pos (by linarith) (by positivity)
    nlinarith
  have hu : x ≤ r := by
    refine right r hr ?_
    have : (r - 2) * q ≤ (r - 2) * (1 + 2 * r / 3 + (2 * r / 3) ^ 2 / 2) := by nlinarith
    nlinarith [mul_pos hr hr, mul_pos (mul_pos hr hr) (sub_pos.2 h1)]
  have hl : r - r ^ 2 / (4 * (r + 1)) ≤ x := by
    have hk : r - r ^ 2 / (4 * (r + 1)) = r * ((4 + 3 * r) / (4 * (r + 1))) := by field_simp; ring
    rw [hk]
    set k := (4 + 3 * r) / (4 * (r + 1)) with hkdef
    have hk0 : 0 < k := by positivity
    refine left _ (by positivity) ?_
    have h2 : (r - 2) * (1 + 2 * r / 3 + 0.65 * (2 * r / 3) ^ 2) ≤ (r - 2) * q := by nlinarith
    have h3 : -(6 - 0.26 * r ^ 2 - 0.86 * r ^ 3) ≤ 3 * (r * z) + r := by
      rw [hz]; norm_num at h2 ⊢; nlinarith [mul_pos hr hr, mul_pos (mul_pos hr hr) hr]
    have h4 : 2 * (r * k) ^ 2 - (3 * z + 1) * (r * k) - 6 = 2 * r ^ 2 * k ^ 2 - (3 * (r * z) + r) * k - 6 := by ring
    rw [h4]
    have h5 : -(3 * (r * z) + r) * k ≤ (6 - 0.26 * r ^ 2 - 0.86 * r ^ 3) * k := by nlinarith
    have h6 : 2 * r ^ 2 * k ^ 2 + (6 - 0.26 * r ^ 2 - 0.86 * r ^ 3) * k - 6 ≤ 0 := by
      rw [hkdef, show 2 * r ^ 2 * ((4 + 3 * r) / (4 * (r + 1))) ^ 2 + (6 - 0.26 * r ^ 2 - 0.86 * r ^ 3) * ((4 + 3 * r) / (4 * (r + 1))) - 6 =
        (2 * r ^ 2 * (4 + 3 * r) ^ 2 + (6 - 0.26 * r ^ 2 - 0.86 * r ^ 3) * (4 + 3 * r) * (4 * (r + 1)) - 6 * (4 * (r + 1)) ^ 2) / (4 * (r + 1)) ^ 2 by
        field_simp]
      refine div_nonpos_of_nonpos_of_nonneg ?_ (by positivity)
      norm_num
      nlinarith [mul_pos hr hr, mul_pos (mul_pos hr hr) hr, mul_pos hr (sub_pos.2 h1), mul_pos (mul_pos hr hr) (sub_pos.2 h1),
        mul_pos (mul_pos (mul_pos hr hr) hr) (sub_pos.2 h1), mul_pos (mul_pos hr hr) (mul_pos hr hr)]
    linarith
  refine err_le hr ?_
  rw [abs_of_nonpos (by linarith)]
  calc -(x - r) * (r + 1) ≤ r ^ 2 / (4 * (r + 1)) * (r + 1) := by gcongr; linarith
    _ = r / 4 * r := by field_simp

/-! ## Moderate arguments -/

theorem exp_five {y : ℝ} (h : |y| ≤ 1) : |Real.exp y - (1 + y + y ^ 2 / 2 + y ^ 3 / 6 + y ^ 4 / 24)| ≤ |y| ^ 5 / 100 := by
  have := Real.exp_bound h (n := 5) (by norm_num)
  simp only [Finset.sum_range_succ, Finset.sum_range_zero, Nat.factorial] at this
  norm_num at this
  exact this.trans (le_of_eq (by ring))

theorem curve_low : holeCurve 0.95 < -2 := by
  have := Real.quadratic_le_exp_of_nonneg (x := 2 * 0.95 / 3) (by norm_num)
  rw [holeCurve]
  norm_num at *
  linarith

theorem curve_high : 1 < holeCurve 2.5 := by
  have := Real.sum_le_exp_of_nonneg (x := 2 * 2.5 / 3) (by norm_num) 6
  simp only [Finset.sum_range_succ, Finset.sum_range_zero, Nat.factorial] at this
  rw [holeCurve]
  norm_num at *
  linarith

theorem guess_near {r : ℝ} (hr : 0 < r) (h0 : -2 ≤ holeCurve r) (h1 : holeCurve r < 1) :
    err r (2 * (holeCurve r * Real.exp (-4 / 3) + 1)) ≤ 1 / 4 := by
  have hl : 0.95 < r := root_lt (by norm_num) hr (curve_low.trans_le h0)
  have hu : r < 2.5 := root_lt hr (by norm_num) (h1.trans curve_high)
  have e : 2 * (holeCurve r * Real.exp (-4 / 3) + 1) - r = (r - 2) * (2 * Real.exp (2 * (r - 2) / 3) - r) / r := by
    rw [holeCurve, mul_assoc, ← Real.exp_add, show 2 * r / 3 + -4 / 3 = 2 * (r - 2) / 3 by ring]
    field_simp
    ring
  refine err_le hr ?_
  rw [e]
  have hy : |2 * (r - 2) / 3| ≤ 1 := abs_le.2 ⟨by norm_num at hl ⊢; linarith, by norm_num at hu ⊢; linarith⟩
  have hq := exp_five hy
  generalize Real.exp (2 * (r - 2) / 3) = q at hq
  rw [abs_div, abs_of_pos hr, abs_mul, div_mul_eq_mul_div, div_le_iff₀ hr]
  rcases le_or_gt 2 r with h2 | h2
  · obtain ⟨s, rfl⟩ : ∃ s, r = 2 + s := ⟨r - 2, by ring⟩
    have hs : 0 ≤ s := by linarith
    have hs' : s ≤ 1 / 2 := by norm_num at hu; linarith
    rw [show 2 + s - 2 = s by ring] at *
    rw [abs_of_nonneg (by positivity : 0 ≤ 2 * s / 3)] at hq
    have hin : |2 * q - (2 + s)| ≤ s := by
      obtain ⟨a, b⟩ := abs_le.1 hq
      have p2 := mul_nonneg hs (sub_nonneg.2 hs')
      have p3 := mul_nonneg hs p2
      have p4 := mul_nonneg hs p3
      have p5 := mul_nonneg hs p4
      exact abs_le.2 ⟨by nlinarith, by nlinarith⟩
    rw [abs_of_nonneg hs]
    calc s * |2 * q - (2 + s)| * (2 + s + 1) ≤ s * s * (2 + s + 1) := by gcongr
      _ ≤ _ := by nlinarith
  · obtain ⟨s, rfl⟩ : ∃ s, r = 2 - s := ⟨2 - r, by ring⟩
    have hs : 0 < s := by linarith
    have hs' : s < 1.05 := by norm_num at hl ⊢; linarith
    rw [show 2 - s - 2 = -s by ring] at *
    rw [show 2 * -s / 3 = -(2 * s / 3) by ring, abs_neg, abs_of_nonneg (by positivity : 0 ≤ 2 * s / 3)] at hq
    rw [abs_neg, abs_of_pos hs]
    obtain ⟨a, b⟩ := abs_le.1 hq
    norm_num at hs'
    have p5 : s ^ 5 ≤ 1.3 := by
      calc s ^ 5 ≤ (21 / 20) ^ 5 := by gcongr
        _ ≤ 1.3 := by norm_num
    have hin : |2 * q - (2 - s)| ≤ 0.075 := by
      refine abs_le.2 ⟨?_, ?_⟩
      · norm_num
        nlinarith [sq_nonneg (s - 0.43), mul_nonneg hs.le (sq_nonneg (s - 0.43)), mul_nonneg (sq_nonneg s) (sq_nonneg (s - 0.43))]
      · norm_num
        nlinarith [mul_pos hs (sub_pos.2 hs'), mul_pos (mul_pos hs hs) (sub_pos.2 hs'), mul_pos (mul_pos hs hs) hs,
          mul_pos (mul_pos (mul_pos hs hs) hs) (sub_pos.2 hs')]
    have : s * |2 * q - (2 - s)| * (2 - s + 1) ≤ s * 0.075 * (2 - s + 1) := by
      have : 0 ≤ 2 - s + 1 := by linarith
      gcongr
    refine this.trans ?_
    norm_num
    nlinarith

/-! ## Large arguments -/

theorem log_bounds {v : ℝ} (h0 : 0 ≤ v) (h1 : v ≤ 69 / 100) :
    2 * v + 2 * v ^ 3 / 3 ≤ Real.log ((1 + v) / (1 - v)) ∧ Real.log ((1 + v) / (1 - v)) ≤ 2 * v + 2 * v ^ 3 / 3 + 77 / 100 * v ^ 5 := by
  have hd : ∀ x ∈ Set.Icc (0 : ℝ) (69 / 100), HasDerivAt (fun v : ℝ => Real.log ((1 + v) / (1 - v)) - (2 * v + 2 * v ^ 3 / 3))
      (2 * x ^ 4 / (1 - x ^ 2)) x := by
    rintro x ⟨hx, hx'⟩
    have h1 : 0 < 1 + x := by linarith
    have h2 : 0 < 1 - x := by linarith
    have h3 : (1 - x ^ 2) ≠ 0 := by nlinarith
    have a := (((hasDerivAt_id x).const_add 1).div ((hasDerivAt_id x).const_sub 1) h2.ne').log (div_pos h1 h2).ne'
    have b := ((hasDerivAt_id x).const_mul 2).add ((((hasDerivAt_id x).fun_pow 3).const_mul 2).div_const 3)
    refine (a.sub b).congr_deriv ?_
    simp only [id, Pi.div_apply]
    rw [show (1 - x ^ 2) = (1 + x) * (1 - x) by ring] at *
    field_simp
    ring
  have hd' : ∀ x ∈ Set.Icc (0 : ℝ) (69 / 100), HasDerivAt (fun v : ℝ => (2 * v + 2 * v ^ 3 / 3 + 77 / 100 * v ^ 5) - Real.log ((1 + v) / (1 - v)))
      (385 / 100 * x ^ 4 - 2 * x ^ 4 / (1 - x ^ 2)) x := by
    intro x hx
    have b := (((hasDerivAt_id x).fun_pow 5).const_mul (77 / 100)).sub (hd x hx)
    refine (b.congr_deriv ?_).congr_of_eventuallyEq (Filter.Eventually.of_forall fun y => ?_)
    · simp only [id]; norm_num; ring
    · simp only [id, Pi.sub_apply]; ring
  have hc : Convex ℝ (Set.Icc (0 : ℝ) (69 / 100)) := convex_Icc _ _
  have m1 : MonotoneOn (fun v : ℝ => Real.log ((1 + v) / (1 - v)) - (2 * v + 2 * v ^ 3 / 3)) (Set.Icc (0 : ℝ) (69 / 100)) := by
    refine monotoneOn_of_deriv_nonneg hc (fun x hx => (hd x hx).continuousAt.continuousWithinAt)
      (fun x hx => (hd x (interior_subset hx)).differentiableAt.differentiableWithinAt) fun x hx => ?_
    obtain ⟨hx, hx'⟩ := interior_subset hx
    rw [(hd x ⟨hx, hx'⟩).deriv]
    have : 0 < 1 - x ^ 2 := by nlinarith
    positivity
  have m2 : MonotoneOn (fun v : ℝ => (2 * v + 2 * v ^ 3 / 3 + 77 / 100 * v ^ 5) - Real.log ((1 + v) / (1 - v))) (Set.Icc (0 : ℝ) (69 / 100)) := by
    refine monotoneOn_of_deriv_nonneg hc (fun x hx => (hd' x hx).continuousAt.continuousWithinAt)
      (fun x hx => (hd' x (interior_subset hx)).differentiableAt.differentiableWithinAt) fun x hx => ?_
    obtain ⟨hx, hx'⟩ := interior_subset hx
    rw [(hd' x ⟨hx, hx'⟩).deriv]
    have h2 : 0 < 1 - x ^ 2 := by nlinarith
    rw [sub_nonneg, div_le_iff₀ h2]
    nlinarith [mul_nonneg (pow_nonneg hx 4) (sub_nonneg.2 hx'), mul_nonneg (pow_nonneg hx 5) (sub_nonneg.2 hx'), pow_nonneg hx 4]
  have a := m1 ⟨le_rfl, by norm_num⟩ ⟨h0, h1⟩ h0
  have b := m2 ⟨le_rfl, by norm_num⟩ ⟨h0, h1⟩ h0
  norm_num at a b
  exact ⟨by linarith, by linarith⟩

/-- A quadratic with negative leading coefficient is above its smaller end value. -/
theorem concave_lower {a b c lo hi w : ℝ} (ha : 0 ≤ a) (h1 : lo ≤ w) (h2 : w ≤ hi) (e1 : 0 ≤ c + b * lo - a * lo ^ 2)
    (e2 : 0 ≤ c + b * hi - a * hi ^ 2) : 0 ≤ c + b * w - a * w ^ 2 := by
  rcases eq_or_lt_of_le (h1.trans h2) with h | h
  · have : w = lo := le_antisymm (h2.trans h.symm.le) h1
    rwa [this]
  · have : (hi - lo) * (c + b * w - a * w ^ 2) = (hi - w) * (c + b * lo - a * lo ^ 2) + (w - lo) * (c + b * hi - a * hi ^ 2) +
        a * ((w - lo) * (hi - w) * (hi - lo)) := by ring
    have h3 : 0 ≤ (hi - lo) * (c + b * w - a * w ^ 2) := by
      rw [this]
      have := sub_nonneg.2 h1
      have := sub_nonneg.2 h2
      have := sub_pos.2 h
      positivity
    exact nonneg_of_mul_nonneg_right h3 (sub_pos.2 h)

/-- A quadratic with positive leading coefficient is above its tangent. -/
theorem convex_lower {a b c lo hi w : ℝ} (ha : 0 ≤ a) (h1 : lo ≤ w) (h2 : w ≤ hi) (e1 : 0 ≤ c + b * lo + a * lo ^ 2)
    (e2 : 0 ≤ c + b * hi + a * hi ^ 2 - a * (hi - lo) ^ 2) : 0 ≤ c + b * w + a * w ^ 2 := by
  have := concave_lower (a := 0) (b := b + 2 * a * lo) (c := c - a * lo ^ 2) le_rfl h1 h2 (by nlinarith) (by nlinarith)
  nlinarith [mul_nonneg ha (sq_nonneg (w - lo))]

section
variable {v : ℝ} (h0 : 0 < v) (h1 : v ≤ 69 / 100)
include h0 h1

theorem subst_v : ∃ t : ℝ, 0 ≤ t ∧ v = 69 / 100 / (1 + t) := by
  refine ⟨69 / 100 / v - 1, ?_, ?_⟩
  · rw [sub_nonneg, le_div_iff₀ h0]; linarith
  · field_simp; ring

theorem poly_up_lo : 0 ≤ ((1 + v) + 6 * (1 + 2 * v) * (2 * v + 2 * v ^ 3 / 3)) * ((4 + 13 * v) - 6 * v * (2 * v + 2 * v ^ 3 / 3)) -
    90 * v * (1 + 2 * v) := by
  obtain ⟨t, ht, rfl⟩ := subst_v h0 h1
  have h : (1 + t) ≠ 0 := by positivity
  field_simp
  ring_nf
  positivity

theorem poly_up_hi : 0 ≤ ((1 + v) + 6 * (1 + 2 * v) * (2 * v + 2 * v ^ 3 / 3 + 77 / 100 * v ^ 5)) *
    ((4 + 13 * v) - 6 * v * (2 * v + 2 * v ^ 3 / 3 + 77 / 100 * v ^ 5)) - 90 * v * (1 + 2 * v) := by
  obtain ⟨t, ht, rfl⟩ := subst_v h0 h1
  have h : (1 + t) ≠ 0 := by positivity
  field_simp
  ring_nf
  positivity

theorem poly_down_lo : 0 ≤ 90 * v * (1 + 2 * v) -
    (6 * (1 + 2 * v) * (2 * v + 2 * v ^ 3 / 3) - (1 + v)) * ((4 + 13 * v) - 6 * v * (2 * v + 2 * v ^ 3 / 3)) := by
  obtain ⟨t, ht, rfl⟩ := subst_v h0 h1
  have h : (1 + t) ≠ 0 := by positivity
  field_simp
  ring_nf
  positivity

theorem poly_down_hi : 0 ≤ 90 * v * (1 + 2 * v) -
    (6 * (1 + 2 * v) * (2 * v + 2 * v ^ 3 / 3 + 77 / 100 * v ^ 5) - (1 + v)) * ((4 + 13 * v) - 6 * v * (2 * v + 2 * v ^ 3 / 3 + 77 / 100 * v ^ 5)) -
    36 * v * (1 + 2 * v) * (77 / 100 * v ^ 5) ^ 2 := by
  obtain ⟨t, ht, rfl⟩ := subst_v h0 h1
  have h : (1 + t) ≠ 0 := by positivity
  field_simp
  ring_nf
  positivity

end

theorem curve_two_half : holeCurve (1 + 100 / 69) < 1 := by
  have h : Real.exp (2 * (1 + 100 / 69) / 3) < 5.4 := by
    rw [← Real.lt_log_iff_exp_lt (by norm_num)]
    have h1 : Real.log 5.4 = Real.log (5.4 / 4) + 2 * Real.log 2 := by
      rw [Real.log_div (by norm_num) (by norm_num), show (4 : ℝ) = 2 ^ 2 by norm_num, Real.log_pow]; push_cast; ring
    have h2 := Real.log_two_gt_d9
    have h3 := (log_bounds (v := 7 / 47) (by norm_num) (by norm_num)).1
    rw [h1]
    norm_num at *
    linarith
  rw [holeCurve]
  norm_num at *
  linarith

theorem guess_large {r : ℝ} (hr : 0 < r) (h : 1 ≤ holeCurve r) :
    err r (3 / 2 * Real.log (holeCurve r) + 3.75 / (1.5 + Real.log (holeCurve r))) ≤ 1 / 4 := by
  have hl : 1 + 100 / 69 < r := root_lt (by norm_num) hr (curve_two_half.trans_le h)
  obtain ⟨v, hv⟩ : ∃ v, v = 1 / (r - 1) := ⟨_, rfl⟩
  have hr1 : 0 < r - 1 := by linarith
  have hr2 : 0 < r - 2 := by linarith
  have hv0 : 0 < v := by rw [hv]; positivity
  have hv1 : v ≤ 69 / 100 := by rw [hv, div_le_iff₀ hr1]; linarith
  have hw : Real.log (holeCurve r) = 2 * r / 3 - Real.log ((1 + v) / (1 - v)) := by
    rw [holeCurve, Real.log_mul (by positivity) (Real.exp_pos _).ne', Real.log_exp]
    have : (1 + v) / (1 - v) = ((r - 2) / r)⁻¹ := by
      have : 1 - v ≠ 0 := by linarith
      rw [inv_div, div_eq_div_iff this hr2.ne', hv]
      field_simp
      ring
    rw [this, Real.log_inv]
    ring
  have hL : 0 ≤ Real.log (holeCurve r) := Real.log_nonneg h
  obtain ⟨b1, b2⟩ := log_bounds hv0.le hv1
  rw [hw] at hL ⊢
  set w := Real.log ((1 + v) / (1 - v))
  have hrv : r = (1 + v) / v := by rw [hv]; field_simp; ring
  have hup := concave_lower (a := 36 * v * (1 + 2 * v)) (b := 6 * (1 + 2 * v) * (4 + 13 * v) - 6 * v * (1 + v)) (c := (1 + v) * (4 + 13 * v) - 90 * v * (1 + 2 * v))
    (by positivity) b1 b2 (le_of_le_of_eq (poly_up_lo hv0 hv1) (by ring)) (le_of_le_of_eq (poly_up_hi hv0 hv1) (by ring))
  have hdn := convex_lower (a := 36 * v * (1 + 2 * v)) (b := -(6 * (1 + 2 * v) * (4 + 13 * v)) - 6 * v * (1 + v)) (c := (1 + v) * (4 + 13 * v) + 90 * v * (1 + 2 * v))
    (by positivity) b1 b2 (le_of_le_of_eq (poly_down_lo hv0 hv1) (by ring)) (le_of_le_of_eq (poly_down_hi hv0 hv1) (by ring))
  have hB : 0 < 1.5 + (2 * r / 3 - w) := by norm_num; linarith
  refine err_le hr ?_
  have hr' : 0 < r + 1 := by linarith
  rw [← le_div_iff₀ hr', abs_le]
  have e1 : 1 / 4 * r / (r + 1) = (1 + v) / (4 * (1 + 2 * v)) := by rw [hrv]; field_simp; ring
  have e2 : 1.5 + (2 * r / 3 - w) = (4 + 13 * v - 6 * v * w) / (6 * v) := by rw [hrv]; norm_num; field_simp; ring
  have hB' : 0 < 4 + 13 * v - 6 * v * w := by
    rw [e2] at hB
    exact (div_pos_iff_of_pos_right (by positivity)).1 hB
  rw [e1, e2]
  have e3 : 3 / 2 * (2 * r / 3 - w) + 3.75 / ((4 + 13 * v - 6 * v * w) / (6 * v)) - r = (22.5 * v - 1.5 * w * (4 + 13 * v - 6 * v * w)) / (4 + 13 * v - 6 * v * w) := by
    rw [div_div_eq_mul_div, show 3 / 2 * (2 * r / 3 - w) = r - 1.5 * w by norm_num; ring]
    rw [sub_div, mul_div_assoc, mul_div_assoc (1.5 * w), div_self hB'.ne']
    norm_num
    ring
  rw [e3]
  constructor
  · rw [← neg_div, div_le_div_iff₀ (by positivity) hB']
    norm_num
    nlinarith
  · rw [div_le_div_iff₀ hB' (by positivity)]
    norm_num
    nlinarith

/-! ## The solver -/

theorem brSolve_root {r : ℝ} (hr : 0 < r) : |brSolve (holeCurve r) - r| ≤ 1e-14 * r ∧
    ∃ n < 9, ∃ x₀, brSolve (holeCurve r) = iter (holeCurve r) x₀ (n + 1) ∧ Stops (iter (holeCurve r) x₀ n) (iter (holeCurve r) x₀ (n + 1)) ∧
      (∀ m < n, ¬ Stops (iter (holeCurve r) x₀ m) (iter (holeCurve r) x₀ (m + 1))) ∧ ∀ k, 0 < iter (holeCurve r) x₀ k := by
  have key : ∀ x, err r x ≤ 1 / 4 → err r x * (1 + r) ≤ 0.6 * r → brSolve (holeCurve r) = brIter (holeCurve r) 20 x →
      |brSolve (holeCurve r) - r| ≤ 1e-14 * r ∧
    ∃ n < 9, ∃ x₀, brSolve (holeCurve r) = iter (holeCurve r) x₀ (n + 1) ∧ Stops (iter (holeCurve r) x₀ n) (iter (holeCurve r) x₀ (n + 1)) ∧
      (∀ m < n, ¬ Stops (iter (holeCurve r) x₀ m) (iter (holeCurve r) x₀ (m + 1))) ∧ ∀ k, 0 < iter (holeCurve r) x₀ k := by
    intro x hx hx' e
    obtain ⟨n, hn, hm, h⟩ := stops hr hx
    refine ⟨?_, n, hn, x, by rw [e, brIter_eq _ n 20 x (by omega) hm h], h, hm, fun k => pos_of_err hr ((err_iter_le hr hx k).trans hx)⟩
    have := brIter_close hr hx
    rw [e]
    norm_num at *
    nlinarith
  unfold brSolve at key ⊢
  split_ifs at key ⊢ with h1 h2 h3
  · have := guess_far hr h1
    have h4 := lt_one_of_curve hr (h1.trans (by norm_num))
    have h5 := err_nonneg (x := -2 / holeCurve r) hr
    exact key _ (by linarith) (by norm_num; nlinarith) rfl
  · have := guess_mid hr h2
    have h4 := lt_one_of_curve hr h2
    have h5 := err_nonneg (x := (√(9 * holeCurve r * holeCurve r + 6 * holeCurve r + 49) + 3 * holeCurve r + 1) / 4) hr
    exact key _ (by linarith) (by norm_num; nlinarith) rfl
  · have := guess_near hr (not_lt.1 h2) h3
    have hl : 0.95 < r := root_lt (by norm_num) hr (curve_low.trans_le (not_lt.1 h2))
    exact key _ this (by norm_num at *; nlinarith) rfl
  · have := guess_large hr (not_lt.1 h3)
    have hl : 0.95 < r := root_lt (by norm_num) hr (curve_low.trans_le (by have := not_lt.1 h3; linarith))
    exact key _ this (by norm_num at *; nlinarith) rfl

end XCFun.BR
