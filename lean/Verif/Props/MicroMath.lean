/-
C76: the mathematical functions for Visual C++ (external/upstream/taylor/micromath.hpp).

`cbrt` and `asinh` are the cube root and the inverse hyperbolic sine, for negative numbers the former is not a number.  The loops of `erf` and `erfc` end, after at most 120 rounds; the result of
`erf` has a relative error of at most 10⁻¹² for `x ≥ 0` and for `x < -2.2`, that of `erfc` of at most 1.001 · 10⁻¹² for `x ≥ 2.2` and an error of at most 10⁻¹² for `0 ≤ x < 2.2` and `x ≤ -2.2`.
For `-2.2 ≤ x < 0` the condition `fabs(term) / sum > erf_rel_error` is false from the start, because `sum` is negative: `erf` returns the first three terms of the series.
-/
import Mathlib.Analysis.SpecialFunctions.Arsinh
import Verif.Proofs.MicroMathErfc
import Verif.Spec.Literature

namespace XCFun.MicroMath

/-! ### cbrt, asinh -/

theorem C76_cbrt {x : ℝ} (hx : 0 ≤ x) : ∃ y, cbrt x = some y ∧ 0 ≤ y ∧ y ^ 3 = x := by
  refine ⟨_, if_neg (not_lt.2 hx), by positivity, ?_⟩
  rw [← Real.rpow_natCast, ← Real.rpow_mul hx]
  norm_num

/-- The cube root of a negative number is not a number. -/
theorem C76_cbrt_negative {x : ℝ} (hx : x < 0) : cbrt x = none ∧ ∃ y : ℝ, y ^ 3 = x := by
  refine ⟨if_pos hx, -((-x) ^ ((1 : ℝ) / 3)), ?_⟩
  have h : ((-x) ^ ((1 : ℝ) / 3)) ^ 3 = -x := by
    rw [← Real.rpow_natCast, ← Real.rpow_mul (by linarith)]
    norm_num
  calc (-((-x) ^ ((1 : ℝ) / 3))) ^ 3 = -((-x) ^ ((1 : ℝ) / 3)) ^ 3 := by ring
    _ = x := by rw [h]; ring

example : ∃ y, cbrt 8 = some y ∧ 0 ≤ y ∧ y ^ 3 = 8 := C76_cbrt (by norm_num)

example : cbrt (-8) = none ∧ ∃ y : ℝ, y ^ 3 = -8 := C76_cbrt_negative (by norm_num)

theorem C76_asinh (x : ℝ) : Real.sinh (asinh x) = x := by
  have h : asinh x = Real.arsinh x := by
    unfold asinh Real.arsinh
    congr 3
    ring
  rw [h, Real.sinh_arsinh]

example : asinh 0 = 0 := by simp [asinh]

/-! ### erf -/

/-- For numbers that are not negative. -/
theorem C76_erf {x : ℝ} (hx : 0 ≤ x) {fuel : ℕ} (hf : 130 ≤ fuel) : ∃ y, erf fuel x = .ok y ∧ |y - Lit.erf x| ≤ 1e-12 * Lit.erf x := by
  change ∃ y, erf fuel x = .ok y ∧ |y - XCFun.erf x| ≤ 1e-12 * XCFun.erf x
  rcases le_or_gt x 2.2 with h | h
  · obtain ⟨f, rfl⟩ : ∃ f, fuel = f + 1 := ⟨fuel - 1, by omega⟩
    obtain ⟨y, hy, hc⟩ := erf_small hx h (fuel := f) (by omega)
    refine ⟨y, hy, hc.trans ?_⟩
    have := (abs_nonneg _).trans hc
    norm_num at this ⊢
    linarith
  · obtain ⟨f, rfl⟩ : ∃ f, fuel = f + 1 + 1 := ⟨fuel - 2, by omega⟩
    obtain ⟨y, hy, hc⟩ := erfc_large h.le (fuel := f) (by omega)
    refine ⟨1.0 - y, ?_, ?_⟩
    · rw [erf, if_pos (by rw [abs_of_nonneg hx]; exact h), hy]
      simp
    · have e : 1.0 - y - XCFun.erf x = -(y - (1 - XCFun.erf x)) := by rw [show (1.0 : ℝ) = 1 by norm_num]; ring
      rw [e, abs_neg]
      refine hc.trans ?_
      have := erfc_less h.le
      norm_num at this ⊢
      linarith

/-- For large negative numbers. -/
theorem C76_erf_below {x : ℝ} (hx : x < -2.2) {fuel : ℕ} (hf : 130 ≤ fuel) : ∃ y, erf fuel x = .ok y ∧ |y - Lit.erf x| ≤ 1e-12 * |Lit.erf x| := by
  change ∃ y, erf fuel x = .ok y ∧ |y - XCFun.erf x| ≤ 1e-12 * |XCFun.erf x|
  obtain ⟨z, rfl⟩ : ∃ z, x = -z := ⟨-x, by ring⟩
  have hz : 2.2 < z := by linarith
  have hn : -z < 0 := by linarith
  obtain ⟨f, rfl⟩ : ∃ f, fuel = f + 1 + 1 + 1 := ⟨fuel - 3, by omega⟩
  obtain ⟨y, hy, hc⟩ := erfc_large hz.le (fuel := f) (by omega)
  refine ⟨1.0 - (2.0 - y), ?_, ?_⟩
  · rw [erf, if_pos (by rw [abs_of_neg hn]; linarith), erfc, if_neg (by rw [abs_of_neg hn]; linarith), if_pos hn, neg_neg, hy]
    simp
  · rw [erf_neg, abs_neg]
    have e : 1.0 - (2.0 - y) - -XCFun.erf z = y - (1 - XCFun.erf z) := by rw [show (1.0 : ℝ) = 1 by norm_num, show (2.0 : ℝ) = 2 by norm_num]; ring
    rw [e, abs_of_nonneg (show 0 ≤ XCFun.erf z by have := erfc_less hz.le; linarith)]
    refine hc.trans ?_
    have := erfc_less hz.le
    norm_num at this ⊢
    linarith

/-- For the other negative numbers the result consists of the first three terms of the series and is too small. -/
theorem C76_erf_negative {x : ℝ} (hx : x < 0) (h : -2.2 ≤ x) {fuel : ℕ} (hf : 2 ≤ fuel) :
    ∃ y, erf fuel x = .ok y ∧ y = 1.128379167095512574 * (x - x ^ 3 / 3 + x ^ 5 / 10) ∧ |x| ^ 7 / 1000 ≤ Lit.erf x - y := by
  obtain ⟨f, rfl⟩ : ∃ f, fuel = f + 2 := ⟨fuel - 2, by omega⟩
  exact ⟨_, erf_negative hx h f, rfl, erf_negative_wrong hx h⟩

example : ∃ y, erf 130 1 = .ok y ∧ |y - Lit.erf 1| ≤ 1e-12 * Lit.erf 1 := C76_erf (by norm_num) le_rfl

example : ∃ y, erf 130 (-3) = .ok y ∧ |y - Lit.erf (-3)| ≤ 1e-12 * |Lit.erf (-3)| := C76_erf_below (by norm_num) le_rfl

/-- At -2.2 the result is less than -4, whereas the error function is never less than -1. -/
example : (∃ y, erf 130 (-2.2) = .ok y ∧ y < -4) ∧ ∀ x, -1 ≤ Lit.erf x := by
  refine ⟨?_, fun x => ?_⟩
  · obtain ⟨y, hy, he, -⟩ := C76_erf_negative (x := -2.2) (by norm_num) (by norm_num) (fuel := 130) (by norm_num)
    refine ⟨y, hy, ?_⟩
    rw [he]
    norm_num
  · have h := erf_le_one (-x)
    rw [erf_neg] at h
    change -1 ≤ XCFun.erf x
    linarith

/-! ### erfc -/

/-- From 2.2 on: relative error. -/
theorem C76_erfc_large {x : ℝ} (hx : 2.2 ≤ x) {fuel : ℕ} (hf : 130 ≤ fuel) : ∃ y, erfc fuel x = .ok y ∧ |y - (1 - Lit.erf x)| ≤ 1.001e-12 * (1 - Lit.erf x) := by
  obtain ⟨f, rfl⟩ : ∃ f, fuel = f + 1 := ⟨fuel - 1, by omega⟩
  exact erfc_large hx (by omega)

/-- Error elsewhere, except between -2.2 and 0. -/
theorem C76_erfc {x : ℝ} (hx : x ≤ -2.2 ∨ 0 ≤ x) {fuel : ℕ} (hf : 130 ≤ fuel) : ∃ y, erfc fuel x = .ok y ∧ |y - (1 - Lit.erf x)| ≤ 1e-12 := by
  change ∃ y, erfc fuel x = .ok y ∧ |y - (1 - XCFun.erf x)| ≤ 1e-12
  have big : ∀ z : ℝ, 2.2 ≤ z → ∀ f, 120 ≤ f → ∃ y, erfc (f + 1) z = .ok y ∧ |y - (1 - XCFun.erf z)| ≤ 1e-12 := by
    intro z hz f hf
    obtain ⟨y, hy, hc⟩ := erfc_large hz (fuel := f) hf
    refine ⟨y, hy, hc.trans ?_⟩
    have := erfc_less hz
    have := erf_le_one z
    norm_num at *
    linarith
  rcases hx with hx | hx
  · obtain ⟨z, rfl⟩ : ∃ z, x = -z := ⟨-x, by ring⟩
    have hz : 2.2 ≤ z := by linarith
    have hn : -z < 0 := by linarith
    obtain ⟨f, rfl⟩ : ∃ f, fuel = f + 1 + 1 := ⟨fuel - 2, by omega⟩
    obtain ⟨y, hy, hc⟩ := big z hz f (by omega)
    refine ⟨2.0 - y, ?_, ?_⟩
    · rw [erfc, if_neg (by rw [abs_of_neg hn]; linarith), if_pos hn, neg_neg, hy]
      simp
    · rw [erf_neg]
      have e : 2.0 - y - (1 - -XCFun.erf z) = -(y - (1 - XCFun.erf z)) := by rw [show (2.0 : ℝ) = 2 by norm_num]; ring
      rw [e, abs_neg]
      exact hc
  · rcases lt_or_ge x 2.2 with h | h
    · obtain ⟨f, rfl⟩ : ∃ f, fuel = f + 1 + 1 := ⟨fuel - 2, by omega⟩
      obtain ⟨y, hy, hc⟩ := erf_small hx h.le (fuel := f) (by omega)
      refine ⟨1.0 - y, ?_, ?_⟩
      · rw [erfc, if_pos (by rw [abs_of_nonneg hx]; exact h), hy]
        simp
      · have e : 1.0 - y - (1 - XCFun.erf x) = -(y - XCFun.erf x) := by rw [show (1.0 : ℝ) = 1 by norm_num]; ring
        rw [e, abs_neg]
        have := erf_le_one x
        refine hc.trans ?_
        norm_num at this ⊢
        linarith
    · obtain ⟨f, rfl⟩ : ∃ f, fuel = f + 1 := ⟨fuel - 1, by omega⟩
      exact big x h f (by omega)

/-- Between -2.2 and 0 the result is too large. -/
theorem C76_erfc_negative {x : ℝ} (hx : x < 0) (h : -2.2 < x) {fuel : ℕ} (hf : 3 ≤ fuel) : ∃ y, erfc fuel x = .ok y ∧ |x| ^ 7 / 1000 ≤ y - (1 - Lit.erf x) := by
  obtain ⟨f, rfl⟩ : ∃ f, fuel = f + 2 + 1 := ⟨fuel - 3, by omega⟩
  have hw := erf_negative_wrong hx h.le
  refine ⟨1.0 - 1.128379167095512574 * (x - x ^ 3 / 3 + x ^ 5 / 10), ?_, ?_⟩
  · rw [erfc, if_pos (by rw [abs_of_neg hx]; linarith), erf_negative hx h.le]
    simp
  · change _ ≤ _ - (1 - XCFun.erf x)
    norm_num at hw ⊢
    linarith

example : ∃ y, erfc 130 3 = .ok y ∧ |y - (1 - Lit.erf 3)| ≤ 1.001e-12 * (1 - Lit.erf 3) := C76_erfc_large (by norm_num) le_rfl

example : ∃ y, erfc 130 1 = .ok y ∧ |y - (1 - Lit.erf 1)| ≤ 1e-12 := C76_erfc (by norm_num) le_rfl

example : ∃ y, erfc 130 (-1) = .ok y ∧ |(-1 : ℝ)| ^ 7 / 1000 ≤ y - (1 - Lit.erf (-1)) := C76_erfc_negative (by norm_num) (by norm_num) (by norm_num)

end XCFun.MicroMath
