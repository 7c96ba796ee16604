/-
The Newton iteration of brx.cpp converges for every argument.
-/
import Mathlib.Analysis.Calculus.Deriv.MeanValue
import Mathlib.Analysis.SpecialFunctions.Exponential
import Mathlib.Analysis.SpecialFunctions.Log.Deriv
import Verif.Model.CTMath
import Verif.Spec.BeckeRoussel

namespace XCFun.BR
open XCFun Spec

/-! ## The curve -/

theorem hasDerivAt_curve {x : ℝ} (hx : 0 < x) :
    HasDerivAt holeCurve (Real.exp (2 * x / 3) * (2 * x ^ 2 - 4 * x + 6) / (3 * x ^ 2)) x := by
  unfold holeCurve
  have h1 : HasDerivAt (fun x : ℝ => (x - 2) / x) ((1 * x - (x - 2) * 1) / x ^ 2) x :=
    ((hasDerivAt_id x).sub_const 2).div (hasDerivAt_id x) hx.ne'
  have h2 : HasDerivAt (fun x : ℝ => Real.exp (2 * x / 3)) (Real.exp (2 * x / 3) * (2 * 1 / 3)) x :=
    (((hasDerivAt_id x).const_mul 2).div_const 3).exp
  refine (h1.mul h2).congr_deriv ?_
  field_simp
  ring

theorem quad_pos (x : ℝ) : 0 < 2 * x ^ 2 - 4 * x + 6 := by nlinarith [sq_nonneg (x - 1)]

theorem curve_deriv_pos {x : ℝ} (hx : 0 < x) : 0 < Real.exp (2 * x / 3) * (2 * x ^ 2 - 4 * x + 6) / (3 * x ^ 2) :=
  div_pos (mul_pos (Real.exp_pos _) (quad_pos x)) (by positivity)

theorem curve_strictMono : StrictMonoOn holeCurve (Set.Ioi 0) := by
  refine strictMonoOn_of_deriv_pos (convex_Ioi 0) (fun x hx => (hasDerivAt_curve hx).continuousAt.continuousWithinAt) fun x hx => ?_
  rw [interior_Ioi] at hx
  rw [(hasDerivAt_curve hx).deriv]
  exact curve_deriv_pos hx

theorem curve_continuousOn : ContinuousOn holeCurve (Set.Ioi 0) :=
  fun _ hx => (hasDerivAt_curve hx).continuousAt.continuousWithinAt

theorem exists_root (z : ℝ) : ∃ x, 0 < x ∧ holeCurve x = z := by
  have hz : -|z| ≤ z := neg_abs_le z
  have hz' : z ≤ |z| := le_abs_self z
  have h0 : 0 ≤ |z| := abs_nonneg z
  have hl : holeCurve (2 / (|z| + 2)) ≤ z := by
    have hx : (0 : ℝ) < 2 / (|z| + 2) := by positivity
    have e : (2 / (|z| + 2) - 2) / (2 / (|z| + 2)) = -(|z| + 1) := by field_simp; ring
    rw [holeCurve, e]
    have : 1 ≤ Real.exp (2 * (2 / (|z| + 2)) / 3) := Real.one_le_exp (by positivity)
    nlinarith
  have hu : z ≤ holeCurve (3 + 5 * |z|) := by
    have hx : (0 : ℝ) < 3 + 5 * |z| := by positivity
    have h1 : (1 : ℝ) / 3 ≤ (3 + 5 * |z| - 2) / (3 + 5 * |z|) := by
      rw [div_le_div_iff₀ (by norm_num) hx]; linarith
    have h2 := Real.add_one_le_exp (2 * (3 + 5 * |z|) / 3)
    rw [holeCurve]
    nlinarith
  have hle : (2 : ℝ) / (|z| + 2) ≤ 3 + 5 * |z| := by
    rw [div_le_iff₀ (by positivity)]; nlinarith
  have hp : (0 : ℝ) < 2 / (|z| + 2) := by positivity
  obtain ⟨x, hx, e⟩ := intermediate_value_Icc hle (curve_continuousOn.mono fun y hy => lt_of_lt_of_le hp hy.1) ⟨hl, hu⟩
  exact ⟨x, lt_of_lt_of_le hp hx.1, e⟩

theorem root_unique {x y : ℝ} (hx : 0 < x) (hy : 0 < y) (h : holeCurve x = holeCurve y) : x = y :=
  curve_strictMono.injOn hx hy h

theorem root_lt {x y : ℝ} (hx : 0 < x) (hy : 0 < y) (h : holeCurve x < holeCurve y) : x < y :=
  (curve_strictMono.lt_iff_lt hx hy).1 h

/-! ## One step -/

/-- Where one step of the iteration leads. -/
noncomputable def next (z x : ℝ) : ℝ := x + brStep x z

theorem step_error {x r : ℝ} (hr : 0 < r) :
    (2 * x ^ 2 - 4 * x + 6) * (next (holeCurve r) x - r) =
      (x - r) ^ 2 * (4 * x - 6) / r + 3 * x ^ 2 * ((r - 2) / r) * (Real.exp (-(2 * (x - r) / 3)) - 1 - -(2 * (x - r) / 3)) := by
  have hD := quad_pos x
  have e : Real.exp (-2 / 3 * x) * holeCurve r = (r - 2) / r * Real.exp (-(2 * (x - r) / 3)) := by
    rw [holeCurve, ← mul_assoc, mul_comm (Real.exp _), mul_assoc, ← Real.exp_add]; congr 2; ring
  have key : ∀ N D : ℝ, D ≠ 0 → D * (x + N / D - r) = D * (x - r) + N := fun N D h => by field_simp; ring
  rw [next, brStep, e, show x * (2 * x - 4) + 6 = 2 * x ^ 2 - 4 * x + 6 by ring, key _ _ hD.ne']
  generalize Real.exp (-(2 * (x - r) / 3)) = q
  field_simp
  ring

/-- The weighted error of an approximation `x` of the root `r`. -/
noncomputable def err (r x : ℝ) : ℝ := |x - r| * (1 + 1 / r)

theorem step_bound {x r : ℝ} (hr : 0 < r) (hx : |x - r| ≤ 1 / 4) :
    |next (holeCurve r) x - r| ≤ 3 * (x - r) ^ 2 * (1 + 1 / r) := by
  have hD := quad_pos x
  have hE := step_error (x := x) hr
  have hy : |(-(2 * (x - r) / 3))| ≤ 1 := by
    rw [abs_neg, abs_div, abs_mul]; norm_num; linarith
  have hR := Real.abs_exp_sub_one_sub_id_le hy
  set R := Real.exp (-(2 * (x - r) / 3)) - 1 - -(2 * (x - r) / 3)
  have h1 : |4 * x - 6| ≤ 2 * x ^ 2 - 4 * x + 6 := abs_le.2 ⟨by nlinarith, by nlinarith [sq_nonneg (x - 2)]⟩
  have h2 : 4 / 3 * x ^ 2 ≤ 2 * x ^ 2 - 4 * x + 6 := by nlinarith [sq_nonneg (x - 3)]
  have h3 : |r - 2| ≤ 2 * (r + 1) := abs_le.2 ⟨by linarith, by linarith⟩
  have hh := sq_nonneg (x - r)
  refine le_of_mul_le_mul_left ?_ hD
  rw [← abs_of_pos hD, ← abs_mul, abs_of_pos hD, hE]
  refine (abs_add_le _ _).trans ?_
  rw [abs_div, abs_mul, abs_of_nonneg hh, abs_of_pos hr, abs_mul, abs_mul, abs_mul, abs_div, abs_of_pos hr,
    abs_of_nonneg (sq_nonneg x), abs_of_pos (show (0 : ℝ) < 3 by norm_num)]
  have hR' : |R| ≤ 4 / 9 * (x - r) ^ 2 := hR.trans (le_of_eq (by ring))
  have e1 : 3 * x ^ 2 * (|r - 2| / r) * |R| ≤ (2 * x ^ 2 - 4 * x + 6) * (2 * (r + 1) / r) * (x - r) ^ 2 := by
    have : |r - 2| / r ≤ 2 * (r + 1) / r := div_le_div_of_nonneg_right h3 hr.le
    calc 3 * x ^ 2 * (|r - 2| / r) * |R| ≤ 3 * x ^ 2 * (2 * (r + 1) / r) * (4 / 9 * (x - r) ^ 2) := by gcongr
      _ = 4 / 3 * x ^ 2 * (2 * (r + 1) / r) * (x - r) ^ 2 := by ring
      _ ≤ _ := by gcongr
  have e2 : (x - r) ^ 2 * |4 * x - 6| / r ≤ (2 * x ^ 2 - 4 * x + 6) * ((r + 1) / r) * (x - r) ^ 2 := by
    calc (x - r) ^ 2 * |4 * x - 6| / r = |4 * x - 6| * (1 / r) * (x - r) ^ 2 := by ring
      _ ≤ (2 * x ^ 2 - 4 * x + 6) * ((r + 1) / r) * (x - r) ^ 2 := by gcongr; linarith
  calc _ ≤ _ := add_le_add e2 e1
    _ = _ := by field_simp; ring

theorem err_next {x r : ℝ} (hr : 0 < r) (hx : err r x ≤ 1 / 4) : err r (next (holeCurve r) x) ≤ 3 * err r x ^ 2 := by
  have h1 : 0 < 1 / r := by positivity
  have h : |x - r| ≤ 1 / 4 := le_trans (le_mul_of_one_le_right (abs_nonneg _) (by linarith)) hx
  have := step_bound hr h
  rw [err, err, mul_pow, sq_abs]
  calc _ ≤ 3 * (x - r) ^ 2 * (1 + 1 / r) * (1 + 1 / r) := by gcongr
    _ = _ := by ring

theorem err_nonneg {r x : ℝ} (hr : 0 < r) : 0 ≤ err r x := mul_nonneg (abs_nonneg _) (by positivity)

theorem abs_le_err {r x : ℝ} (hr : 0 < r) : |x - r| ≤ err r x :=
  le_mul_of_one_le_right (abs_nonneg _) (by have : 0 < 1 / r := by positivity
                                            linarith)

theorem pos_of_err {r x : ℝ} (hr : 0 < r) (h : err r x ≤ 1 / 4) : 0 < x := by
  have h1 : |x - r| * (1 / r) ≤ 1 / 4 := le_trans (mul_le_mul_of_nonneg_left (by linarith) (abs_nonneg _)) h
  rw [mul_one_div, div_le_iff₀ hr] at h1
  have := neg_abs_le (x - r)
  linarith

/-! ## The iteration -/

/-- The iterates. -/
noncomputable def iter (z x : ℝ) (n : ℕ) : ℝ := (next z)^[n] x

theorem iter_succ (z x : ℝ) (n : ℕ) : iter z x (n + 1) = next z (iter z x n) := Function.iterate_succ_apply' _ _ _

/-- The stopping criterion of brx.cpp:43. -/
def Stops (x y : ℝ) : Prop := |x - y| < 1e-15 * (1 + y)

theorem brIter_eq (z : ℝ) : ∀ (n i : ℕ) (x : ℝ), n < i → (∀ m < n, ¬ Stops (iter z x m) (iter z x (m + 1))) →
    Stops (iter z x n) (iter z x (n + 1)) → brIter z i x = iter z x (n + 1)
  | 0, i + 1, x, _, _, h => by
    rw [brIter]
    exact if_pos h
  | n + 1, i + 1, x, hn, hm, h => by
    rw [brIter]
    exact (if_neg (hm 0 (by omega))).trans (brIter_eq z n i (next z x) (by omega) (fun m h => hm (m + 1) (by omega)) h)

section
variable {r x : ℝ} (hr : 0 < r) (hx : err r x ≤ 1 / 4)
include hr hx

theorem err_iter_le (n : ℕ) : err r (iter (holeCurve r) x n) ≤ err r x := by
  induction n with
  | zero => exact le_rfl
  | succ n ih =>
    rw [iter_succ]
    have h0 := err_nonneg (x := iter (holeCurve r) x n) hr
    have := err_next hr (ih.trans hx)
    nlinarith

theorem err_iter_pow (n : ℕ) : 3 * err r (iter (holeCurve r) x n) ≤ (3 / 4) ^ 2 ^ n := by
  induction n with
  | zero => rw [pow_zero, pow_one]; exact le_trans (mul_le_mul_of_nonneg_left hx (by norm_num)) (by norm_num)
  | succ n ih =>
    rw [iter_succ, pow_succ, pow_mul]
    have h0 := err_nonneg (x := iter (holeCurve r) x n) hr
    have := err_next hr ((err_iter_le hr hx n).trans hx)
    calc _ ≤ (3 * err r (iter (holeCurve r) x n)) ^ 2 := by nlinarith
      _ ≤ _ := by gcongr

theorem stops : ∃ n < 9, (∀ m < n, ¬ Stops (iter (holeCurve r) x m) (iter (holeCurve r) x (m + 1))) ∧
    Stops (iter (holeCurve r) x n) (iter (holeCurve r) x (n + 1)) := by
  classical
  have h8 : Stops (iter (holeCurve r) x 8) (iter (holeCurve r) x (8 + 1)) := by
    have a1 := err_iter_pow hr hx 8
    have a2 := err_iter_pow hr hx (8 + 1)
    have b1 := abs_le_err (x := iter (holeCurve r) x 8) hr
    have b2 := abs_le_err (x := iter (holeCurve r) x (8 + 1)) hr
    have p := pos_of_err hr ((err_iter_le hr hx (8 + 1)).trans hx)
    have c : ((3 : ℝ) / 4) ^ 2 ^ 8 ≤ 1e-16 := by norm_num
    have c' : ((3 : ℝ) / 4) ^ 2 ^ (8 + 1) ≤ ((3 : ℝ) / 4) ^ 2 ^ 8 := pow_le_pow_of_le_one (by norm_num) (by norm_num) (by norm_num)
    have := abs_sub_le (iter (holeCurve r) x 8) r (iter (holeCurve r) x (8 + 1))
    rw [abs_sub_comm r] at this
    rw [Stops]
    generalize ((3 : ℝ) / 4) ^ 2 ^ 8 = A at *
    generalize ((3 : ℝ) / 4) ^ 2 ^ (8 + 1) = B at *
    norm_num at c ⊢
    norm_num at b1 b2 a2 p this
    linarith
  have hex : ∃ n, Stops (iter (holeCurve r) x n) (iter (holeCurve r) x (n + 1)) := ⟨8, h8⟩
  exact ⟨Nat.find hex, lt_of_le_of_lt (Nat.find_min' hex h8) (by norm_num), fun m hm => Nat.find_min hex hm, Nat.find_spec hex⟩

/-- The value returned, for a start within the basin. -/
theorem brIter_close : |brIter (holeCurve r) 20 x - r| ≤ 1.5e-14 * err r x * (1 + r) := by
  obtain ⟨n, hn, hm, h⟩ := stops hr hx
  rw [brIter_eq _ n 20 x (by omega) hm h]
  have e0 := (err_iter_le hr hx n)
  have hb := step_bound hr ((abs_le_err hr).trans (e0.trans hx))
  rw [← iter_succ] at hb
  set y := iter (holeCurve r) x n
  set w := iter (holeCurve r) x (n + 1) with hw
  have hy : 3 * (y - r) ^ 2 * (1 + 1 / r) = 3 * |y - r| * err r y := by rw [err, ← sq_abs]; ring
  rw [hy] at hb
  have h0 := abs_nonneg (y - r)
  have h1 : |w - r| ≤ 3 / 4 * |y - r| := by nlinarith
  have h2 : |y - r| ≤ |y - w| + |w - r| := abs_sub_le _ _ _
  have h3 : w ≤ r + 1 / 4 := by
    have := le_abs_self (w - r)
    have := abs_le_err (x := y) hr
    linarith
  rw [Stops] at h
  have h4 : |y - r| ≤ 5e-15 * (1 + r) := by
    norm_num at *
    linarith
  have h5 := err_nonneg (x := x) hr
  have h6 := err_nonneg (x := y) hr
  calc |w - r| ≤ 3 * |y - r| * err r y := hb
    _ ≤ 3 * (5e-15 * (1 + r)) * err r x := by gcongr
    _ = _ := by ring

end

end XCFun.BR
