/-
The continued fraction of `erfc` in micromath.hpp.
-/
import Verif.Proofs.MicroMath

namespace XCFun.MicroMath
open Filter Topology MeasureTheory

/-! ### Moments of the tail -/

/-- `∫₀^∞ s^m exp(-(s+x)²) ds` -/
noncomputable def moment (m : ℕ) (x : ℝ) : ℝ := ∫ s in Set.Ioi (0 : ℝ), s ^ m * Real.exp (-(s + x) ^ 2)

theorem moment_integrable (m : ℕ) {x : ℝ} (hx : 0 ≤ x) : IntegrableOn (fun s : ℝ => s ^ m * Real.exp (-(s + x) ^ 2)) (Set.Ioi 0) := by
  have h := integrableOn_rpow_mul_exp_neg_mul_sq (b := 1) one_pos (s := (m : ℝ)) (by have : (0 : ℝ) ≤ m := Nat.cast_nonneg m
                                                                                     linarith)
  refine Integrable.mono' h (by fun_prop) ?_
  rw [ae_restrict_iff' measurableSet_Ioi]
  refine Eventually.of_forall fun s hs => ?_
  have hs : 0 < s := hs
  rw [Real.norm_of_nonneg (by positivity), Real.rpow_natCast]
  refine mul_le_mul_of_nonneg_left (Real.exp_le_exp.2 ?_) (by positivity)
  nlinarith [mul_nonneg hs.le hx]

theorem moment_pos (m : ℕ) {x : ℝ} (hx : 0 ≤ x) : 0 < moment m x := by
  unfold moment
  rw [setIntegral_pos_iff_support_of_nonneg_ae]
  · refine lt_of_lt_of_le ?_ (measure_mono (s := Set.Ioi (0 : ℝ)) fun s hs => ⟨?_, hs⟩)
    · simp
    · have hs : 0 < s := hs
      rw [Function.mem_support]
      positivity
  · rw [EventuallyLE, ae_restrict_iff' measurableSet_Ioi]
    exact Eventually.of_forall fun s (hs : 0 < s) => by simp only [Pi.zero_apply]; positivity
  · exact moment_integrable m hx

theorem moment_tendsto (m : ℕ) {x : ℝ} (hx : 0 ≤ x) : Tendsto (fun s : ℝ => s ^ m * Real.exp (-(s + x) ^ 2)) atTop (𝓝 0) := by
  have h := Real.tendsto_pow_mul_exp_neg_atTop_nhds_zero m
  refine squeeze_zero' ?_ ?_ h
  · filter_upwards [eventually_gt_atTop 0] with s hs
    positivity
  · filter_upwards [eventually_gt_atTop 1] with s hs
    refine mul_le_mul_of_nonneg_left (Real.exp_le_exp.2 ?_) (by positivity)
    nlinarith

theorem gauss_shift_hasDerivAt (x s : ℝ) : HasDerivAt (fun s : ℝ => Real.exp (-(s + x) ^ 2)) (Real.exp (-(s + x) ^ 2) * (-(2 * (s + x)))) s := by
  have h1 : HasDerivAt (fun s : ℝ => -(s + x) ^ 2) (-(2 * (s + x))) s := by
    have := (((hasDerivAt_id s).add_const x).pow 2).fun_neg
    refine this.congr_deriv ?_
    simp
  exact h1.exp

theorem moment_zero_rec {x : ℝ} (hx : 0 ≤ x) : 2 * x * moment 0 x + 2 * moment 1 x = Real.exp (-x ^ 2) := by
  have i0 := (moment_integrable 0 hx).const_mul (-(2 * x))
  have i1 := (moment_integrable 1 hx).const_mul (-2)
  have i : IntegrableOn (fun s => (-(2 * x)) * (s ^ 0 * Real.exp (-(s + x) ^ 2)) + (-2) * (s ^ 1 * Real.exp (-(s + x) ^ 2))) (Set.Ioi 0) := i0.add i1
  have h := integral_Ioi_of_hasDerivAt_of_tendsto' (f := fun s : ℝ => Real.exp (-(s + x) ^ 2)) (a := 0) (m := 0)
    (f' := fun s => (-(2 * x)) * (s ^ 0 * Real.exp (-(s + x) ^ 2)) + (-2) * (s ^ 1 * Real.exp (-(s + x) ^ 2))) (fun s _ => (gauss_shift_hasDerivAt x s).congr_deriv (by ring))
    i (by simpa using moment_tendsto 0 hx)
  rw [integral_add i0 i1, integral_const_mul, integral_const_mul] at h
  simp only [zero_add, zero_sub] at h
  unfold moment
  linarith

theorem moment_succ_rec (m : ℕ) {x : ℝ} (hx : 0 ≤ x) : 2 * x * moment (m + 1) x + 2 * moment (m + 2) x = (m + 1) * moment m x := by
  have i0 := (moment_integrable m hx).const_mul ((m : ℝ) + 1)
  have i1 := (moment_integrable (m + 1) hx).const_mul (-(2 * x))
  have i2 := (moment_integrable (m + 2) hx).const_mul (-2)
  have i3 : IntegrableOn (fun s => (-(2 * x)) * (s ^ (m + 1) * Real.exp (-(s + x) ^ 2)) + (-2) * (s ^ (m + 2) * Real.exp (-(s + x) ^ 2))) (Set.Ioi 0) := i1.add i2
  have i : IntegrableOn (fun s => ((-(2 * x)) * (s ^ (m + 1) * Real.exp (-(s + x) ^ 2)) + (-2) * (s ^ (m + 2) * Real.exp (-(s + x) ^ 2))) +
    ((m : ℝ) + 1) * (s ^ m * Real.exp (-(s + x) ^ 2))) (Set.Ioi 0) := i3.add i0
  have h := integral_Ioi_of_hasDerivAt_of_tendsto' (f := fun s : ℝ => s ^ (m + 1) * Real.exp (-(s + x) ^ 2)) (a := 0) (m := 0)
    (f' := fun s => ((-(2 * x)) * (s ^ (m + 1) * Real.exp (-(s + x) ^ 2)) + (-2) * (s ^ (m + 2) * Real.exp (-(s + x) ^ 2))) + ((m : ℝ) + 1) * (s ^ m * Real.exp (-(s + x) ^ 2)))
    (fun s _ => ((hasDerivAt_pow (m + 1) s).mul (gauss_shift_hasDerivAt x s)).congr_deriv (by
      simp only [Nat.add_sub_cancel]
      push_cast
      ring)) i (moment_tendsto (m + 1) hx)
  rw [integral_add i3 i0, integral_add i1 i2, integral_const_mul, integral_const_mul, integral_const_mul] at h
  simp only [zero_pow (Nat.succ_ne_zero m), zero_mul, sub_zero] at h
  unfold moment
  linarith

theorem moment_erfc {x : ℝ} (hx : 0 ≤ x) : 1 - XCFun.erf x = 2 / √Real.pi * moment 0 x := by
  have h := integral_Ioi_of_hasDerivAt_of_tendsto' (f := fun s : ℝ => XCFun.erf (s + x)) (a := 0) (m := 1)
    (f' := fun s => 2 / √Real.pi * (s ^ 0 * Real.exp (-(s + x) ^ 2))) (fun s _ => by
      have := (erf_hasDerivAt (s + x)).comp s ((hasDerivAt_id s).add_const x)
      refine this.congr_deriv ?_
      simp) ((moment_integrable 0 hx).const_mul _) (erf_tendsto.comp (tendsto_atTop_add_const_right _ x tendsto_id))
  rw [integral_const_mul] at h
  simp only [zero_add] at h
  unfold moment
  exact h.symm

/-! ### The continued fraction -/

/-- The complete quotients. -/
noncomputable def quot (x : ℝ) : ℕ → ℝ
  | 0 => Real.exp (-x ^ 2) / (2 * moment 0 x)
  | m + 1 => (m + 1) * moment m x / (2 * moment (m + 1) x)

theorem quot_pos {x : ℝ} (hx : 0 ≤ x) (k : ℕ) : 0 < quot x k := by
  cases k with
  | zero => exact div_pos (Real.exp_pos _) (by have := moment_pos 0 hx; positivity)
  | succ m => exact div_pos (mul_pos (by positivity) (moment_pos m hx)) (by have := moment_pos (m + 1) hx; positivity)

theorem quot_rec {x : ℝ} (hx : 0 ≤ x) (k : ℕ) : quot x k = x + (((k : ℝ) + 1) / 2) / quot x (k + 1) := by
  cases k with
  | zero =>
    have h := moment_zero_rec hx
    have h0 := (moment_pos 0 hx).ne'
    have h1 := (moment_pos 1 hx).ne'
    simp only [quot]
    rw [← h]
    push_cast
    field_simp
  | succ m =>
    have h := moment_succ_rec m hx
    have h0 := (moment_pos m hx).ne'
    have h1 := (moment_pos (m + 1) hx).ne'
    have h2 := (moment_pos (m + 2) hx).ne'
    simp only [quot]
    rw [← h]
    push_cast
    have h3 : (m : ℝ) + 1 + 1 ≠ 0 := by positivity
    field_simp

theorem erfc_quot {x : ℝ} (hx : 0 ≤ x) : 1 - XCFun.erf x = 1 / √Real.pi * Real.exp (-x ^ 2) * (1 / quot x 0) := by
  rw [moment_erfc hx, quot]
  have h0 := (moment_pos 0 hx).ne'
  have h1 := (Real.exp_pos (-x ^ 2)).ne'
  have h2 : √Real.pi ≠ 0 := (Real.sqrt_pos.2 Real.pi_pos).ne'
  field_simp

/-- What holds before round `k + 1` of the loop: `n = (k + 2) / 2`; the value sought is a mean of the last two convergents, which approach each other. -/
structure Convergents (x : ℝ) (k : ℕ) (a b c d n : ℝ) : Prop where
  hn : n = ((k : ℝ) + 2) / 2
  c_pos : 0 < c
  cd : x * c ≤ d
  a_low : x / (x * x + 0.5) * c ≤ a
  b_low : x / (x * x + 0.5) * d ≤ b
  mean : 1 / quot x 0 = (b * quot x (k + 2) + n * a) / (d * quot x (k + 2) + n * c)
  gap : |b / d - a / c| * ((k + 10).choose 9 : ℝ) ≤ x / (x * x + 0.5) * (0.5 / (x * x)) * 10

theorem convergents_start {x : ℝ} (hx : 2.2 ≤ x) : Convergents x 0 1 x x (x * x + 0.5) 1.0 := by
  have hp : 0 < x := by linarith
  have hp2 : 0 < x * x + 0.5 := by positivity
  refine ⟨by norm_num, hp, by linarith, ?_, by field_simp; exact le_rfl, ?_, ?_⟩
  · rw [div_mul_eq_mul_div, div_le_one hp2]
    linarith
  · have h0 := quot_rec hp.le 0
    have h1 := quot_rec hp.le 1
    have q1 := quot_pos hp.le 1
    have q2 := quot_pos hp.le 2
    rw [h0, h1]
    push_cast
    norm_num
    have e : x * quot x 2 + 1 ≠ 0 := by positivity
    field_simp
    ring
  · have e : x / (x * x + 0.5) - 1 / x = -(0.5 / (x * (x * x + 0.5))) := by
      field_simp
      ring
    rw [e, abs_neg, abs_of_pos (by positivity)]
    norm_num [Nat.choose]
    apply le_of_eq
    field_simp

theorem Convergents.d_pos {x : ℝ} (hx : 2.2 ≤ x) {k : ℕ} {a b c d n : ℝ} (h : Convergents x k a b c d n) : 0 < d :=
  lt_of_lt_of_le (mul_pos (by linarith) h.c_pos) h.cd

theorem Convergents.step {x : ℝ} (hx : 2.2 ≤ x) {k : ℕ} {a b c d n : ℝ} (h : Convergents x k a b c d n) :
    Convergents x (k + 1) b (a * n + b * x) d (c * n + d * x) (n + 0.5) := by
  have hp : 0 < x := by linarith
  have hd := h.d_pos hx
  have hc := h.c_pos
  have hn : 0 < n := by rw [h.hn]; positivity
  have q := quot_pos hp.le (k + 3)
  have hk : (0 : ℝ) ≤ k := Nat.cast_nonneg k
  refine ⟨by rw [h.hn]; push_cast; ring, hd, ?_, h.b_low, ?_, ?_, ?_⟩
  · nlinarith [mul_pos hc hn]
  · have h1 := mul_le_mul_of_nonneg_right h.a_low hn.le
    have h2 := mul_le_mul_of_nonneg_right h.b_low hp.le
    calc _ = x / (x * x + 0.5) * c * n + x / (x * x + 0.5) * d * x := by ring
      _ ≤ _ := add_le_add h1 h2
  · rw [h.mean, quot_rec hp.le (k + 2)]
    have e : (((k + 2 : ℕ) : ℝ) + 1) / 2 = n + 0.5 := by rw [h.hn]; push_cast; ring
    rw [e]
    have : (k + 2 + 1) = k + 1 + 2 := by omega
    rw [this] at *
    have q' : 0 < quot x (k + 1 + 2) := q
    have p1 : 0 < d * (x + (n + 0.5) / quot x (k + 1 + 2)) + n * c := by positivity
    have p2 : 0 < (c * n + d * x) * quot x (k + 1 + 2) + (n + 0.5) * d := by positivity
    rw [div_eq_div_iff p1.ne' p2.ne']
    field_simp
    ring
  · have hD : 0 < c * n + d * x := by positivity
    have e : (a * n + b * x) / (c * n + d * x) - b / d = -(b / d - a / c) * (c * n / (c * n + d * x)) := by
      field_simp
      ring
    rw [e, abs_mul, abs_neg, abs_of_pos (show 0 < c * n / (c * n + d * x) by positivity)]
    have hr : c * n / (c * n + d * x) ≤ ((k : ℝ) + 2) / (k + 11) := by
      rw [div_le_div_iff₀ hD (by positivity)]
      have hnk : 2 * n = k + 2 := by rw [h.hn]; ring
      have h1 : 4.84 * c ≤ d * x := by
        have h3 := mul_le_mul_of_nonneg_right h.cd hp.le
        nlinarith [mul_pos hc hp]
      nlinarith [mul_nonneg hk (sub_nonneg.2 h1), mul_pos hc hn]
    have hch : ((k + 1 + 10).choose 9 : ℝ) * ((k : ℝ) + 2) = ((k + 10).choose 9 : ℝ) * (k + 11) := by
      have h2 := Nat.choose_succ_right_eq (k + 11) 9
      have h3 := Nat.add_one_mul_choose_eq (k + 10) 9
      have h4 : (k + 11).choose 9 * (k + 11 - 9) = (k + 11) * (k + 10).choose 9 := by
        rw [← h2]; exact h3.symm
      have h5 : k + 11 - 9 = k + 2 := by omega
      rw [h5] at h4
      have h6 : k + 1 + 10 = k + 11 := by omega
      rw [h6]
      have : (((k + 11).choose 9 * (k + 2) : ℕ) : ℝ) = (((k + 11) * (k + 10).choose 9 : ℕ) : ℝ) := by rw [h4]
      push_cast at this
      linarith
    refine le_trans ?_ h.gap
    have hA : 0 ≤ |b / d - a / c| := abs_nonneg _
    have h11 : (0 : ℝ) < k + 11 := by positivity
    calc |b / d - a / c| * (c * n / (c * n + d * x)) * ((k + 1 + 10).choose 9 : ℝ)
        ≤ |b / d - a / c| * (((k : ℝ) + 2) / (k + 11)) * ((k + 1 + 10).choose 9 : ℝ) := by gcongr
      _ = |b / d - a / c| * (((k + 1 + 10).choose 9 : ℝ) * ((k : ℝ) + 2)) / (k + 11) := by ring
      _ = |b / d - a / c| * ((k + 10).choose 9 : ℝ) := by
        rw [hch]
        field_simp

theorem Convergents.between {x : ℝ} (hx : 2.2 ≤ x) {k : ℕ} {a b c d n : ℝ} (h : Convergents x k a b c d n) : |1 / quot x 0 - b / d| ≤ |a / c - b / d| := by
  have hp : 0 < x := by linarith
  have hd := h.d_pos hx
  have hc := h.c_pos
  have hn : 0 < n := by rw [h.hn]; positivity
  have q := quot_pos hp.le (k + 2)
  have p : 0 < d * quot x (k + 2) + n * c := by positivity
  have e : 1 / quot x 0 - b / d = (a / c - b / d) * (n * c / (d * quot x (k + 2) + n * c)) := by
    rw [h.mean]
    field_simp
    ring
  rw [e, abs_mul]
  refine mul_le_of_le_one_right (abs_nonneg _) ?_
  rw [abs_of_pos (by positivity), div_le_one p]
  have : 0 < d * quot x (k + 2) := by positivity
  linarith

theorem choose_130 : ((120 + 10).choose 9 : ℝ) = 22016633132000 := by
  have h := Nat.descFactorial_eq_factorial_mul_choose (120 + 10) 9
  have h1 : (120 + 10 : ℕ).descFactorial 9 = 7989395830940160000 := by decide +kernel
  have h2 : (9 : ℕ).factorial = 362880 := by decide +kernel
  rw [h1, h2] at h
  have h3 : (120 + 10 : ℕ).choose 9 = 22016633132000 := by omega
  rw [h3]
  norm_num

theorem erfcLoop_ends {x : ℝ} (hx : 2.2 ≤ x) (fuel : ℕ) : ∀ (k : ℕ) (a b c d n : ℝ), Convergents x k a b c d n → k < 120 → 120 ≤ fuel + k →
    ∃ y, erfcLoop x fuel a b c d (b / d) n = .ok y ∧ 0 < y ∧ |1 / quot x 0 - y| ≤ relError * y := by
  have hp : 0 < x := by linarith
  have hxx : 4.84 ≤ x * x := by nlinarith
  induction fuel with
  | zero => intro k _ _ _ _ _ _ h1 h2; omega
  | succ fuel ih =>
    intro k a b c d n h hk hf
    have hs := h.step hx
    have hd := hs.d_pos hx
    have hb : 0 < (a * n + b * x) / (c * n + d * x) := by
      refine div_pos ?_ hd
      exact lt_of_lt_of_le (by positivity) hs.b_low
    have hlow : x / (x * x + 0.5) ≤ (a * n + b * x) / (c * n + d * x) := by
      rw [le_div_iff₀ hd]
      exact hs.b_low
    unfold erfcLoop
    simp only
    by_cases hg : |b / d - (a * n + b * x) / (c * n + d * x)| / ((a * n + b * x) / (c * n + d * x)) > relError
    · rw [if_pos hg]
      refine ih (k + 1) _ _ _ _ _ hs ?_ (by omega)
      by_contra hk2
      have hk3 : k + 1 = 120 := by omega
      have hgap := hs.gap
      rw [hk3, choose_130, abs_sub_comm] at hgap
      rw [gt_iff_lt, lt_div_iff₀ hb] at hg
      unfold relError at hg
      have h5 : 0.5 / (x * x) * 10 ≤ 2 := by
        rw [div_mul_eq_mul_div, div_le_iff₀ (by positivity)]
        clear hgap
        linarith
      have h6 : x / (x * x + 0.5) * (0.5 / (x * x)) * 10 ≤ (a * n + b * x) / (c * n + d * x) * 2 := by
        rw [mul_assoc]
        exact mul_le_mul hlow h5 (by positivity) hb.le
      clear ih hs h hlow h5 hf hk hk2 hk3
      generalize (a * n + b * x) / (c * n + d * x) = y at *
      generalize |b / d - y| = z at *
      linarith
    · rw [if_neg hg]
      refine ⟨_, rfl, hb, (hs.between hx).trans ?_⟩
      rw [gt_iff_lt, not_lt, div_le_iff₀ hb] at hg
      exact hg

/-! ### Constants -/

theorem two_sqrtpi_bounds : 2 / √Real.pi ≤ 1.128379167095512574 ∧ 1.128379167095512574 ≤ (1 + 1e-17) * (2 / √Real.pi) := by
  have hs : 0 < √Real.pi := Real.sqrt_pos.2 Real.pi_pos
  have h2 : √Real.pi ^ 2 = Real.pi := Real.sq_sqrt Real.pi_pos.le
  have l := Real.pi_gt_d20
  have u := Real.pi_lt_d20
  constructor
  · rw [div_le_iff₀ hs]
    refine le_of_sq_le_sq ?_ (by positivity)
    rw [mul_pow, h2]
    norm_num at l ⊢
    linarith
  · rw [← mul_div_assoc, le_div_iff₀ hs]
    refine le_of_sq_le_sq ?_ (by positivity)
    rw [mul_pow, h2]
    norm_num at u ⊢
    linarith

theorem one_sqrtpi_bounds : 1 / √Real.pi ≤ 0.564189583547756287 ∧ 0.564189583547756287 ≤ (1 + 1e-17) * (1 / √Real.pi) := by
  have h := two_sqrtpi_bounds
  have e : 2 / √Real.pi = 2 * (1 / √Real.pi) := by ring
  rw [e] at h
  constructor
  · have := h.1
    norm_num at this ⊢
    linarith
  · have := h.2
    norm_num at this ⊢
    linarith

theorem erf_eq_int (x : ℝ) : XCFun.erf x = 2 / √Real.pi * erfInt x := rfl

theorem erf_neg (x : ℝ) : XCFun.erf (-x) = -XCFun.erf x := by
  rw [erf_eq_int, erf_eq_int, ← mul_neg]
  congr 1
  unfold erfInt
  have h := intervalIntegral.integral_comp_neg (a := 0) (b := x) (fun t : ℝ => Real.exp (-t ^ 2))
  simp only [neg_zero, even_two, Even.neg_pow] at h
  rw [intervalIntegral.integral_symm, ← h]

/-! ### The functions -/

theorem erf_small {x : ℝ} (hx : 0 ≤ x) (h : x ≤ 2.2) {fuel : ℕ} (hf : 20 ≤ fuel) : ∃ y, erf (fuel + 1) x = .ok y ∧ |y - XCFun.erf x| ≤ 0.25e-12 * XCFun.erf x := by
  have ha : ¬ |x| > 2.2 := by rw [abs_of_nonneg hx]; linarith
  rcases hx.eq_or_lt with rfl | hx
  · refine ⟨0, ?_, by simp [XCFun.erf]⟩
    rw [erf, if_neg ha]
    obtain ⟨f, rfl⟩ : ∃ f, fuel = f + 1 := ⟨fuel - 1, by omega⟩
    rw [erfLoop_zero]
    simp
  · obtain ⟨s, hs, h1, h2⟩ := erfLoop_close hx h fuel hf
    refine ⟨1.128379167095512574 * s, ?_, ?_⟩
    · rw [erf, if_neg ha, hs]
      simp
    · have hi := erfInt_pos hx h
      obtain ⟨k1, k2⟩ := two_sqrtpi_bounds
      rw [erf_eq_int]
      have hk : 0 < 2 / √Real.pi := by have := Real.sqrt_pos.2 Real.pi_pos; positivity
      generalize 2 / √Real.pi = K at *
      generalize (1.128379167095512574 : ℝ) = L at *
      generalize erfInt x = I at *
      rw [abs_of_nonneg (by nlinarith)]
      have h3 : s ≤ (1 + 0.241e-12) * I := by
        norm_num at h2 ⊢
        linarith
      have h4 : L * s ≤ (1 + 1e-17) * K * ((1 + 0.241e-12) * I) := mul_le_mul k2 h3 (by linarith) (by positivity)
      have h5 : 0 < K * I := by positivity
      norm_num at h4 ⊢
      nlinarith

theorem erf_negative {x : ℝ} (hx : x < 0) (h : -2.2 ≤ x) (fuel : ℕ) : erf (fuel + 2) x = .ok (1.128379167095512574 * (x - x ^ 3 / 3 + x ^ 5 / 10)) := by
  have ha : ¬ |x| > 2.2 := by rw [abs_of_neg hx]; linarith
  rw [erf, if_neg ha, erfLoop_negative hx]
  simp

theorem erf_negative_wrong {x : ℝ} (hx : x < 0) (h : -2.2 ≤ x) : |x| ^ 7 / 1000 ≤ XCFun.erf x - 1.128379167095512574 * (x - x ^ 3 / 3 + x ^ 5 / 10) := by
  obtain ⟨z, rfl⟩ : ∃ z, x = -z := ⟨-x, by ring⟩
  have hz : 0 < z := by linarith
  have hz2 : z ≤ 2.2 := by linarith
  rw [erf_neg, erf_eq_int, abs_neg, abs_of_pos hz]
  have h4 := erfInt_le 2 hz.le
  have e4 : erfSum (2 * 2) z = z - z ^ 3 / 3 + z ^ 5 / 10 - z ^ 7 / 42 + z ^ 9 / 216 := by
    simp [erfSum, Finset.sum_range_succ, Nat.factorial]
    ring
  rw [e4] at h4
  obtain ⟨k1, k2⟩ := two_sqrtpi_bounds
  have k3 : 1.1 ≤ 2 / √Real.pi := by norm_num at k2 ⊢; linarith
  have hk : 0 < 2 / √Real.pi := by linarith
  have hs : 0 < z - z ^ 3 / 3 + z ^ 5 / 10 := by
    have : z - z ^ 3 / 3 + z ^ 5 / 10 = z * ((z ^ 2 - 5 / 3) ^ 2 / 10 + 13 / 18) := by ring
    rw [this]
    positivity
  have h7 : z ^ 7 * 0.0014 ≤ z ^ 7 / 42 - z ^ 9 / 216 := by
    have : z ^ 7 / 42 - z ^ 9 / 216 = z ^ 7 * (1 / 42 - z ^ 2 / 216) := by ring
    rw [this]
    refine mul_le_mul_of_nonneg_left ?_ (by positivity)
    have : z ^ 2 ≤ 4.84 := by nlinarith
    linarith
  have e : (-z - (-z) ^ 3 / 3 + (-z) ^ 5 / 10) = -(z - z ^ 3 / 3 + z ^ 5 / 10) := by ring
  rw [e]
  have h8 : 2 / √Real.pi * (z - z ^ 3 / 3 + z ^ 5 / 10) ≤ 1.128379167095512574 * (z - z ^ 3 / 3 + z ^ 5 / 10) := mul_le_mul_of_nonneg_right k1 hs.le
  have h9 : 2 / √Real.pi * (z ^ 7 * 0.0014) ≤ 2 / √Real.pi * (z - z ^ 3 / 3 + z ^ 5 / 10 - erfInt z) := mul_le_mul_of_nonneg_left (by linarith) hk.le
  have h10 : 1.1 * (z ^ 7 * 0.0014) ≤ 2 / √Real.pi * (z ^ 7 * 0.0014) := mul_le_mul_of_nonneg_right k3 (by positivity)
  have h11 : 0 < z ^ 7 := by positivity
  rw [mul_sub] at h9
  linarith

theorem erfc_large {x : ℝ} (hx : 2.2 ≤ x) {fuel : ℕ} (hf : 120 ≤ fuel) : ∃ y, erfc (fuel + 1) x = .ok y ∧ |y - (1 - XCFun.erf x)| ≤ 1.001e-12 * (1 - XCFun.erf x) := by
  have hp : 0 < x := by linarith
  have ha : ¬ |x| < 2.2 := by rw [abs_of_pos hp]; linarith
  obtain ⟨q, hq, hq0, hq1⟩ := erfcLoop_ends hx fuel 0 1 x x (x * x + 0.5) 1.0 (convergents_start hx) (by norm_num) (by omega)
  refine ⟨0.564189583547756287 * Real.exp (-x * x) * q, ?_, ?_⟩
  · rw [erfc, if_neg ha, if_neg (not_lt.2 hp.le), hq]
    simp
  · rw [erfc_quot hp.le]
    have e : Real.exp (-x * x) = Real.exp (-x ^ 2) := by congr 1; ring
    rw [e]
    obtain ⟨k1, k2⟩ := one_sqrtpi_bounds
    have hk : 0 < 1 / √Real.pi := by have := Real.sqrt_pos.2 Real.pi_pos; positivity
    have hE := Real.exp_pos (-x ^ 2)
    unfold relError at hq1
    rw [abs_le] at hq1
    generalize 1 / √Real.pi = K at *
    generalize (0.564189583547756287 : ℝ) = L at *
    generalize 1 / quot x 0 = g at *
    generalize Real.exp (-x ^ 2) = E at *
    have h1 : q ≤ (1 + 1.0001e-12) * g := by
      have := hq1.1
      norm_num at this ⊢
      linarith
    have h2 : (1 - 1e-12) * g ≤ q := by
      have := hq1.2
      norm_num at this ⊢
      linarith
    have hg : 0 < g := by
      norm_num at h1
      linarith
    have hKg : 0 < K * g := by positivity
    have u : L * q ≤ (1 + 1.001e-12) * (K * g) := by
      have := mul_le_mul k2 h1 hq0.le (by positivity)
      refine this.trans ?_
      norm_num
      nlinarith
    have l : (1 - 1.001e-12) * (K * g) ≤ L * q := by
      have := mul_le_mul k1 h2 (by norm_num; positivity) (hk.le.trans k1)
      refine le_trans ?_ this
      norm_num
      nlinarith
    have e2 : L * E * q - K * E * g = E * (L * q - K * g) := by ring
    have e3 : 1.001e-12 * (K * E * g) = E * (1.001e-12 * (K * g)) := by ring
    rw [e2, e3, abs_mul, abs_of_pos hE]
    refine mul_le_mul_of_nonneg_left (abs_le.2 ⟨?_, ?_⟩) hE.le
    · linarith
    · linarith

theorem erfc_less {x : ℝ} (hx : 2.2 ≤ x) : 1 - XCFun.erf x ≤ 0.1 * XCFun.erf x ∧ 0 ≤ 1 - XCFun.erf x := by
  have h := erf_tail (show 1 ≤ x by linarith)
  have h1 := erf_le_one x
  have h2 : Real.exp (-x ^ 2) ≤ 1 / 16 := by
    have h3 : Real.exp (-x ^ 2) ≤ Real.exp (-4) := Real.exp_le_exp.2 (by nlinarith)
    have h4 : (16 : ℝ) ≤ Real.exp 4 := by
      have h5 : (2 : ℝ) ≤ Real.exp 1 := by linarith [Real.add_one_le_exp 1]
      have h6 : Real.exp 4 = Real.exp 1 ^ 4 := by rw [← Real.exp_nat_mul]; norm_num
      rw [h6]
      calc (16 : ℝ) = 2 ^ 4 := by norm_num
        _ ≤ Real.exp 1 ^ 4 := pow_le_pow_left₀ (by norm_num) h5 4
    refine h3.trans ?_
    rw [Real.exp_neg, ← one_div]
    exact one_div_le_one_div_of_le (by norm_num) h4
  constructor <;> linarith

end XCFun.MicroMath
