/-
The attenuation function of range-separated exchange: values between 0 and 1, increasing, slowly varying.
-/
import Verif.Proofs.Expansions
import Verif.Spec.Literature
import Mathlib.Analysis.Calculus.Deriv.MeanValue
import Mathlib.Analysis.SpecialFunctions.Gaussian.GaussianIntegral

namespace XCFun.Atten
open Real

/-- `√π erf`. -/
noncomputable def E (u : ℝ) : ℝ := √π * XCFun.erf u

theorem hasDerivAt_E (u : ℝ) : HasDerivAt E (2 * exp (-u ^ 2)) u := by
  have h := (XCFun.erf_hasDerivAt u).const_mul √π
  refine h.congr_deriv ?_
  have : √π ≠ 0 := (Real.sqrt_pos.2 Real.pi_pos).ne'
  field_simp

theorem E_zero : E 0 = 0 := by simp [E, XCFun.erf]

theorem hasDerivAt_gauss (u : ℝ) : HasDerivAt (fun u : ℝ => exp (-u ^ 2)) (-2 * u * exp (-u ^ 2)) u := by
  have h := ((hasDerivAt_pow 2 u).fun_neg).exp
  refine h.congr_deriv ?_
  simp; ring

/-- A function that vanishes at 0 and has a nonnegative derivative is nonnegative. -/
theorem nonneg_of_deriv {f f' : ℝ → ℝ} (h0 : f 0 = 0) (hd : ∀ u, HasDerivAt f (f' u) u) (hp : ∀ u, 0 < u → 0 ≤ f' u) {u : ℝ} (hu : 0 ≤ u) :
    0 ≤ f u := by
  have : MonotoneOn f (Set.Ici 0) := by
    refine monotoneOn_of_deriv_nonneg (convex_Ici 0) (fun x _ => (hd x).continuousAt.continuousWithinAt)
      (fun x _ => (hd x).differentiableAt.differentiableWithinAt) ?_
    intro x hx
    rw [interior_Ici] at hx
    rw [(hd x).deriv]
    exact hp x hx
  rw [← h0]
  exact this (Set.mem_Ici.2 le_rfl) hu hu

/-- `u √π erf u + exp(-u²) - 1`. -/
noncomputable def Q (u : ℝ) : ℝ := u * E u + exp (-u ^ 2) - 1
/-- `2u³ √π erf u + (2u² - 1) exp(-u²) - 3u² + 1`. -/
noncomputable def P (u : ℝ) : ℝ := 2 * u ^ 3 * E u + (2 * u ^ 2 - 1) * exp (-u ^ 2) - 3 * u ^ 2 + 1

theorem hasDerivAt_Q (u : ℝ) : HasDerivAt Q (E u) u := by
  have h := (((hasDerivAt_id u).fun_mul (hasDerivAt_E u)).fun_add (hasDerivAt_gauss u)).sub_const 1
  refine h.congr_deriv ?_
  simp; ring

theorem hasDerivAt_P (u : ℝ) : HasDerivAt P (6 * u * Q u) u := by
  have h3 : HasDerivAt (fun u : ℝ => 2 * u ^ 3) (6 * u ^ 2) u := by
    refine ((hasDerivAt_pow 3 u).const_mul 2).congr_deriv ?_
    norm_num; ring
  have h2 : HasDerivAt (fun u : ℝ => 2 * u ^ 2 - 1) (4 * u) u := by
    refine (((hasDerivAt_pow 2 u).const_mul 2).sub_const 1).congr_deriv ?_
    norm_num; ring
  have h2' : HasDerivAt (fun u : ℝ => 3 * u ^ 2) (6 * u) u := by
    refine ((hasDerivAt_pow 2 u).const_mul 3).congr_deriv ?_
    norm_num; ring
  have h := (((h3.fun_mul (hasDerivAt_E u)).fun_add (h2.fun_mul (hasDerivAt_gauss u))).fun_sub h2').add_const 1
  refine h.congr_deriv ?_
  simp only [Q]; ring

theorem Q_zero : Q 0 = 0 := by simp [Q]
theorem P_zero : P 0 = 0 := by simp [P]

theorem E_nonneg {u : ℝ} (hu : 0 ≤ u) : 0 ≤ E u := nonneg_of_deriv E_zero hasDerivAt_E (fun u _ => by positivity) hu
theorem E_le {u : ℝ} (hu : 0 ≤ u) : E u ≤ 2 * u := by
  have := nonneg_of_deriv (f := fun u => 2 * u - E u) (f' := fun u => 2 - 2 * exp (-u ^ 2)) (by simp [E_zero])
    (fun u => by simpa using ((hasDerivAt_id u).const_mul 2).fun_sub (hasDerivAt_E u))
    (fun u _ => by have : exp (-u ^ 2) ≤ 1 := by rw [Real.exp_le_one_iff]; nlinarith
                   linarith) hu
  simpa using this
theorem Q_nonneg {u : ℝ} (hu : 0 ≤ u) : 0 ≤ Q u := nonneg_of_deriv Q_zero hasDerivAt_Q (fun _ hu => E_nonneg hu.le) hu
theorem Q_le {u : ℝ} (hu : 0 ≤ u) : Q u ≤ u ^ 2 := by
  have := nonneg_of_deriv (f := fun u => u ^ 2 - Q u) (f' := fun u => 2 * u - E u) (by simp [Q_zero])
    (fun u => by simpa using (hasDerivAt_pow 2 u).fun_sub (hasDerivAt_Q u)) (fun u hu => by linarith [E_le hu.le]) hu
  simpa using this
theorem P_nonneg {u : ℝ} (hu : 0 ≤ u) : 0 ≤ P u :=
  nonneg_of_deriv P_zero hasDerivAt_P (fun _ hu => mul_nonneg (by positivity) (Q_nonneg hu.le)) hu
theorem P_le {u : ℝ} (hu : 0 ≤ u) : P u ≤ 3 / 2 * u ^ 4 := by
  have := nonneg_of_deriv (f := fun u => 3 / 2 * u ^ 4 - P u) (f' := fun u => 6 * u ^ 3 - 6 * u * Q u) (by simp [P_zero])
    (fun u => by
      refine (((hasDerivAt_pow 4 u).const_mul (3 / 2)).fun_sub (hasDerivAt_P u)).congr_deriv ?_
      norm_num; ring)
    (fun u hu => by nlinarith [mul_le_mul_of_nonneg_left (Q_le hu.le) hu.le]) hu
  linarith

/-- `u E'(u) ≤ E(u)`. -/
theorem E_concave {u : ℝ} (hu : 0 ≤ u) : u * (2 * exp (-u ^ 2)) ≤ E u := by
  have := nonneg_of_deriv (f := fun u => E u - u * (2 * exp (-u ^ 2))) (f' := fun u => 4 * u ^ 2 * exp (-u ^ 2)) (by simp [E_zero])
    (fun u => by
      refine ((hasDerivAt_E u).fun_sub ((hasDerivAt_id u).fun_mul ((hasDerivAt_gauss u).const_mul 2))).congr_deriv ?_
      simp; ring)
    (fun u _ => by positivity) hu
  linarith
theorem Q_growth {u : ℝ} (hu : 0 ≤ u) : u * E u ≤ 2 * Q u := by
  have := nonneg_of_deriv (f := fun u => 2 * Q u - u * E u) (f' := fun u => E u - u * (2 * exp (-u ^ 2))) (by simp [Q_zero])
    (fun u => by
      refine (((hasDerivAt_Q u).const_mul 2).fun_sub ((hasDerivAt_id u).fun_mul (hasDerivAt_E u))).congr_deriv ?_
      simp; ring)
    (fun u hu => by linarith [E_concave hu.le]) hu
  linarith
theorem P_growth {u : ℝ} (hu : 0 ≤ u) : u * (6 * u * Q u) ≤ 4 * P u := by
  have := nonneg_of_deriv (f := fun u => 4 * P u - 6 * u ^ 2 * Q u) (f' := fun u => 6 * u * (2 * Q u - u * E u)) (by simp [P_zero])
    (fun u => by
      refine (((hasDerivAt_P u).const_mul 4).fun_sub (((hasDerivAt_pow 2 u).const_mul 6).fun_mul (hasDerivAt_Q u))).congr_deriv ?_
      norm_num; ring)
    (fun u hu => mul_nonneg (by positivity) (by linarith [Q_growth hu.le])) hu
  nlinarith

theorem P_mono {u v : ℝ} (hu : 0 ≤ u) (huv : u ≤ v) : P u ≤ P v := by
  have : MonotoneOn P (Set.Ici 0) := by
    refine monotoneOn_of_deriv_nonneg (convex_Ici 0) (fun x _ => (hasDerivAt_P x).continuousAt.continuousWithinAt)
      (fun x _ => (hasDerivAt_P x).differentiableAt.differentiableWithinAt) ?_
    intro x hx
    rw [interior_Ici] at hx
    have hx : 0 < x := hx
    rw [(hasDerivAt_P x).deriv]
    exact mul_nonneg (by positivity) (Q_nonneg hx.le)
  exact this hu (hu.trans huv) huv

theorem ratio_anti {u v : ℝ} (hu : 0 < u) (huv : u ≤ v) : P v / v ^ 4 ≤ P u / u ^ 4 := by
  have hd : ∀ x : ℝ, 0 < x → HasDerivAt (fun x => P x / x ^ 4) ((x * (6 * x * Q x) - 4 * P x) / x ^ 5) x := by
    intro x hx
    refine ((hasDerivAt_P x).fun_div (hasDerivAt_pow 4 x) (by positivity)).congr_deriv ?_
    norm_num
    field_simp
  have : AntitoneOn (fun x => P x / x ^ 4) (Set.Ioi 0) := by
    refine antitoneOn_of_deriv_nonpos (convex_Ioi 0) (fun x hx => (hd x hx).continuousAt.continuousWithinAt)
      (fun x hx => (hd x (by rwa [interior_Ioi] at hx)).differentiableAt.differentiableWithinAt) ?_
    intro x hx
    rw [interior_Ioi] at hx
    have hx : 0 < x := hx
    rw [(hd x hx).deriv]
    exact div_nonpos_of_nonpos_of_nonneg (by linarith [P_growth hx.le]) (by positivity)
  exact this hu (lt_of_lt_of_le hu huv) huv

/-- `√π` bounds `√π erf`. -/
theorem E_le_sqrt_pi {u : ℝ} (hu : 0 ≤ u) : E u ≤ √π := by
  have e : E u = 2 * ∫ t in (0 : ℝ)..u, exp (-t ^ 2) := by
    have : √π ≠ 0 := (Real.sqrt_pos.2 Real.pi_pos).ne'
    simp only [E, XCFun.erf]; field_simp
  have hi : MeasureTheory.IntegrableOn (fun t : ℝ => exp (-t ^ 2)) (Set.Ioi 0) := by
    have := (integrable_exp_neg_mul_sq (b := 1) one_pos).integrableOn (s := Set.Ioi (0 : ℝ))
    simpa using this
  have h2 : ∫ t in Set.Ioi (0 : ℝ), exp (-t ^ 2) = √π / 2 := by
    have := integral_gaussian_Ioi 1
    simpa using this
  have h3 : ∫ t in (0 : ℝ)..u, exp (-t ^ 2) ≤ ∫ t in Set.Ioi (0 : ℝ), exp (-t ^ 2) := by
    rw [intervalIntegral.integral_of_le hu]
    exact MeasureTheory.setIntegral_mono_set hi (Filter.Eventually.of_forall fun t => (exp_pos _).le)
      (Set.Ioc_subset_Ioi_self.eventuallyLE)
  rw [e]
  linarith

/-! ### Expansion -/

theorem gauss_ge (u : ℝ) : 1 - u ^ 2 + u ^ 4 / 2 - u ^ 6 / 6 ≤ exp (-u ^ 2) := by
  have h : ∀ x : ℝ, 0 ≤ x → 1 - x + x ^ 2 / 2 - x ^ 3 / 6 ≤ exp (-x) := by
    have d1 : ∀ x : ℝ, HasDerivAt (fun x : ℝ => exp (-x)) (-exp (-x)) x := fun x => by
      simpa using ((hasDerivAt_id x).fun_neg).exp
    have h1 : ∀ x : ℝ, 0 ≤ x → 0 ≤ 1 - exp (-x) := fun x hx => by
      have : exp (-x) ≤ 1 := by rw [Real.exp_le_one_iff]; linarith
      linarith
    have h2 : ∀ x : ℝ, 0 ≤ x → 0 ≤ exp (-x) - (1 - x) := fun x hx => by linarith [Real.add_one_le_exp (-x)]
    have h3 : ∀ x : ℝ, 0 ≤ x → 0 ≤ 1 - x + x ^ 2 / 2 - exp (-x) := fun x hx =>
      nonneg_of_deriv (f := fun x => 1 - x + x ^ 2 / 2 - exp (-x)) (f' := fun x => exp (-x) - (1 - x)) (by simp)
        (fun x => by
          refine ((((hasDerivAt_id x).const_sub 1).fun_add ((hasDerivAt_pow 2 x).div_const 2)).fun_sub (d1 x)).congr_deriv ?_
          norm_num; ring)
        (fun x hx => h2 x hx.le) hx
    intro x hx
    have := nonneg_of_deriv (f := fun x => exp (-x) - (1 - x + x ^ 2 / 2 - x ^ 3 / 6)) (f' := fun x => 1 - x + x ^ 2 / 2 - exp (-x)) (by simp)
        (fun x => by
          refine ((d1 x).fun_sub ((((hasDerivAt_id x).const_sub 1).fun_add ((hasDerivAt_pow 2 x).div_const 2)).fun_sub
            ((hasDerivAt_pow 3 x).div_const 6))).congr_deriv ?_
          norm_num; ring)
        (fun x hx => h3 x hx.le) hx
    linarith
  have := h (u ^ 2) (sq_nonneg u)
  ring_nf at this ⊢
  linarith

theorem E_ge {u : ℝ} (hu : 0 ≤ u) : 2 * u - 2 / 3 * u ^ 3 + u ^ 5 / 5 - u ^ 7 / 21 ≤ E u := by
  have := nonneg_of_deriv (f := fun u => E u - (2 * u - 2 / 3 * u ^ 3 + u ^ 5 / 5 - u ^ 7 / 21))
    (f' := fun u => 2 * (exp (-u ^ 2) - (1 - u ^ 2 + u ^ 4 / 2 - u ^ 6 / 6))) (by simp [E_zero])
    (fun u => by
      refine ((hasDerivAt_E u).fun_sub (((((hasDerivAt_id u).const_mul 2).fun_sub ((hasDerivAt_pow 3 u).const_mul (2 / 3))).fun_add
        ((hasDerivAt_pow 5 u).div_const 5)).fun_sub ((hasDerivAt_pow 7 u).div_const 21))).congr_deriv ?_
      norm_num; ring)
    (fun u _ => by linarith [gauss_ge u]) hu
  linarith

theorem Q_ge {u : ℝ} (hu : 0 ≤ u) : u ^ 2 - u ^ 4 / 6 + u ^ 6 / 30 - u ^ 8 / 168 ≤ Q u := by
  have := nonneg_of_deriv (f := fun u => Q u - (u ^ 2 - u ^ 4 / 6 + u ^ 6 / 30 - u ^ 8 / 168))
    (f' := fun u => E u - (2 * u - 2 / 3 * u ^ 3 + u ^ 5 / 5 - u ^ 7 / 21)) (by simp [Q_zero])
    (fun u => by
      refine ((hasDerivAt_Q u).fun_sub ((((hasDerivAt_pow 2 u).fun_sub ((hasDerivAt_pow 4 u).div_const 6)).fun_add
        ((hasDerivAt_pow 6 u).div_const 30)).fun_sub ((hasDerivAt_pow 8 u).div_const 168))).congr_deriv ?_
      norm_num; ring)
    (fun u hu => by linarith [E_ge hu.le]) hu
  linarith

theorem P_ge {u : ℝ} (hu : 0 ≤ u) : 3 / 2 * u ^ 4 - u ^ 6 / 6 + u ^ 8 / 40 - u ^ 10 / 280 ≤ P u := by
  have := nonneg_of_deriv (f := fun u => P u - (3 / 2 * u ^ 4 - u ^ 6 / 6 + u ^ 8 / 40 - u ^ 10 / 280))
    (f' := fun u => 6 * u * (Q u - (u ^ 2 - u ^ 4 / 6 + u ^ 6 / 30 - u ^ 8 / 168))) (by simp [P_zero])
    (fun u => by
      refine ((hasDerivAt_P u).fun_sub (((((hasDerivAt_pow 4 u).const_mul (3 / 2)).fun_sub ((hasDerivAt_pow 6 u).div_const 6)).fun_add
        ((hasDerivAt_pow 8 u).div_const 40)).fun_sub ((hasDerivAt_pow 10 u).div_const 280))).congr_deriv ?_
      norm_num; ring)
    (fun u hu => mul_nonneg (by positivity) (by linarith [Q_ge hu.le])) hu
  linarith

/-- One term more than `gauss_ge`, from above. -/
theorem gauss_le (u : ℝ) : exp (-u ^ 2) ≤ 1 - u ^ 2 + u ^ 4 / 2 := by
  have h : ∀ x : ℝ, 0 ≤ x → exp (-x) ≤ 1 - x + x ^ 2 / 2 := fun x hx => by
    have := nonneg_of_deriv (f := fun x => 1 - x + x ^ 2 / 2 - exp (-x)) (f' := fun x => exp (-x) - (1 - x)) (by simp)
        (fun x => by
          refine ((((hasDerivAt_id x).const_sub 1).fun_add ((hasDerivAt_pow 2 x).div_const 2)).fun_sub
            (((hasDerivAt_id x).fun_neg).exp)).congr_deriv ?_
          norm_num; ring)
        (fun x _ => by linarith [Real.add_one_le_exp (-x)]) hx
    linarith
  have := h (u ^ 2) (sq_nonneg u)
  ring_nf at this ⊢
  linarith

theorem P_le' {u : ℝ} (hu : 0 ≤ u) : P u ≤ 3 / 2 * u ^ 4 - u ^ 6 / 6 + u ^ 8 / 40 := by
  have hE : ∀ u : ℝ, 0 ≤ u → E u ≤ 2 * u - 2 / 3 * u ^ 3 + u ^ 5 / 5 := fun u hu => by
    have := nonneg_of_deriv (f := fun u => (2 * u - 2 / 3 * u ^ 3 + u ^ 5 / 5) - E u)
      (f' := fun u => 2 * ((1 - u ^ 2 + u ^ 4 / 2) - exp (-u ^ 2))) (by simp [E_zero])
      (fun u => by
        refine (((((hasDerivAt_id u).const_mul 2).fun_sub ((hasDerivAt_pow 3 u).const_mul (2 / 3))).fun_add
          ((hasDerivAt_pow 5 u).div_const 5)).fun_sub (hasDerivAt_E u)).congr_deriv ?_
        norm_num; ring)
      (fun u _ => by linarith [gauss_le u]) hu
    linarith
  have hQ : ∀ u : ℝ, 0 ≤ u → Q u ≤ u ^ 2 - u ^ 4 / 6 + u ^ 6 / 30 := fun u hu => by
    have := nonneg_of_deriv (f := fun u => (u ^ 2 - u ^ 4 / 6 + u ^ 6 / 30) - Q u)
      (f' := fun u => (2 * u - 2 / 3 * u ^ 3 + u ^ 5 / 5) - E u) (by simp [Q_zero])
      (fun u => by
        refine ((((hasDerivAt_pow 2 u).fun_sub ((hasDerivAt_pow 4 u).div_const 6)).fun_add
          ((hasDerivAt_pow 6 u).div_const 30)).fun_sub (hasDerivAt_Q u)).congr_deriv ?_
        norm_num; ring)
      (fun u hu => by linarith [hE u hu.le]) hu
    linarith
  have := nonneg_of_deriv (f := fun u => (3 / 2 * u ^ 4 - u ^ 6 / 6 + u ^ 8 / 40) - P u)
    (f' := fun u => 6 * u * ((u ^ 2 - u ^ 4 / 6 + u ^ 6 / 30) - Q u)) (by simp [P_zero])
    (fun u => by
      refine (((((hasDerivAt_pow 4 u).const_mul (3 / 2)).fun_sub ((hasDerivAt_pow 6 u).div_const 6)).fun_add
        ((hasDerivAt_pow 8 u).div_const 40)).fun_sub (hasDerivAt_P u)).congr_deriv ?_
      norm_num; ring)
    (fun u hu => mul_nonneg (by positivity) (by linarith [hQ u hu.le])) hu
  linarith

/-! ### The attenuation -/

theorem attenuation_P {A : ℝ} (hA : 0 < A) : Lit.attenuation A = 2 / 3 * (P (1 / (2 * A)) / (1 / (2 * A)) ^ 4) := by
  have e : -1 / (4 * A ^ 2) = -(1 / (2 * A)) ^ 2 := by field_simp; norm_num
  have eE : √π * Lit.erf (1 / (2 * A)) = E (1 / (2 * A)) := rfl
  rw [Lit.attenuation, e, eE, P]
  field_simp
  ring

theorem attenuation_nonneg {A : ℝ} (hA : 0 < A) : 0 ≤ Lit.attenuation A := by
  rw [attenuation_P hA]
  have := P_nonneg (u := 1 / (2 * A)) (by positivity)
  positivity

theorem attenuation_le_one {A : ℝ} (hA : 0 < A) : Lit.attenuation A ≤ 1 := by
  have hu : 0 < 1 / (2 * A) := by positivity
  have := P_le hu.le
  rw [attenuation_P hA]
  have : P (1 / (2 * A)) / (1 / (2 * A)) ^ 4 ≤ 3 / 2 := by
    rw [div_le_iff₀ (by positivity)]; exact this
  linarith

theorem attenuation_mono {A B : ℝ} (hA : 0 < A) (h : A ≤ B) : Lit.attenuation A ≤ Lit.attenuation B := by
  have hB : 0 < B := lt_of_lt_of_le hA h
  rw [attenuation_P hA, attenuation_P hB]
  have := ratio_anti (u := 1 / (2 * B)) (v := 1 / (2 * A)) (by positivity) (by gcongr)
  linarith

/-- The attenuation grows at most with the fourth power. -/
theorem attenuation_growth {A B : ℝ} (hA : 0 < A) (h : A ≤ B) : Lit.attenuation B * A ^ 4 ≤ Lit.attenuation A * B ^ 4 := by
  have hB : 0 < B := lt_of_lt_of_le hA h
  rw [attenuation_P hA, attenuation_P hB]
  have := P_mono (u := 1 / (2 * B)) (v := 1 / (2 * A)) (by positivity) (by gcongr)
  have e1 : 2 / 3 * (P (1 / (2 * B)) / (1 / (2 * B)) ^ 4) * A ^ 4 = 2 / 3 * 16 * (A ^ 4 * B ^ 4) * P (1 / (2 * B)) := by field_simp; ring
  have e2 : 2 / 3 * (P (1 / (2 * A)) / (1 / (2 * A)) ^ 4) * B ^ 4 = 2 / 3 * 16 * (A ^ 4 * B ^ 4) * P (1 / (2 * A)) := by field_simp; ring
  rw [e1, e2]
  exact mul_le_mul_of_nonneg_left this (by positivity)

/-- For large arguments: `1 - 1/(36 A²) + 1/(960 A⁴) - …`. -/
theorem attenuation_large {A : ℝ} (hA : 0 < A) :
    1 - 1 / (36 * A ^ 2) + 1 / (960 * A ^ 4) - 1 / (26880 * A ^ 6) ≤ Lit.attenuation A ∧
      Lit.attenuation A ≤ 1 - 1 / (36 * A ^ 2) + 1 / (960 * A ^ 4) := by
  have hu : 0 < 1 / (2 * A) := by positivity
  have h1 := P_ge hu.le
  have h2 := P_le' hu.le
  rw [attenuation_P hA]
  generalize hv : 1 / (2 * A) = u at *
  have hA' : A = 1 / (2 * u) := by rw [← hv]; field_simp
  have e1 : 1 / (36 * A ^ 2) = u ^ 2 / 9 := by rw [hA']; field_simp; norm_num
  have e2 : 1 / (960 * A ^ 4) = u ^ 4 / 60 := by rw [hA']; field_simp; norm_num
  have e3 : 1 / (26880 * A ^ 6) = u ^ 6 / 420 := by rw [hA']; field_simp; norm_num
  have h4 : 0 < u ^ 4 := by positivity
  rw [e1, e2, e3]
  have key1 : (3 / 2 * u ^ 4 - u ^ 6 / 6 + u ^ 8 / 40 - u ^ 10 / 280) / u ^ 4 = 3 / 2 - u ^ 2 / 6 + u ^ 4 / 40 - u ^ 6 / 280 := by
    field_simp
  have key2 : (3 / 2 * u ^ 4 - u ^ 6 / 6 + u ^ 8 / 40) / u ^ 4 = 3 / 2 - u ^ 2 / 6 + u ^ 4 / 40 := by
    field_simp
  have g1 := div_le_div_of_nonneg_right h1 h4.le
  have g2 := div_le_div_of_nonneg_right h2 h4.le
  rw [key1] at g1
  rw [key2] at g2
  constructor <;> linarith

/-- Near 0 the attenuation is at most linear. -/
theorem attenuation_small {A : ℝ} (hA : 0 < A) : Lit.attenuation A ≤ 8 / 3 * √π * A := by
  have hu : 0 < 1 / (2 * A) := by positivity
  have hE := E_le_sqrt_pi hu.le
  have e : -1 / (4 * A ^ 2) = -(1 / (2 * A)) ^ 2 := by field_simp; norm_num
  have eE : √π * Lit.erf (1 / (2 * A)) = E (1 / (2 * A)) := rfl
  have h1 : exp (-(1 / (2 * A)) ^ 2) ≤ 1 := by rw [Real.exp_le_one_iff]; nlinarith [sq_nonneg (1 / (2 * A))]
  have h2 : 1 - (1 / (2 * A)) ^ 2 ≤ exp (-(1 / (2 * A)) ^ 2) := by linarith [Real.add_one_le_exp (-(1 / (2 * A)) ^ 2)]
  have h3 : 4 * A ^ 3 * (1 - exp (-(1 / (2 * A)) ^ 2)) ≤ A := by
    have : 4 * A ^ 3 * (1 - exp (-(1 / (2 * A)) ^ 2)) ≤ 4 * A ^ 3 * (1 / (2 * A)) ^ 2 :=
      mul_le_mul_of_nonneg_left (by linarith) (by positivity)
    refine this.trans (le_of_eq ?_)
    field_simp; norm_num
  have h4 : 2 * A * exp (-(1 / (2 * A)) ^ 2) ≤ 2 * A := mul_le_of_le_one_right (by positivity) h1
  rw [Lit.attenuation, e, eE]
  have h5 : E (1 / (2 * A)) + (2 * A - 4 * A ^ 3) * exp (-(1 / (2 * A)) ^ 2) - 3 * A + 4 * A ^ 3 ≤ √π := by nlinarith
  calc _ ≤ 8 / 3 * A * √π := mul_le_mul_of_nonneg_left h5 (by positivity)
    _ = _ := by ring

end XCFun.Atten
