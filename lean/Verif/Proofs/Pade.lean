/-
Accuracy of the rational approximation to `√x arsinh √x`.
-/
import Verif.Proofs.CTMath
import Mathlib.Analysis.SpecialFunctions.Arsinh
import Mathlib.Analysis.Calculus.MeanValue

namespace XCFun.Pade

/-! ### Polynomials as lists of integer coefficients -/

/-- Value of the polynomial with coefficients `l`, lowest degree first. -/
noncomputable def ev : List ℤ → ℝ → ℝ
  | [], _ => 0
  | c :: l, x => c + x * ev l x

def add : List ℤ → List ℤ → List ℤ
  | [], l => l
  | l, [] => l
  | a :: l, b :: m => (a + b) :: add l m

def smul (k : ℤ) : List ℤ → List ℤ
  | [] => []
  | c :: l => k * c :: smul k l

def mul : List ℤ → List ℤ → List ℤ
  | [], _ => []
  | a :: l, m => add (smul a m) (0 :: mul l m)

def der : List ℤ → List ℤ
  | [] => []
  | _ :: l => add l (0 :: der l)

/-- A lower bound of the values on `[0, 1/2]`. -/
def low : List ℤ → ℤ
  | [] => 0
  | c :: l => c + min 0 (low l) / 2

theorem ev_add : ∀ (l m : List ℤ) (x : ℝ), ev (add l m) x = ev l x + ev m x
  | [], m, x => by simp [add, ev]
  | a :: l, [], x => by simp [add, ev]
  | a :: l, b :: m, x => by simp only [add, ev, ev_add l m]; push_cast; ring

theorem ev_smul (k : ℤ) : ∀ (l : List ℤ) (x : ℝ), ev (smul k l) x = k * ev l x
  | [], x => by simp [smul, ev]
  | c :: l, x => by simp only [smul, ev, ev_smul k l]; push_cast; ring

theorem ev_mul : ∀ (l m : List ℤ) (x : ℝ), ev (mul l m) x = ev l x * ev m x
  | [], m, x => by simp [mul, ev]
  | a :: l, m, x => by simp only [mul, ev_add, ev_smul, ev, ev_mul l m]; push_cast; ring

theorem ev_shift (l : List ℤ) (x : ℝ) : ev (0 :: l) x = x * ev l x := by simp [ev]

theorem hasDerivAt_ev : ∀ (l : List ℤ) (x : ℝ), HasDerivAt (ev l) (ev (der l) x) x
  | [], x => hasDerivAt_const x 0
  | c :: l, x => by
    have h := ((hasDerivAt_id x).fun_mul (hasDerivAt_ev l x)).const_add (c : ℝ)
    simp only [id, one_mul] at h
    have e : ev (der (c :: l)) x = ev l x + x * ev (der l) x := by rw [der, ev_add, ev_shift]
    rw [e]
    exact h

theorem low_le {x : ℝ} (h0 : 0 ≤ x) (h1 : x ≤ 1 / 2) : ∀ l : List ℤ, (low l : ℝ) ≤ ev l x
  | [] => by simp [low, ev]
  | c :: l => by
    have ih := low_le h0 h1 l
    have e1 : ((min 0 (low l) / 2 : ℤ) : ℝ) ≤ ((min 0 (low l) : ℤ) : ℝ) / 2 := by
      rw [le_div_iff₀ (by norm_num)]
      have := Int.ediv_mul_le (min 0 (low l)) (show (2 : ℤ) ≠ 0 by norm_num)
      exact_mod_cast this
    have e2 : ((min 0 (low l) : ℤ) : ℝ) ≤ 0 := by exact_mod_cast min_le_left _ _
    have e3 : ((min 0 (low l) : ℤ) : ℝ) ≤ ev l x := le_trans (by exact_mod_cast min_le_right _ _) ih
    simp only [low, ev]
    push_cast
    rw [add_le_add_iff_left]
    push_cast at e1 e2 e3
    nlinarith

/-! ### The approximation -/

/-- `10^17` times the coefficients of `P/x`. -/
def pz : List ℤ := [351092185602839800000, 1236243883732120000000, 1734847003883674000000, 1235072285222234000000, 469111714813061900000,
  91191862732745770000, 7815848629220836000, 196088643023654000]
/-- `10^17` times the coefficients of `Q`. -/
def qz : List ℤ := [351092185602839800000, 1294759247999260000000, 1924308297963337000000, 1474357149568687000000, 617649672925552800000,
  137980695804382400000, 14718333490023490000, 566627823298677600, 2865104054302032]

theorem num_eq (x : ℝ) : padeNum x = x * ev pz x / 10 ^ 17 := by
  simp only [padeNum, Finset.sum_range_succ, Finset.range_zero, Finset.sum_empty, padeP, pz, ev]
  push_cast
  ring

theorem den_eq (x : ℝ) : padeDen x = ev qz x / 10 ^ 17 := by
  simp only [padeDen, Finset.sum_range_succ, Finset.range_zero, Finset.sum_empty, padeQ, qz, ev]
  push_cast
  ring

/-- Numerator of the derivative of `t P(t²)/(t² Q(t²))`. -/
def nz : List ℤ := add (add (mul pz qz) (0 :: smul 2 (mul (der pz) qz))) (0 :: smul (-2) (mul pz (der qz)))
/-- `Q⁴`. -/
def q4 : List ℤ := mul (mul qz qz) (mul qz qz)
/-- `N² (1 + x) - Q⁴`. -/
def tz : List ℤ := add (mul (mul nz nz) [1, 1]) (smul (-1) q4)

theorem low_nz : 0 ≤ low nz := by decide +kernel
theorem low_qz : 1 ≤ low qz := by decide +kernel
theorem low_plus : 0 ≤ low (add (smul 6 q4) (smul (10 ^ 15) tz)) := by decide +kernel
theorem low_minus : 0 ≤ low (add (smul 6 q4) (smul (-10 ^ 15) tz)) := by decide +kernel

section
variable {x : ℝ} (h0 : 0 ≤ x) (h1 : x ≤ 1 / 2)
include h0 h1

theorem q_pos : 0 < ev qz x := by
  have := low_le h0 h1 qz
  have e : (1 : ℝ) ≤ (low qz : ℤ) := by exact_mod_cast low_qz
  linarith

theorem n_nonneg : 0 ≤ ev nz x := le_trans (by exact_mod_cast low_nz) (low_le h0 h1 nz)

theorem t_bound : |ev tz x| ≤ 6e-15 * ev qz x ^ 4 := by
  have hp := le_trans (show (0 : ℝ) ≤ (low (add (smul 6 q4) (smul (10 ^ 15) tz)) : ℤ) by exact_mod_cast low_plus) (low_le h0 h1 _)
  have hm := le_trans (show (0 : ℝ) ≤ (low (add (smul 6 q4) (smul (-10 ^ 15) tz)) : ℤ) by exact_mod_cast low_minus) (low_le h0 h1 _)
  have e : ev q4 x = ev qz x ^ 4 := by rw [q4, ev_mul, ev_mul]; ring
  rw [ev_add, ev_smul, ev_smul, e] at hp hm
  push_cast at hp hm
  rw [abs_le]
  constructor <;> norm_num <;> linarith

omit h0 h1 in
theorem tz_eq : ev tz x = ev nz x ^ 2 * (1 + x) - ev qz x ^ 4 := by
  rw [tz, ev_add, ev_smul, ev_mul, ev_mul, q4, ev_mul, ev_mul]
  simp only [ev]
  push_cast
  ring

/-- The derivative of `t P(t²)/(t² Q(t²))` is within `6e-15` of the derivative of `arsinh`. -/
theorem slope_bound : |ev nz x / ev qz x ^ 2 - (√(1 + x))⁻¹| ≤ 6e-15 := by
  have hq := q_pos h0 h1
  have hn := n_nonneg h0 h1
  have ht := t_bound h0 h1
  have hs : 1 ≤ √(1 + x) := by rw [Real.one_le_sqrt]; linarith
  have hsq : √(1 + x) ^ 2 = 1 + x := Real.sq_sqrt (by linarith)
  set w := √(1 + x)
  set q := ev qz x
  set n := ev nz x
  have key : (n / q ^ 2 - w⁻¹) * (q ^ 4 * w ^ 2 * (n / q ^ 2 + w⁻¹)) = ev tz x := by
    rw [tz_eq, ← hsq]
    have hw : 0 < w := by linarith
    field_simp
    ring
  have hb : q ^ 4 ≤ q ^ 4 * w ^ 2 * (n / q ^ 2 + w⁻¹) := by
    have hw : 0 < w := by linarith
    have a1 : 0 ≤ q ^ 4 * w ^ 2 * (n / q ^ 2) := by positivity
    have a2 : q ^ 4 * w ^ 2 * w⁻¹ = q ^ 4 * w := by field_simp
    have a3 : q ^ 4 ≤ q ^ 4 * w := le_mul_of_one_le_right (by positivity) hs
    rw [mul_add, a2]
    linarith
  have hq4 : 0 < q ^ 4 := by positivity
  rw [← key, abs_mul, abs_of_pos (lt_of_lt_of_le hq4 hb)] at ht
  have : |n / q ^ 2 - w⁻¹| * q ^ 4 ≤ 6e-15 * q ^ 4 := le_trans (mul_le_mul_of_nonneg_left hb (abs_nonneg _)) ht
  exact le_of_mul_le_mul_right this hq4

end

/-- `t P(t²)/(t² Q(t²))`, which approximates `arsinh t`. -/
noncomputable def h (t : ℝ) : ℝ := t * ev pz (t ^ 2) / ev qz (t ^ 2)

theorem hasDerivAt_h {t : ℝ} (ht : t ^ 2 ≤ 1 / 2) : HasDerivAt h (ev nz (t ^ 2) / ev qz (t ^ 2) ^ 2) t := by
  have hq := q_pos (sq_nonneg t) ht
  have dsq : HasDerivAt (fun t : ℝ => t ^ 2) (2 * t) t := by simpa using hasDerivAt_pow 2 t
  have dp : HasDerivAt (fun t => ev pz (t ^ 2)) (ev (der pz) (t ^ 2) * (2 * t)) t := HasDerivAt.comp (h₂ := ev pz) t (hasDerivAt_ev pz (t ^ 2)) dsq
  have dq : HasDerivAt (fun t => ev qz (t ^ 2)) (ev (der qz) (t ^ 2) * (2 * t)) t := HasDerivAt.comp (h₂ := ev qz) t (hasDerivAt_ev qz (t ^ 2)) dsq
  have := ((hasDerivAt_id t).fun_mul dp).fun_div dq hq.ne'
  refine this.congr_deriv ?_
  have e : ev nz (t ^ 2) = ev pz (t ^ 2) * ev qz (t ^ 2) + t ^ 2 * (2 * (ev (der pz) (t ^ 2) * ev qz (t ^ 2))) -
      t ^ 2 * (2 * (ev pz (t ^ 2) * ev (der qz) (t ^ 2))) := by
    rw [nz, ev_add, ev_add, ev_shift, ev_shift, ev_smul, ev_smul, ev_mul, ev_mul, ev_mul]
    push_cast
    ring
  rw [e]
  congr 1
  simp only [id]
  ring

/-- `h` is within `6e-15 t` of `arsinh t`. -/
theorem h_bound {t : ℝ} (h0 : 0 ≤ t) (ht : t ^ 2 ≤ 1 / 2) : |h t - Real.arsinh t| ≤ 6e-15 * t := by
  have hd : ∀ u ∈ Set.Icc 0 t, HasDerivWithinAt (fun u => h u - Real.arsinh u) (ev nz (u ^ 2) / ev qz (u ^ 2) ^ 2 - (√(1 + u ^ 2))⁻¹)
      (Set.Icc 0 t) u := by
    intro u hu
    have hu2 : u ^ 2 ≤ 1 / 2 := le_trans (pow_le_pow_left₀ hu.1 hu.2 2) ht
    exact ((hasDerivAt_h hu2).sub (Real.hasDerivAt_arsinh u)).hasDerivWithinAt
  have hb : ∀ u ∈ Set.Icc 0 t, ‖ev nz (u ^ 2) / ev qz (u ^ 2) ^ 2 - (√(1 + u ^ 2))⁻¹‖ ≤ 6e-15 := by
    intro u hu
    exact slope_bound (sq_nonneg u) (le_trans (pow_le_pow_left₀ hu.1 hu.2 2) ht)
  have := (convex_Icc 0 t).norm_image_sub_le_of_norm_hasDerivWithin_le hd hb (Set.left_mem_Icc.2 h0) (Set.right_mem_Icc.2 h0)
  have z : h 0 = 0 := by simp [h]
  simpa [z, Real.norm_eq_abs, abs_of_nonneg h0] using this

/-- The rational approximation. -/
noncomputable def approx (x : ℝ) : ℝ := padeNum x / padeDen x
/-- What it approximates. -/
noncomputable def exact (x : ℝ) : ℝ := √x * Real.arsinh √x

theorem approx_eq {x : ℝ} (h0 : 0 ≤ x) (h1 : x ≤ 1 / 2) : approx x = √x * h √x := by
  have hq := q_pos h0 h1
  rw [approx, num_eq, den_eq, h, Real.sq_sqrt h0]
  have : √x ^ 2 = x := Real.sq_sqrt h0
  field_simp
  rw [this]
  ring

theorem approx_bound {x : ℝ} (h0 : 0 ≤ x) (h1 : x ≤ 1 / 2) : |approx x - exact x| ≤ 6e-15 * x := by
  have hs := Real.sqrt_nonneg x
  have := h_bound hs (by rw [Real.sq_sqrt h0]; exact h1)
  rw [approx_eq h0 h1, exact, ← mul_sub, abs_mul, abs_of_nonneg hs]
  calc √x * |h √x - Real.arsinh √x| ≤ √x * (6e-15 * √x) := mul_le_mul_of_nonneg_left this hs
    _ = 6e-15 * (√x * √x) := by ring
    _ = 6e-15 * x := by rw [Real.mul_self_sqrt h0]

/-- The same for the derivatives. -/
theorem approx_deriv_bound {x : ℝ} (h0 : 0 < x) (h1 : x < 1 / 2) : |deriv approx x - deriv exact x| ≤ 6e-15 := by
  have hs : 0 < √x := Real.sqrt_pos.2 h0
  have hx : √x ^ 2 = x := Real.sq_sqrt h0.le
  have ds : HasDerivAt (fun x => √x) (1 / (2 * √x)) x := Real.hasDerivAt_sqrt h0.ne'
  have dh : HasDerivAt (fun x => h √x) (ev nz x / ev qz x ^ 2 * (1 / (2 * √x))) x := by
    have := hasDerivAt_h (t := √x) (by rw [hx]; exact h1.le)
    rw [hx] at this
    exact this.comp x ds
  have da : HasDerivAt (fun x => Real.arsinh √x) ((√(1 + x))⁻¹ * (1 / (2 * √x))) x := by
    have := Real.hasDerivAt_arsinh √x
    rw [hx] at this
    exact this.comp x ds
  have e1 : deriv approx x = 1 / (2 * √x) * h √x + √x * (ev nz x / ev qz x ^ 2 * (1 / (2 * √x))) := by
    refine (((ds.fun_mul dh).congr_of_eventuallyEq ?_)).deriv
    filter_upwards [Ioo_mem_nhds h0 h1] with y hy
    exact approx_eq hy.1.le hy.2.le
  have e2 : deriv exact x = 1 / (2 * √x) * Real.arsinh √x + √x * ((√(1 + x))⁻¹ * (1 / (2 * √x))) := (ds.fun_mul da).deriv
  have b1 := h_bound hs.le (by rw [hx]; exact h1.le)
  have b2 := slope_bound h0.le h1.le
  have e : deriv approx x - deriv exact x = (h √x - Real.arsinh √x) / (2 * √x) + (ev nz x / ev qz x ^ 2 - (√(1 + x))⁻¹) / 2 := by
    rw [e1, e2]; field_simp; ring
  rw [e]
  refine (abs_add_le _ _).trans ?_
  rw [abs_div, abs_div, abs_of_pos (show 0 < 2 * √x by positivity), abs_of_pos (show (0 : ℝ) < 2 by norm_num)]
  have c1 : |h √x - Real.arsinh √x| / (2 * √x) ≤ 6e-15 / 2 := by
    rw [div_le_iff₀ (by positivity)]
    linarith
  linarith

end XCFun.Pade
