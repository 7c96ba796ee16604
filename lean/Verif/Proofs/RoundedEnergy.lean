/-
Relative errors of expressions without cancellation.
-/
import Verif.Spec.RoundedEnergy
import Verif.Proofs.EvalSimp
import Mathlib.Analysis.SpecialFunctions.Pow.Real
import Mathlib.Analysis.SpecialFunctions.Trigonometric.DerivHyp

namespace XCFun.RE
open XCFun Spec Expr

/-- `y` is `x` times `exp θ` with `|θ| ≤ m`. -/
def Within (m x y : ℝ) : Prop := ∃ θ, |θ| ≤ m ∧ y = x * Real.exp θ

namespace Within
variable {m k x y z t : ℝ}

theorem refl (hm : 0 ≤ m) : Within m x x := ⟨0, by simpa using hm, by simp⟩
theorem mono (h : Within m x y) (hk : m ≤ k) : Within k x y := by obtain ⟨θ, h1, h2⟩ := h; exact ⟨θ, h1.trans hk, h2⟩
theorem trans (h : Within m x y) (h' : Within k y z) : Within (m + k) x z := by
  obtain ⟨θ, h1, rfl⟩ := h
  obtain ⟨φ, h3, rfl⟩ := h'
  exact ⟨θ + φ, (abs_add_le _ _).trans (add_le_add h1 h3), by rw [Real.exp_add]; ring⟩
theorem neg (h : Within m x y) : Within m (-x) (-y) := by obtain ⟨θ, h1, rfl⟩ := h; exact ⟨θ, h1, by ring⟩
theorem mul (h : Within m x y) (h' : Within k z t) : Within (m + k) (x * z) (y * t) := by
  obtain ⟨θ, h1, rfl⟩ := h
  obtain ⟨φ, h3, rfl⟩ := h'
  exact ⟨θ + φ, (abs_add_le _ _).trans (add_le_add h1 h3), by rw [Real.exp_add]; ring⟩
theorem inv (h : Within m x y) : Within m x⁻¹ y⁻¹ := by
  obtain ⟨θ, h1, rfl⟩ := h
  exact ⟨-θ, by rwa [abs_neg], by rw [mul_inv, Real.exp_neg]⟩
theorem nonneg (h : Within m x y) (hx : 0 ≤ x) : 0 ≤ y := by obtain ⟨θ, -, rfl⟩ := h; positivity
theorem pos (h : Within m x y) (hx : 0 < x) : 0 < y := by obtain ⟨θ, -, rfl⟩ := h; positivity

/-- From two-sided bounds. -/
theorem of_le (hm : 0 ≤ m) (hx : 0 ≤ x) (h1 : x * Real.exp (-m) ≤ y) (h2 : y ≤ x * Real.exp m) : Within m x y := by
  rcases hx.eq_or_lt with rfl | hx
  · rw [zero_mul] at h1 h2
    rw [le_antisymm h2 h1]
    exact refl hm
  · have hy : 0 < y := lt_of_lt_of_le (by positivity) h1
    refine ⟨Real.log (y / x), ?_, ?_⟩
    · rw [abs_le]
      constructor
      · rw [Real.le_log_iff_exp_le (by positivity), le_div_iff₀ hx]; linarith
      · rw [Real.log_le_iff_le_exp (by positivity), div_le_iff₀ hx]; linarith
    · rw [Real.exp_log (by positivity)]; field_simp

theorem le (h : Within m x y) (hx : 0 ≤ x) : y ≤ x * Real.exp m := by
  obtain ⟨θ, h1, rfl⟩ := h
  gcongr
  exact (abs_le.1 h1).2
theorem ge (h : Within m x y) (hx : 0 ≤ x) : x * Real.exp (-m) ≤ y := by
  obtain ⟨θ, h1, rfl⟩ := h
  gcongr
  exact (abs_le.1 h1).1
theorem m_nonneg (h : Within m x y) : 0 ≤ m := by obtain ⟨θ, h1, -⟩ := h; exact (abs_nonneg _).trans h1

/-- A sum of nonnegative terms. -/
theorem add (h : Within m x y) (h' : Within k z t) (hx : 0 ≤ x) (hz : 0 ≤ z) : Within (m + k) (x + z) (y + t) := by
  have h1 := h.m_nonneg
  have h2 := h'.m_nonneg
  have a1 := (h.mono (show m ≤ m + k by linarith)).le hx
  have a2 := (h.mono (show m ≤ m + k by linarith)).ge hx
  have a3 := (h'.mono (show k ≤ m + k by linarith)).le hz
  have a4 := (h'.mono (show k ≤ m + k by linarith)).ge hz
  exact of_le (by linarith) (by linarith) (by rw [add_mul]; linarith) (by rw [add_mul]; linarith)

/-- A difference in which at most six tenths cancel. -/
theorem sub (h : Within m x y) (h' : Within k z t) (hz : 0 ≤ z) (hq : z ≤ 0.6 * x) (hs : m + k ≤ 1 / 80) :
    Within (5 * (m + k)) (x - z) (y - t) := by
  have hx : 0 ≤ x := by linarith
  have h1 := h.m_nonneg
  have h2 := h'.m_nonneg
  have a1 := (h.mono (show m ≤ m + k by linarith)).le hx
  have a2 := (h.mono (show m ≤ m + k by linarith)).ge hx
  have a3 := (h'.mono (show k ≤ m + k by linarith)).le hz
  have a4 := (h'.mono (show k ≤ m + k by linarith)).ge hz
  set r := m + k with hr
  have hr0 : 0 ≤ r := by linarith
  have e1 : Real.exp r ≤ 1 + 1.02 * r := by
    have := Real.abs_exp_sub_one_sub_id_le (x := r) (by rw [abs_of_nonneg hr0]; linarith)
    have := (abs_le.1 this).2
    nlinarith
  have e2 : 1 - r ≤ Real.exp (-r) := by have := Real.add_one_le_exp (-r); linarith
  have e3 : 1 + 5 * r ≤ Real.exp (5 * r) := by have := Real.add_one_le_exp (5 * r); linarith
  have e4 : Real.exp (-(5 * r)) ≤ 1 - 4.05 * r := by
    rw [Real.exp_neg]
    refine (inv_anti₀ (by linarith) e3).trans ?_
    rw [inv_eq_one_div, div_le_iff₀ (by linarith)]
    nlinarith
  have x1 := mul_le_mul_of_nonneg_left e1 hx
  have x2 := mul_le_mul_of_nonneg_left e2 hx
  have z1 := mul_le_mul_of_nonneg_left e1 hz
  have z2 := mul_le_mul_of_nonneg_left e2 hz
  have d1 := mul_le_mul_of_nonneg_left e3 (show 0 ≤ x - z by linarith)
  have d2 := mul_le_mul_of_nonneg_left e4 (show 0 ≤ x - z by linarith)
  have hrx : r * z ≤ r * (0.6 * x) := mul_le_mul_of_nonneg_left hq hr0
  have hrx0 : 0 ≤ r * x := mul_nonneg hr0 hx
  exact of_le (by linarith) (by linarith) (by nlinarith) (by nlinarith)

/-- `1 - exp(-z)` does not enlarge relative errors. -/
theorem expm1 (h : Within m x y) (hx : 0 ≤ x) : Within m (1 - Real.exp (-x)) (1 - Real.exp (-y)) := by
  obtain ⟨θ, h1, rfl⟩ := h
  have hm : 0 ≤ m := (abs_nonneg _).trans h1
  have hs : -1 ≤ Real.exp (-x) - 1 := by have := Real.exp_pos (-x); linarith
  have g0 : 0 ≤ 1 - Real.exp (-x) := by
    have : Real.exp (-x) ≤ 1 := Real.exp_le_one_iff.2 (by linarith)
    linarith
  have hp : (1 + (Real.exp (-x) - 1)) ^ Real.exp θ = Real.exp (-(x * Real.exp θ)) := by
    rw [show 1 + (Real.exp (-x) - 1) = Real.exp (-x) by ring, ← Real.exp_mul]
    congr 1; ring
  have hl := abs_le.1 h1
  rcases le_total 0 θ with hθ | hθ
  · have h2 := one_add_mul_self_le_rpow_one_add hs (Real.one_le_exp hθ)
    rw [hp] at h2
    refine of_le hm g0 ?_ ?_
    · have : Real.exp (-(x * Real.exp θ)) ≤ Real.exp (-x) := by
        apply Real.exp_le_exp.2
        have := mul_le_mul_of_nonneg_left (Real.one_le_exp hθ) hx
        linarith
      have e1 : Real.exp (-m) ≤ 1 := Real.exp_le_one_iff.2 (by linarith)
      have := mul_le_mul_of_nonneg_left e1 g0
      linarith
    · have e1 : Real.exp θ ≤ Real.exp m := Real.exp_le_exp.2 hl.2
      have := mul_le_mul_of_nonneg_left e1 g0
      nlinarith
  · have h2 := rpow_one_add_le_one_add_mul_self hs (Real.exp_pos θ).le (Real.exp_le_one_iff.2 hθ)
    rw [hp] at h2
    refine of_le hm g0 ?_ ?_
    · have e1 : Real.exp (-m) ≤ Real.exp θ := Real.exp_le_exp.2 hl.1
      have := mul_le_mul_of_nonneg_left e1 g0
      nlinarith
    · have : Real.exp (-x) ≤ Real.exp (-(x * Real.exp θ)) := by
        apply Real.exp_le_exp.2
        have := mul_le_mul_of_nonneg_left (Real.exp_le_one_iff.2 hθ) hx
        linarith
      have e1 : 1 ≤ Real.exp m := Real.one_le_exp hm
      have := mul_le_mul_of_nonneg_left e1 g0
      linarith

end Within

variable {V : Type} [Zero V] [One V] [Add V] [Sub V] [Mul V] [Neg V] {A : Rounded V} (L : MathLib A)

/-- The logarithm of one rounding step. -/
noncomputable def η : ℝ := -Real.log (1 - L.w)

theorem w_nonneg : 0 ≤ L.w := A.u_nonneg.trans L.u_le

theorem exp_η : Real.exp (-η L) = 1 - L.w := by
  rw [η, neg_neg, Real.exp_log]
  have := L.w_le; linarith

theorem w_le_η : L.w ≤ η L := by
  have := Real.log_le_sub_one_of_pos (show 0 < 1 - L.w by have := L.w_le; linarith)
  rw [η]; linarith

theorem η_nonneg : 0 ≤ η L := (w_nonneg L).trans (w_le_η L)

theorem η_le : η L ≤ 1.01e-6 := by
  rw [η, ← Real.log_inv, Real.log_le_iff_le_exp (inv_pos.2 (by have := L.w_le; linarith))]
  have h := Real.add_one_le_exp (1.01e-6 : ℝ)
  refine le_trans ?_ h
  have := L.w_le
  rw [inv_eq_one_div, div_le_iff₀ (by linarith)]
  linarith

variable {L}

theorem step_w {x y : ℝ} (h : |y - x| ≤ L.w * |x|) : Within (η L) x y := by
  have key : ∀ x y : ℝ, 0 ≤ x → |y - x| ≤ L.w * |x| → Within (η L) x y := by
    intro x y hx h
    rw [abs_of_nonneg hx] at h
    have hl := abs_le.1 h
    refine Within.of_le (η_nonneg L) hx ?_ ?_
    · rw [exp_η]; linarith
    · rw [show Real.exp (η L) = (1 - L.w)⁻¹ by rw [← exp_η, Real.exp_neg, inv_inv]]
      have h1 := L.w_le
      rw [← div_eq_mul_inv, le_div_iff₀ (by linarith)]
      have := w_nonneg L
      nlinarith
  rcases le_total 0 x with hx | hx
  · exact key x y hx h
  · have := (key (-x) (-y) (by linarith) (by rwa [abs_neg, ← abs_neg, show -(-y - -x) = y - x by ring])).neg
    simpa using this

theorem step_u {x y : ℝ} (h : |y - x| ≤ A.u * |x|) : Within (η L) x y :=
  step_w (h.trans (mul_le_mul_of_nonneg_right L.u_le (abs_nonneg _)))

variable {ι : Type} {ρ : ι → V} {r : ι → ℝ}

/-- The computed value of `e` at `ρ` is within `c` steps of the exact one at `r`. -/
def Acc (L : MathLib A) (ρ : ι → V) (r : ι → ℝ) (e : Expr ι) (c : ℝ) : Prop :=
  Within (c * η L) (e.evalR r) (A.val (evalV L ρ e))

/-- And the exact value is between `exp(-l)` and `exp l`. -/
structure PA (L : MathLib A) (ρ : ι → V) (r : ι → ℝ) (e : Expr ι) (c l : ℝ) : Prop where
  acc : Acc L ρ r e c
  lo : Real.exp (-l) ≤ e.evalR r
  hi : (e.evalR r) ≤ Real.exp l

/-- And the exact value is between `0` and `exp l`. -/
structure NA (L : MathLib A) (ρ : ι → V) (r : ι → ℝ) (e : Expr ι) (c l : ℝ) : Prop where
  acc : Acc L ρ r e c
  lo : 0 ≤ e.evalR r
  hi : (e.evalR r) ≤ Real.exp l

/-- And the exact value is not positive. -/
structure MA (L : MathLib A) (ρ : ι → V) (r : ι → ℝ) (e : Expr ι) (c : ℝ) : Prop where
  acc : Acc L ρ r e c
  hi : (e.evalR r) ≤ 0

variable {x y e : Expr ι} {c d l k a b : ℝ}

theorem Acc.nonneg (h : Acc L ρ r e c) : 0 ≤ c * η L := Within.m_nonneg h

theorem PA.pos (h : PA L ρ r e c l) : 0 < e.evalR r := lt_of_lt_of_le (Real.exp_pos _) h.lo
theorem PA.na (h : PA L ρ r e c l) : NA L ρ r e c l := ⟨h.acc, h.pos.le, h.hi⟩
theorem PA.cast (h : PA L ρ r e c l) (hc : c = d) (hl : l = k) : PA L ρ r e d k := by subst hc hl; exact h

theorem acc_lit (a : ℝ) : Acc L ρ r (Expr.lit a) 1 := by
  rw [Acc, one_mul]
  exact step_w (L.const_err a)

theorem acc_mul (h : Acc L ρ r x c) (h' : Acc L ρ r y d) : Acc L ρ r (x * y) (c + d + 1) := by
  have h1 := Within.mul h h'
  have h2 : Within (η L) _ _ := step_u (A.mul_err (evalV L ρ x) (evalV L ρ y))
  have := h1.trans h2
  rw [Acc, show (c + d + 1) * η L = c * η L + d * η L + η L by ring]
  exact this

theorem acc_neg (h : Acc L ρ r x c) : Acc L ρ r (-x) c := by
  have := Within.neg h
  rw [← A.val_neg] at this
  exact this

theorem acc_add (h : Acc L ρ r x c) (h' : Acc L ρ r y d) (hx : 0 ≤ x.evalR r)
    (hy : 0 ≤ y.evalR r) : Acc L ρ r (x + y) (c + d + 1) := by
  have h1 := Within.add h h' hx hy
  have h2 : Within (η L) _ _ := step_u (A.add_err (evalV L ρ x) (evalV L ρ y))
  have := h1.trans h2
  rw [Acc, show (c + d + 1) * η L = c * η L + d * η L + η L by ring]
  exact this

theorem acc_inv (h : Acc L ρ r x c) (hx : 0 < x.evalR r) : Acc L ρ r (prim .inv x) (c + 1) := by
  have h1 := Within.inv h
  have h2 : Within (η L) _ _ := step_w (L.inv_err (evalV L ρ x) (Within.pos h hx).ne')
  have := h1.trans h2
  rw [Acc, show (c + 1) * η L = c * η L + η L by ring, show ((prim .inv x).evalR r) = (x.evalR r)⁻¹ from one_div _]
  exact this

theorem acc_div (h : Acc L ρ r x c) (h' : Acc L ρ r y d) (hy : 0 < y.evalR r) : Acc L ρ r (x / y) (d + 1 + c + 1) :=
  acc_mul (acc_inv h' hy) h

theorem acc_pow (a b : ℝ) (hab : |a| ≤ b) (h : PA L ρ r x c l) : Acc L ρ r (pow x a) (b * (1.01 * c + l) + 1) := by
  obtain ⟨θ, hθ, e1⟩ := h.acc
  have hpos := h.pos
  have hw0 := w_nonneg L
  have hw1 := L.w_le
  have hη := w_le_η L
  have hη0 := η_nonneg L
  set X := x.evalR r with hX
  have hX' : 0 < A.val (evalV L ρ x) := Within.pos h.acc hpos
  have h2 : Within (η L) _ _ := step_w (L.pow_err (evalV L ρ x) (L.const a) hX')
  have hlog : |Real.log X| ≤ l := by
    rw [abs_le]
    exact ⟨(Real.le_log_iff_exp_le hpos).2 h.lo, (Real.log_le_iff_le_exp hpos).2 h.hi⟩
  have hδ := L.const_err a
  set a' := A.val (L.const a) with ha'
  have hl0 : 0 ≤ l := (abs_nonneg _).trans hlog
  have hb0 : 0 ≤ b := (abs_nonneg _).trans hab
  have h1 : Within (b * (1.01 * c + l) * η L) (X ^ a) (A.val (evalV L ρ x) ^ a') := by
    refine ⟨(a' - a) * Real.log X + a' * θ, ?_, ?_⟩
    · have i1 : |(a' - a) * Real.log X| ≤ b * η L * l := by
        rw [abs_mul]
        refine mul_le_mul (hδ.trans ?_) hlog (abs_nonneg _) (by positivity)
        rw [mul_comm]
        exact mul_le_mul hab hη hw0 hb0
      have i2 : |a' * θ| ≤ 1.01 * b * (c * η L) := by
        rw [abs_mul]
        refine mul_le_mul ?_ hθ (abs_nonneg _) (by positivity)
        have : |a'| ≤ |a' - a| + |a| := by
          have := abs_add_le (a' - a) a
          simpa using this
        have : L.w * |a| ≤ 0.01 * |a| := mul_le_mul_of_nonneg_right (by linarith) (abs_nonneg _)
        linarith
      refine (abs_add_le _ _).trans ((add_le_add i1 i2).trans (le_of_eq ?_))
      ring
    · rw [e1, Real.rpow_def_of_pos (mul_pos hpos (Real.exp_pos _)), Real.rpow_def_of_pos hpos, Real.log_mul hpos.ne' (Real.exp_pos _).ne',
        Real.log_exp, ← Real.exp_add]
      congr 1
      ring
  have := h1.trans h2
  rw [Acc, show (b * (1.01 * c + l) + 1) * η L = b * (1.01 * c + l) * η L + η L by ring]
  exact this

theorem acc_sub (h : Acc L ρ r x c) (h' : Acc L ρ r y d) (hy : 0 ≤ y.evalR r)
    (hq : (y.evalR r) ≤ 0.6 * x.evalR r) (hs : c + d ≤ 12000) :
    Acc L ρ r (x - y) (5 * (c + d) + 1) := by
  have h0 := η_le L
  have h0' := η_nonneg L
  have h1 := Within.sub h h' hy hq (by
    rw [← add_mul]
    refine (mul_le_mul_of_nonneg_right hs h0').trans ?_
    linarith)
  have h2 : Within (η L) _ _ := step_u (A.sub_err (evalV L ρ x) (evalV L ρ y))
  have := h1.trans h2
  rw [Acc, show (5 * (c + d) + 1) * η L = 5 * (c * η L + d * η L) + η L by ring]
  exact this

/-- A difference without cancellation. -/
theorem acc_sub_neg (h : Acc L ρ r x c) (h' : Acc L ρ r y d) (hx : 0 ≤ x.evalR r)
    (hy : (y.evalR r) ≤ 0) : Acc L ρ r (x - y) (c + d + 1) := by
  have h1 := Within.add h (Within.neg h') hx (by linarith)
  rw [← sub_eq_add_neg, ← sub_eq_add_neg] at h1
  have h2 : Within (η L) _ _ := step_u (A.sub_err (evalV L ρ x) (evalV L ρ y))
  have := h1.trans h2
  rw [Acc, show (c + d + 1) * η L = c * η L + d * η L + η L by ring]
  exact this

theorem acc_expm1 (h : Acc L ρ r x c) (hx : (x.evalR r) ≤ 0) : Acc L ρ r (expm1 x) (c + 1) := by
  have h1 := (Within.expm1 (Within.neg h) (by linarith)).neg
  simp only [neg_neg, neg_sub] at h1
  have h2 : Within (η L) _ _ := step_w (L.expm1_err (evalV L ρ x))
  have := h1.trans h2
  rw [Acc, show (c + 1) * η L = c * η L + η L by ring, evalR_expm1]
  exact this

/-! The combinations. -/

theorem pa_lit (a l : ℝ) (h1 : Real.exp (-l) ≤ a) (h2 : a ≤ Real.exp l) : PA L ρ r (Expr.lit a) 1 l := ⟨acc_lit a, h1, h2⟩

theorem pa_mul (h : PA L ρ r x c l) (h' : PA L ρ r y d k) : PA L ρ r (x * y) (c + d + 1) (l + k) :=
  ⟨acc_mul h.acc h'.acc, by
    rw [evalR_mul, neg_add, Real.exp_add]
    exact mul_le_mul h.lo h'.lo (Real.exp_pos _).le h.pos.le, by
    rw [evalR_mul, Real.exp_add]
    exact mul_le_mul h.hi h'.hi h'.pos.le (Real.exp_pos _).le⟩

theorem na_mul (h : NA L ρ r x c l) (h' : NA L ρ r y d k) : NA L ρ r (x * y) (c + d + 1) (l + k) :=
  ⟨acc_mul h.acc h'.acc, by rw [evalR_mul]; exact mul_nonneg h.lo h'.lo, by
    rw [evalR_mul, Real.exp_add]
    exact mul_le_mul h.hi h'.hi h'.lo (Real.exp_pos _).le⟩

theorem pa_inv (h : PA L ρ r x c l) : PA L ρ r (prim .inv x) (c + 1) l := by
  have e : ((prim .inv x).evalR r) = (x.evalR r)⁻¹ := one_div _
  refine ⟨acc_inv h.acc h.pos, ?_, ?_⟩
  · rw [e, Real.exp_neg]
    exact inv_anti₀ h.pos h.hi
  · rw [e, ← neg_neg l, Real.exp_neg]
    exact inv_anti₀ (Real.exp_pos _) h.lo

theorem pa_div (h : PA L ρ r x c l) (h' : PA L ρ r y d k) : PA L ρ r (x / y) (d + 1 + c + 1) (k + l) := pa_mul (pa_inv h') h
theorem na_div (h : NA L ρ r x c l) (h' : PA L ρ r y d k) : NA L ρ r (x / y) (d + 1 + c + 1) (k + l) := na_mul (pa_inv h').na h

theorem two_le_exp_one : (2 : ℝ) ≤ Real.exp 1 := by have := Real.add_one_le_exp (1 : ℝ); linarith

private theorem add_hi {p q l k : ℝ} (hl : 0 ≤ l) (hk : 0 ≤ k) (h1 : p ≤ Real.exp l) (h2 : q ≤ Real.exp k) : p + q ≤ Real.exp (l + k + 1) := by
  have a1 : Real.exp l ≤ Real.exp (l + k) := Real.exp_le_exp.2 (by linarith)
  have a2 : Real.exp k ≤ Real.exp (l + k) := Real.exp_le_exp.2 (by linarith)
  have a3 := mul_le_mul_of_nonneg_left two_le_exp_one (Real.exp_pos (l + k)).le
  rw [Real.exp_add (l + k) 1]
  linarith

theorem PA.l_nonneg (h : PA L ρ r x c l) : 0 ≤ l := by
  have := Real.exp_le_exp.1 (h.lo.trans h.hi)
  linarith

theorem pa_add (h : PA L ρ r x c l) (hk : 0 ≤ k) (h' : NA L ρ r y d k) : PA L ρ r (x + y) (c + d + 1) (l + k + 1) :=
  ⟨acc_add h.acc h'.acc h.pos.le h'.lo, by
    rw [evalR_add]
    have := h.lo
    have := h'.lo
    have := h.l_nonneg
    have : Real.exp (-(l + k + 1)) ≤ Real.exp (-l) := Real.exp_le_exp.2 (by linarith)
    linarith, by
    rw [evalR_add]
    exact add_hi h.l_nonneg hk h.hi h'.hi⟩

theorem na_add (hl : 0 ≤ l) (hk : 0 ≤ k) (h : NA L ρ r x c l) (h' : NA L ρ r y d k) : NA L ρ r (x + y) (c + d + 1) (l + k + 1) :=
  ⟨acc_add h.acc h'.acc h.lo h'.lo, by
    rw [evalR_add]; exact add_nonneg h.lo h'.lo, by
    rw [evalR_add]
    exact add_hi hl hk h.hi h'.hi⟩

theorem pa_pow (a b : ℝ) (hab : |a| ≤ b) (h : PA L ρ r x c l) : PA L ρ r (pow x a) (b * (1.01 * c + l) + 1) (b * l) := by
  have hpos := h.pos
  have hlog : |Real.log (x.evalR r)| ≤ l := by
    rw [abs_le]
    exact ⟨(Real.le_log_iff_exp_le hpos).2 h.lo, (Real.log_le_iff_le_exp hpos).2 h.hi⟩
  have hb : |Real.log (x.evalR r) * a| ≤ b * l := by
    rw [abs_mul, mul_comm]
    exact mul_le_mul hab hlog (abs_nonneg _) ((abs_nonneg _).trans hab)
  have := abs_le.1 hb
  refine ⟨acc_pow a b hab h, ?_, ?_⟩ <;> rw [evalR_pow, Real.rpow_def_of_pos hpos] <;> apply Real.exp_le_exp.2 <;> linarith

/-- Sums of negative terms. -/
theorem acc_add_neg (h : MA L ρ r x c) (h' : MA L ρ r y d) : Acc L ρ r (x + y) (c + d + 1) := by
  have h1 := (Within.add (Within.neg h.acc) (Within.neg h'.acc) (by have := h.hi; linarith) (by have := h'.hi; linarith)).neg
  rw [← neg_add, ← neg_add, neg_neg, neg_neg] at h1
  have h2 : Within (η L) _ _ := step_u (A.add_err (evalV L ρ x) (evalV L ρ y))
  have := h1.trans h2
  rw [Acc, show (c + d + 1) * η L = c * η L + d * η L + η L by ring]
  exact this

theorem ma_sub (h : MA L ρ r x c) (h' : NA L ρ r y d k) : MA L ρ r (x - y) (c + d + 1) := by
  refine ⟨?_, by rw [evalR_sub]; have := h.hi; have := h'.lo; linarith⟩
  have h1 := (Within.add (Within.neg h.acc) h'.acc (by have := h.hi; linarith) h'.lo).neg
  rw [neg_add, neg_add, neg_neg, neg_neg, ← sub_eq_add_neg, ← sub_eq_add_neg] at h1
  have h2 : Within (η L) _ _ := step_u (A.sub_err (evalV L ρ x) (evalV L ρ y))
  have := h1.trans h2
  rw [Acc, show (c + d + 1) * η L = c * η L + d * η L + η L by ring]
  exact this

theorem ma_neg (h : NA L ρ r x c l) : MA L ρ r (-x) c := ⟨acc_neg h.acc, by rw [evalR_neg]; have := h.lo; linarith⟩
theorem ma_lit (a : ℝ) (h : a ≤ 0) : MA L ρ r (Expr.lit a) 1 := ⟨acc_lit a, h⟩
theorem ma_mul (h : MA L ρ r x c) (h' : NA L ρ r y d k) : MA L ρ r (x * y) (c + d + 1) :=
  ⟨acc_mul h.acc h'.acc, by rw [evalR_mul]; exact mul_nonpos_of_nonpos_of_nonneg h.hi h'.lo⟩
theorem ma_mul' (h : NA L ρ r x c k) (h' : MA L ρ r y d) : MA L ρ r (x * y) (c + d + 1) :=
  ⟨acc_mul h.acc h'.acc, by rw [evalR_mul]; exact mul_nonpos_of_nonneg_of_nonpos h.lo h'.hi⟩
theorem ma_div (h : MA L ρ r x c) (h' : PA L ρ r y d k) : MA L ρ r (x / y) (d + 1 + c + 1) := ma_mul' (pa_inv h').na h
theorem ma_add (h : MA L ρ r x c) (h' : MA L ρ r y d) : MA L ρ r (x + y) (c + d + 1) :=
  ⟨acc_add_neg h h', by rw [evalR_add]; have := h.hi; have := h'.hi; linarith⟩
theorem ma_expm1 (h : MA L ρ r x c) : MA L ρ r (expm1 x) (c + 1) :=
  ⟨acc_expm1 h.acc h.hi, by
    rw [evalR_expm1]
    have := Real.exp_le_one_iff.2 h.hi
    linarith⟩

/-- The bound that the steps give. -/
theorem Acc.err {K : ℕ} (h : Acc L ρ r e c) (hK : c ≤ K) :
    |A.val (evalV L ρ e) - e.evalR r| ≤ (((1 - L.w)⁻¹) ^ K - 1) * |e.evalR r| := by
  have h0 := η_nonneg L
  obtain ⟨θ, h1, h2⟩ := Within.mono h (mul_le_mul_of_nonneg_right hK h0)
  have e1 : ((1 - L.w)⁻¹) ^ K = Real.exp (K * η L) := by
    rw [Real.exp_nat_mul, ← exp_η, Real.exp_neg, inv_inv]
  rw [h2, e1, show ∀ p q : ℝ, p * q - p = (q - 1) * p from fun _ _ => by ring, abs_mul]
  refine mul_le_mul_of_nonneg_right ?_ (abs_nonneg _)
  have hl := abs_le.1 h1
  rw [abs_le]
  constructor
  · have a1 := Real.add_one_le_exp (-(K * η L))
    have a2 := Real.exp_le_exp.2 hl.1
    have a3 := Real.add_one_le_exp (K * η L)
    have a4 := Real.add_one_le_exp θ
    linarith
  · have := Real.exp_le_exp.2 hl.2
    linarith

end XCFun.RE
