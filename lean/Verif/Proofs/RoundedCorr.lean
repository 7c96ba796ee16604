/-
Absolute errors of expressions with cancellation.
-/
import Verif.Spec.RoundedCorr
import Verif.Proofs.RoundedFun
import Mathlib.Analysis.SpecialFunctions.Trigonometric.ArctanDeriv
import Mathlib.Analysis.Complex.ExponentialBounds

namespace XCFun.RE
open XCFun Spec Expr Fun

variable {V : Type} [Zero V] [One V] [Add V] [Sub V] [Mul V] [Neg V] {A : Rounded V}
variable {ι : Type} {ρ : ι → V} {r : ι → ℝ} {x y e : Expr ι} {c d l k B D : ℝ}

/-- The exact value of `e` is at most `B`, and the computed one within `exp(cη) - 1` times `B` of it. -/
structure AA (L : MathLib A) (ρ : ι → V) (r : ι → ℝ) (e : Expr ι) (B c : ℝ) : Prop where
  c0 : 0 ≤ c
  hi : |e.evalR r| ≤ B
  err : |A.val (evalV L ρ e) - e.evalR r| ≤ B * (Real.exp (c * η L) - 1)

section
variable {L : MathLib A}

theorem PA.mono' {c' l' : ℝ} (h : PA L ρ r e c l) (h1 : c ≤ c') (h2 : l ≤ l') : PA L ρ r e c' l' :=
  ⟨Within.mono h.acc (mul_le_mul_of_nonneg_right h1 (η_nonneg L)), (Real.exp_le_exp.2 (by linarith)).trans h.lo, h.hi.trans (Real.exp_le_exp.2 h2)⟩
theorem Acc.mono' {c' : ℝ} (h : Acc L ρ r e c) (h1 : c ≤ c') : Acc L ρ r e c' :=
  Within.mono h (mul_le_mul_of_nonneg_right h1 (η_nonneg L))
theorem pa_rng' {a : ℝ} (h : Rng l a) : PA L ρ r (Expr.lit a) 1 l := pa_lit a l h.1 h.2

theorem AA.B0 (h : AA L ρ r e B c) : 0 ≤ B := (abs_nonneg _).trans h.hi

theorem exp_ge (L : MathLib A) (h : 0 ≤ c) : 1 ≤ Real.exp (c * η L) := Real.one_le_exp (mul_nonneg h (η_nonneg L))

theorem AA.val (h : AA L ρ r e B c) : |A.val (evalV L ρ e)| ≤ B * Real.exp (c * η L) := by
  have := abs_add_le (A.val (evalV L ρ e) - e.evalR r) (e.evalR r)
  rw [sub_add_cancel] at this
  have := h.hi
  have := h.err
  linarith

theorem AA.mono (h : AA L ρ r e B c) (h1 : B ≤ D) (h2 : c ≤ d) : AA L ρ r e D d := by
  refine ⟨h.c0.trans h2, h.hi.trans h1, h.err.trans ?_⟩
  have e1 := exp_ge L h.c0
  have e2 : Real.exp (c * η L) ≤ Real.exp (d * η L) := Real.exp_le_exp.2 (mul_le_mul_of_nonneg_right h2 (η_nonneg L))
  exact mul_le_mul h1 (by linarith) (by linarith) (h.B0.trans h1)

theorem exp_sub_one_abs {θ m : ℝ} (h1 : |θ| ≤ m) : |Real.exp θ - 1| ≤ Real.exp m - 1 := by
  have hl := abs_le.1 h1
  rw [abs_le]
  constructor
  · have a3 := Real.add_one_le_exp m
    have a4 := Real.add_one_le_exp θ
    linarith
  · have := Real.exp_le_exp.2 hl.2
    linarith

theorem aa_of_acc (h : Acc L ρ r e c) (hc : 0 ≤ c) (hB : |e.evalR r| ≤ B) : AA L ρ r e B c := by
  refine ⟨hc, hB, ?_⟩
  obtain ⟨θ, h1, h2⟩ := h
  rw [h2, show ∀ p q : ℝ, p * q - p = p * (q - 1) from fun _ _ => by ring, abs_mul]
  exact mul_le_mul hB (exp_sub_one_abs h1) (abs_nonneg _) ((abs_nonneg _).trans hB)

theorem aa_lit (a : ℝ) (h : |a| ≤ B) : AA L ρ r (Expr.lit a) B 1 := aa_of_acc (acc_lit a) (by norm_num) h

theorem one_add_u_le : 1 + A.u ≤ Real.exp (η L) := by
  have h1 := w_le_η L
  have h2 := Real.add_one_le_exp (η L)
  have := L.u_le
  linarith

theorem one_add_w_le : 1 + L.w ≤ Real.exp (η L) := by
  have h1 := w_le_η L
  have h2 := Real.add_one_le_exp (η L)
  linarith

private theorem mul_core {X Y x y z B D P Q R u : ℝ} (hX : |X| ≤ B) (hY : |Y| ≤ D) (hP : 1 ≤ P) (hQ : 1 ≤ Q)
    (h1 : |x - X| ≤ B * (P - 1)) (h2 : |y - Y| ≤ D * (Q - 1)) (hu : 0 ≤ u) (hR : 1 + u ≤ R) (hz : |z - x * y| ≤ u * |x * y|) :
    |z - X * Y| ≤ B * D * (P * Q * R - 1) := by
  have hB : 0 ≤ B := (abs_nonneg _).trans hX
  have hD : 0 ≤ D := (abs_nonneg _).trans hY
  have a1 : |x * y - X * Y| ≤ B * D * (P * Q - 1) := by
    rw [show x * y - X * Y = (x - X) * (y - Y) + ((x - X) * Y + X * (y - Y)) by ring]
    refine (abs_add_le _ _).trans ((add_le_add le_rfl (abs_add_le _ _)).trans ?_)
    rw [abs_mul, abs_mul, abs_mul]
    have m1 := mul_le_mul h1 h2 (abs_nonneg _) (mul_nonneg hB (by linarith))
    have m2 := mul_le_mul h1 hY (abs_nonneg _) (mul_nonneg hB (by linarith))
    have m3 := mul_le_mul hX h2 (abs_nonneg _) hB
    refine (add_le_add m1 (add_le_add m2 m3)).trans (le_of_eq ?_)
    ring
  have a2 : |x * y| ≤ B * D * (P * Q) := by
    have := abs_add_le (x * y - X * Y) (X * Y)
    rw [sub_add_cancel] at this
    have h3 : |X * Y| ≤ B * D := by rw [abs_mul]; exact mul_le_mul hX hY (abs_nonneg _) hB
    linarith
  have a3 := mul_le_mul_of_nonneg_left a2 hu
  have a4 := abs_add_le (z - x * y) (x * y - X * Y)
  rw [sub_add_sub_cancel] at a4
  have a5 := mul_le_mul_of_nonneg_left hR (show 0 ≤ B * D * (P * Q) by positivity)
  refine a4.trans ((add_le_add (hz.trans a3) a1).trans ?_)
  linarith

theorem aa_mul (h : AA L ρ r x B c) (h' : AA L ρ r y D d) : AA L ρ r (x * y) (B * D) (c + d + 1) := by
  refine ⟨by have := h.c0; have := h'.c0; linarith, ?_, ?_⟩
  · rw [evalR_mul, abs_mul]; exact mul_le_mul h.hi h'.hi (abs_nonneg _) h.B0
  · rw [evalR_mul, show (c + d + 1) * η L = c * η L + d * η L + η L by ring, Real.exp_add, Real.exp_add]
    exact mul_core h.hi h'.hi (exp_ge L h.c0) (exp_ge L h'.c0) h.err h'.err A.u_nonneg one_add_u_le (A.mul_err _ _)

private theorem add_core {X x z B P R u : ℝ} (hX : |X| ≤ B) (h1 : |x - X| ≤ B * (P - 1)) (hP : 1 ≤ P)
    (hu : 0 ≤ u) (hR : 1 + u ≤ R) (hz : |z - x| ≤ u * |x|) : |z - X| ≤ B * (P * R - 1) := by
  have hB : 0 ≤ B := (abs_nonneg _).trans hX
  have a2 : |x| ≤ B * P := by
    have := abs_add_le (x - X) X
    rw [sub_add_cancel] at this
    linarith
  have a3 := mul_le_mul_of_nonneg_left a2 hu
  have a4 := abs_add_le (z - x) (x - X)
  rw [sub_add_sub_cancel] at a4
  have a5 := mul_le_mul_of_nonneg_left hR (show 0 ≤ B * P by positivity)
  refine a4.trans ((add_le_add (hz.trans a3) h1).trans ?_)
  linarith

theorem aa_add (h : AA L ρ r x B c) (h' : AA L ρ r y D c) : AA L ρ r (x + y) (B + D) (c + 1) := by
  have hi : |x.evalR r + y.evalR r| ≤ B + D := (abs_add_le _ _).trans (add_le_add h.hi h'.hi)
  refine ⟨by have := h.c0; linarith, by rwa [evalR_add], ?_⟩
  rw [evalR_add, show (c + 1) * η L = c * η L + η L by ring, Real.exp_add]
  refine add_core hi ?_ (exp_ge L h.c0) A.u_nonneg one_add_u_le (A.add_err _ _)
  rw [add_sub_add_comm, add_mul]
  exact (abs_add_le _ _).trans (add_le_add h.err h'.err)

theorem aa_sub (h : AA L ρ r x B c) (h' : AA L ρ r y D c) : AA L ρ r (x - y) (B + D) (c + 1) := by
  have hi : |x.evalR r - y.evalR r| ≤ B + D := (abs_sub _ _).trans (add_le_add h.hi h'.hi)
  refine ⟨by have := h.c0; linarith, by rwa [evalR_sub], ?_⟩
  rw [evalR_sub, show (c + 1) * η L = c * η L + η L by ring, Real.exp_add]
  refine add_core hi ?_ (exp_ge L h.c0) A.u_nonneg one_add_u_le (A.sub_err _ _)
  rw [sub_sub_sub_comm, add_mul]
  exact (abs_sub _ _).trans (add_le_add h.err h'.err)

/-- Division by a positive expression. -/
theorem aa_div (h : AA L ρ r x B c) (h' : PA L ρ r y d l) (hd : 0 ≤ d) (hD : (y.evalR r)⁻¹ ≤ D) :
    AA L ρ r (x / y) (D * B) (d + 1 + c + 1) := by
  refine aa_mul (aa_of_acc (acc_inv h'.acc h'.pos) (by linarith) ?_) h
  rw [show ((prim .inv y).evalR r) = (y.evalR r)⁻¹ from one_div _, abs_of_pos (inv_pos.2 h'.pos)]
  exact hD

/-- Where at most a factor `k` is lost, the error is also a relative one. -/
theorem acc_of_aa (h : AA L ρ r x B c) (hk : B ≤ k * x.evalR r) (h0 : 0 < x.evalR r) (hs : k * c ≤ 10000) : Acc L ρ r x (2 * k * c) := by
  set X := x.evalR r with hX
  have hη0 := η_nonneg L
  have hη := η_le L
  have hXB : X ≤ B := (le_abs_self _).trans h.hi
  have hk1 : 1 ≤ k := by
    by_contra hc
    have : k * X < 1 * X := mul_lt_mul_of_pos_right (not_le.1 hc) h0
    linarith
  have hc0 := h.c0
  set t := c * η L with ht
  have ht0 : 0 ≤ t := mul_nonneg hc0 hη0
  have hkt : k * t ≤ 0.02 := by
    rw [ht, ← mul_assoc]
    exact (mul_le_mul_of_nonneg_right hs hη0).trans (by linarith)
  have htk : t ≤ k * t := by nlinarith
  have e1 : Real.exp t - 1 ≤ 1.02 * t := by
    have := Real.abs_exp_sub_one_sub_id_le (x := t) (by rw [abs_of_nonneg ht0]; linarith)
    have := (abs_le.1 this).2
    nlinarith
  have err : |A.val (evalV L ρ x) - X| ≤ X * (1.02 * (k * t)) := by
    refine h.err.trans ((mul_le_mul hk e1 ?_ (by positivity)).trans (le_of_eq (by ring)))
    have := Real.one_le_exp ht0; linarith
  have hl := abs_le.1 err
  have e3 := Real.add_one_le_exp (2 * (k * t))
  have e4 : Real.exp (-(2 * (k * t))) ≤ 1 - 1.02 * (k * t) := by
    rw [Real.exp_neg]
    refine (inv_anti₀ (by positivity) e3).trans ?_
    rw [inv_eq_one_div, div_le_iff₀ (by positivity)]
    nlinarith
  rw [Acc, show 2 * k * c * η L = 2 * (k * t) by rw [ht]; ring]
  have x1 := mul_le_mul_of_nonneg_left e3 h0.le
  have x2 := mul_le_mul_of_nonneg_left e4 h0.le
  have x3 : 0 ≤ X * (k * t) := by positivity
  exact Within.of_le (by positivity) h0.le (by linarith) (by linarith)

end

/-! The three functions. -/

variable {L : CorrLib A}

theorem sqrt_exp (q : ℝ) : √(Real.exp q) = Real.exp (q / 2) := by
  rw [Real.sqrt_eq_iff_mul_self_eq_of_pos (Real.exp_pos _), ← Real.exp_add, add_halves]

theorem acc_sqrt (h : Acc L.toMathLib ρ r x c) (hx : 0 ≤ x.evalR r) : Acc L.toMathLib ρ r (Expr.sqrt x) (c / 2 + 1) := by
  have h2 : Within (η L.toMathLib) _ _ := step_w (L.sqrt_err (evalV L.toMathLib ρ x) (Within.nonneg h hx))
  have h1 : Within (c / 2 * η L.toMathLib) (√(x.evalR r)) (√(A.val (evalV L.toMathLib ρ x))) := by
    obtain ⟨θ, hθ, e1⟩ := h
    refine ⟨θ / 2, ?_, ?_⟩
    · rw [abs_div, abs_two]
      linarith
    · rw [e1, Real.sqrt_mul hx, sqrt_exp]
  have := h1.trans h2
  rw [Acc, show (c / 2 + 1) * η L.toMathLib = c / 2 * η L.toMathLib + η L.toMathLib by ring]
  exact this

theorem pa_sqrt (h : PA L.toMathLib ρ r x c l) : PA L.toMathLib ρ r (Expr.sqrt x) (c / 2 + 1) (l / 2) := by
  refine ⟨acc_sqrt h.acc h.pos.le, ?_, ?_⟩
  · rw [evalR_sqrt, ← neg_div, ← sqrt_exp]; exact Real.sqrt_le_sqrt h.lo
  · rw [evalR_sqrt, ← sqrt_exp]; exact Real.sqrt_le_sqrt h.hi

private theorem fn_core {X x z B t w R : ℝ} (hX : |X| ≤ B) (hB : 1 ≤ B) (h1 : |x - X| ≤ t) (hw : 0 ≤ w) (hR : 1 + w ≤ R)
    (hz : |z - x| ≤ w * |x|) : |z - X| ≤ B * (Real.exp t * R - 1) := by
  have ht : 0 ≤ t := (abs_nonneg _).trans h1
  have hP := Real.add_one_le_exp t
  refine add_core hX (h1.trans ?_) (by linarith) hw hR hz
  calc t ≤ 1 * (Real.exp t - 1) := by linarith
    _ ≤ B * (Real.exp t - 1) := mul_le_mul_of_nonneg_right hB (by linarith)

theorem aa_log (h : Acc L.toMathLib ρ r x c) (hc : 0 ≤ c) (hx : 0 < x.evalR r) (hB : 1 ≤ B) (hl : |Real.log (x.evalR r)| ≤ B) :
    AA L.toMathLib ρ r (log x) B (c + 1) := by
  refine ⟨by linarith, by rwa [evalR_log], ?_⟩
  rw [evalR_log, show (c + 1) * η L.toMathLib = c * η L.toMathLib + η L.toMathLib by ring, Real.exp_add]
  refine fn_core hl hB ?_ (w_nonneg _) one_add_w_le (L.log_err _ (Within.pos h hx))
  obtain ⟨θ, hθ, e1⟩ := h
  rw [e1, Real.log_mul hx.ne' (Real.exp_pos _).ne', Real.log_exp, add_sub_cancel_left]
  exact hθ

theorem arctan_mul_le {q t : ℝ} (hq : 1 ≤ q) (ht : 0 ≤ t) : Real.arctan (t * q) ≤ q * Real.arctan t := by
  have hd : ∀ t, HasDerivAt (fun t => q * Real.arctan t - Real.arctan (t * q)) (q * (1 / (1 + t ^ 2)) - 1 / (1 + (t * q) ^ 2) * (1 * q)) t := fun t =>
    ((Real.hasDerivAt_arctan t).const_mul q).sub (((hasDerivAt_id t).mul_const q).arctan)
  have hm : MonotoneOn (fun t => q * Real.arctan t - Real.arctan (t * q)) (Set.Ici 0) := by
    refine monotoneOn_of_deriv_nonneg (convex_Ici 0) (fun t _ => (hd t).continuousAt.continuousWithinAt)
      (fun t _ => (hd t).differentiableAt.differentiableWithinAt) ?_
    intro t ht
    rw [interior_Ici, Set.mem_Ioi] at ht
    rw [(hd t).deriv]
    have h1 : t ^ 2 ≤ (t * q) ^ 2 := pow_le_pow_left₀ ht.le (by nlinarith) 2
    have h2 : 1 / (1 + (t * q) ^ 2) ≤ 1 / (1 + t ^ 2) := one_div_le_one_div_of_le (by positivity) (by linarith)
    have := mul_le_mul_of_nonneg_left h2 (show 0 ≤ q by linarith)
    linarith
  have := hm (Set.mem_Ici.2 le_rfl) (Set.mem_Ici.2 ht) ht
  simp only [zero_mul, Real.arctan_zero, mul_zero, sub_zero] at this
  linarith

/-- The arc tangent does not enlarge relative errors. -/
theorem Within.arctan {m x y : ℝ} (h : Within m x y) (hx : 0 ≤ x) : Within m (Real.arctan x) (Real.arctan y) := by
  obtain ⟨θ, h1, rfl⟩ := h
  have hm : 0 ≤ m := (abs_nonneg _).trans h1
  have hl := abs_le.1 h1
  have g0 : 0 ≤ Real.arctan x := Real.arctan_nonneg.2 hx
  rcases le_total 0 θ with hθ | hθ
  · refine of_le hm g0 ?_ ?_
    · have e1 : Real.exp (-m) ≤ 1 := Real.exp_le_one_iff.2 (by linarith)
      have e2 : x ≤ x * Real.exp θ := by have := mul_le_mul_of_nonneg_left (Real.one_le_exp hθ) hx; linarith
      have := mul_le_mul_of_nonneg_left e1 g0
      have := Real.arctan_mono e2
      linarith
    · have := arctan_mul_le (Real.one_le_exp hθ) hx
      have e1 : Real.exp θ ≤ Real.exp m := Real.exp_le_exp.2 hl.2
      have := mul_le_mul_of_nonneg_left e1 g0
      linarith
  · refine of_le hm g0 ?_ ?_
    · have h2 := arctan_mul_le (Real.one_le_exp (show 0 ≤ -θ by linarith)) (show 0 ≤ x * Real.exp θ by positivity)
      rw [mul_assoc, ← Real.exp_add, add_neg_cancel, Real.exp_zero, mul_one] at h2
      have e1 : Real.exp (-m) ≤ Real.exp θ := Real.exp_le_exp.2 hl.1
      have e2 := mul_le_mul_of_nonneg_left h2 (Real.exp_pos θ).le
      rw [← mul_assoc, ← Real.exp_add, add_neg_cancel, Real.exp_zero, one_mul] at e2
      have := mul_le_mul_of_nonneg_left e1 g0
      linarith
    · have e1 := Real.one_le_exp hm
      have e2 : x * Real.exp θ ≤ x := by have := mul_le_mul_of_nonneg_left (Real.exp_le_one_iff.2 hθ) hx; linarith
      have := mul_le_mul_of_nonneg_left e1 g0
      have := Real.arctan_mono e2
      linarith

theorem acc_atan (h : Acc L.toMathLib ρ r x c) (hx : 0 ≤ x.evalR r) : Acc L.toMathLib ρ r (atan x) (c + 1) := by
  have h1 := Within.arctan h hx
  have h2 : Within (η L.toMathLib) _ _ := step_w (L.atan_err (evalV L.toMathLib ρ x))
  have := h1.trans h2
  rw [Acc, show (c + 1) * η L.toMathLib = c * η L.toMathLib + η L.toMathLib by ring]
  exact this

end XCFun.RE
