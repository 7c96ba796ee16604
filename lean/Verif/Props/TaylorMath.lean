/-
C71 (continued): elementary functions of Taylor expansions in several variables (taylor_math.hpp), and C72: the series of the Becke-Roussel solver (brx.cpp).
-/
import Verif.Props.TaylorClass

namespace XCFun.Props
open XCFun Spec Polymul Tay MvPolynomial Finset

section
variable (u : ℕ → ℝ) (n N : ℕ) (t : List ℝ) (ht : t.length = (terms (n + 1) N).length)
include ht

/-! ## Functions -/

/-- **C71, functions without restriction.** For any number of variables, any degree, any coefficients and whatever the memory holds. -/
theorem C71_entire : IsExpansion (n + 1) N Real.exp t (Tay.exp u (n + 1) N t) ∧ IsExpansion (n + 1) N (fun x => Real.exp x - 1) t (Tay.expm1 u (n + 1) N t) ∧
    IsExpansion (n + 1) N Real.sin t (Tay.sin u (n + 1) N t) ∧ IsExpansion (n + 1) N Real.cos t (Tay.cos u (n + 1) N t) ∧
    IsExpansion (n + 1) N Real.arctan t (Tay.atan u (n + 1) N t) ∧ IsExpansion (n + 1) N Real.arsinh t (Tay.asinh u (n + 1) N t) :=
  have h := fit_iff.1 ht
  ⟨isExpansion (exp_gives u h), isExpansion (expm1_gives u h), isExpansion (sin_gives u h), isExpansion (cos_gives u h), isExpansion (atan_gives u h), isExpansion (asinh_gives u h)⟩

/-- **C71, the error function.** The degree plus one has to fit into `int`. -/
theorem C71_erf (hN : N + 1 < 2 ^ 31) : IsExpansion (n + 1) N (fun x => 2 / √Real.pi * ∫ s in (0 : ℝ)..x, Real.exp (-s ^ 2)) t (Tay.erf u (n + 1) N t) :=
  isExpansion (erf_gives u hN (fit_iff.1 ht))

/-- **C71, functions of positive numbers.** Where the constant term is positive they are expanded, where it is not the code stops. -/
theorem C71_positive (a : ℝ) (root3 : ℝ → ℝ) (h3 : ∀ x > 0, 0 < root3 x ∧ root3 x ^ 3 = x) :
    (0 < t.getD 0 0 → IsExpansion (n + 1) N Real.log t (Tay.log u (n + 1) N t) ∧ IsExpansion (n + 1) N (fun x => √x) t (Tay.sqrt u (n + 1) N t) ∧
      IsExpansion (n + 1) N root3 t (Tay.cbrt u (n + 1) N t) ∧ IsExpansion (n + 1) N (fun x => x ^ a) t (Tay.pow u (n + 1) N t a)) ∧
    (t.getD 0 0 ≤ 0 → Tay.log u (n + 1) N t = .die ∧ Tay.sqrt u (n + 1) N t = .die ∧ Tay.cbrt u (n + 1) N t = .die ∧ Tay.pow u (n + 1) N t a = .die) := by
  have h := fit_iff.1 ht
  refine ⟨fun hp => ⟨isExpansion (log_gives u h hp), isExpansion (sqrt_gives u h hp), isExpansion (cbrt_gives u h hp h3), isExpansion (pow_gives u h hp a)⟩, fun hn => ?_⟩
  have hL : 0 < t.length := by rw [h]; exact L_pos _ _
  have hr : rdBuf t 0 = .ok (at' t 0) := rd_at hL
  have hd : Tay.assert (0 < at' t 0) = .die := if_neg (not_lt.2 hn)
  have bd : ∀ {α β : Type} (f : α → Outcome β), (Outcome.die : Outcome α) >>= f = .die := fun _ => rfl
  refine ⟨?_, ?_, ?_, ?_⟩
  · rw [Tay.log, Tay.apply, hr, Outcome.ok_bind, logTaylor, hd]; rfl
  · rw [Tay.sqrt, Tay.apply, hr, Outcome.ok_bind, sqrtTaylor, hd]; rfl
  · rw [Tay.cbrt, Tay.apply, hr, Outcome.ok_bind, cbrtTaylor, hd]; rfl
  · rw [Tay.pow, hr, Outcome.ok_bind, powTaylor, hd]; rfl

/-- **C71, quotients.** `x / t`, `t1 / t`, `t1 /= t` and Newton's iteration `taylor_reciprocal`: the result times `t` is the numerator, to order `N`. -/
theorem C71_divide (t1 dst : List ℝ) (h1 : t1.length = (terms (n + 1) N).length) (hd : dst.length = (terms (n + 1) N).length) (h0 : t.getD 0 0 ≠ 0) (x : ℝ) :
    (∃ out, scalarDiv u (n + 1) N x t = .ok out ∧ out.length = t.length ∧ SameTo N (polyOf (n + 1) N out * polyOf (n + 1) N t) (C x)) ∧
    (∃ out, Tay.div u (n + 1) N t1 t = .ok out ∧ out.length = t.length ∧ SameTo N (polyOf (n + 1) N out * polyOf (n + 1) N t) (polyOf (n + 1) N t1)) ∧
    (∃ out, divBy u (n + 1) N t1 t = .ok out ∧ out.length = t.length ∧ SameTo N (polyOf (n + 1) N out * polyOf (n + 1) N t) (polyOf (n + 1) N t1)) ∧
    (∃ out, reciprocal (n + 1) N dst t = .ok out ∧ out.length = t.length ∧ SameTo N (polyOf (n + 1) N t * polyOf (n + 1) N out) 1) := by
  have h := fit_iff.1 ht
  have len : ∀ {o : List ℝ}, Fit (n + 1) N o → o.length = t.length := fun h => by rw [fit_iff.2 h, ht]
  refine ⟨?_, ?_, ?_, ?_⟩
  · obtain ⟨out, e1, e2, e3⟩ := scalarDiv_run u h h0 x; exact ⟨out, e1, len e2, e3⟩
  · obtain ⟨out, e1, e2, e3⟩ := div_run u (fit_iff.1 h1) h h0; exact ⟨out, e1, len e2, e3⟩
  · obtain ⟨out, e1, e2, e3⟩ := divBy_run u (fit_iff.1 h1) h h0; exact ⟨out, e1, len e2, e3⟩
  · obtain ⟨out, e1, e2, e3⟩ := reciprocal_run h (fit_iff.1 hd) h0; exact ⟨out, e1, len e2, e3⟩

/-- **C71, division by zero.** With constant term zero all of them stop. -/
theorem C71_divide_by_zero (t1 dst : List ℝ) (h0 : t.getD 0 0 = 0) (x : ℝ) :
    scalarDiv u (n + 1) N x t = .die ∧ Tay.div u (n + 1) N t1 t = .die ∧ divBy u (n + 1) N t1 t = .die ∧ reciprocal (n + 1) N dst t = .die := by
  have h := fit_iff.1 ht
  have hL : 0 < t.length := by rw [h]; exact L_pos _ _
  have hr : rdBuf t 0 = .ok (at' t 0) := rd_at hL
  have hd : Tay.assert (at' t 0 ≠ 0) = .die := if_neg (not_not.2 h0)
  have hs : ∀ x, scalarDiv u (n + 1) N x t = .die := fun x => by rw [scalarDiv, Tay.apply, hr, Outcome.ok_bind, invTaylor, hd]; rfl
  refine ⟨hs x, ?_, ?_, ?_⟩
  · rw [Tay.div, Tay.apply, hr, Outcome.ok_bind, invTaylor, hd]; rfl
  · rw [divBy, hs]; rfl
  · rw [reciprocal, hr, Outcome.ok_bind, hd]; rfl

/-- **C71, integer powers.** Every exponent of type `int` but the smallest: the power, or its reciprocal; the smallest overflows when its sign is changed. -/
theorem C71_integer_power :
    (∀ m : ℕ, ∃ out, powInt u (n + 1) N t m = .ok out ∧ out.length = t.length ∧ SameTo N (polyOf (n + 1) N out) (polyOf (n + 1) N t ^ m)) ∧
    (∀ m : ℕ, 0 < m → m < 2 ^ 31 → t.getD 0 0 ≠ 0 → ∃ out, powInt u (n + 1) N t (-m) = .ok out ∧ out.length = t.length ∧
      SameTo N (polyOf (n + 1) N out * polyOf (n + 1) N t ^ m) 1) ∧
    powInt u (n + 1) N t (-2 ^ 31) = .ub := by
  have h := fit_iff.1 ht
  have len : ∀ {o : List ℝ}, Fit (n + 1) N o → o.length = t.length := fun h => by rw [fit_iff.2 h, ht]
  refine ⟨fun m => ?_, fun m hm h31 h0 => ?_, ?_⟩
  · rcases Nat.eq_zero_or_pos m with rfl | hm
    · obtain ⟨out, e1, e2, e3⟩ := powInt_zero u (n := n) (N := N) t
      exact ⟨out, by exact_mod_cast e1, len e2, by rw [e3, pow_zero]; exact SameTo.refl _ _⟩
    · obtain ⟨out, e1, e2, e3⟩ := powInt_pos u h hm; exact ⟨out, e1, len e2, e3⟩
  · obtain ⟨out, e1, e2, e3⟩ := powInt_neg u h h0 hm h31; exact ⟨out, e1, len e2, e3⟩
  · rw [powInt, if_neg (by norm_num), if_pos (by norm_num)]
    have : int32 (-(-2 ^ 31)) = .ub := by decide
    rw [this]; rfl

/-- **C71, sinc.** Away from zero sin(x)/x; where the constant term is smaller than 1e-3, the polynomial of degree `N + 8` of its series (whose binomials fit into `int` up to degree 20). -/
theorem C71_sinc :
    (1e-3 ≤ |t.getD 0 0| → IsExpansion (n + 1) N (fun x => Real.sin x / x) t (sinc u (n + 1) N t)) ∧
    (N ≤ 20 → |t.getD 0 0| < 1e-3 →
      IsExpansion (n + 1) N (fun x => ∑ m ∈ range (N + 8 + 1), (if m % 2 = 0 then (-1) ^ (m / 2) / ((m + 1).factorial : ℝ) else 0) * x ^ m) t (sinc u (n + 1) N t)) := by
  have h := fit_iff.1 ht
  exact ⟨fun h0 => isExpansion (sinc_large u h (not_lt.2 h0)), fun hN h0 => isExpansion (sinc_small u (by interval_cases N <;> decide) h h0)⟩

/-- **C71, `sqrtx_asinh_sqrtx`.** From 0.5 on √x asinh √x; between -0.5 and 0.5, up to degree 8, the quotient of the tabulated polynomials; the rest is refused. -/
theorem C71_sqrtx_asinh_sqrtx :
    (0.5 ≤ t.getD 0 0 → IsExpansion (n + 1) N (fun x => √x * Real.arsinh √x) t (sqrtxAsinhSqrtx u (n + 1) N t)) ∧
    (N ≤ 8 → |t.getD 0 0| < 0.5 →
      IsExpansion (n + 1) N (fun x => (∑ m ∈ range 9, padeP m * x ^ m) / ∑ m ∈ range 9, padeQ m * x ^ m) t (sqrtxAsinhSqrtx u (n + 1) N t)) ∧
    (t.getD 0 0 ≤ -0.5 → sqrtxAsinhSqrtx u (n + 1) N t = .die) ∧ (8 < N → |t.getD 0 0| < 0.5 → sqrtxAsinhSqrtx u (n + 1) N t = .die) := by
  have h := fit_iff.1 ht
  have hL : 0 < t.length := by rw [h]; exact L_pos _ _
  have hr : rdBuf t 0 = .ok (at' t 0) := rd_at hL
  refine ⟨fun h0 => isExpansion (sqrtx_large u h h0), fun hN h0 => isExpansion (sqrtx_small u hN h h0), fun h0 => ?_, fun hN h0 => ?_⟩
  · rw [sqrtxAsinhSqrtx, hr, Outcome.ok_bind, Tay.assert, if_neg (show ¬ -0.5 < at' t 0 from not_lt.2 h0)]; rfl
  · have h1 : -0.5 < at' t 0 := (abs_lt.1 h0).1
    rw [sqrtxAsinhSqrtx, hr, Outcome.ok_bind, assert_ok h1, Outcome.ok_bind, if_pos (show |at' t 0| < 0.5 from h0), Tay.assert, if_neg (by omega)]; rfl

/-- **C71, minimum and maximum.** The expansion with the smaller (larger) constant term; with equal constant terms `min` gives the first and `max` the second. -/
theorem C71_min_max (t2 : List ℝ) (h2 : t2.length = (terms (n + 1) N).length) :
    (t.getD 0 0 < t2.getD 0 0 → Tay.min t t2 = .ok t ∧ Tay.max t t2 = .ok t2) ∧ (t2.getD 0 0 < t.getD 0 0 → Tay.min t t2 = .ok t2 ∧ Tay.max t t2 = .ok t) ∧
    (t.getD 0 0 = t2.getD 0 0 → Tay.min t t2 = .ok t ∧ Tay.max t t2 = .ok t2) := by
  have r1 : rdBuf t 0 = .ok (at' t 0) := rd_at (by rw [fit_iff.1 ht]; exact L_pos _ _)
  have r2 : rdBuf t2 0 = .ok (at' t2 0) := rd_at (by rw [fit_iff.1 h2]; exact L_pos _ _)
  have e1 : Tay.min t t2 = .ok (if t.getD 0 0 ≤ t2.getD 0 0 then t else t2) := by rw [Tay.min, r1, Outcome.ok_bind, r2]; rfl
  have e2 : Tay.max t t2 = .ok (if t.getD 0 0 > t2.getD 0 0 then t else t2) := by rw [Tay.max, r1, Outcome.ok_bind, r2]; rfl
  refine ⟨fun h => ⟨?_, ?_⟩, fun h => ⟨?_, ?_⟩, fun h => ⟨?_, ?_⟩⟩
  · rw [e1, if_pos (le_of_lt h)]
  · rw [e2, if_neg (not_lt.2 (le_of_lt h))]
  · rw [e1, if_neg (not_le.2 h)]
  · rw [e2, if_pos h]
  · rw [e1, if_pos (le_of_eq h)]
  · rw [e2, if_neg (not_lt.2 (le_of_eq h))]

end

/-! ## The Becke-Roussel solver -/

/-- **C72, every order.** `BR_taylor` returns the Taylor coefficients of the solution of (x - 2)/x exp(2x/3) = z at the right hand side that the solver's value `x₀` satisfies exactly, for
every degree and whatever the memory holds. -/
theorem C72_series (u : ℕ → ℝ) (D : ℕ) (hD : 1 ≤ D) (z0 : ℝ) :
    ∃ t, Tay.brTaylor u D z0 = .ok t ∧ t.length = D + 1 ∧ IsTaylor holeRoot (holeCurve (brSolve z0)) D (t.getD · 0) := by
  refine ⟨_, brTaylor_run u hD z0, by simp, fun k hk => ?_⟩
  exact at_map (F := fun k => BR.rootCoef k (holeCurve (brSolve z0))) (Nat.lt_succ_of_le hk)

/-- **C72, the functional's series.** For the degrees that occur the result is what the model of the functionals uses. -/
theorem C72_model (u : ℕ → ℝ) (D : ℕ) (hD : 1 ≤ D) (hD6 : D ≤ 6) (z : ℝ) : Tay.brTaylor u D z = .ok ((List.range (D + 1)).map (XCFun.brTaylor D z)) := by
  rw [brTaylor_run u hD z]
  congr 1
  exact List.map_congr_left fun k hk => (BR.brTaylor_eq hD hD6 z (BR.brSolve_pos z) (by have := List.mem_range.1 hk; omega)).symm

/-- **C72, the first array.** For degree zero the second entry does not exist; the code asks for degree 3 at least (`static_assert`). -/
theorem C72_degree_zero (u : ℕ → ℝ) (z0 : ℝ) : Tay.brTaylor u 0 z0 = .ub := by
  obtain ⟨t, e1, e2, -⟩ := assign_run (fresh_one u (N := 0)) 0
  have l : t.length = 1 := fit_one.1 e2
  rw [Tay.brTaylor, e1, Outcome.ok_bind, wrBuf_ok (by omega), Outcome.ok_bind]
  have : ∀ x, wrBuf (t.set 0 (brSolve z0)) 1 x = .ub := fun x => if_neg (by rw [List.length_set, l]; omega)
  rw [this]; rfl

/-! ## Cases -/

/-- Expansions in two variables to second order. -/
example (u : ℕ → ℝ) : IsExpansion 2 2 Real.exp [1, 2, 3, 4, 5, 6] (Tay.exp u 2 2 [1, 2, 3, 4, 5, 6]) := (C71_entire u 1 2 _ (by rw [terms_length]; decide)).1

example (u : ℕ → ℝ) : IsExpansion 2 2 Real.log [1, 2, 3, 4, 5, 6] (Tay.log u 2 2 [1, 2, 3, 4, 5, 6]) ∧ Tay.log u 2 2 [-1, 2, 3, 4, 5, 6] = .die := by
  have h3 : ∀ x : ℝ, x > 0 → 0 < x ^ ((1 : ℝ) / 3) ∧ (x ^ ((1 : ℝ) / 3)) ^ 3 = x := fun x hx =>
    ⟨Real.rpow_pos_of_pos hx _, by rw [← Real.rpow_natCast, ← Real.rpow_mul hx.le]; norm_num⟩
  exact ⟨((C71_positive u 1 2 [1, 2, 3, 4, 5, 6] (by rw [terms_length]; decide) 0 _ h3).1 (by norm_num)).1,
    ((C71_positive u 1 2 [-1, 2, 3, 4, 5, 6] (by rw [terms_length]; decide) 0 _ h3).2 (by norm_num)).1⟩

example (u : ℕ → ℝ) : ∃ out, powInt u 3 1 [2, 1, 0, 5] (-3 : ℤ) = .ok out ∧ SameTo 1 (polyOf 3 1 out * polyOf 3 1 [2, 1, 0, 5] ^ 3) 1 := by
  obtain ⟨out, e1, -, e2⟩ := (C71_integer_power u 2 1 [2, 1, 0, 5] (by rw [terms_length]; decide)).2.1 3 (by norm_num) (by norm_num) (by norm_num)
  exact ⟨out, e1, e2⟩

/-- The expansion that meets the specification is not any array: `exp(x)` to first order is `1 + x`. -/
example (b : List ℝ) (hb : IsExpansion 1 1 Real.exp [0, 1] (.ok b)) : b = [1, 1] := by
  refine (C71_unique 0 1 [0, 1] Real.exp [1, 1] b ⟨_, rfl, by rw [terms_length]; decide, ?_⟩ hb).symm
  have e : ∀ a : ℝ, polyOf 1 1 [a, 1] = C a + X 0 := fun a => by
    have : terms 1 1 = [[0], [1]] := by simp [terms, List.range_succ, multisets, Spec.exponents]
    rw [polyOf, this]; simp [power]
  intro v k hk
  rw [e, e]
  interval_cases k
  · simp
  · simp only [iteratedDeriv_one, map_add, eval_C, eval_X, zero_add]
    rw [((hasDerivAt_id' (0 : ℝ)).mul_const (v 0) |>.const_add 1).deriv, ((hasDerivAt_id' (0 : ℝ)).mul_const (v 0)).exp.deriv]
    simp

example (u : ℕ → ℝ) : ∃ out, reciprocal 2 2 [9, 9, 9, 9, 9, 9] [4, 2, 3, 4, 5, 6] = .ok out ∧ SameTo 2 (polyOf 2 2 [4, 2, 3, 4, 5, 6] * polyOf 2 2 out) 1 := by
  obtain ⟨out, e1, -, e2⟩ := (C71_divide u 1 2 [4, 2, 3, 4, 5, 6] (by rw [terms_length]; decide) [4, 2, 3, 4, 5, 6] [9, 9, 9, 9, 9, 9] (by rw [terms_length]; decide)
    (by rw [terms_length]; decide) (by norm_num) 1).2.2.2
  exact ⟨out, e1, e2⟩

example (u : ℕ → ℝ) : ∃ r, shift u 1 2 1 [1, 2, 3] [7, 7] 5 = .ok r ∧ r.length = 2 ∧ IsTaylor (fun y => ∑ m ∈ range 3, [1, 2, 3].getD m 0 * y ^ m) 5 1 (r.getD · 0) :=
  C71_shift u 2 1 (by norm_num) (by norm_num) [1, 2, 3] [7, 7] rfl rfl 5

/-- A quadratic expansion of a linear polynomial is refused. -/
example (u : ℕ → ℝ) : shift u 1 1 2 [1, 2] [7, 7, 7] 5 = .die := C71_shift_refused u 1 1 2 _ _ _ (.inr (by norm_num))

/-- The solver at -3, to third order. -/
example (u : ℕ → ℝ) : ∃ t, Tay.brTaylor u 3 (-3) = .ok t ∧ t.length = 4 := by
  obtain ⟨t, e1, e2, -⟩ := C72_series u 3 (by norm_num) (-3)
  exact ⟨t, e1, e2⟩

end XCFun.Props
