/-
C71: arithmetic and elementary functions of Taylor expansions in several variables (taylor.hpp, taylor_math.hpp).
-/
import Verif.Proofs.TaylorMore
import Verif.Props.Polymul
import Mathlib.Analysis.SpecialFunctions.Integrals.Basic

namespace XCFun.Props
open XCFun Spec Polymul Tay MvPolynomial Finset

theorem fit_iff {n N : ℕ} {t : List ℝ} : t.length = (terms n N).length ↔ Fit n N t := by rw [terms_length]; rfl

theorem isExpansion {n N : ℕ} {f : ℝ → ℝ} {t : List ℝ} {o : Outcome (List ℝ)} (h : Gives n N f t o) : IsExpansion n N f t o := by
  obtain ⟨out, e1, e2, e3⟩ := h
  exact ⟨out, e1, fit_iff.2 e2, e3⟩

section
variable (u : ℕ → ℝ) (n N : ℕ) (t : List ℝ) (ht : t.length = (terms (n + 1) N).length)
include ht

/-! ## What an expansion is -/

omit ht in
/-- **C71, uniqueness.** The condition on the results determines every coefficient: two arrays with the derivatives of `f` of the same expansion along every line are equal. -/
theorem C71_unique (f : ℝ → ℝ) (a b : List ℝ) (ha : IsExpansion (n + 1) N f t (.ok a)) (hb : IsExpansion (n + 1) N f t (.ok b)) : a = b := by
  obtain ⟨_, ⟨⟩, a2, a3⟩ := ha
  obtain ⟨_, ⟨⟩, b2, b3⟩ := hb
  exact list_of_same (fit_iff.1 a2) (fit_iff.1 b2) (expands_unique a3 b3)

/-! ## Arithmetic -/

/-- **C71, a number.** Assigning a number leaves the constant. -/
theorem C71_assign (c0 : ℝ) : ∃ out, assign (n + 1) N c0 t = .ok out ∧ out.length = t.length ∧ polyOf (n + 1) N out = C c0 := by
  obtain ⟨out, e1, e2, e3⟩ := assign_run (fit_iff.1 ht) c0
  exact ⟨out, e1, by rw [fit_iff.2 e2, ht], polyOf_const e2 e3⟩

omit ht in
/-- **C71, a variable.** The constructor gives `c0 + value * X_var`, for degree zero only the constant; a variable that does not exist is refused. -/
theorem C71_variable (v : ℕ) (c0 x : ℝ) :
    (v < n + 1 → ∃ out, mkVar u (n + 1) N c0 v x = .ok out ∧ out.length = (terms (n + 1) N).length ∧ polyOf (n + 1) N out = C c0 + if N = 0 then 0 else C x * X v) ∧
      (n + 1 ≤ v → mkVar u (n + 1) N c0 v x = .die) := by
  constructor
  · intro hv
    obtain ⟨out, e1, e2, e3⟩ := mkVar_run u (N := N) hv c0 x
    exact ⟨out, e1, fit_iff.2 e2, e3⟩
  · intro hv
    obtain ⟨c, e1, -, -⟩ := assign_run (fit_fresh u (n + 1) N) c0
    rw [mkVar, e1, Outcome.ok_bind, Tay.assert, if_neg (by omega)]; rfl

/-- **C71, with numbers.** Negation, and product, quotient, sum and difference with a number. -/
theorem C71_numbers (x : ℝ) :
    (∃ out, neg (n + 1) N t = .ok out ∧ out.length = t.length ∧ polyOf (n + 1) N out = -polyOf (n + 1) N t) ∧
    (∃ out, scale (n + 1) N x t = .ok out ∧ out.length = t.length ∧ polyOf (n + 1) N out = C x * polyOf (n + 1) N t) ∧
    (∃ out, scalarMul u (n + 1) N x t = .ok out ∧ out.length = t.length ∧ polyOf (n + 1) N out = C x * polyOf (n + 1) N t) ∧
    (∃ out, divScalar (n + 1) N x t = .ok out ∧ out.length = t.length ∧ polyOf (n + 1) N out = C (1 / x) * polyOf (n + 1) N t) ∧
    (∃ out, overScalar (n + 1) N t x = .ok out ∧ out.length = t.length ∧ polyOf (n + 1) N out = C (1 / x) * polyOf (n + 1) N t) ∧
    (∃ out, addScalar t x = .ok out ∧ out.length = t.length ∧ polyOf (n + 1) N out = polyOf (n + 1) N t + C x) ∧
    (∃ out, subScalar t x = .ok out ∧ out.length = t.length ∧ polyOf (n + 1) N out = polyOf (n + 1) N t - C x) ∧
    (∃ out, scalarSub (n + 1) N x t = .ok out ∧ out.length = t.length ∧ polyOf (n + 1) N out = C x - polyOf (n + 1) N t) := by
  have hf := fit_iff.1 ht
  have len : ∀ {o : List ℝ}, Fit (n + 1) N o → o.length = t.length := fun h => by rw [fit_iff.2 h, ht]
  have sc : ∀ x : ℝ, ∃ out, scale (n + 1) N x t = .ok out ∧ out.length = t.length ∧ polyOf (n + 1) N out = C x * polyOf (n + 1) N t := fun x =>
    ⟨_, scale_run hf x, by simp, polyOf_scale hf x⟩
  have hn : neg (n + 1) N t = .ok (t.map (· * -1)) := scale_run hf (-1)
  have hnf : Fit (n + 1) N (t.map (· * -1)) := by rw [Fit, List.length_map, hf]
  have hn2 : polyOf (n + 1) N (t.map (· * -1)) = -polyOf (n + 1) N t := by rw [polyOf_scale hf]; simp
  refine ⟨⟨_, hn, by simp, hn2⟩, sc x, ⟨_, scalarMul_run u hf x, len (fit_range _ _ _), polyOf_smul hf (fit_range _ _ _) x fun i hi => by rw [at_map hi, mul_comm]⟩,
    ⟨t.map (· / x), ?_, by simp, ?_⟩, sc (1 / x), ?_, ?_, ?_⟩
  · rw [divScalar, polylen_nat, ← hf, updLoop_all]
  · rw [← polyOf_scale hf]; congr 1; exact List.map_congr_left fun a _ => by ring
  · obtain ⟨out, e1, e2, e3⟩ := addScalar_run hf x
    exact ⟨out, e1, len e2, e3⟩
  · obtain ⟨out, e1, e2, e3⟩ := subScalar_run hf x
    exact ⟨out, e1, len e2, e3⟩
  · obtain ⟨out, e1, e2, e3⟩ := addScalar_run hnf x
    exact ⟨out, by rw [scalarSub, hn, Outcome.ok_bind, e1], len e2, by rw [e3, hn2]; ring⟩

/-- **C71, sums and products.** Sum and difference are those of the polynomials, the product (as a new object or in place, also with a factor of another degree) is theirs up to degree
`N`. -/
theorem C71_ring (t2 t3 : List ℝ) (M : ℕ) (h2 : t2.length = (terms (n + 1) N).length) (h3 : t3.length = (terms (n + 1) M).length) :
    (∃ out, add u (n + 1) N t t2 = .ok out ∧ out.length = t.length ∧ polyOf (n + 1) N out = polyOf (n + 1) N t + polyOf (n + 1) N t2) ∧
    (∃ out, zip (· + ·) (n + 1) N t t t2 = .ok out ∧ out.length = t.length ∧ polyOf (n + 1) N out = polyOf (n + 1) N t + polyOf (n + 1) N t2) ∧
    (∃ out, sub u (n + 1) N t t2 = .ok out ∧ out.length = t.length ∧ polyOf (n + 1) N out = polyOf (n + 1) N t - polyOf (n + 1) N t2) ∧
    (∃ out, zip (· - ·) (n + 1) N t t t2 = .ok out ∧ out.length = t.length ∧ polyOf (n + 1) N out = polyOf (n + 1) N t - polyOf (n + 1) N t2) ∧
    (∃ out, mul u (n + 1) N t t2 = .ok out ∧ out.length = t.length ∧ SameTo N (polyOf (n + 1) N out) (polyOf (n + 1) N t * polyOf (n + 1) N t2)) ∧
    (∃ out, mulBy (n + 1) N M t t3 = .ok out ∧ out.length = t.length ∧ SameTo N (polyOf (n + 1) N out) (polyOf (n + 1) N t * polyOf (n + 1) M t3)) := by
  have hf := fit_iff.1 ht
  have hf2 := fit_iff.1 h2
  have hu := fit_fresh u (n + 1) N
  have len : ∀ {o : List ℝ}, Fit (n + 1) N o → o.length = t.length := fun h => by rw [fit_iff.2 h, ht]
  refine ⟨?_, ?_, ?_, ?_, ?_, ?_⟩
  · obtain ⟨out, e1, e2, e3⟩ := add_run hu hf hf2; exact ⟨out, e1, len e2, e3⟩
  · obtain ⟨out, e1, e2, e3⟩ := add_run hf hf hf2; exact ⟨out, e1, len e2, e3⟩
  · obtain ⟨out, e1, e2, e3⟩ := sub_run hu hf hf2; exact ⟨out, e1, len e2, e3⟩
  · obtain ⟨out, e1, e2, e3⟩ := sub_run hf hf hf2; exact ⟨out, e1, len e2, e3⟩
  · obtain ⟨out, e1, e2, e3⟩ := mul_run u hf hf2; exact ⟨out, e1, len e2, e3⟩
  · obtain ⟨out, e1, e2, e3, e4⟩ := taylormulIn_run (V := ℝ) hf.ge (fit_iff.1 h3).ge
    exact ⟨out, e1, e2, e3⟩

/-- **C71, dot.** The sum of the products of the coefficients. -/
theorem C71_dot (t2 : List ℝ) (h2 : t2.length = (terms (n + 1) N).length) : dot (n + 1) N t t2 = .ok (List.zipWith (· * ·) t t2).sum := by
  rw [dot_run (fit_iff.1 ht) (fit_iff.1 h2)]
  congr 1
  rw [terms_length] at ht h2
  have : List.zipWith (· * ·) t t2 = (List.range (L (n + 1) N)).map fun i => at' t i * at' t2 i := by
    refine List.ext_getElem (by simp [ht, h2]) fun i i1 i2 => ?_
    simp at i1
    simp [at', List.getD_eq_getElem?_getD, i1.1, i1.2]
  rw [this, Finset.sum_range_induction _ (fun k => ((List.range k).map fun i => at' t i * at' t2 i).sum) rfl]
  intro k _
  simp [List.range_succ]

/-! ## Composition, stretching, integration, shift -/

/-- **C71, composition.** `compose(coeff)` and the form with a destination: the terms up to the degree of the result of `∑ coeff_j (P - P_0)^j`; a result of lower degree than the expansion
is refused. -/
theorem C71_compose (res c : List ℝ) (hr : res.length = (terms (n + 1) N).length) (hc : c.length = N + 1) :
    ∃ out, compose (n + 1) N t res c = .ok out ∧ out.length = t.length ∧
      SameTo N (polyOf (n + 1) N out) (∑ j ∈ range (N + 1), C (c.getD j 0) * (polyOf (n + 1) N t - C (t.getD 0 0)) ^ j) := by
  obtain ⟨out, e1, e2, e3⟩ := compose_fit (fit_iff.1 ht) (fit_iff.1 hr) (fit_one.2 hc)
  rw [compSum, coeff_zero (fit_iff.1 ht).ge] at e3
  exact ⟨out, e1, by rw [fit_iff.2 e2, ht], e3⟩

/-- **C71, composition to a higher degree.** -/
theorem C71_compose_to (M : ℕ) (c : List ℝ) (hc : c.length = M + 1) :
    (N ≤ M → ∃ out, composeTo u (n + 1) N M t c = .ok out ∧ out.length = (terms (n + 1) M).length ∧
      SameTo M (polyOf (n + 1) M out) (∑ j ∈ range (M + 1), C (c.getD j 0) * (polyOf (n + 1) N t - C (t.getD 0 0)) ^ j)) ∧
    (M < N → composeTo u (n + 1) N M t c = .die) := by
  have hf := fit_iff.1 ht
  constructor
  · intro hM
    have hL : 0 < t.length := by rw [hf]; exact L_pos _ _
    have hs : Fit (n + 1) N (t.set 0 0) := by rw [Fit, List.length_set, hf]
    obtain ⟨out, e1, e2, e3⟩ := C68_compose0 n M N (Tay.fresh u (polylen (n + 1 : ℕ) M)) (t.set 0 0) c (by rw [fit_iff.2 (fit_fresh u (n + 1) M)]) (by rw [fit_iff.2 hs])
      (by have := at_set t hL (0 : ℝ) 0; rw [if_pos rfl] at this; exact this) hc.ge
    have hp : polyOf (n + 1) N (t.set 0 0) = polyOf (n + 1) N t - C (t.getD 0 0) := by
      have := polyOf_set hf.ge (-at' t 0)
      rw [add_neg_cancel, C_neg, ← sub_eq_add_neg] at this
      exact this
    rw [hp] at e2
    exact ⟨out, by rw [composeTo, assert_ok hM, Outcome.ok_bind, wrBuf_ok hL, Outcome.ok_bind, e1], by rw [e3.1, fit_iff.2 (fit_fresh u (n + 1) M)], e2⟩
  · intro hM
    rw [composeTo, Tay.assert, if_neg (by omega)]; rfl

/-- **C71, stretching.** `stretch(α)` replaces every variable by `α` times the variable, `invert_parity` changes their signs, as long as the sizes fit into `int`. -/
theorem C71_stretch (h1 : (n + 1) * (terms (n + 1) N).length < 2 ^ 31) (h2 : n + 1 + N < 2 ^ 31) (α : ℝ) :
    (∃ out, stretch (n + 1) N α t = .ok out ∧ out.length = t.length ∧ ∀ v, eval v (polyOf (n + 1) N out) = eval (fun i => α * v i) (polyOf (n + 1) N t)) ∧
    (∃ out, invertParity (n + 1) N t = .ok out ∧ out.length = t.length ∧ ∀ v, eval v (polyOf (n + 1) N out) = eval (fun i => -v i) (polyOf (n + 1) N t)) := by
  have hf := fit_iff.1 ht
  rw [terms_length] at h1
  have key : ∀ α : ℝ, ∃ out, stretch (n + 1) N α t = .ok out ∧ out.length = t.length ∧ ∀ v, eval v (polyOf (n + 1) N out) = eval (fun i => α * v i) (polyOf (n + 1) N t) := fun α => by
    obtain ⟨out, e1, e2, e3⟩ := stretch_run h1 h2 hf α
    exact ⟨out, e1, by rw [fit_iff.2 e2, ht], eval_stretch hf e2 e3⟩
  refine ⟨key α, ?_⟩
  obtain ⟨out, e1, e2, e3⟩ := key (-1)
  exact ⟨out, e1, e2, fun v => by rw [e3]; simp⟩

omit ht in
/-- **C71, integration.** In one variable, `integrate` gives the antiderivative that vanishes at zero, without the term of degree `N + 1`; in several variables it is refused. -/
theorem C71_integrate (c : List ℝ) (hc : c.length = N + 1) :
    (∃ out, integrate 1 N c = .ok out ∧ out.length = N + 1 ∧ ∀ x : ℝ, ∑ i ∈ range (N + 1), out.getD i 0 * x ^ i = ∫ s in (0 : ℝ)..x, ∑ i ∈ range N, c.getD i 0 * s ^ i) ∧
      (n ≠ 1 → integrate n N c = .die) := by
  constructor
  · obtain ⟨out, e1, e2, e3⟩ := integrate_run (fit_one.2 hc)
    refine ⟨out, e1, fit_one.1 e2, fun x => ?_⟩
    rw [intervalIntegral.integral_finsetSum fun i _ => (Continuous.intervalIntegrable (by fun_prop) _ _), Finset.sum_range_succ']
    have z := e3 0 (Nat.zero_le _)
    rw [if_pos rfl] at z
    rw [show out.getD 0 0 = 0 from z, zero_mul, add_zero]
    refine Finset.sum_congr rfl fun i hi => ?_
    have hi := Finset.mem_range.1 hi
    rw [show out.getD (i + 1) 0 = at' out (i + 1) from rfl, e3 (i + 1) (by omega), if_neg (by omega), intervalIntegral.integral_const_mul, integral_pow, Nat.add_sub_cancel]
    simp only [at']
    push_cast
    field_simp
    simp
  · intro hn
    rw [integrate, Tay.assert, if_neg hn]; rfl

omit ht in
/-- **C71, shift.** In one variable, `shift` gives the Taylor coefficients of the polynomial at another point, up to any degree `M ≤ N`, as long as the binomials fit into `int` (`N ≤ 28`). -/
theorem C71_shift (M : ℕ) (hM : M ≤ N) (hN : N ≤ 28) (c out : List ℝ) (hc : c.length = N + 1) (ho : out.length = M + 1) (dx : ℝ) :
    ∃ r, shift u 1 N M c out dx = .ok r ∧ r.length = M + 1 ∧ IsTaylor (fun y => ∑ m ∈ range (N + 1), c.getD m 0 * y ^ m) dx M (r.getD · 0) := by
  obtain ⟨r, e1, e2, e3⟩ := shift_run u hM (choose_bound (K := N) (by interval_cases N <;> decide)) (by omega) (fit_one.2 hc) (fit_one.2 ho) dx
  refine ⟨r, e1, fit_one.1 e2, fun k hk => ?_⟩
  exact (e3 k hk).trans (shift_isTaylor hM (at' c) dx k hk)

omit ht in
/-- **C71, shift.** For another number of variables or a higher degree than that of the polynomial an assertion stops the program. -/
theorem C71_shift_refused (n M : ℕ) (c out : List ℝ) (dx : ℝ) (h : n ≠ 1 ∨ N < M) : shift u n N M c out dx = .die := by
  rw [shift]
  by_cases hn : n = 1
  · have hM : ¬ M ≤ N := by omega
    simp [Tay.assert, hn, hM]
  · simp [Tay.assert, hn]

end

end XCFun.Props
