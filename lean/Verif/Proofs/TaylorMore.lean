/-
Variables, sums and uniqueness for the expansions of taylor.hpp.
-/
import Verif.Proofs.TaylorBR
import Mathlib.Algebra.MvPolynomial.Funext
import Mathlib.RingTheory.MvPolynomial.Homogeneous

namespace XCFun.Tay
open XCFun Spec Polymul

/-! ### Variables -/

theorem term_var {n v : ℕ} (h : v < n) : fs (term n (v + 1)) = Finsupp.single v 1 := by
  induction n generalizing v with
  | zero => omega
  | succ n ih =>
    have hs : st (n + 1) 1 = 1 := by rw [st, L, add_zero, Nat.choose_zero_right]
    have hL : v < L n 1 := by rw [L, Nat.choose_one_right]; omega
    have e := term_split hL
    rw [hs, add_comm 1 v] at e
    rw [e]
    ext j
    rw [fs_apply]
    cases v with
    | zero =>
      rw [term_zero, List.sum_replicate, smul_zero, Nat.sub_zero]
      cases j with
      | zero => simp
      | succ j =>
        rw [Finsupp.single_eq_of_ne (by omega), List.getD_cons_succ, List.getD_eq_getElem?_getD, List.getElem?_replicate]
        split <;> rfl
    | succ v =>
      have hi := ih (v := v) (by omega)
      have hsum : (term n (v + 1)).sum = 1 := by rw [← fs_degree, hi, Finsupp.degree_single]
      rw [hsum, Nat.sub_self]
      cases j with
      | zero => rw [List.getD_cons_zero, Finsupp.single_eq_of_ne (by omega)]
      | succ j =>
        rw [List.getD_cons_succ, ← fs_apply, hi]
        rw [Finsupp.single_apply, Finsupp.single_apply]
        exact if_congr (by omega) rfl rfl

theorem var_lt {n N v : ℕ} (h : v < n) (hN : 0 < N) : v + 1 < L n N := by
  have h1 : L n 1 ≤ L n N := L_mono n hN
  rw [L, Nat.choose_one_right] at h1
  omega

theorem mkVar_run (u : ℕ → ℝ) {n N v : ℕ} (hv : v < n + 1) (c0 x : ℝ) : ∃ out, mkVar u (n + 1) N c0 v x = .ok out ∧ Fit (n + 1) N out ∧
    polyOf (n + 1) N out = MvPolynomial.C c0 + if N = 0 then 0 else MvPolynomial.C x * MvPolynomial.X v := by
  obtain ⟨c, e1, e2, e3⟩ := assign_run (fit_fresh u (n + 1) N) c0
  rw [mkVar, e1, Outcome.ok_bind, assert_ok hv, Outcome.ok_bind]
  by_cases hN : N = 0
  · rw [if_neg (by omega), if_pos hN]
    exact ⟨c, rfl, e2, by rw [polyOf_const e2 e3, add_zero]⟩
  · have hl := var_lt hv (N := N) (by omega)
    have hc : v + 1 < c.length := by rw [e2]; exact hl
    have hF : Fit (n + 1) N (c.set (v + 1) x) := by rw [Fit, List.length_set, e2]
    rw [if_pos (by omega), if_neg hN, wrBuf_ok hc]
    refine ⟨_, rfl, hF, ?_⟩
    rw [polyOf_eq hF.ge, ← Finset.sum_subset (s₁ := {0, v + 1}) (fun i hi => by
        rw [Finset.mem_insert, Finset.mem_singleton] at hi
        rw [Finset.mem_range]; rcases hi with rfl | rfl <;> omega) (fun i _ hi => by
        rw [Finset.mem_insert, Finset.mem_singleton, not_or] at hi
        rw [at_set _ hc, if_neg hi.2, e3, if_neg hi.1, map_zero]), Finset.sum_pair (by omega), at_set _ hc, at_set _ hc, if_neg (by omega), if_pos rfl, e3, if_pos rfl, fs_zero, term_var hv]
    rw [MvPolynomial.X, MvPolynomial.C_mul_monomial, mul_one]
    rfl

/-! ### Sums -/

theorem polyOf_zip {n N : ℕ} {a b : List ℝ} (ha : Fit n N a) (hb : Fit n N b) (x y : ℝ) :
    polyOf n N ((List.range (L n N)).map fun i => x * at' a i + y * at' b i) = MvPolynomial.C x * polyOf n N a + MvPolynomial.C y * polyOf n N b := by
  rw [polyOf_eq (fit_range n N _).ge, polyOf_eq ha.ge, polyOf_eq hb.ge, Finset.mul_sum, Finset.mul_sum, ← Finset.sum_add_distrib]
  refine Finset.sum_congr rfl fun i hi => ?_
  rw [at_map (Finset.mem_range.1 hi), map_add, MvPolynomial.C_mul_monomial, MvPolynomial.C_mul_monomial]

theorem add_run {n N : ℕ} {dst a b : List ℝ} (h : Fit n N dst) (ha : Fit n N a) (hb : Fit n N b) :
    ∃ out, zip (· + ·) n N dst a b = .ok out ∧ Fit n N out ∧ polyOf n N out = polyOf n N a + polyOf n N b := by
  refine ⟨_, zip_run _ h ha hb, fit_range _ _ _, ?_⟩
  have := polyOf_zip ha hb 1 1
  simpa using this

theorem sub_run {n N : ℕ} {dst a b : List ℝ} (h : Fit n N dst) (ha : Fit n N a) (hb : Fit n N b) :
    ∃ out, zip (· - ·) n N dst a b = .ok out ∧ Fit n N out ∧ polyOf n N out = polyOf n N a - polyOf n N b := by
  refine ⟨_, zip_run _ h ha hb, fit_range _ _ _, ?_⟩
  have := polyOf_zip ha hb 1 (-1)
  simpa [← sub_eq_add_neg] using this

theorem dot_run {n N : ℕ} {a b : List ℝ} (ha : Fit n N a) (hb : Fit n N b) : dot n N a b = .ok (∑ i ∈ Finset.range (L n N), at' a i * at' b i) := by
  obtain ⟨s, e1, e2⟩ := forLoop_inv (body := fun i sum => do
    let x ← rdBuf a i
    let y ← rdBuf b i
    .ok (sum + x * y)) (fun i s => s = ∑ j ∈ Finset.range i, at' a j * at' b j) (L n N) 0 0 rfl (by
    rintro i s - hi rfl
    rw [rd_at (by rw [ha]; omega), Outcome.ok_bind, rd_at (by rw [hb]; omega), Outcome.ok_bind]
    exact ⟨_, rfl, by rw [Finset.sum_range_succ]⟩)
  rw [dot, polylen_nat, e1, e2, Nat.zero_add]

/-! ### Uniqueness -/

theorem line_component (v : ℕ → ℝ) (p : MvPolynomial ℕ ℝ) (k : ℕ) : (line v p).coeff k = MvPolynomial.eval v (MvPolynomial.homogeneousComponent k p) := by
  induction p using MvPolynomial.induction_on' with
  | monomial m a =>
    rw [line_monomial, Polynomial.coeff_C_mul, Polynomial.coeff_X_pow, MvPolynomial.homogeneousComponent_apply]
    by_cases h : k = m.degree
    · rw [if_pos h, mul_one]
      by_cases ha : a = 0
      · simp [ha]
      · rw [MvPolynomial.support_monomial, if_neg ha, Finset.sum_filter, Finset.sum_singleton, if_pos h.symm, MvPolynomial.coeff_monomial, if_pos rfl, MvPolynomial.eval_monomial]
    · rw [if_neg h, mul_zero, Finset.sum_eq_zero, map_zero]
      intro m' hm'
      rw [Finset.mem_filter] at hm'
      have := MvPolynomial.support_monomial_subset hm'.1
      rw [Finset.mem_singleton] at this
      exact absurd (this ▸ hm'.2).symm h
  | add p q hp hq => rw [map_add, map_add, map_add, Polynomial.coeff_add, hp, hq]

theorem same_of_lines {N : ℕ} {p q : MvPolynomial ℕ ℝ} (h : ∀ v : ℕ → ℝ, ∀ k ≤ N, (line v p).coeff k = (line v q).coeff k) : SameTo N p q := by
  intro m hm
  have e : MvPolynomial.homogeneousComponent m.degree p = MvPolynomial.homogeneousComponent m.degree q :=
    MvPolynomial.funext fun v => by rw [← line_component, ← line_component, h v _ hm]
  have := congrArg (MvPolynomial.coeff m) e
  rwa [MvPolynomial.coeff_homogeneousComponent, MvPolynomial.coeff_homogeneousComponent, if_pos rfl, if_pos rfl] at this

theorem expands_unique {N : ℕ} {f : ℝ → ℝ} {p q r : MvPolynomial ℕ ℝ} (hq : Expands N f p q) (hr : Expands N f p r) : SameTo N q r := by
  refine same_of_lines fun v k hk => ?_
  have := (hq v k hk).trans (hr v k hk).symm
  simp only [eval_line, iteratedDeriv_poly_zero] at this
  have hk : ((k.factorial : ℕ) : ℝ) ≠ 0 := by exact_mod_cast k.factorial_ne_zero
  exact mul_left_cancel₀ hk this

theorem list_of_same {n N : ℕ} {a b : List ℝ} (ha : Fit (n + 1) N a) (hb : Fit (n + 1) N b) (h : SameTo N (polyOf (n + 1) N a) (polyOf (n + 1) N b)) : a = b := by
  have key : ∀ i < L (n + 1) N, at' a i = at' b i := fun i hi => by
    have := h (fs (term (n + 1) i)) (by rw [fs_degree]; exact term_sum_le hi)
    rwa [coeff_term ha.ge hi, coeff_term hb.ge hi] at this
  rw [list_eq (c := a) (F := at' a) fun _ _ => rfl, list_eq (c := b) (F := at' b) fun _ _ => rfl, ha, hb]
  exact List.map_congr_left fun i hi => key i (List.mem_range.1 hi)

end XCFun.Tay
