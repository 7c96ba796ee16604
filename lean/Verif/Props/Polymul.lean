/-
C68: multiplication and composition of polynomials in several variables (polymul.hpp).
-/
import Verif.Proofs.PolymulCompose
import Mathlib.Data.Real.Basic

namespace XCFun.Props
open XCFun Spec Polymul MvPolynomial Finset

theorem terms_length (n N : ℕ) : (terms n N).length = L n N := by rw [terms_eq]; simp

theorem drop_eq {V : Type} [CommSemiring V] {k : ℕ} {a b : List V} (hl : a.length = b.length) (h : ∀ i, k ≤ i → at' a i = at' b i) : a.drop k = b.drop k := by
  refine List.ext_getElem (by simp [hl]) fun i h1 h2 => ?_
  rw [List.length_drop] at h1 h2
  have := h (k + i) (by omega)
  rw [List.getElem_drop, List.getElem_drop]
  simpa [at', List.getD_eq_getElem?_getD, show k + i < a.length by omega, show k + i < b.length by omega] using this

section
variable {V : Type} [CommSemiring V]

/-! ## Sizes -/

/-- **C68, sizes.** `polylen<Nvar, Ndeg>` counts the terms, and there are (Nvar + Ndeg) choose Ndeg of them. -/
theorem C68_size (n N : ℕ) : polylen n N = (terms n N).length ∧ (terms n N).length = (n + N).choose N := ⟨by rw [terms_length, polylen_nat], terms_length n N⟩

/-! ## Products -/

/-- **C68, full product.** Any number of variables, any two degrees, any arrays at least as long as needed: `polymul` writes the coefficients of the product, reads and
writes nothing else. -/
theorem C68_polymul (n N1 N2 : ℕ) (dst p1 p2 : List V) (h : (terms (n + 1) (N1 + N2)).length ≤ dst.length) (h1 : (terms (n + 1) N1).length ≤ p1.length)
    (h2 : (terms (n + 1) N2).length ≤ p2.length) :
    ∃ out, polymul (n + 1) N1 N2 dst p1 p2 = .ok out ∧ polyOf (n + 1) (N1 + N2) out = polyOf (n + 1) N1 p1 * polyOf (n + 1) N2 p2 ∧
      out.length = dst.length ∧ out.drop (terms (n + 1) (N1 + N2)).length = dst.drop (terms (n + 1) (N1 + N2)).length := by
  simp only [terms_length] at *
  obtain ⟨out, e1, e2, e3, e4⟩ := polymul_run h h1 h2
  exact ⟨out, e1, eq_of_conv h1 h2 (by omega) e3, e2, drop_eq e2 e4⟩

/-- **C68, truncated product.** `taylormul(dst, p1, p2)` writes the terms of the product up to the degree of the factors. -/
theorem C68_taylormul (n N : ℕ) (dst p1 p2 : List V) (h : (terms (n + 1) N).length ≤ dst.length) (h1 : (terms (n + 1) N).length ≤ p1.length)
    (h2 : (terms (n + 1) N).length ≤ p2.length) :
    ∃ out, taylormul (n + 1) N dst p1 p2 = .ok out ∧ SameTo N (polyOf (n + 1) N out) (polyOf (n + 1) N p1 * polyOf (n + 1) N p2) ∧
      out.length = dst.length ∧ out.drop (terms (n + 1) N).length = dst.drop (terms (n + 1) N).length := by
  simp only [terms_length] at *
  obtain ⟨out, e1, e2, e3, e4⟩ := taylormul_run le_rfl h h1 h2
  exact ⟨out, e1, same_of_conv h1 h2 (by omega) e3, e2, drop_eq e2 e4⟩

/-- **C68, product in place.** `taylormul(p1, p2)` overwrites the first factor by the truncated product, for a second factor of any degree, lower or higher. -/
theorem C68_taylormul_in_place (n N N2 : ℕ) (p1 p2 : List V) (h1 : (terms (n + 1) N).length ≤ p1.length) (h2 : (terms (n + 1) N2).length ≤ p2.length) :
    ∃ out, taylormulIn (n + 1) N N2 p1 p2 = .ok out ∧ SameTo N (polyOf (n + 1) N out) (polyOf (n + 1) N p1 * polyOf (n + 1) N2 p2) ∧
      out.length = p1.length ∧ out.drop (terms (n + 1) N).length = p1.drop (terms (n + 1) N).length := by
  simp only [terms_length] at *
  obtain ⟨out, e1, e2, e3, e4⟩ := taylormulIn_run h1 h2
  exact ⟨out, e1, e3, e2, drop_eq e2 e4⟩

/-! ## Composition -/

/-- **C68, composition without constant term.** `taylorcompose0` with an inner polynomial that has no constant term writes the terms up to degree `N` of
`∑ c_j P^j`. -/
theorem C68_compose0 (n N Np : ℕ) (dst p c : List V) (h : (terms (n + 1) N).length ≤ dst.length) (hp : (terms (n + 1) Np).length ≤ p.length) (hp0 : p.getD 0 0 = 0)
    (hc : N + 1 ≤ c.length) :
    ∃ out, taylorcompose0 (n + 1) N Np dst p c = .ok out ∧
      SameTo N (polyOf (n + 1) N out) (∑ j ∈ range (N + 1), C (c.getD j 0) * polyOf (n + 1) Np p ^ j) ∧
      out.length = dst.length ∧ out.drop (terms (n + 1) N).length = dst.drop (terms (n + 1) N).length := by
  simp only [terms_length] at *
  obtain ⟨out, e1, e2, e3, e4⟩ := compose0_run hp hp0 N 0 (c := c) (by omega) h
  exact ⟨out, e1, by simpa only [series, Nat.zero_add, at'] using e3, e2, drop_eq e2 e4⟩

/-- **C68, composition.** `taylorcompose` with any inner polynomial writes the terms up to degree `N` of `∑ c_j P^j`. -/
theorem C68_compose (n N Np : ℕ) (dst p c : List V) (h : (terms (n + 1) N).length ≤ dst.length) (hp : (terms (n + 1) Np).length ≤ p.length)
    (hc : N + 1 ≤ c.length) :
    ∃ out, taylorcompose (n + 1) N Np dst p c = .ok out ∧
      SameTo N (polyOf (n + 1) N out) (∑ j ∈ range (N + 1), C (c.getD j 0) * polyOf (n + 1) Np p ^ j) ∧
      out.length = dst.length ∧ out.drop (terms (n + 1) N).length = dst.drop (terms (n + 1) N).length := by
  simp only [terms_length] at *
  obtain ⟨out, e1, e2, e3, e4⟩ := taylorcompose_run hp (c := c) (by omega) h
  exact ⟨out, e1, by simpa only [series, Nat.zero_add, at'] using e3, e2, drop_eq e2 e4⟩

end

/-! ## Where it fails -/

/-- **C68, a factor that is its own destination.** `t *= t`: the square of `2 + x` to first order is `4 + 4x`, the code leaves `4 + 6x`. -/
theorem C68_square_in_place_fails : taylormulSelf 1 1 [(2 : ℤ), 1] = .ok [4, 6] ∧
    ¬ ∃ out, taylormulSelf 1 1 [(2 : ℤ), 1] = .ok out ∧ SameTo 1 (polyOf 1 1 out) (polyOf 1 1 [(2 : ℤ), 1] * polyOf 1 1 [(2 : ℤ), 1]) := by
  have hr : taylormulSelf 1 1 [(2 : ℤ), 1] = .ok [4, 6] := by rfl
  refine ⟨hr, ?_⟩
  rintro ⟨out, e, h⟩
  rw [hr] at e
  cases e
  have h1 := h (fs (term 1 1)) (by rw [fs_degree, term_one]; simp)
  rw [coeff_term (by decide) (by decide), coeff_mul_term (by decide) (by decide)] at h1
  revert h1
  simp [at', conv, L, Finset.sum_range_succ, term_one]

/-- **C68, the hypothesis on the constant term.** `5 + y` at `y = 1 + x` is `6 + x`; `taylorcompose0`, which the code only calls without constant term, gives `5 + x`. -/
theorem C68_compose0_needs_no_constant : taylorcompose0 1 1 1 [0, 0] [(1 : ℤ), 1] [5, 1] = .ok [5, 1] ∧ taylorcompose 1 1 1 [0, 0] [(1 : ℤ), 1] [5, 1] = .ok [6, 1] :=
  ⟨rfl, rfl⟩

/-! ## Cases -/

/-- `(1 + 2x + 3y)(4 + 5x + 6y)` -/
example : polymul 2 1 1 [0, 0, 0, 0, 0, 0] [(1 : ℤ), 2, 3] [4, 5, 6] = .ok [4, 13, 18, 10, 27, 18] := by rfl

/-- The same to first order, in both ways. -/
example : taylormul 2 1 [0, 0, 0] [(1 : ℤ), 2, 3] [4, 5, 6] = .ok [4, 13, 18] ∧ taylormulIn 2 1 1 [(1 : ℤ), 2, 3] [4, 5, 6] = .ok [4, 13, 18] := ⟨rfl, rfl⟩

/-- `1 + P + P²` with `P = x + 2y`, to second order -/
example : taylorcompose0 2 2 1 [7, 7, 7, 7, 7, 7] [(0 : ℤ), 1, 2] [1, 1, 1] = .ok [1, 1, 2, 1, 4, 4] := by rfl

/-- `1 + P + P²` with `P = 1 + x + 2y`, to second order -/
example : taylorcompose 2 2 1 [7, 7, 7, 7, 7, 7] [(1 : ℤ), 1, 2] [1, 1, 1] = .ok [3, 3, 6, 1, 4, 4] := by rfl

/-- Terms of degree two in three variables. -/
example : terms 3 2 = [[0, 0, 0], [1, 0, 0], [0, 1, 0], [0, 0, 1], [2, 0, 0], [1, 1, 0], [1, 0, 1], [0, 2, 0], [0, 1, 1], [0, 0, 2]] := by
  simp [terms, List.range_succ, multisets, Spec.exponents]

/-- The first order polynomial with coefficients 5, 6, 7. -/
example : polyOf 2 1 [(5 : ℤ), 6, 7] = C 5 + C 6 * X 0 + C 7 * X 1 := by
  have : terms 2 1 = [[0, 0], [1, 0], [0, 1]] := by simp [terms, List.range_succ, multisets, Spec.exponents]
  rw [polyOf, this]
  simp [power, Finset.prod_range_succ]; ring

/-- A fresh array of the right size meets the hypotheses, in three variables and degrees 2 and 4. -/
example (p1 p2 : List ℝ) (h1 : p1.length = 10) (h2 : p2.length = 35) :
    ∃ out, polymul 3 2 4 (List.replicate 84 0) p1 p2 = .ok out ∧ polyOf 3 6 out = polyOf 3 2 p1 * polyOf 3 4 p2 := by
  obtain ⟨out, e1, e2, _⟩ := C68_polymul 2 2 4 (List.replicate 84 0) p1 p2 (by rw [terms_length, List.length_replicate]; decide) (by rw [terms_length, h1]; decide)
    (by rw [terms_length, h2]; decide)
  exact ⟨out, e1, e2⟩

end XCFun.Props
