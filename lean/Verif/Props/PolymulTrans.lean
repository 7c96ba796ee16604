/-
C77: linear change of variables and the second evaluation of polynomials in several variables (polymul.hpp).
-/
import Verif.Props.Polymul
import Verif.Proofs.PolymulNewEval

namespace XCFun.Props
open XCFun Spec Polymul MvPolynomial Finset

section
variable {V : Type} [CommSemiring V]

/-! ## Change of variables -/

/-- **C77, change of variables.** For any numbers of old and new variables, any degree, any matrix, and whatever the destination and the local array held before:
`polytrans` writes the coefficients of the polynomial in which each old variable is replaced by its linear combination of new ones, and nothing else. -/
theorem C77_polytrans (n' n N : ℕ) (tmp dst src T : List V) (ht : (terms (n' + 1) N).length ≤ tmp.length) (hd : (terms (n' + 1) N).length ≤ dst.length)
    (hs : (terms (n + 1) N).length ≤ src.length) (hT : (n' + 1) * (n + 1) ≤ T.length) :
    ∃ out, polytrans (n' + 1) (n + 1) N tmp dst src T = .ok out ∧ polyOf (n' + 1) N out = aeval (linForm (n' + 1) T) (polyOf (n + 1) N src) ∧
      out.length = dst.length ∧ out.drop (terms (n' + 1) N).length = dst.drop (terms (n' + 1) N).length := by
  simp only [terms_length] at *
  obtain ⟨out, e1, e2, e3, e4⟩ := polytrans_ok ht hd hs hT
  exact ⟨out, e1, e4, e2, drop_eq e2 e3⟩

/-- **C77, values.** The new polynomial at `y` is the old one at `x_i = T_0i y_0 + T_1i y_1 + …`. -/
theorem C77_polytrans_value (n' n N : ℕ) (tmp dst src T : List V) (ht : (terms (n' + 1) N).length ≤ tmp.length) (hd : (terms (n' + 1) N).length ≤ dst.length)
    (hs : (terms (n + 1) N).length ≤ src.length) (hT : (n' + 1) * (n + 1) ≤ T.length) (y : ℕ → V) :
    ∃ out, polytrans (n' + 1) (n + 1) N tmp dst src T = .ok out ∧
      MvPolynomial.eval y (polyOf (n' + 1) N out) = MvPolynomial.eval (fun i => ∑ k ∈ range (n' + 1), T.getD (i * (n' + 1) + k) 0 * y k) (polyOf (n + 1) N src) := by
  obtain ⟨out, e1, e2, -, -⟩ := C77_polytrans n' n N tmp dst src T ht hd hs hT
  refine ⟨out, e1, ?_⟩
  rw [e2]
  generalize polyOf (n + 1) N src = P
  induction P using MvPolynomial.induction_on with
  | C a => rw [aeval_C, eval_C]; exact eval_C a
  | add p q hp hq => rw [map_add, map_add, map_add, hp, hq]
  | mul_X p i hp =>
    rw [map_mul, map_mul, map_mul, hp, aeval_X, eval_X, linForm, map_sum]
    congr 1
    exact Finset.sum_congr rfl fun k _ => by rw [map_mul, eval_C, eval_X]

/-! ## Evaluation -/

/-- **C77, evaluation.** Whatever the work array held before, `new_evaluator` gives the value of the polynomial if the operands of each sum are evaluated from left to
right. -/
theorem C77_new_evaluator (n N : ℕ) (tmp p x : List V) (ht : N + 2 ≤ tmp.length) (hp : (terms (n + 1) (N + 2)).length ≤ p.length) (hx : n + 1 ≤ x.length) :
    newEval .leftToRight (n + 1) (N + 2) tmp p x = .ok (MvPolynomial.eval (fun i => x.getD i 0) (polyOf (n + 1) (N + 2) p)) := by
  rw [terms_length] at hp
  exact newEval_ok ht hp hx

end

/-- **C77, order of evaluation.** With the operands evaluated from right to left, which C++ allows as well, the result is wrong: for the polynomial x in two variables at
(2, 3) it is 3. -/
theorem C77_new_evaluator_order : ∃ tmp p x : List ℤ, tmp.length = 2 ∧ p.length = (terms 2 2).length ∧ x.length = 2 ∧
    newEval .rightToLeft 2 2 tmp p x = .ok 3 ∧ newEval .leftToRight 2 2 tmp p x = .ok 2 :=
  ⟨[0, 0], [0, 1, 0, 0, 0, 0], [2, 3], rfl, by rw [terms_length]; rfl, rfl, rfl, rfl⟩

/-! ## Examples -/

/-- 1 + 2 x + 3 y + 4 xx + 5 xy + 6 yy with x = u + 2 v, y = 3 u + 5 v -/
example : polytrans 2 2 2 [7, 7, 7, 7, 7, 7] [9, 9, 9, 9, 9, 9, 8] [1, 2, 3, 4, 5, 6] ([1, 2, 3, 5] : List ℤ) = .ok [1, 11, 19, 73, 251, 216, 8] := by rfl

example (y : ℕ → ℤ) : ∃ out, polytrans 2 2 2 [7, 7, 7, 7, 7, 7] [9, 9, 9, 9, 9, 9, 8] [1, 2, 3, 4, 5, 6] ([1, 2, 3, 5] : List ℤ) = .ok out ∧
    MvPolynomial.eval y (polyOf 2 2 out) =
      MvPolynomial.eval (fun i => ∑ k ∈ range 2, ([1, 2, 3, 5] : List ℤ).getD (i * 2 + k) 0 * y k) (polyOf 2 2 [1, 2, 3, 4, 5, 6]) :=
  C77_polytrans_value 1 1 2 _ _ _ _ (by rw [terms_length]; decide) (by rw [terms_length]; decide) (by rw [terms_length]; decide) (by decide) y

/-- From two variables to one, of degree 3. -/
example : polytrans 1 2 3 [7, 7, 7, 7] [9, 9, 9, 9] [1, 2, 3, 4, 5, 6, 1, 1, 1, 1] ([2, 3] : List ℤ) = .ok [1, 13, 100, 65] := by rfl

/-- 1 + 2·2 + 3·3 + 4·2·2 + 5·2·3 + 6·3·3 -/
example : newEval .leftToRight 2 2 [7, 7] [1, 2, 3, 4, 5, 6] ([2, 3] : List ℤ) = .ok 114 := by rfl

example : newEval .leftToRight 2 2 [7, 7] [1, 2, 3, 4, 5, 6] ([2, 3] : List ℤ) =
    .ok (MvPolynomial.eval (fun i => ([2, 3] : List ℤ).getD i 0) (polyOf 2 2 [1, 2, 3, 4, 5, 6])) :=
  C77_new_evaluator 1 0 _ _ _ (by decide) (by rw [terms_length]; decide) (by decide)

end XCFun.Props
