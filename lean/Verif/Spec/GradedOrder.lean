/-
The graded reverse lexicographic order of the power products in `n` variables, as in the page the documentation of the library links to
(docs/using.rst:227-228).  Nothing here refers to the model of the code.
-/
import Mathlib.Algebra.BigOperators.Group.Finset.Basic

namespace XCFun.Spec

/-- `x^a < x^b` in the graded reverse lexicographic order with `x_0 > x_1 > … > x_(n-1)`: the degree is smaller, or it is equal and the last exponent that differs is larger. -/
def GrevLt (n : ℕ) (a b : ℕ → ℕ) : Prop :=
  ∑ i ∈ Finset.range n, a i < ∑ i ∈ Finset.range n, b i ∨
    ∑ i ∈ Finset.range n, a i = ∑ i ∈ Finset.range n, b i ∧ ∃ i < n, b i < a i ∧ ∀ j < n, i < j → a j = b j

/-- How often each variable occurs in `t`, the variables numbered from the last to the first. -/
def fromLast (n : ℕ) (t : List ℕ) (i : ℕ) : ℕ := t.count (n - 1 - i)

end XCFun.Spec
