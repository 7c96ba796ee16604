/-
The parts of external/upstream/taylor/taylor.hpp that look at the coefficients without computing: `pick_order` and the comparisons with numbers.  Nothing in the
library calls `pick_order`.
-/
import Verif.Model.TaylorClass

namespace XCFun.Tay
open XCFun Polymul

noncomputable section

/-- `pick_order<N>(p)` of a `taylor<T, n, Ndeg>` (taylor.hpp:60-63): the array from `c + polylen<n, N - 1>::len` on taken as a `taylor<T, n - 1, N>`.  Reading past the
end is `ub`; that the cast itself has no defined meaning in C++ is not modelled. -/
def pickOrderTo (n N : ℕ) (c : List ℝ) : Outcome (List ℝ) :=
  if polylen n ((N : ℤ) - 1) + polylen (n - 1) N ≤ c.length then .ok ((c.drop (polylen n ((N : ℤ) - 1))).take (polylen (n - 1) N)) else .ub

/-- `pick_order<N>()` (taylor.hpp:50-59); of the reference that is returned only the coefficients behind it are modelled -/
def pickOrder (n Ndeg N : ℕ) (c : List ℝ) : Outcome (List ℝ) := do
  assert (N ≤ Ndeg)
  pickOrderTo n N c

open scoped Classical in
/-- `x < t` (taylor.hpp:207-210), which is `t > x` (222-225) -/
def numLt (x : ℝ) (t : List ℝ) : Outcome Bool := do
  let c ← rdBuf t 0
  .ok (decide (x < c))

open scoped Classical in
/-- `t < x` (taylor.hpp:217-220), which is `x > t` (212-215) -/
def ltNum (t : List ℝ) (x : ℝ) : Outcome Bool := do
  let c ← rdBuf t 0
  .ok (decide (c < x))

open scoped Classical in
/-- `t != x` (taylor.hpp:227-230) -/
def neNum (t : List ℝ) (x : ℝ) : Outcome Bool := do
  let c ← rdBuf t 0
  .ok (decide (c ≠ x))

end
end XCFun.Tay
