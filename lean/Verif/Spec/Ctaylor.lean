/-
What a `ctaylor` value means, stated without the recursion of the code: coefficient
number `i` belongs to the product of those variables whose bit is set in `i`, all
variables square to zero.
-/
import Mathlib.Algebra.BigOperators.Group.Finset.Basic
import Mathlib.Algebra.BigOperators.Ring.Finset
import Mathlib.Algebra.BigOperators.Intervals

namespace XCFun.Spec

/-- Coefficient `i` of the product: split the set of bits of `i` in all ways into a
    part taken from the left factor and the rest taken from the right factor. -/
def subsetProduct {V : Type*} [AddCommMonoid V] [Mul V] (n : ℕ) (x y : ℕ → V) (i : ℕ) : V :=
  ∑ j ∈ Finset.range (2 ^ n), ∑ k ∈ Finset.range (2 ^ n),
    if j &&& k = 0 ∧ j ||| k = i then x j * y k else 0

/-- The monomial of coefficient `i` at the point `t`: the product of the variables
    whose bit is set. -/
def monomial {V : Type*} [CommMonoid V] (n i : ℕ) (t : ℕ → V) : V :=
  ∏ b ∈ Finset.range n, if i.testBit b then t b else 1

end XCFun.Spec
