/-
Taylor coefficients, from the iterated derivative.
-/
import Mathlib.Analysis.Calculus.IteratedDeriv.Defs

namespace XCFun.Spec
open scoped Nat

/-- `c 0 ... c N` are the Taylor coefficients of `f` at `x0`. -/
def IsTaylor (f : ℝ → ℝ) (x0 : ℝ) (N : ℕ) (c : ℕ → ℝ) : Prop :=
  ∀ k ≤ N, c k = iteratedDeriv k f x0 / k !

end XCFun.Spec
