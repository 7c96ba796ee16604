/-
Mixed directional derivatives of a function at a point, arranged as a multilinear
expansion.
-/
import Verif.Model.CT
import Mathlib.Analysis.Calculus.FDeriv.Basic

namespace XCFun.Spec
open XCFun

variable {E : Type*} [NormedAddCommGroup E] [NormedSpace ℝ E]

/-- Derivative of `f` in the direction `d`, as a function of the point. -/
noncomputable def dirDeriv (d : E) (f : E → ℝ) : E → ℝ := fun y => fderiv ℝ f y d

/-- All derivatives of `f` at `x` along subsets of the directions `d 0, ..., d (N-1)`;
    variable `k` of the expansion (bit `k` of the coefficient index) stands for `d k`. -/
noncomputable def jet (d : ℕ → E) (x : E) : (N : ℕ) → (E → ℝ) → CT ℝ N
  | 0, f => .leaf (f x)
  | N + 1, f => .node (jet d x N f) (jet d x N (dirDeriv (d N) f))

end XCFun.Spec
