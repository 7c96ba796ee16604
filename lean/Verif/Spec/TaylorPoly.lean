/-
Functions of polynomials in several variables, to a given order.
-/
import Verif.Spec.Polymul
import Verif.Model.Eval
import Mathlib.Algebra.MvPolynomial.Eval
import Mathlib.Analysis.Calculus.IteratedDeriv.Defs

namespace XCFun.Spec
open MvPolynomial

/-- Along every line through the origin, the polynomial `q` has the value and the derivatives up to order `N` that `f` of the polynomial `p` has. -/
def Expands (N : ℕ) (f : ℝ → ℝ) (p q : MvPolynomial ℕ ℝ) : Prop :=
  ∀ v : ℕ → ℝ, ∀ k ≤ N, iteratedDeriv k (fun s => eval (fun i => s * v i) q) 0 = iteratedDeriv k (fun s => f (eval (fun i => s * v i) p)) 0

/-- The outcome is an array of coefficients for `n` variables and degree `N`, and its polynomial is `f` of the polynomial with coefficients `t` to order `N`. -/
def IsExpansion (n N : ℕ) (f : ℝ → ℝ) (t : List ℝ) (o : Outcome (List ℝ)) : Prop :=
  ∃ out, o = .ok out ∧ out.length = (terms n N).length ∧ Expands N f (polyOf n N t) (polyOf n N out)

end XCFun.Spec
