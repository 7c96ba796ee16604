/-
Linear changes of variables.
-/
import Verif.Spec.Polymul

namespace XCFun.Spec
open MvPolynomial

variable {V : Type} [CommSemiring V]

/-- The linear combination `T_0i y_0 + T_1i y_1 + ...` of `n'` new variables for the old variable `i`; the array holds `T_00, T_10, T_20, ...`, then `T_01, T_11, ...`. -/
noncomputable def linForm (n' : ℕ) (T : List V) (i : ℕ) : MvPolynomial ℕ V := ∑ k ∈ Finset.range n', C (T.getD (i * n' + k) 0) * X k

end XCFun.Spec
