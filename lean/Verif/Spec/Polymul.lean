/-
Polynomials in several variables as stored by polymul.hpp.
-/
import Verif.Spec.Exponents
import Mathlib.Algebra.MvPolynomial.Basic
import Mathlib.Data.Finsupp.Weight

namespace XCFun.Spec

/-- Exponents of the terms of a polynomial of degree `N` in `n` variables in the order in which they are stored: by degree, and within a degree as in xx, xy, xz, yy,
yz, zz. -/
def terms (n N : ℕ) : List (List ℕ) := (List.range (N + 1)).flatMap fun k => (multisets (List.range n) k).map (exponents n)

/-- Position of the entry with indices `e` in a closely packed array `a[K][K]…[K]`. -/
def packed (K : ℕ) (e : List ℕ) : ℕ := e.foldl (fun a x => a * K + x) 0

open MvPolynomial

variable {V : Type} [CommSemiring V]

/-- The power product with given exponents. -/
noncomputable def power (e : List ℕ) : MvPolynomial ℕ V := ∏ i ∈ Finset.range e.length, X i ^ e.getD i 0

/-- The polynomial of degree `N` in `n` variables with the given array of coefficients. -/
noncomputable def polyOf (n N : ℕ) (c : List V) : MvPolynomial ℕ V := ((terms n N).zipWith (fun e a => C a * power e) c).sum

/-- The two polynomials have the same terms of degree at most `N`. -/
def SameTo (N : ℕ) (p q : MvPolynomial ℕ V) : Prop := ∀ m : ℕ →₀ ℕ, m.degree ≤ N → p.coeff m = q.coeff m

end XCFun.Spec
