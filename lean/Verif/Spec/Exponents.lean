/-
Derivatives by exponents.
-/
import Verif.Spec.Layout

namespace XCFun.Spec

/-- How often the derivative is taken with respect to each of the `n` inputs, when it is taken with respect to the inputs listed in `t`. -/
def exponents (n : ℕ) (t : List ℕ) : List ℕ := (List.range n).map fun i => t.count i

/-- All non-decreasing lists of length `k` over an alphabet given in increasing order, in lexicographic order. -/
def multisets : List ℕ → ℕ → List (List ℕ)
  | _, 0 => [[]]
  | [], _ + 1 => []
  | a :: al, k + 1 => (multisets (a :: al) k).map (a :: ·) ++ multisets al (k + 1)

end XCFun.Spec
