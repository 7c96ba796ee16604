/-
The documented layout of the output of partial-derivative mode and the seeds of a
differentiation run.
-/
import Verif.Model.CT

namespace XCFun.Spec
open XCFun

universe u
variable {V : Type u}

/-- Pairs `i <= j < n` in lexicographic order. -/
def pairs (n : ℕ) : List (ℕ × ℕ) :=
  (List.range n).flatMap fun i => (List.range' i (n - i)).map fun j => (i, j)

/-- Triples `i <= j <= k < n` in lexicographic order. -/
def triples (n : ℕ) : List (ℕ × ℕ × ℕ) :=
  (List.range n).flatMap fun i => (List.range' i (n - i)).flatMap fun j =>
    (List.range' j (n - j)).map fun k => (i, j, k)

/-- The output of partial-derivative mode for `n` inputs: the energy, the first derivatives,
    the second derivatives for `i <= j`, the third derivatives for `i <= j <= k`, as far as
    the order asks for them. -/
def layout (n order : ℕ) (e : V) (d1 : ℕ → V) (d2 : ℕ → ℕ → V) (d3 : ℕ → ℕ → ℕ → V) : List V :=
  [e] ++ (if 1 ≤ order then (List.range n).map d1 else [])
    ++ (if 2 ≤ order then (pairs n).map (fun p => d2 p.1 p.2) else [])
    ++ (if 3 ≤ order then (triples n).map (fun p => d3 p.1 p.2.1 p.2.2) else [])

/-- Closed-form position of the second derivative `(i, j)`, `i <= j < n`. -/
def pos2 (n i j : ℕ) : ℕ := 1 + n + (i * (2 * n - i + 1) / 2 + (j - i))

/-- Closed-form position of the third derivative `(i, j, k)`, `i <= j <= k < n`: the triples
    starting with a smaller index are `C(n+2,3) - C(n-i+2,3)`. -/
def pos3 (n i j k : ℕ) : ℕ :=
  1 + n + n * (n + 1) / 2 + ((n * (n + 1) * (n + 2) - (n - i) * (n - i + 1) * (n - i + 2)) / 6 +
    ((j - i) * (2 * (n - i) - (j - i) + 1) / 2 + (k - j)))

/-- `1` at the perturbed input, `0` elsewhere. -/
def unit [Zero V] [One V] (o : Option ℕ) (l : ℕ) : V := if o = some l then 1 else 0

/-- Inputs `x` with one perturbation: `VAR0` on input `i`. -/
def seed1 [Zero V] [One V] (x : ℕ → V) (i : Option ℕ) (l : ℕ) : CT V 1 :=
  .node (.leaf (x l)) (.leaf (unit i l))

/-- Inputs `x` with `VAR0` on input `i` and `VAR1` on input `j`. -/
def seed2 [Zero V] [One V] (x : ℕ → V) (i j : Option ℕ) (l : ℕ) : CT V 2 :=
  .node (.node (.leaf (x l)) (.leaf (unit i l))) (.node (.leaf (unit j l)) (.leaf 0))

/-- Inputs `x` with `VAR0` on input `i`, `VAR1` on input `j` and `VAR2` on input `k`. -/
def seed3 [Zero V] [One V] (x : ℕ → V) (i j k : Option ℕ) (l : ℕ) : CT V 3 :=
  .node (seed2 x i j l) (.node (.node (.leaf (unit k l)) (.leaf 0)) (.node (.leaf 0) (.leaf 0)))

end XCFun.Spec
