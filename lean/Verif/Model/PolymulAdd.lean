/-
The products of external/upstream/taylor/polymul.hpp that add to their destination, and `mul_monomial_set`.  Nothing in the library calls them directly; the
conventions are those of Polymul.lean.
-/
import Verif.Model.Polymul

namespace XCFun.Polymul
open XCFun

variable {V : Type} [Add V] [Mul V]

/-- `polynomial_multiplier<T, Nvar, Ndeg1, Ndeg2>::mul(dst, p1, p2)` (polymul.hpp:222-230 and its specialisations, see `mul`) -/
def polymulAdd (n N1 N2 : ℕ) (dst p1 p2 : List V) : Outcome (List V) := run (fun _ => p1) (fun _ => p2) (mul n N1 N2) dst

/-- `taylor_multiplier<T, Nvar, Ndeg1, Ndeg2>::mul` (polymul.hpp:557-563, 575-580) for `Ndeg2 ≤ Ndeg1` -/
def taylorMul (n N1 : ℕ) : ℕ → List Op
  | 0 => (List.range (polylen n N1)).map fun i => .add i i 0
  | N2 + 1 => (mulMonomial n (N1 - (N2 + 1)) (N2 + 1)).map (Op.shift 0 0 (polylen n N2)) ++ taylorMul n N1 N2

/-- `taylor_multiplier<T, Nvar, Ndeg, Ndeg>::mul(dst, p1, p2)` (polymul.hpp:557-563) -/
def taylormulAdd (n N : ℕ) (dst p1 p2 : List V) : Outcome (List V) := run (fun _ => p1) (fun _ => p2) (taylorMul n N N) dst

/-- `polynomial_multiplier<T, Nvar, Ndeg1, Ndeg2>::mul_monomial_set`: no variable polymul.hpp:348-352, one variable 309-314 (`i < Ndeg1`), for `Ndeg1 = 0` 430-437
and 538-542; more variables 256-261, for `Ndeg1 = 0` 386-393, for `Ndeg2 = 0` 472-477, for both 507-511. -/
def mulMonomialSet : ℕ → ℕ → ℕ → List Op
  | 0, _, _ => [.fail]
  | 1, 0, N2 => [.set N2 0 0]
  | 1, N1 + 1, N2 => (List.range (N1 + 1)).map fun i => .set (i + N2) i 0
  | _ + 2, 0, 0 => [.set 0 0 0]
  | n + 2, 0, N2 + 1 =>
    (List.range' (polylen (n + 2) N2) (polylen (n + 2) (N2 + 1) - polylen (n + 2) N2)).map fun i => .set i 0 (i - polylen (n + 2) N2)
  | n + 2, N1 + 1, 0 => (List.range (polylen (n + 2) (N1 + 1))).map fun i => .set i i 0
  | _ + 2, _ + 1, _ + 1 => [.fail]

/-- `mul_monomial_set(dst, p1, m2)`: `m2` holds the terms of degree `Ndeg2`. -/
def monomialSet (n N1 N2 : ℕ) (dst p1 m2 : List V) : Outcome (List V) := run (fun _ => p1) (fun _ => m2) (mulMonomialSet n N1 N2) dst

end XCFun.Polymul
