import Verif.Model.Outcome

/-!
# `taylorlen`
-/

namespace XCFun

/-- Largest 32-bit `int`. -/
def INT_MAX : Int := 2147483647
/-- Smallest 32-bit `int`. -/
def INT_MIN : Int := -2147483648

/-- A 32-bit `int` result: out of range is signed overflow, i.e. undefined behaviour. -/
def int32 (x : Int) : Outcome Int :=
  if INT_MIN ≤ x ∧ x ≤ INT_MAX then .ok x else .ub

/-- Body of the loop of `taylorlen`, `external/upstream/taylor/taylor.hpp:8-11`: started at `k` with `steps`
iterations to go.  `len *= ndeg + k; len /= k;` with C++ truncating division. -/
def taylorlenLoop (ndeg : Int) : Nat → Int → Int → Outcome Int
  | 0, _, len => .ok len
  | steps + 1, k, len => do
    let s ← int32 (ndeg + k)
    let p ← int32 (len * s)
    taylorlenLoop ndeg steps (k + 1) (p.tdiv k)

/-- `taylorlen(nvar, ndeg)`, `external/upstream/taylor/taylor.hpp:6-13`. -/
def taylorlen (nvar ndeg : Int) : Outcome Int :=
  taylorlenLoop ndeg nvar.toNat 1 1

end XCFun
