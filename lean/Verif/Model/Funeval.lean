/-
The table printed by examples/C_host/funeval.c.

The program around it is in Verif/Model/CHost.lean.  The entries of `m` are natural numbers without bound: they start at 0, never exceed the
order of the derivative plus one, and are decremented only where they are positive.
-/
import Verif.Model.Eval

namespace XCFun

variable {V : Type}

/-- Assignment `m[a] = x` -/
def setAt (m : ℕ → ℕ) (a x : ℕ) : ℕ → ℕ := fun i => if i = a then x else m i

/-- funeval.c:43-48, the loop `for (i = nvar - 2; i >= 0; i--)` with its `break`; the first argument is `i + 1`. -/
def addToLast : ℕ → (ℕ → ℕ) → ℕ → ℕ → ℕ
  | 0, m, _ => m
  | i + 1, m, c => if 0 < m i then setAt m i (m i + c) else addToLast i m c

/-- funeval.c:25-51, `next_exponents`.  For `nvar = 0` the function reads `m[-1]`. -/
def nextExponents : ℕ → (ℕ → ℕ) → Outcome (ℕ → ℕ)
  | 0, _ => .ub
  | 1, m => .ok (setAt m 0 (m 0 + 1))
  | n + 2, m =>
    let k := (List.range (n + 1)).foldl (fun k i => k + m i) 0
    if k = 0 then .ok (setAt (setAt m 0 (m (n + 1) + 1)) (n + 1) 0)
    else if 0 < m n then
      let m := setAt m (n + 1) (m (n + 1) + 1)
      .ok (setAt m n (m n - 1))
    else do
      let m ← nextExponents (n + 1) m
      let m := addToLast (n + 1) m (m (n + 1))
      .ok (setAt m (n + 1) 0)

/-- funeval.c:150-155, the loop over the output; a line of the table is the contents of `m` and the value. -/
def printLines (nvar : ℕ) : List V → (ℕ → ℕ) → Outcome (List (List ℕ × V))
  | [], _ => .ok []
  | x :: out, m => do
    let m' ← nextExponents nvar m
    let rest ← printLines nvar out m'
    .ok (((List.range nvar).map m, x) :: rest)

/-- funeval.c:146-155, `m` is uninitialised memory before. -/
def printTable (nvar : ℕ) (out : List V) (m : ℕ → ℕ) : Outcome (List (List ℕ × V)) :=
  printLines nvar out ((List.range nvar).foldl (fun m i => setAt m i 0) m)

end XCFun
