/-
The recursion `ctaylor_rec` of external/upstream/taylor/ctaylor.hpp, at the level of
the memory it works on: every pointer argument is an address, and a function is a
map from memory to memory.  The specialisations for 0, 1 and 2 variables are separate
cases, as in the source.  Overlap of the pointer arguments is not excluded: whatever
the statements do in order is what the model does.
-/
import Mathlib.Algebra.Ring.Defs

namespace XCFun

variable {V : Type*}

/-- Memory cells of type `T` (the class template's scalar), addressed by numbers.
    Modelled: the arrays `T c[size]` (ctaylor.hpp:156) and the temporaries
    `T tmp[Nvar + 1]` all live in one address space. -/
abbrev Mem (V : Type*) := ℕ → V

/-- One store `*(p) = v` (ctaylor.hpp:86 and everywhere below). -/
def Mem.wr (m : Mem V) (p : ℕ) (v : V) : Mem V := fun q => if q = p then v else m q

section
variable [Add V] [Mul V]

/-- `ctaylor_rec<T,Nvar>::mul`: add `x*y` to `dst`.
    ctaylor.hpp:43-47 (three and more variables), 86 (none), 95-98 (one),
    119-124 (two). -/
def recMul : ℕ → ℕ → ℕ → ℕ → Mem V → Mem V
  | 0, dst, x, y, m => m.wr dst (m dst + m x * m y)
  | 1, dst, x, y, m =>
    let m := m.wr dst (m dst + m x * m y)
    m.wr (dst + 1) (m (dst + 1) + (m x * m (y + 1) + m (x + 1) * m y))
  | 2, dst, x, y, m =>
    let m := m.wr dst (m dst + m x * m y)
    let m := m.wr (dst + 1) (m (dst + 1) + (m x * m (y + 1) + m (x + 1) * m y))
    let m := m.wr (dst + 2) (m (dst + 2) + (m x * m (y + 2) + m (x + 2) * m y))
    m.wr (dst + 3) (m (dst + 3) + (m x * m (y + 3) + m (x + 3) * m y +
      m (x + 1) * m (y + 2) + m (x + 2) * m (y + 1)))
  | n + 3, dst, x, y, m =>
    let h := 2 ^ (n + 2)
    let m := recMul (n + 2) dst x y m
    let m := recMul (n + 2) (dst + h) (x + h) y m
    recMul (n + 2) (dst + h) x (y + h) m

/-- `ctaylor_rec<T,Nvar>::mul_set`: set `dst = x*y`.
    ctaylor.hpp:49-53 (three and more variables), 87 (none), 99-102 (one),
    125-130 (two). -/
def recMulSet : ℕ → ℕ → ℕ → ℕ → Mem V → Mem V
  | 0, dst, x, y, m => m.wr dst (m x * m y)
  | 1, dst, x, y, m =>
    let m := m.wr dst (m x * m y)
    m.wr (dst + 1) (m x * m (y + 1) + m (x + 1) * m y)
  | 2, dst, x, y, m =>
    let m := m.wr dst (m x * m y)
    let m := m.wr (dst + 1) (m x * m (y + 1) + m (x + 1) * m y)
    let m := m.wr (dst + 2) (m x * m (y + 2) + m (x + 2) * m y)
    m.wr (dst + 3) (m x * m (y + 3) + m (x + 3) * m y +
      m (x + 1) * m (y + 2) + m (x + 2) * m (y + 1))
  | n + 3, dst, x, y, m =>
    let h := 2 ^ (n + 2)
    let m := recMulSet (n + 2) dst x y m
    let m := recMulSet (n + 2) (dst + h) (x + h) y m
    recMul (n + 2) (dst + h) x (y + h) m

/-- `ctaylor_rec<T,Nvar>::multo`: `dst = dst * y` in place.
    ctaylor.hpp:55-59 (three and more variables), 88 (none), 103-106 (one),
    131-136 (two). -/
def recMulto : ℕ → ℕ → ℕ → Mem V → Mem V
  | 0, dst, y, m => m.wr dst (m dst * m y)
  | 1, dst, y, m =>
    let m := m.wr (dst + 1) (m (dst + 1) * m y + m dst * m (y + 1))
    m.wr dst (m dst * m y)
  | 2, dst, y, m =>
    let m := m.wr (dst + 3) (m dst * m (y + 3) + m (dst + 3) * m y +
      m (dst + 1) * m (y + 2) + m (dst + 2) * m (y + 1))
    let m := m.wr (dst + 2) (m dst * m (y + 2) + m (dst + 2) * m y)
    let m := m.wr (dst + 1) (m dst * m (y + 1) + m (dst + 1) * m y)
    m.wr dst (m dst * m y)
  | n + 3, dst, y, m =>
    let h := 2 ^ (n + 2)
    let m := recMulto (n + 2) (dst + h) y m
    let m := recMul (n + 2) (dst + h) dst (y + h) m
    recMulto (n + 2) dst y m

/-- `ctaylor_rec<T,Nvar>::multo_skipconst`: `dst = dst * (y - y[0])` in place.
    ctaylor.hpp:61-65 (three and more variables), 89 (none), 107-110 (one),
    137-142 (two). -/
def recMultoSkip [Zero V] : ℕ → ℕ → ℕ → Mem V → Mem V
  | 0, dst, _, m => m.wr dst 0
  | 1, dst, y, m =>
    let m := m.wr (dst + 1) (m dst * m (y + 1))
    m.wr dst 0
  | 2, dst, y, m =>
    let m := m.wr (dst + 3) (m dst * m (y + 3) + m (dst + 1) * m (y + 2) +
      m (dst + 2) * m (y + 1))
    let m := m.wr (dst + 2) (m dst * m (y + 2))
    let m := m.wr (dst + 1) (m dst * m (y + 1))
    m.wr dst 0
  | n + 3, dst, y, m =>
    let h := 2 ^ (n + 2)
    let m := recMultoSkip (n + 2) (dst + h) y m
    let m := recMul (n + 2) (dst + h) dst (y + h) m
    recMultoSkip (n + 2) dst y m

/-- `ctaylor_rec<T,Nvar>::eval`: the polynomial at the point `x`.
    ctaylor.hpp:68-71 (three and more variables), 90 (none), 111 (one), 143-145 (two). -/
def recEval : ℕ → ℕ → ℕ → Mem V → V
  | 0, ct, _, m => m ct
  | 1, ct, x, m => m ct + m x * m (ct + 1)
  | 2, ct, x, m =>
    m ct + m x * m (ct + 1) + m (x + 1) * m (ct + 2) + m (x + 1) * m x * m (ct + 3)
  | n + 3, ct, x, m =>
    recEval (n + 2) ct x m + m (x + (n + 2)) * recEval (n + 2) (ct + 2 ^ (n + 2)) x m

/-- The clearing loop `for (i = 1; i < count; i++) res[i] = 0` (ctaylor.hpp:76-77). -/
def recClear [Zero V] (res : ℕ) : ℕ → Mem V → Mem V
  | 0, m => m
  | k + 1, m => (recClear res k m).wr (res + 1 + k) 0

/-- The loop `for (i = k - 1; i >= 0; i--)` of `compose` (ctaylor.hpp:78-81). -/
def recHorner [Zero V] (nvar res x coeff : ℕ) : ℕ → Mem V → Mem V
  | 0, m => m
  | i + 1, m =>
    let m := recMultoSkip nvar res x m
    let m := m.wr res (m res + m (coeff + i))
    recHorner nvar res x coeff i m

/-- `ctaylor_rec<T,Nvar>::compose`: `res = sum_i coeff[i]*(x - x[0])^i`.
    ctaylor.hpp:74-82 (three and more variables), 91 (none), 112-115 (one),
    146-151 (two; the literal `2` is `1 + 1` here). -/
def recCompose [Zero V] [One V] : ℕ → ℕ → ℕ → ℕ → Mem V → Mem V
  | 0, res, _, coeff, m => m.wr res (m coeff)
  | 1, res, x, coeff, m =>
    let m := m.wr res (m coeff)
    m.wr (res + 1) (m (coeff + 1) * m (x + 1))
  | 2, res, x, coeff, m =>
    let m := m.wr res (m coeff)
    let m := m.wr (res + 1) (m (coeff + 1) * m (x + 1))
    let m := m.wr (res + 2) (m (coeff + 1) * m (x + 2))
    m.wr (res + 3) (m (coeff + 1) * m (x + 3) +
      (1 + 1) * m (x + 1) * m (x + 2) * m (coeff + 2))
  | n + 3, res, x, coeff, m =>
    let m := m.wr res (m (coeff + (n + 3)))
    let m := recClear res (2 ^ (n + 3) - 1) m
    recHorner (n + 3) res x coeff (n + 3) m

end
end XCFun
