/-
The class `ctaylor<T,Nvar>` at the level of values: an object is the tree of its
coefficient array, split as the recursion of `ctaylor_rec` splits it.
-/
import Mathlib.Algebra.Ring.Defs
import Verif.Model.CTMem

namespace XCFun

universe u
variable {V : Type u}

/-- A value of type `ctaylor<V,n>` (ctaylor.hpp:154-156).  `node lo hi` is the array
    whose first half `lo` holds the terms free of the last variable and whose second
    half `hi` holds the terms with it (ctaylor.hpp:23-30). -/
inductive CT (V : Type u) : ℕ → Type u
  | leaf (c : V) : CT V 0
  | node {n : ℕ} (lo hi : CT V n) : CT V (n + 1)

namespace CT

/-- The array stored at an address, as a value: cells `f 0 ... f (2^n-1)`
    (ctaylor.hpp:154-156). -/
def ofFn : (n : ℕ) → (ℕ → V) → CT V n
  | 0, f => leaf (f 0)
  | n + 1, f => node (ofFn n f) (ofFn n fun i => f (2 ^ n + i))

/-- `get(i)`, i.e. `c[i]` (ctaylor.hpp:250-261).  For `i` outside the array
    (excluded by the assertions at 251-252) the value is that of some cell and is
    never used by a theorem. -/
def get : {n : ℕ} → CT V n → ℕ → V
  | _, leaf c, _ => c
  | _, @node _ n lo hi, i => if i < 2 ^ n then lo.get i else hi.get (i - 2 ^ n)

/-- `set(i, value)`, i.e. `c[i] = value` (ctaylor.hpp:241-249), for `i` in range. -/
def set : {n : ℕ} → CT V n → ℕ → V → CT V n
  | _, leaf _, _, v => leaf v
  | _, @node _ n lo hi, i, v =>
    if i < 2 ^ n then node (lo.set i v) hi else node lo (hi.set (i - 2 ^ n) v)

/-- `c[0]` (ctaylor.hpp:250-261 with `CNST`; read directly in the comparisons
    385-418 and in ctaylor_math.hpp). -/
def c0 : {n : ℕ} → CT V n → V
  | _, leaf c => c
  | _, node lo _ => lo.c0

/-- Overwrite `c[0]` (ctaylor.hpp:241-249 with `i = 0`; `c[0] += x` in 312-313). -/
def setC0 : {n : ℕ} → CT V n → V → CT V n
  | _, leaf _, v => leaf v
  | _, node lo hi, v => node (lo.setC0 v) hi

/-- Coefficient by coefficient, one argument: the loops of ctaylor.hpp:263-277
    (negation), 314-325 (scaling), 420-452 (scalar products). -/
def map {W : Type u} (f : V → W) : {n : ℕ} → CT V n → CT W n
  | _, leaf c => leaf (f c)
  | _, node lo hi => node (lo.map f) (hi.map f)

/-- Coefficient by coefficient, two arguments: the loops of ctaylor.hpp:278-311
    (`-=`, `+=`). -/
def zip (f : V → V → V) : {n : ℕ} → CT V n → CT V n → CT V n
  | _, leaf a, leaf b => leaf (f a b)
  | _, node a b, node c d => node (a.zip f c) (b.zip f d)

/-- The constant `c0` (constructor ctaylor.hpp:179-187, assignment 210-219). -/
def const [Zero V] : (n : ℕ) → V → CT V n
  | 0, c => leaf c
  | n + 1, c => node (const n c) (const n 0)

/-- Addition (ctaylor.hpp:295-311, 468-474). -/
instance [Add V] {n : ℕ} : Add (CT V n) := ⟨zip (· + ·)⟩
/-- Subtraction (ctaylor.hpp:278-294, 504-510). -/
instance [Sub V] {n : ℕ} : Sub (CT V n) := ⟨zip (· - ·)⟩
/-- Negation (ctaylor.hpp:263-277). -/
instance [Neg V] {n : ℕ} : Neg (CT V n) := ⟨map (- ·)⟩
/-- The constant 0 (ctaylor.hpp:179-187). -/
instance [Zero V] {n : ℕ} : Zero (CT V n) := ⟨const n 0⟩
/-- The constant 1 (ctaylor.hpp:179-187, used in ctaylor_math.hpp:175). -/
instance [Zero V] [One V] {n : ℕ} : One (CT V n) := ⟨const n 1⟩

/-- The product, as the recursion of `mul_set` computes it with separate arguments
    (ctaylor.hpp:49-53, 359-379): the value level of `recMulSet`. -/
def mul [Add V] [Mul V] : {n : ℕ} → CT V n → CT V n → CT V n
  | _, leaf a, leaf b => leaf (a * b)
  | _, node a b, node c d => node (a.mul c) (b.mul c + a.mul d)

instance [Add V] [Mul V] {n : ℕ} : Mul (CT V n) := ⟨mul⟩

/-- `x * (y - y[0])`: the value level of `multo_skipconst` (ctaylor.hpp:61-65). -/
def mulSkip [Add V] [Mul V] [Zero V] : {n : ℕ} → CT V n → CT V n → CT V n
  | _, leaf _, leaf _ => leaf 0
  | _, node a b, node c d => node (a.mulSkip c) (b.mulSkip c + a.mul d)

/-- The Horner loop of `compose` (ctaylor.hpp:78-81) at value level:
    `i` iterations, the last using `coeff[0]`. -/
def horner [Add V] [Mul V] [Zero V] {n : ℕ} (x : CT V n) (coeff : ℕ → V) :
    ℕ → CT V n → CT V n
  | 0, res => res
  | i + 1, res =>
    let r := res.mulSkip x
    horner x coeff i (r.setC0 (r.c0 + coeff i))

/-- `compose`: `sum_i coeff[i]*(x - x[0])^i` (ctaylor.hpp:74-82), the value level of
    `recCompose`; only `coeff[0..n]` is read. -/
def compose [Add V] [Mul V] [Zero V] {n : ℕ} (x : CT V n) (coeff : ℕ → V) : CT V n :=
  horner x coeff n (const n (coeff n))

/-- The polynomial at a point (ctaylor.hpp:68-71): variable `i` takes the value `t i`. -/
def eval [Add V] [Mul V] : {n : ℕ} → CT V n → (ℕ → V) → V
  | _, leaf c, _ => c
  | _, @node _ n lo hi, t => lo.eval t + t n * hi.eval t

/-! The overloads with one scalar operand. -/

/-- `scalar * t` and `t * scalar` (ctaylor.hpp:420-452), `t *= scalar` (314-325). -/
def smul [Mul V] {n : ℕ} (x : V) (t : CT V n) : CT V n := t.map (x * ·)

/-- `t + scalar`, `scalar + t`, `t += scalar` (ctaylor.hpp:313, 454-466). -/
def addScalar [Add V] {n : ℕ} (t : CT V n) (x : V) : CT V n := t.setC0 (t.c0 + x)

/-- `t - scalar`, `t -= scalar` (ctaylor.hpp:312, 483-488, 497-502). -/
def subScalar [Sub V] {n : ℕ} (t : CT V n) (x : V) : CT V n := t.setC0 (t.c0 - x)

/-- `scalar - t` (ctaylor.hpp:476-481, 490-495). -/
def scalarSub [Add V] [Neg V] {n : ℕ} (x : V) (t : CT V n) : CT V n :=
  (-t).setC0 ((-t).c0 + x)

end CT
end XCFun
