/-
Expansions (derivatives) computed with rounded arithmetic.
-/
import Verif.Spec.RoundedEnergy
import Verif.Model.CTMem

namespace XCFun.Spec
open XCFun

variable {V : Type} [Zero V] [One V] [Add V] [Sub V] [Mul V] [Neg V]

/-- What the expansion of a power needs besides `MathLib`: a division, and the conversion of an `int`, both with relative error at most `w`.
    The coefficient arrays of the other functions are whatever the library computes; nothing is assumed about them. -/
structure JetLib (A : Rounded V) extends MathLib A where
  div : V → V → V
  div_err : ∀ x y, A.val y ≠ 0 → |A.val (div x y) - A.val x / A.val y| ≤ w * |A.val x / A.val y|
  int : ℕ → V
  int_err : ∀ n : ℕ, |A.val (int n) - n| ≤ w * n
  coefs : Prim → ℕ → V → ℕ → V

/-- `pow_expand` (tmath.hpp:154-161) with rounded operations in the order of the source:
    `t[i] = t[i - 1] * x0inv * (a - i + 1) / i`. -/
def powExpandV {A : Rounded V} (L : JetLib A) (x0 a : V) : ℕ → V
  | 0 => L.pow x0 a
  | i + 1 => L.div (powExpandV L x0 a i * L.div 1 x0 * (a - L.int (i + 1) + 1)) (L.int (i + 1))

/-- `inv_expand` (tmath.hpp:124-129) likewise: `t[0] = 1 / a`, `t[i] = -t[i - 1] * t[0]`. -/
def invExpandV {A : Rounded V} (L : JetLib A) (x0 : V) : ℕ → V
  | 0 => L.div 1 x0
  | i + 1 => -invExpandV L x0 i * L.div 1 x0

/-- `ctaylor_rec<T,N>::compose` (ctaylor.hpp:74-82, 91, 112-115, 146-151) run on a memory that holds `x`, then the coefficients, then the
    result: the rounded operations in the order of the source. -/
def composeV {N : ℕ} (x : CT V N) (t : ℕ → V) : CT V N :=
  CT.ofFn N fun i => recCompose N (2 ^ N + N + 1) 0 (2 ^ N) (fun q => if q < 2 ^ N then x.get q else t (q - 2 ^ N)) (2 ^ N + N + 1 + i)

/-- The product of two expansions by `ctaylor_rec<T,N>::mul_set` (ctaylor.hpp:49-53, 87, 99-102, 124-129), likewise. -/
def mulV {N : ℕ} (x y : CT V N) : CT V N :=
  CT.ofFn N fun i => recMulSet N (2 ^ N + 2 ^ N) 0 (2 ^ N) (fun q => if q < 2 ^ N then x.get q else y.get (q - 2 ^ N)) (2 ^ N + 2 ^ N + i)

/-- `x *= y` by `ctaylor_rec<T,N>::multo` (ctaylor.hpp:55-59, 88, 103-106, 131-136), likewise. -/
def multoV {N : ℕ} (x y : CT V N) : CT V N :=
  CT.ofFn N fun i => recMulto N 0 (2 ^ N) (fun q => if q < 2 ^ N then x.get q else y.get (q - 2 ^ N)) i

/-- The constant, if the expression is one. -/
def litOf {ι : Type} : Expr ι → Option ℝ
  | .lit c => some c
  | _ => none

/-- `*`, `+` and `-` with the overloads for a `double` operand (ctaylor.hpp:296-313, 440-510). -/
def mulLit {A : Rounded V} (L : JetLib A) {N : ℕ} : Option ℝ → Option ℝ → CT V N → CT V N → CT V N
  | some c, _, _, y => CT.smul (L.const c) y
  | none, some c, x, _ => CT.smul (L.const c) x
  | none, none, x, y => mulV x y
@[inherit_doc mulLit]
def addLit {A : Rounded V} (L : JetLib A) {N : ℕ} : Option ℝ → Option ℝ → CT V N → CT V N → CT V N
  | some c, _, _, y => y.addScalar (L.const c)
  | none, some c, x, _ => x.addScalar (L.const c)
  | none, none, x, y => x + y
@[inherit_doc mulLit]
def subLit {A : Rounded V} (L : JetLib A) {N : ℕ} : Option ℝ → Option ℝ → CT V N → CT V N → CT V N
  | some c, _, _, y => CT.scalarSub (L.const c) y
  | none, some c, x, _ => x.subScalar (L.const c)
  | none, none, x, y => x - y

/-- `/` with the overloads for a `double` operand (ctaylor_math.hpp:6-61): the numerator is `y`, the denominator `x`. -/
def divLit {A : Rounded V} (L : JetLib A) {N : ℕ} : Option ℝ → Option ℝ → CT V N → CT V N → CT V N
  | some c, _, _, y => CT.smul (L.div 1 (L.const c)) y
  | none, some c, x, _ => composeV x fun i => invExpandV L x.c0 i * L.const c
  | none, none, x, y => multoV (composeV x (invExpandV L x.c0)) y

open Classical in
/-- `Expr.evalCT` with rounded operations (see Model/Expr for the citations).  A constant of the source counts as rounded once.
    A product whose first factor is a reciprocal is what `/` stands for in Model/Expr. -/
noncomputable def evalCTV {A : Rounded V} (L : JetLib A) {ι : Type} {N : ℕ} (ρ : ι → CT V N) : Expr ι → CT V N
  | .var i => ρ i
  | .lit c => CT.const N (L.const c)
  | .add x y => addLit L (litOf x) (litOf y) (evalCTV L ρ x) (evalCTV L ρ y)
  | .sub x y => subLit L (litOf x) (litOf y) (evalCTV L ρ x) (evalCTV L ρ y)
  | .mul (.prim .inv x) y => divLit L (litOf x) (litOf y) (evalCTV L ρ x) (evalCTV L ρ y)
  | .mul x y => mulLit L (litOf x) (litOf y) (evalCTV L ρ x) (evalCTV L ρ y)
  | .neg x => -evalCTV L ρ x
  | .prim (.pow a) x => composeV (evalCTV L ρ x) (powExpandV L (evalCTV L ρ x).c0 (L.const a))
  | .prim .inv x => composeV (evalCTV L ρ x) (invExpandV L (evalCTV L ρ x).c0)
  | .prim p x => composeV (evalCTV L ρ x) (L.coefs p N (evalCTV L ρ x).c0)
  | .reg x => if A.val (evalCTV L ρ x).c0 < A.val (L.const 1e-14) then (evalCTV L ρ x).setC0 (L.const 1e-14) else evalCTV L ρ x
  | .iflt x y a b => if A.val (evalCTV L ρ x).c0 < A.val (evalCTV L ρ y).c0 then evalCTV L ρ a else evalCTV L ρ b

/-- `codeFp` (functional.hpp:24-25, densvars.hpp:38-218) with rounded operations. -/
noncomputable def jetFp {A : Rounded V} (L : JetLib A) (v : Vars) (par : ℕ → ℝ) (id : ℕ) {N : ℕ} (ins : ℕ → CT V N) : CT V N :=
  match densvars par v, Fun.energy id with
  | some f, some e => evalCTV L (fun fld => evalCTV L ins (f fld)) e
  | _, _ => 0

/-- The expansion of `x ↦ x ^ a` about `x0` with all coefficients replaced by their absolute values, at the increment of `x`. -/
noncomputable def powBound {N : ℕ} (x : CT ℝ N) (x0 a : ℝ) : CT ℝ N := x.compose fun i => |powExpand x0 a i|

/-- What the coefficients of SLATERX and TFK become when all terms that are added to them are taken positive. -/
noncomputable def jetBound (id : ℕ) {N : ℕ} (a b : CT ℝ N) : CT ℝ N :=
  if id = 0 then CT.const N ((81 / (32 * Real.pi)) ^ (1 / 3 : ℝ)) *
    (powBound (a.map abs) a.c0 (4 / 3) + powBound (b.map abs) b.c0 (4 / 3))
  else CT.const N (0.3 * (3 * Real.pi ^ 2) ^ (2 / 3 : ℝ)) * powBound (a.map abs + b.map abs) (a.c0 + b.c0) (5 / 3)

/-- The expansion of `x ↦ 1 / x` about `x0` with all coefficients replaced by their absolute values, at the increment of `x`. -/
noncomputable def invBound {N : ℕ} (x : CT ℝ N) (x0 : ℝ) : CT ℝ N := x.compose fun i => 1 / |x0| ^ (i + 1)

/-- What the coefficients of VWK (59) and KTX (23) become when all terms that are added to them are taken positive: the densities are `a`
    and `b`, the squares of their gradients `g` and `h`. -/
noncomputable def gradBound (id : ℕ) {N : ℕ} (a b g h : CT ℝ N) : CT ℝ N :=
  let one := fun x y : CT ℝ N =>
    if id = 59 then invBound (CT.const N 8 * x.map abs) (8 * x.c0) * y.map abs
    else invBound (CT.const N 0.1 + powBound (x.map abs) x.c0 (4 / 3)) (0.1 + x.c0 ^ (4 / 3 : ℝ)) * y.map abs
  one a g + one b h

/-- Made of variables, constants, sums, differences and products. -/
def IsPoly {ι : Type} : Expr ι → Prop
  | .var _ | .lit _ => True
  | .add x y | .sub x y | .mul x y => IsPoly x ∧ IsPoly y
  | .neg x => IsPoly x
  | _ => False

/-- The same polynomial with all terms taken positive. -/
noncomputable def polyBound {ι : Type} {N : ℕ} (ρ : ι → CT ℝ N) : Expr ι → CT ℝ N
  | .var i => (ρ i).map abs
  | .lit c => CT.const N |c|
  | .add x y | .sub x y => polyBound ρ x + polyBound ρ y
  | .mul x y => polyBound ρ x * polyBound ρ y
  | .neg x => polyBound ρ x
  | _ => 0

/-- The number of rounding steps of a polynomial in expansions with `N` variables. -/
def polySteps {ι : Type} (N : ℕ) : Expr ι → ℕ
  | .lit _ => 1
  | .add x y | .sub x y => max (polySteps N x) (polySteps N y) + 1
  | .mul x y => polySteps N x + polySteps N y + 3 + 2 ^ (N - 2)
  | .neg x => polySteps N x
  | _ => 0

/-- A number with an increment linear in each of the `N` variables: `x0 + Σ s i · ε i`. -/
def seeded : (N : ℕ) → V → (ℕ → V) → CT V N
  | 0, x0, _ => .leaf x0
  | n + 1, x0, s => .node (seeded n x0 s) (CT.const n (s n))

/-- The functionals computed with rounding on expansions. -/
noncomputable def jetKernel {A : Rounded V} (L : JetLib A) : Kernel V where
  reads := DV.reads
  fp v par id _ ins := jetFp L v (fun i => A.val (par i)) id ins

/-- Binary arithmetic with `p` bits, unlimited exponent and correctly rounded functions. -/
noncomputable def Bits.jetLib (p : ℕ) (hp : 20 ≤ p) : JetLib (Bits.rounded p) where
  toMathLib := Bits.lib p hp
  div x y := ⟨roundBits p (x.real / y.real)⟩
  div_err _ _ _ := Bits.round_err _
  int n := ⟨roundBits p n⟩
  int_err n := (Bits.round_err (n : ℝ)).trans_eq (by rw [abs_of_nonneg (Nat.cast_nonneg n)]; rfl)
  coefs q N x i := ⟨roundBits p (q.coef N x.real i)⟩

end XCFun.Spec
