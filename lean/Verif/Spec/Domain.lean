/-
The stated domain of the derivative theorems: every elementary function is strictly
inside its domain and no branch condition is tied.
-/
import Verif.Model.Expr

namespace XCFun

/-- Arguments at which a primitive is analytic, as asserted in tmath.hpp (125, 143, 156,
    165, 173) and ctaylor_math.hpp:276.  The Becke-Roussel solver is excluded: its value is
    a Newton iterate while its derivatives are those of the exact inverse. -/
def Prim.dom : Prim → Set ℝ
  | .inv => {x | x ≠ 0}
  | .log | .pow _ | .sqrt | .cbrt => {x | 0 < x}
  | .pade => {x | -(1 / 2) < x}
  | .exp | .expm1 | .atan | .erf | .sin | .cos | .asinh => Set.univ
  | .br => ∅

/-- `e` is evaluated strictly inside the domains at the point `ρ`. -/
def Expr.Reg {ι : Type} (ρ : ι → ℝ) : Expr ι → Prop
  | .var _ | .lit _ => True
  | .add x y | .sub x y | .mul x y => x.Reg ρ ∧ y.Reg ρ
  | .neg x => x.Reg ρ
  | .prim p x => x.Reg ρ ∧ x.evalR ρ ∈ p.dom
  | .reg x => x.Reg ρ ∧ x.evalR ρ > 1e-14
  | .iflt x y a b => x.Reg ρ ∧ y.Reg ρ ∧ x.evalR ρ ≠ y.evalR ρ ∧
      if x.evalR ρ < y.evalR ρ then a.Reg ρ else b.Reg ρ

/-- Replace variables by expressions. -/
def Expr.subst {ι κ : Type} (σ : ι → Expr κ) : Expr ι → Expr κ
  | .var i => σ i
  | .lit c => .lit c
  | .add x y => .add (x.subst σ) (y.subst σ)
  | .sub x y => .sub (x.subst σ) (y.subst σ)
  | .mul x y => .mul (x.subst σ) (y.subst σ)
  | .neg x => .neg (x.subst σ)
  | .prim p x => .prim p (x.subst σ)
  | .reg x => .reg (x.subst σ)
  | .iflt x y a b => .iflt (x.subst σ) (y.subst σ) (a.subst σ) (b.subst σ)

end XCFun
