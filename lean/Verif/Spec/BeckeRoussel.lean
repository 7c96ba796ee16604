/-
The equation of the Becke-Roussel exchange hole, without reference to the way the code solves it, and what the
derivatives of functionals built on its solution are compared with.
-/
import Mathlib.Analysis.SpecialFunctions.Exp
import Verif.Spec.Energy

namespace XCFun

namespace Spec

/-- The reciprocal of the left hand side of equation 21 of Becke and Roussel, Phys. Rev. A 39, 3761 (1989):
`x exp(-2x/3) / (x - 2) = (2/3) π^(2/3) ρ^(5/3) / Q`. -/
noncomputable def holeCurve (x : ℝ) : ℝ := (x - 2) / x * Real.exp (2 * x / 3)

/-- The positive solution `x` of `holeCurve x = z` (there is exactly one: `Props.C56_unique_root`). -/
noncomputable def holeRoot (z : ℝ) : ℝ := Classical.epsilon fun x => 0 < x ∧ holeCurve x = z

/-! ### The published energies

Becke and Roussel, Phys. Rev. A 39, 3761 (1989), with `γ = 1`; with the current density: Becke, Can. J. Chem. 74, 995 (1996); correlation: Becke,
J. Chem. Phys. 88, 1053 (1988).  `n` is a spin density, `g` the square of its gradient, `l` its Laplacian, `t` its kinetic energy density
`∑ |∇ψ|²` (twice the code's), `j` the square of its current density. -/

/-- `D = t - |∇n|²/(4n) - j²/n`. -/
noncomputable def holeD (n g t j : ℝ) : ℝ := t - g / (4 * n) - j / n

/-- The curvature of the hole, `Q = (∇²n - 2D)/6`. -/
noncomputable def holeQ (n g l t j : ℝ) : ℝ := (l - 2 * holeD n g t j) / 6

/-- The exponent `x` of the hole: `x exp(-2x/3)/(x-2) = (2/3) π^(2/3) n^(5/3) / Q`. -/
noncomputable def holeX (n g l t j : ℝ) : ℝ := holeRoot (holeQ n g l t j / (2 / 3 * Real.pi ^ (2 / 3 : ℝ) * n ^ (5 / 3 : ℝ)))

/-- The distance of the centre of the hole, `b³ = x³ exp(-x) / (8πn)`. -/
noncomputable def holeB (n x : ℝ) : ℝ := (x ^ 3 * Real.exp (-x) / (8 * Real.pi * n)) ^ ((1 : ℝ) / 3)

/-- The potential of the hole, `U = -(1 - exp(-x) - x exp(-x)/2) / b`. -/
noncomputable def holeU (n g l t j : ℝ) : ℝ :=
  let x := holeX n g l t j;
  -(1 - Real.exp (-x) - x * Real.exp (-x) / 2) / holeB n x

/-- Exchange energy density of one spin, `n U / 2`. -/
noncomputable def brExchange (n U : ℝ) : ℝ := n * U / 2

/-- Correlation of opposite spins: `-0.8 n_a n_b z² (1 - log(1+z)/z)`, `z = 0.63 (1/|U_a| + 1/|U_b|)`. -/
noncomputable def brOpposite (na nb Ua Ub : ℝ) : ℝ :=
  let z := 0.63 * (1 / |Ua| + 1 / |Ub|);
  -0.8 * na * nb * z ^ 2 * (1 - Real.log (1 + z) / z)

/-- Correlation of equal spins: `-0.01 n D z⁴ (1 - (2/z) log(1+z/2))`, `z = 2 · 0.88 / |U|`. -/
noncomputable def brEqual (n D U : ℝ) : ℝ :=
  let z := 2 * 0.88 / |U|;
  -0.01 * n * D * z ^ 4 * (1 - 2 / z * Real.log (1 + z / 2))

/-- The contributions to the published energy of BRX (10), BRC (11) and BRXC (12) for given density variables. -/
noncomputable def brParts (ρ : Field → ℝ) : ℕ → List ℝ :=
  let Ua := holeU (ρ .a) (ρ .gaa) (ρ .lapa) (2 * ρ .taua) (ρ .jpaa)
  let Ub := holeU (ρ .b) (ρ .gbb) (ρ .lapb) (2 * ρ .taub) (ρ .jpbb)
  let X := [brExchange (ρ .a) Ua, brExchange (ρ .b) Ub]
  let C := [brOpposite (ρ .a) (ρ .b) Ua Ub, brEqual (ρ .a) (holeD (ρ .a) (ρ .gaa) (2 * ρ .taua) (ρ .jpaa)) Ua,
    brEqual (ρ .b) (holeD (ρ .b) (ρ .gbb) (2 * ρ .taub) (ρ .jpbb)) Ub]
  fun
  | 10 => X
  | 11 => C
  | 12 => X ++ C
  | _ => []

/-- How far the number returned by the solver for `z` is off, measured on the `z` axis. -/
noncomputable def solverResidual (z : ℝ) : ℝ := holeCurve (brSolve z) - z

end Spec

open Spec

/-- The value of `e` at `x` when each solution of the hole equation is the exact one for an argument shifted by a
    constant, the residual of the solver at the point `x₀`.  (All else as in `Expr.evalR`.) -/
noncomputable def Expr.evalNear {ι : Type} (x₀ x : ι → ℝ) : Expr ι → ℝ
  | .var i => x i
  | .lit c => c
  | .add a b => a.evalNear x₀ x + b.evalNear x₀ x
  | .sub a b => a.evalNear x₀ x - b.evalNear x₀ x
  | .mul a b => a.evalNear x₀ x * b.evalNear x₀ x
  | .neg a => -a.evalNear x₀ x
  | .prim .br a => holeRoot (a.evalNear x₀ x + solverResidual (a.evalR x₀))
  | .prim p a => p.fn (a.evalNear x₀ x)
  | .reg a => if a.evalNear x₀ x < 1e-14 then 1e-14 else a.evalNear x₀ x
  | .iflt a b c d => if a.evalNear x₀ x < b.evalNear x₀ x then c.evalNear x₀ x else d.evalNear x₀ x

/-- As `Expr.Reg`, with the Becke-Roussel solver allowed (at any argument). -/
def Expr.RegBR {ι : Type} (ρ : ι → ℝ) : Expr ι → Prop
  | .var _ | .lit _ => True
  | .add x y | .sub x y | .mul x y => x.RegBR ρ ∧ y.RegBR ρ
  | .neg x => x.RegBR ρ
  | .prim p x => x.RegBR ρ ∧ (p = .br ∨ x.evalR ρ ∈ p.dom)
  | .reg x => x.RegBR ρ ∧ x.evalR ρ > 1e-14
  | .iflt x y a b => x.RegBR ρ ∧ y.RegBR ρ ∧ x.evalR ρ ≠ y.evalR ρ ∧
      if x.evalR ρ < y.evalR ρ then a.RegBR ρ else b.RegBR ρ

namespace Spec

/-- The energy with exact solutions of shifted hole equations, `energyAt` without `brSolve`. -/
noncomputable def energyNear (s : State ℝ) (v : Vars) (x₀ x : ℕ → ℝ) : ℝ :=
  (s.active.map fun id => s.settings id * (fullExpr s.settings v id).evalNear x₀ x).sum

/-- As `RegularAt`, with the Becke-Roussel functionals allowed. -/
def RegularBR (s : State ℝ) (v : Vars) (x : ℕ → ℝ) : Prop :=
  ∀ id ∈ s.active, (fullExpr s.settings v id).RegBR x

end Spec
end XCFun
