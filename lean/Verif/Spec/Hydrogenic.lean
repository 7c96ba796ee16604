/-
Densities of hydrogen-like atoms: one electron in a 1s orbital, what the density variables of such a density are, and the electrostatic potential of the
electron. Nothing here refers to the code.
-/
import Mathlib.Analysis.Calculus.Deriv.Basic
import Mathlib.Analysis.SpecialFunctions.Trigonometric.Basic
import Mathlib.Analysis.SpecialFunctions.Sqrt

namespace XCFun.Spec

/-- The density at distance `r` of the nucleus of one electron in the orbital `√(a³/(8π)) exp(-a r/2)`; the nuclear charge is `a/2`. -/
noncomputable def density1s (a r : ℝ) : ℝ := a ^ 3 / (8 * Real.pi) * Real.exp (-(a * r))

/-- The density variables of one spin, `n` the density, `g` the square of its gradient, `l` its Laplacian, `τ` its kinetic energy density
`(1/2) |∇ψ|²`, are those at distance `r` of the centre of the spherical density `f` of a single real orbital `ψ = √f`. -/
structure OneOrbital (f : ℝ → ℝ) (r n g l τ : ℝ) : Prop where
  density : n = f r
  gradient : g = deriv f r ^ 2
  laplacian : l = deriv (deriv f) r + 2 / r * deriv f r
  kinetic : τ = deriv (fun r => √(f r)) r ^ 2 / 2

/-- The electrostatic potential of the density `density1s a` (`Props.C80_potential`). -/
noncomputable def potential1s (a r : ℝ) : ℝ := (1 - (1 + a * r / 2) * Real.exp (-(a * r))) / r

end XCFun.Spec
