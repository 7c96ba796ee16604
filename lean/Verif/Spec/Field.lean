/-
Density fields in space, their second-order expansions, and the functional derivative of a gradient functional.
-/
import Mathlib.Algebra.BigOperators.Group.Finset.Basic
import Mathlib.Data.Fintype.Basic
import Verif.Spec.Energy

namespace XCFun.Spec

/-- Points of space. -/
abbrev Space := Fin 3 → ℝ

/-- The second-order expansion of a density field at a point, in the order of `XC_N_2ND_TAYLOR`
    (api/xcfun.h: n, nx, ny, nz, nxx, nxy, nxz, nyy, nyz, nzz). -/
noncomputable def expansion (ρ : Space → ℝ) (r : Space) : ℕ → ℝ
  | 0 => ρ r
  | 1 => pderiv 0 ρ r
  | 2 => pderiv 1 ρ r
  | 3 => pderiv 2 ρ r
  | 4 => pderiv 0 (pderiv 0 ρ) r
  | 5 => pderiv 0 (pderiv 1 ρ) r
  | 6 => pderiv 0 (pderiv 2 ρ) r
  | 7 => pderiv 1 (pderiv 1 ρ) r
  | 8 => pderiv 1 (pderiv 2 ρ) r
  | 9 => pderiv 2 (pderiv 2 ρ) r
  | _ => 0

/-- The expansions of two density fields one after the other (`XC_A_B_2ND_TAYLOR`). -/
noncomputable def expansion2 (a b : Space → ℝ) (r : Space) (l : ℕ) : ℝ :=
  if l < 10 then expansion a r l else expansion b r (l - 10)

/-- The functional derivative of `∫ E(n, ∇n)` with respect to a density `n`: `dE/dn - div (dE/d∇n)`, where the density
    and the components of its gradient are the inputs `off` and `off+1`, `off+2`, `off+3` of `E`, and `inp r` are the
    inputs at the point `r`. -/
noncomputable def functionalDerivative (E : (ℕ → ℝ) → ℝ) (inp : Space → ℕ → ℝ) (off : ℕ) (r : Space) : ℝ :=
  pderiv off E (inp r) - ∑ c : Fin 3, pderiv c (fun r' => pderiv (off + 1 + c) E (inp r')) r

end XCFun.Spec
