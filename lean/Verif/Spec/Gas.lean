/-
The physical situation described by the density variables and by the inputs of `xcfun_eval`.
-/
import Verif.Spec.Literature
import Verif.Spec.Smooth

namespace XCFun.Lit

/-- The members of `densvars` are those of the gas `g` with positive spin densities: sums and differences, `ζ`, `r_s` and powers. -/
structure IsGas (ρ : Field → ℝ) (g : Gas) : Prop where
  apos : 0 < g.a
  bpos : 0 < g.b
  a : ρ .a = g.a
  b : ρ .b = g.b
  n : ρ .n = g.a + g.b
  s : ρ .s = g.a - g.b
  gaa : ρ .gaa = g.gaa
  gab : ρ .gab = g.gab
  gbb : ρ .gbb = g.gbb
  gnn : ρ .gnn = g.gaa + 2 * g.gab + g.gbb
  gns : ρ .gns = g.gaa - g.gbb
  gss : ρ .gss = g.gaa - 2 * g.gab + g.gbb
  taua : ρ .taua = g.taua
  taub : ρ .taub = g.taub
  tau : ρ .tau = g.taua + g.taub
  zeta : ρ .zeta = (g.a - g.b) / (g.a + g.b)
  r_s : ρ .r_s = (3 / ((g.a + g.b) * 4 * Real.pi)) ^ (1 / 3 : ℝ)
  n_m13 : ρ .n_m13 = (g.a + g.b) ^ (-1 / 3 : ℝ)
  a_43 : ρ .a_43 = g.a ^ (4 / 3 : ℝ)
  b_43 : ρ .b_43 = g.b ^ (4 / 3 : ℝ)

open Spec in
/-- The gas described by the inputs `x` of the variable set `v`. -/
noncomputable def gasAt (v : Vars) (x : ℕ → ℝ) : Gas :=
  let f := given (1 / 2) x v
  ⟨f .a, f .b, f .gaa, f .gab, f .gbb, f .taua, f .taub⟩

end XCFun.Lit
