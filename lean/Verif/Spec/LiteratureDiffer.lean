/-
Published formulas from which the code departs, and the formulas it evaluates instead.
-/
import Verif.Spec.LiteratureMeta

namespace XCFun.Lit

noncomputable section

open Real (pi log exp sqrt)

variable (g : Gas)

/-- von Weizsaecker kinetic energy of the total density: `|∇n|²/(8n)`. -/
def twK : ℝ := tauW g.n g.gnn
/-- What tw.cpp evaluates: the square of a sum of squared gradients. -/
def twKCode : ℝ := (g.gaa + g.gbb) ^ 2 / (8 * g.n)

/-- The simplified gradient correction of Swart, Sola, Bickelhaupt, J. Chem. Phys. 131 (2009) 094103:
`γ φ³ ln(1 + (β/γ) t²/(1 + A t²))`, `A = (β/γ)/(exp(-ε/(κ φ³)) - 1)`; published with `κ = γ`. -/
def spbeH (β γ κ ε z t2 : ℝ) : ℝ :=
  γ * phi z ^ 3 * log (1 + β / γ * t2 / (1 + β / γ / (exp (-ε / (κ * phi z ^ 3)) - 1) * t2))
/-- sPBE correlation on VWN5. -/
def spbeC (β γ κ k : ℝ) : ℝ := g.n * (vwn5Eps g k + spbeH β γ κ (vwn5Eps g k) g.zeta (tSq g.n g.zeta g.gnn))

/-- The argument `x` of the enhancement factor that revtpssx_eps.hpp evaluates. Against `tpssEnh` the root holds `|∇n|² p` in place of `p`, and the
denominator is not squared. -/
def revtpssArgCode (n g2 τ : ℝ) : ℝ :=
  let p := sSq n g2
  let z := tauW n g2 / τ
  let α := (τ - tauW n g2) / tauTF n
  let q := 9 / 20 * (α - 1) / √(1 + 0.40 * α * (α - 1)) + 2 * p / 3
  ((10 / 81 + 2.35204 * z ^ 3 / (1 + z ^ 2) ^ 2) * p + 146 / 2025 * q ^ 2 - 73 / 405 * q * √((3 / 5 * z) ^ 2 / 2 + (g2 * p) ^ 2 / 2) +
    (10 / 81 * p) ^ 2 / 0.804 + 2 * √2.1677 * (10 / 81) * (3 / 5 * z) ^ 2 + 2.1677 * 0.14 * p ^ 3) / (1 + √2.1677 * p)
/-- The enhancement factor that revtpssx_eps.hpp evaluates. -/
def revtpssEnhCode (n g2 τ : ℝ) : ℝ := 1 + 0.804 - 0.804 / (1 + revtpssArgCode n g2 τ / 0.804)
/-- What revtpssx.cpp evaluates. -/
def revtpssXCode : ℝ := spinScaled g fun n g2 τ => exUnif n * revtpssEnhCode n g2 τ

/-- Colle-Salvetti correlation as rewritten by Lee, Yang and Parr, Phys. Rev. B 37 (1988) 785, eq. (13), with the parameters `a b c d`. The local
kinetic energy of a spin is `t_σ = τ_σ - ∇²ρ_σ/8` (its definition there in terms of orbital densities gives `|∇ρ_i|²/(8 ρ_i) = |∇φ_i|²/2`), reduced by
`|j_σ|²/ρ_σ` if there is a current; `t_W = |∇ρ|²/(8 ρ) - ∇²ρ/8`. `ja`, `jb` are the squared currents. -/
def colleSalvetti (a b c d : ℝ) (g : Gas) (lapa lapb ja jb : ℝ) : ℝ :=
  let γ := 2 * (1 - (g.a ^ 2 + g.b ^ 2) / g.n ^ 2)
  let ta := g.taua - lapa / 8 - ja / g.a
  let tb := g.taub - lapb / 8 - jb / g.b
  let tW := g.gnn / (8 * g.n) - (lapa + lapb) / 8;
  -a * γ / (1 + d * g.n ^ (-1 / 3 : ℝ)) *
    (g.n + 2 * b * g.n ^ (-5 / 3 : ℝ) * (g.a * ta + g.b * tb - g.n * tW) * Real.exp (-c * g.n ^ (-1 / 3 : ℝ)))

end
end XCFun.Lit
