/-
Densities and gradients at which the functionals are smooth.
-/
import Verif.Spec.Members
import Verif.Spec.Limits
import Verif.Spec.LiteratureDiffer

namespace XCFun.Spec

/-- Inputs that are densities above the threshold with gradients that some densities have. -/
structure PhysicalInput (v : Vars) (x : ℕ → ℝ) : Prop where
  /-- every density is above the threshold -/
  dens : ∀ y ∈ densities (1 / 2) x v, threshold < y
  /-- squares of the gradients of the spin densities and of the density -/
  gaa : 0 ≤ given (1 / 2) x v .gaa
  gbb : 0 ≤ given (1 / 2) x v .gbb
  gnn : 0 ≤ given (1 / 2) x v .gnn

/-- Density variables of physical densities. -/
structure Sound (ρ : Field → ℝ) : Prop extends Physical ρ where
  s_lt : ρ .s < ρ .n
  lt_s : -ρ .n < ρ .s
  zeta : ρ .zeta = ρ .s / ρ .n
  r_s : ρ .r_s = (3 / (ρ .n * 4 * Real.pi)) ^ ((1 : ℝ) / 3)
  n_m13 : ρ .n_m13 = ρ .n ^ (-1 / 3 : ℝ)
  gaa : 0 ≤ ρ .gaa
  gbb : 0 ≤ ρ .gbb
  gnn : 0 ≤ ρ .gnn

/-- The total density and the spin density are sum and difference of the spin densities. -/
structure Consistent (ρ : Field → ℝ) : Prop where
  sum : ρ .a + ρ .b = ρ .n
  diff : ρ .a - ρ .b = ρ .s

noncomputable section

/-- The square of the reduced spin-density gradient `|∇n| / n^(4/3)`. -/
def chiSq (n g : ℝ) : ℝ := g * n ^ (-8 / 3 : ℝ)

/-- The square of the reduced gradient `|∇n| / (2 k_F n)` of one spin density, `k_F = (6π²n)^(1/3)`. -/
def sSq (n g : ℝ) : ℝ := g / (4 * (6 * Real.pi ^ 2) ^ (2 / 3 : ℝ) * n ^ (8 / 3 : ℝ))

/-- The argument of the error function in range-separated LDA exchange, `μ / (2 k_F)` with the code's constant. -/
def erfArg (μ n : ℝ) : ℝ := μ / (2 * (3.093667726280136 * (2 * n) ^ (1 / 3 : ℝ)))

/-- The kinetic energy density of one electron pair, `|∇n|²/(8n)`. -/
def tauW (n g : ℝ) : ℝ := g / (8 * n)

/-- The kinetic energy density of the uniform gas of density `n` without spin. -/
def tauU (n : ℝ) : ℝ := 0.3 * (3 * (Real.pi * Real.pi)) ^ (2 / 3 : ℝ) * n ^ (5 / 3 : ℝ)

/-- The factor of the kinetic energy density of the uniform gas with polarisation `z`. -/
def polT (z : ℝ) : ℝ := ((1 + z) ^ (5 / 3 : ℝ) + (1 - z) ^ (5 / 3 : ℝ)) / 2

/-- Points at which the interpolation of SCAN between its two limits is smooth: `D = τ - τ_W` is not negligible, `α = D/τ_unif` is not 1. -/
def ScanSmooth (D U : ℝ) : Prop := 1e-14 < |D| ∧ D / U ≠ 1

/-- The regularised indicator `α` of rSCAN. -/
def rscanAlpha (D U : ℝ) : ℝ := (D / U) ^ 3 / ((D / U) ^ 2 + 1e-3)

/-- Points at which the polynomial interpolation of the later variants does not change its branch. -/
def Between (α : ℝ) : Prop := α ≠ 1e-13 ∧ α ≠ 2.5

/-- The larger of two energies per electron is smooth: the energy `ε` of all electrons differs from the energies of the electrons of either spin alone. -/
def NoTie (ε : ℝ → ℝ → ℝ → ℝ) (ρ : Field → ℝ) : Prop :=
  ε (ρ .n) (ρ .s / ρ .n) (ρ .gnn) ≠ ε (ρ .a) 1 (ρ .gaa) ∧ ε (ρ .n) (ρ .s / ρ .n) (ρ .gnn) ≠ ε (ρ .b) 1 (ρ .gbb)

/-- Points at which TPSS correlation with the energy `ε` per electron is smooth: the total and the spin density are sum and difference of the spin densities,
the kinetic energy density is positive, `|n ∇s - s ∇n|²` is not negative, and the larger of two energies is smooth. -/
def TpssSmooth (ε : ℝ → ℝ → ℝ → ℝ) (ρ : Field → ℝ) : Prop :=
  (ρ .a + ρ .b = ρ .n ∧ ρ .a - ρ .b = ρ .s) ∧ 0 < ρ .tau ∧
    0 ≤ ρ .n ^ 2 * ρ .gss - 2 * ρ .n * ρ .s * ρ .gns + ρ .s ^ 2 * ρ .gnn ∧ NoTie ε ρ

/-- Points at which the fourth root and the logarithm of r²SCAN correlation have positive arguments; `γ`, `k` as in `Lit.r2scanC`. -/
def R2Domain (γ k n z g : ℝ) : Prop :=
  let w := Real.exp (-Lit.pw92K k (Lit.rs n) z / (γ * Lit.phi z ^ 3)) - 1
  let y := Lit.betaRs (Lit.rs n) / (γ * w) * Lit.tSq n z g - Lit.Δy γ k (Lit.rs n) (Lit.sSq n g) z
  0 < 1 + 4 * y ∧ 0 < 1 + w * (1 - 1 / (1 + 4 * y) ^ (1 / 4 : ℝ))

/-- The denominator of the short-range correlation of Toulouse, Savin and Flad, `1 + c₁ μ + c₂ μ²`, as in `Lit.ldaErfJT`. -/
def jtDenominator (g : Lit.Gas) (D k μ : ℝ) : ℝ :=
  let r := Lit.rs g.n
  let c1 := (1.0270741452992294 * r - 0.230160617208092 * r ^ 2) / (1 + 0.6196884832404359 * r)
  let g0 := D * ((4.7125 + r) ^ (3 / 2 : ℝ) + 163.44) * Real.exp (-3.2581 * √(4.7125 + r))
  let c2 := Lit.vwn5Eps g k / (Real.pi / 2 * g.n * (g0 - 1 / 2))
  1 + c1 * μ + c2 * μ ^ 2

/-- The surfaces off which the energy density of functional `id` is smooth, by the densities, gradients and kinetic energy densities `ρ`
    and the range-separation parameter `μ`.  `False` where nothing is claimed: BRX, BRC, BRXC (see C57). -/
def SmoothAt (μ : ℝ) (ρ : Field → ℝ) : ℕ → Prop
  -- the branch of `sqrtx_asinh_sqrtx`: Becke and PW91 exchange
  | 6 | 7 => chiSq (ρ .a) (ρ .gaa) ≠ 0.5 ∧ chiSq (ρ .b) (ρ .gbb) ≠ 0.5
  | 8 | 9 => (chiSq (ρ .a) (ρ .gaa) ≠ 0.5 ∧ chiSq (ρ .b) (ρ .gbb) ≠ 0.5) ∧ μ ≠ 0
  | 26 => 7.7956 ^ 2 * sSq (ρ .a) (ρ .gaa) ≠ 0.5 ∧ 7.7956 ^ 2 * sSq (ρ .b) (ρ .gbb) ≠ 0.5
  | 27 => 76.320 ^ 2 * sSq (ρ .a) (ρ .gaa) ≠ 0.5 ∧ 76.320 ^ 2 * sSq (ρ .b) (ρ .gbb) ≠ 0.5
  -- the expansions of range-separated LDA exchange
  | 13 => ∀ c ∈ [1e-9, 100, 1e9], erfArg μ (ρ .a) ≠ c ∧ erfArg μ (ρ .b) ≠ c
  | 14 => 0 ≤ μ
  -- a square root of a gradient
  | 25 => 0 < ρ .gaa + ρ .gbb
  | 69 | 76 => 0 < ρ .gnn
  | 60 | 61 | 62 | 63 | 64 | 65 => ρ .gaa ≠ 0 ∧ ρ .gbb ≠ 0
  -- high and low density at `r_s = 1`
  | 55 | 56 => ρ .n ≠ 3 / (4 * Real.pi)
  -- spin and total densities used together
  | 77 => ρ .a + ρ .b = ρ .n ∧ ρ .a - ρ .b = ρ .s
  -- kinetic energy densities as denominators: M05, M06, TPSSX; BLOCX
  | 29 | 30 | 31 | 32 | 33 | 34 | 35 | 36 | 37 | 38 | 39 | 40 | 42 => 0 < ρ .taua ∧ 0 < ρ .taub
  | 70 => (0 < ρ .taua ∧ 0 < ρ .taub) ∧ 0 < ρ .gaa ∧ 0 < ρ .gbb
  -- SCAN exchange of twice the spin densities
  | 46 => (1e-16 < 4 * ρ .gaa ∧ ScanSmooth (2 * ρ .taua - tauW (2 * ρ .a) (4 * ρ .gaa)) (tauU (2 * ρ .a))) ∧
      1e-16 < 4 * ρ .gbb ∧ ScanSmooth (2 * ρ .taub - tauW (2 * ρ .b) (4 * ρ .gbb)) (tauU (2 * ρ .b))
  | 48 => (1e-16 < 4 * ρ .gaa ∧ Between (rscanAlpha (2 * ρ .taua - tauW (2 * ρ .a) (4 * ρ .gaa)) (tauU (2 * ρ .a) + 1e-4))) ∧
      1e-16 < 4 * ρ .gbb ∧ Between (rscanAlpha (2 * ρ .taub - tauW (2 * ρ .b) (4 * ρ .gbb)) (tauU (2 * ρ .b) + 1e-4))
  | 50 | 52 | 54 => (1e-16 < 4 * ρ .gaa ∧ 1e-14 < |2 * ρ .taua - tauW (2 * ρ .a) (4 * ρ .gaa)| ∧
        Between ((2 * ρ .taua - tauW (2 * ρ .a) (4 * ρ .gaa)) / (tauU (2 * ρ .a) + 1e-3 * tauW (2 * ρ .a) (4 * ρ .gaa)))) ∧
      1e-16 < 4 * ρ .gbb ∧ 1e-14 < |2 * ρ .taub - tauW (2 * ρ .b) (4 * ρ .gbb)| ∧
        Between ((2 * ρ .taub - tauW (2 * ρ .b) (4 * ρ .gbb)) / (tauU (2 * ρ .b) + 1e-3 * tauW (2 * ρ .b) (4 * ρ .gbb)))
  -- SCAN correlation
  | 45 => 0 < ρ .gnn ∧ ScanSmooth (ρ .tau - tauW (ρ .n) (ρ .gnn)) (tauU (ρ .n) * polT (ρ .s / ρ .n))
  | 47 => 0 < ρ .gnn ∧ Between (rscanAlpha (ρ .tau - tauW (ρ .n) (ρ .gnn)) ((tauU (ρ .n) + 1e-4) * polT (ρ .s / ρ .n)))
  | 49 => 0 < ρ .gnn ∧ 1e-14 < |ρ .tau - tauW (ρ .n) (ρ .gnn)| ∧
      Between ((ρ .tau - tauW (ρ .n) (ρ .gnn)) / (tauU (ρ .n) * polT (ρ .s / ρ .n) + 1e-3 * tauW (ρ .n) (ρ .gnn)))
  | 51 | 53 => ((ρ .a + ρ .b = ρ .n ∧ ρ .a - ρ .b = ρ .s) ∧ R2Domain 0.031090690869655 0.51984209978974632953442121455650 (ρ .n) (ρ .s / ρ .n) (ρ .gnn)) ∧
      0 < ρ .gnn ∧ 1e-14 < |ρ .tau - tauW (ρ .n) (ρ .gnn)| ∧
      Between ((ρ .tau - tauW (ρ .n) (ρ .gnn)) / (tauU (ρ .n) * polT (ρ .s / ρ .n) + 1e-3 * tauW (ρ .n) (ρ .gnn)))
  -- TPSS correlation: TPSSC, REVTPSSC, TPSSLOCC
  | 41 => TpssSmooth (Lit.pbeEps 0.06672455060314922) ρ
  | 43 => TpssSmooth (fun n z g => Lit.pbeEps (Lit.betaRs (Lit.rs n)) n z g) ρ
  | 75 => TpssSmooth Lit.pbelocEps ρ
  -- the pole of the enhancement factor of REVTPSSX
  | 44 => (0 < ρ .taua ∧ 0 < ρ .taub) ∧ Lit.revtpssArgCode (2 * ρ .a) (4 * ρ .gaa) (2 * ρ .taua) ≠ -0.804 ∧
      Lit.revtpssArgCode (2 * ρ .b) (4 * ρ .gbb) (2 * ρ .taub) ≠ -0.804
  -- the poles of LDAERFC_JT
  | 15 => (ρ .a + ρ .b = ρ .n ∧ ρ .a - ρ .b = ρ .s) ∧ jtDenominator ⟨ρ .a, ρ .b, 0, 0, 0, 0, 0⟩ 3.39530545262710070631 1.92366105093154 μ ≠ 0
  | 10 | 11 | 12 => False
  | _ => True

end

end XCFun.Spec
