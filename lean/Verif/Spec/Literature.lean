/-
The functionals as they are published, as real functions of the spin densities.  Written from the literature (references at each definition) in the
variables used there: `r_s`, `ζ`, `k_F`, reduced gradients, exact spin scaling of exchange.  Nothing here refers to the model of the code.
-/
import Mathlib.Analysis.SpecialFunctions.Pow.Real
import Mathlib.Analysis.SpecialFunctions.Arsinh
import Mathlib.Analysis.SpecialFunctions.Trigonometric.Arctan
import Mathlib.MeasureTheory.Integral.IntervalIntegral.Basic
import Mathlib.Analysis.Real.Pi.Bounds

namespace XCFun.Lit

noncomputable section

open Real (pi log exp sqrt arsinh arctan)

/-- Spin densities at a point, scalar products of their gradients, and kinetic energy densities `(1/2) Σ |∇φ|²`. -/
structure Gas where
  a : ℝ
  b : ℝ
  gaa : ℝ
  gab : ℝ
  gbb : ℝ
  taua : ℝ
  taub : ℝ

variable (g : Gas)

/-- Total density. -/
def Gas.n : ℝ := g.a + g.b
/-- Spin polarisation. -/
def Gas.zeta : ℝ := (g.a - g.b) / g.n
/-- `|∇n|²`. -/
def Gas.gnn : ℝ := g.gaa + 2 * g.gab + g.gbb
/-- Total kinetic energy density. -/
def Gas.tau : ℝ := g.taua + g.taub

/-- Wigner-Seitz radius. -/
def rs (n : ℝ) : ℝ := (3 / (4 * pi * n)) ^ (1 / 3 : ℝ)
/-- Fermi wave vector. -/
def kF (n : ℝ) : ℝ := (3 * pi ^ 2 * n) ^ (1 / 3 : ℝ)
/-- Thomas-Fermi screening wave vector. -/
def ks (n : ℝ) : ℝ := √(4 * kF n / pi)
/-- Square of the reduced gradient `s = |∇n| / (2 k_F n)`, from `|∇n|²`. -/
def sSq (n g2 : ℝ) : ℝ := g2 / (2 * kF n * n) ^ 2
/-- `((1+ζ)^p + (1-ζ)^p)/2`. -/
def pol (p z : ℝ) : ℝ := ((1 + z) ^ p + (1 - z) ^ p) / 2
/-- The interpolation `f(ζ)` of von Barth and Hedin. -/
def fPol (z : ℝ) : ℝ := ((1 + z) ^ (4 / 3 : ℝ) + (1 - z) ^ (4 / 3 : ℝ) - 2) / (2 ^ (4 / 3 : ℝ) - 2)
/-- `f''(0)`. -/
def fPol2 : ℝ := 4 / (9 * (2 ^ (1 / 3 : ℝ) - 1))
/-- von Weizsaecker kinetic energy density. -/
def tauW (n g2 : ℝ) : ℝ := g2 / (8 * n)
/-- Thomas-Fermi kinetic energy density of the unpolarised gas. -/
def tauTF (n : ℝ) : ℝ := 3 / 10 * (3 * pi ^ 2) ^ (2 / 3 : ℝ) * n ^ (5 / 3 : ℝ)

/-! ### Exchange -/

/-- Exact spin scaling of exchange (and kinetic) energies: `E[a,b] = (E[2a] + E[2b])/2`. -/
def spinScaled (E : ℝ → ℝ → ℝ → ℝ) : ℝ :=
  (E (2 * g.a) (4 * g.gaa) (2 * g.taua) + E (2 * g.b) (4 * g.gbb) (2 * g.taub)) / 2

/-- Exchange energy per volume of the unpolarised uniform gas (Dirac). -/
def exUnif (n : ℝ) : ℝ := -(3 / 4) * (3 / pi) ^ (1 / 3 : ℝ) * n ^ (4 / 3 : ℝ)

/-- Exchange with enhancement factor `F(s²)`. -/
def exGGA (F : ℝ → ℝ) : ℝ := spinScaled g fun n g2 _ => exUnif n * F (sSq n g2)

/-- Dirac and Slater. -/
def slaterX : ℝ := spinScaled g fun n _ _ => exUnif n

/-- The enhancement factor of Perdew, Burke and Ernzerhof. -/
def fPBE (κ μ s2 : ℝ) : ℝ := 1 + κ - κ / (1 + μ * s2 / κ)

/-- Perdew, Burke, Ernzerhof, Phys. Rev. Lett. 77 (1996) 3865: `κ = 0.804`, `μ = β π²/3`, `β = 0.066725`. -/
def pbeX : ℝ := exGGA g (fPBE 0.804 (0.066725 * pi ^ 2 / 3))
/-- Zhang, Yang, Phys. Rev. Lett. 80 (1998) 890: `κ = 1.245`. -/
def revpbeX : ℝ := exGGA g (fPBE 1.245 (0.066725 * pi ^ 2 / 3))
/-- Hammer, Hansen, Norskov, Phys. Rev. B 59 (1999) 7413: `1 + κ (1 - exp(-μ s²/κ))`. -/
def rpbeX : ℝ := exGGA g fun s2 => 1 + 0.804 * (1 - exp (-0.2195149727645171 * s2 / 0.804))
/-- Perdew et al., Phys. Rev. Lett. 100 (2008) 136406, with `μ` given (published: 10/81). -/
def pbesolX (μ : ℝ) : ℝ := exGGA g (fPBE 0.804 μ)
/-- Fabiano, Constantin, Della Sala, Phys. Rev. B 82 (2010) 113104, with `μ_GE` given (published: 10/81):
    `μ(s) = μ_GE + (μ_PBE - μ_GE) α s²/(1 + α s²)`. -/
def pbeintX (μ : ℝ) : ℝ := exGGA g fun s2 => fPBE 0.804 (μ + (0.21951 - μ) * (0.197 * s2 / (1 + 0.197 * s2))) s2
/-- Constantin et al., Phys. Rev. Lett. 106 (2011) 186406. -/
def apbeX : ℝ := exGGA g (fPBE 0.804 0.26)
/-- Perdew, Wang, Phys. Rev. B 33 (1986) 8800: `(1 + 1.296 s² + 14 s⁴ + 0.2 s⁶)^(1/15)`. -/
def pw86X : ℝ := exGGA g fun s2 => (1 + 1.296 * s2 + 14 * s2 ^ 2 + 0.2 * s2 ^ 3) ^ (1 / 15 : ℝ)

/-- Enhancement factor of Perdew and Wang 1991. -/
def fPW91 (a b c d e f s2 : ℝ) : ℝ :=
  (1 + a * √s2 * arsinh (b * √s2) + (c - d * exp (-e * s2)) * s2) / (1 + a * √s2 * arsinh (b * √s2) + f * s2 ^ 2)
/-- Perdew et al., Phys. Rev. B 46 (1992) 6671 (constants as usually implemented: 0.15084 for 0.1508). -/
def pw91X : ℝ := exGGA g (fPW91 0.19645 7.7956 0.2743 0.15084 100 0.004)
/-- Lembarki, Chermette, Phys. Rev. A 50 (1994) 5328: the kinetic energy with the form of PW91 exchange. -/
def pw91K : ℝ := spinScaled g fun n g2 _ => tauTF n * fPW91 0.093907 76.320 0.26608 0.0809615 100 0.000057767 (sSq n g2)

/-- Square of the reduced gradient `x = |∇a| / a^(4/3)` of one spin. -/
def chiSq (a gaa : ℝ) : ℝ := gaa / (a ^ (4 / 3 : ℝ)) ^ 2

/-- Gradient correction of Becke, Phys. Rev. A 38 (1988) 3098, for one spin: `-β a^(4/3) x²/(1 + 6 β x asinh x)`, `β = 0.0042`. -/
def b88 (a gaa : ℝ) : ℝ :=
  -0.0042 * a ^ (4 / 3 : ℝ) * chiSq a gaa / (1 + 6 * 0.0042 * √(chiSq a gaa) * arsinh √(chiSq a gaa))
/-- The gradient correction alone. -/
def b88Corr : ℝ := b88 g.a g.gaa + b88 g.b g.gbb
/-- Becke 1988. -/
def b88X : ℝ := slaterX g + b88Corr g

/-- The constant `C_X = (3/2) (3/(4π))^(1/3)` of spin exchange. -/
def cX : ℝ := 3 / 2 * (3 / (4 * pi)) ^ (1 / 3 : ℝ)

/-- `K` of Iikura et al.: exchange of one spin is `-(1/2) a^(4/3) K`. -/
def b88K (a gaa : ℝ) : ℝ := 2 * (cX + 0.0042 * chiSq a gaa / (1 + 6 * 0.0042 * √(chiSq a gaa) * arsinh √(chiSq a gaa)))

/-- The error function. -/
def erf (x : ℝ) : ℝ := 2 / √pi * ∫ t in (0 : ℝ)..x, exp (-t ^ 2)

/-- Attenuation of exchange by the long-range part `erf(μ r)/r` of the interaction:
    `(8/3) A (√π erf(1/(2A)) + (2A - 4A³) exp(-1/(4A²)) - 3A + 4A³)`. -/
def attenuation (A : ℝ) : ℝ :=
  8 / 3 * A * (√pi * erf (1 / (2 * A)) + (2 * A - 4 * A ^ 3) * exp (-1 / (4 * A ^ 2)) - 3 * A + 4 * A ^ 3)

/-- Argument of the attenuation for Becke 1988: `A = μ √K / (6 √π a^(1/3))`. -/
def b88A (μ a gaa : ℝ) : ℝ := μ * √(b88K a gaa) / (6 * √pi * a ^ (1 / 3 : ℝ))

/-- Iikura, Tsuneda, Yanai, Hirao, J. Chem. Phys. 115 (2001) 3540, one spin. -/
def b88srSpin (μ a gaa : ℝ) : ℝ := -(1 / 2) * a ^ (4 / 3 : ℝ) * b88K a gaa * (1 - attenuation (b88A μ a gaa))
/-- Short-range Becke 1988. -/
def b88srX (μ : ℝ) : ℝ := b88srSpin μ g.a g.gaa + b88srSpin μ g.b g.gbb
/-- Yanai, Tew, Handy, Chem. Phys. Lett. 393 (2004) 51, one spin. -/
def b88camSpin (α β μ a gaa : ℝ) : ℝ := -(1 / 2) * a ^ (4 / 3 : ℝ) * b88K a gaa * (1 - α - β * attenuation (b88A μ a gaa))
/-- CAM Becke 1988. -/
def b88camX (α β μ : ℝ) : ℝ := b88camSpin α β μ g.a g.gaa + b88camSpin α β μ g.b g.gbb

/-- `u = γ x²/(1 + γ x²)`. -/
def uRed (γ x2 : ℝ) : ℝ := γ * x2 / (1 + γ * x2)

/-- Handy, Cohen, Mol. Phys. 99 (2001) 403: `-Σ a^(4/3) (a₁ C_X + a₂ u²)`, `γ = 0.006`. -/
def optX : ℝ :=
  -(g.a ^ (4 / 3 : ℝ) * (1.05151 * cX + 1.43169 * uRed 0.006 (chiSq g.a g.gaa) ^ 2) +
    g.b ^ (4 / 3 : ℝ) * (1.05151 * cX + 1.43169 * uRed 0.006 (chiSq g.b g.gbb) ^ 2))
/-- The gradient part of OPTX without its factor. -/
def optXCorr : ℝ :=
  g.a ^ (4 / 3 : ℝ) * uRed 0.006 (chiSq g.a g.gaa) ^ 2 + g.b ^ (4 / 3 : ℝ) * uRed 0.006 (chiSq g.b g.gbb) ^ 2

/-- Keal, Tozer, J. Chem. Phys. 119 (2003) 3015: the gradient term without its factor, `δ = 0.1`. -/
def ktX : ℝ := g.gaa / (g.a ^ (4 / 3 : ℝ) + 0.1) + g.gbb / (g.b ^ (4 / 3 : ℝ) + 0.1)

/-- The power series of Becke, J. Chem. Phys. 107 (1997) 8554. -/
def b97g (γ c0 c1 c2 x2 : ℝ) : ℝ := c0 + c1 * uRed γ x2 + c2 * uRed γ x2 ^ 2

/-- B97 exchange with given uniform-gas constant (published: `C_X`). -/
def b97X (cx c0 c1 c2 : ℝ) : ℝ :=
  -cx * g.a ^ (4 / 3 : ℝ) * b97g 0.004 c0 c1 c2 (chiSq g.a g.gaa) - cx * g.b ^ (4 / 3 : ℝ) * b97g 0.004 c0 c1 c2 (chiSq g.b g.gbb)

/-- Short-range local exchange with `k_F` given up to its constant `c` (published: `(3π²)^(1/3)`); Savin in Recent developments of modern density
    functional theory (1996): `A = μ/(2 k_F)`. -/
def ldaSrX (c μ : ℝ) : ℝ := spinScaled g fun n _ _ => exUnif n * (1 - attenuation (μ / (2 * (c * n ^ (1 / 3 : ℝ)))))

/-! ### Kinetic energy -/

/-- Thomas and Fermi, total density. -/
def tfK : ℝ := tauTF g.n
/-- von Weizsaecker, both spins. -/
def vwK : ℝ := tauW g.a g.gaa + tauW g.b g.gbb
/-- Borgoo, Tozer, J. Chem. Theory Comput. 9 (2013) 2250, with `|∇n|²` regularised by `δ`: `T = (T[2a] + T[2b])/2`,
    `T[n] = 1.990328 n^(5/3) (|∇n|/n^(4/3))^0.3434125`. -/
def btK (δ : ℝ) : ℝ := spinScaled g fun n g2 _ => 1.990328 * n ^ (5 / 3 : ℝ) * (√(g2 + δ) / n ^ (4 / 3 : ℝ)) ^ (0.3434125 : ℝ)

/-! ### Local correlation -/

/-- Parameters `A, x₀, b, c` of Vosko, Wilk and Nusair. -/
structure Vwn where
  A : ℝ
  x0 : ℝ
  b : ℝ
  c : ℝ

/-- Vosko, Wilk, Nusair, Can. J. Phys. 58 (1980) 1200, eq. 4.4 (energies in Hartree), at `x = √r_s`. -/
def vwn (p : Vwn) (x : ℝ) : ℝ :=
  let X := fun t => t ^ 2 + p.b * t + p.c
  let Q := √(4 * p.c - p.b ^ 2)
  p.A * (log (x ^ 2 / X x) + 2 * p.b / Q * arctan (Q / (2 * x + p.b)) -
    p.b * p.x0 / X p.x0 * (log ((x - p.x0) ^ 2 / X x) + 2 * (p.b + 2 * p.x0) / Q * arctan (Q / (2 * x + p.b))))

/-- VWN5, paramagnetic. -/
def vwn5P : Vwn := ⟨0.0310907, -0.10498, 3.72744, 12.9352⟩
/-- VWN5, ferromagnetic. -/
def vwn5F : Vwn := ⟨0.01554535, -0.325, 7.06042, 18.0578⟩
/-- VWN5, spin stiffness: `A = -1/(6π²)`. -/
def vwn5S : Vwn := ⟨-1 / (6 * pi ^ 2), -0.0047584, 1.13107, 13.0045⟩
/-- VWN3 (random phase approximation), paramagnetic. -/
def vwn3P : Vwn := ⟨0.0310907, -0.409286, 13.0720, 42.7198⟩
/-- VWN3, ferromagnetic. -/
def vwn3F : Vwn := ⟨0.01554535, -0.743294, 20.1231, 101.578⟩

/-- VWN5 per electron, the factor `1/(2^(4/3)-2)` of `f(ζ)` given. -/
def vwn5Eps (k : ℝ) : ℝ :=
  let x := √(rs g.n)
  let f := k * ((1 + g.zeta) ^ (4 / 3 : ℝ) + (1 - g.zeta) ^ (4 / 3 : ℝ) - 2)
  vwn vwn5P x + vwn vwn5S x * f / fPol2 * (1 - g.zeta ^ 4) + (vwn vwn5F x - vwn vwn5P x) * f * g.zeta ^ 4
/-- VWN5. -/
def vwn5C (k : ℝ) : ℝ := g.n * vwn5Eps g k
/-- VWN3: interpolation with `f(ζ)` alone. -/
def vwn3C (k : ℝ) : ℝ :=
  let x := √(rs g.n)
  let f := k * ((1 + g.zeta) ^ (4 / 3 : ℝ) + (1 - g.zeta) ^ (4 / 3 : ℝ) - 2)
  g.n * (vwn vwn3P x + (vwn vwn3F x - vwn vwn3P x) * f)

/-- Perdew, Wang, Phys. Rev. B 45 (1992) 13244, eq. 10 with `p = 1`. -/
def pwG (A α β1 β2 β3 β4 r : ℝ) : ℝ :=
  -2 * A * (1 + α * r) * log (1 + 1 / (2 * A * (β1 * √r + β2 * r + β3 * r ^ (3 / 2 : ℝ) + β4 * r ^ 2)))

/-- Correlation energy per electron of the unpolarised gas. -/
def pw92P (r : ℝ) : ℝ := pwG 0.0310907 0.21370 7.5957 3.5876 1.6382 0.49294 r
/-- Correlation energy per electron of the polarised gas. -/
def pw92F (r : ℝ) : ℝ := pwG 0.01554535 0.20548 14.1189 6.1977 3.3662 0.62517 r
/-- Minus the spin stiffness. -/
def pw92S (r : ℝ) : ℝ := pwG 0.0168869 0.11125 10.357 3.6231 0.88026 0.49671 r

/-- Perdew and Wang 1992, correlation energy per electron. -/
def pw92Eps (n z : ℝ) : ℝ :=
  pw92P (rs n) - pw92S (rs n) * fPol z / fPol2 * (1 - z ^ 4) + (pw92F (rs n) - pw92P (rs n)) * fPol z * z ^ 4
/-- Perdew and Wang 1992. -/
def pw92C : ℝ := g.n * pw92Eps g.n g.zeta

/-- Perdew, Zunger, Phys. Rev. B 23 (1981) 5048, one polarisation: `γ/(1 + β₁√r_s + β₂ r_s)` and `A ln r_s + B + C r_s ln r_s + D r_s`. -/
def pz (γ β1 β2 A B C D r : ℝ) : ℝ :=
  if 1 ≤ r then γ / (1 + β1 * √r + β2 * r) else A * log r + B + C * r * log r + D * r
/-- Perdew and Zunger, correlation energy per electron. -/
def pz81Eps (n z : ℝ) : ℝ :=
  let u := pz (-0.1423) 1.0529 0.3334 0.0311 (-0.048) 0.0020 (-0.0116) (rs n)
  let p := pz (-0.0843) 1.3981 0.2611 0.01555 (-0.0269) 0.0007 (-0.0048) (rs n)
  u + (p - u) * fPol z
/-- Perdew and Zunger. -/
def pz81C : ℝ := g.n * pz81Eps g.n g.zeta

/-! ### Gradient-corrected correlation -/

/-- `φ(ζ) = ((1+ζ)^(2/3) + (1-ζ)^(2/3))/2`. -/
def phi (z : ℝ) : ℝ := pol (2 / 3) z
/-- Square of the reduced gradient `t = |∇n|/(2 φ k_s n)`. -/
def tSq (n z g2 : ℝ) : ℝ := g2 / (2 * phi z * ks n * n) ^ 2
/-- `γ = (1 - ln 2)/π²`. -/
def gammaPBE : ℝ := (1 - log 2) / pi ^ 2

/-- `A` of Perdew, Burke and Ernzerhof. -/
def pbeA (β ε z : ℝ) : ℝ := β / gammaPBE / (exp (-ε / (gammaPBE * phi z ^ 3)) - 1)
/-- `H` of Perdew, Burke and Ernzerhof: `γ φ³ ln(1 + (β/γ) t² (1 + A t²)/(1 + A t² + A² t⁴))`. -/
def pbeH (β ε z t2 : ℝ) : ℝ :=
  gammaPBE * phi z ^ 3 *
    log (1 + β / gammaPBE * t2 * ((1 + pbeA β ε z * t2) / (1 + pbeA β ε z * t2 + pbeA β ε z ^ 2 * t2 ^ 2)))

/-- Correlation energy per electron of PBE form with given `β` on PW92. -/
def pbeEps (β n z g2 : ℝ) : ℝ := pw92Eps n z + pbeH β (pw92Eps n z) z (tSq n z g2)

/-- PBE correlation, `β` to all digits. -/
def pbeC : ℝ := g.n * pbeEps 0.06672455060314922 g.n g.zeta g.gnn
/-- PBE correlation on VWN5. -/
def vwnPbeC (k : ℝ) : ℝ := g.n * (vwn5Eps g k + pbeH 0.06672455060314922 (vwn5Eps g k) g.zeta (tSq g.n g.zeta g.gnn))
/-- APBE: `β = 3μ/π²`, `μ = 0.26`, with `β` given. -/
def apbeC : ℝ := g.n * pbeEps 0.079030523241 g.n g.zeta g.gnn
/-- PBEint: `β = 0.052`. -/
def pbeintC : ℝ := g.n * pbeEps 0.052 g.n g.zeta g.gnn
/-- Constantin, Fabiano, Della Sala, Phys. Rev. B 86 (2012) 035130: `β = β₀ + a t² (1 - exp(-r_s²))`. -/
def pbelocEps (n z g2 : ℝ) : ℝ := pbeEps (0.0375 + 0.08 * tSq n z g2 * (1 - exp (-rs n ^ 2))) n z g2
/-- PBEloc. -/
def pbelocC : ℝ := g.n * pbelocEps g.n g.zeta g.gnn

/-- Constantin, Fabiano, Della Sala, J. Chem. Phys. 137 (2012) 194105: `exp(-α v³ w(ζ))` times `H`, `v = t φ (3/r_s)^(1/6)`, with the polynomial
    fit of `w`. -/
def zvPbeC (β α : ℝ) : ℝ :=
  let z := g.zeta
  let v := √(tSq g.n z g.gnn) * phi z * (3 / rs g.n) ^ (1 / 6 : ℝ)
  let w := z ^ 4 * (0.462757 + 1.30129 * z ^ 2 - 1.59546 * z ^ 4 + 1.19635 * z ^ 6 - 0.36519 * z ^ 8)
  g.n * (pw92Eps g.n z + exp (-α * v ^ 3 * w) * pbeH β (pw92Eps g.n z) z (tSq g.n z g.gnn))

/-- Lee, Yang, Parr, Phys. Rev. B 37 (1988) 785 in the form of Miehlich et al., Chem. Phys. Lett. 157 (1989) 200. -/
def lypC : ℝ :=
  let a := 0.04918
  let b := 0.132
  let c := 0.2533
  let d := 0.349
  let r := g.n ^ (-1 / 3 : ℝ)
  let ω := exp (-c * r) / (1 + d * r) * g.n ^ (-11 / 3 : ℝ)
  let δ := c * r + d * r / (1 + d * r)
  let CF := 3 / 10 * (3 * pi ^ 2) ^ (2 / 3 : ℝ);
  -a * (4 / (1 + d * r)) * (g.a * g.b / g.n) -
    a * b * ω *
      (g.a * g.b *
          (2 ^ (11 / 3 : ℝ) * CF * (g.a ^ (8 / 3 : ℝ) + g.b ^ (8 / 3 : ℝ)) + (47 / 18 - 7 / 18 * δ) * g.gnn -
            (5 / 2 - 1 / 18 * δ) * (g.gaa + g.gbb) - (δ - 11) / 9 * (g.a / g.n * g.gaa + g.b / g.n * g.gbb)) -
        2 / 3 * g.n ^ 2 * g.gnn + (2 / 3 * g.n ^ 2 - g.a ^ 2) * g.gbb + (2 / 3 * g.n ^ 2 - g.b ^ 2) * g.gaa)

/-- The coefficient `C(n)` of Rasolt and Geldart as fitted by Perdew, Phys. Rev. B 33 (1986) 8822. -/
def p86Coef (r : ℝ) : ℝ :=
  0.001667 + (0.002568 + 0.023266 * r + 7.389e-6 * r ^ 2) / (1 + 8.723 * r + 0.472 * r ^ 2 + 0.07389 * r ^ 3)
/-- Gradient part of Perdew 1986: `exp(-Φ) C(n) |∇n|²/(d n^(4/3))`, `Φ = (9π)^(1/6) 0.11 (C(∞)/C(n)) |∇n|/n^(7/6)`, with `|∇n|²` in `Φ`
    regularised by `δ`. -/
def p86Corr (δ : ℝ) : ℝ :=
  let C := p86Coef (rs g.n)
  let Φ := (9 * pi) ^ (1 / 6 : ℝ) * 0.11 * (0.004235 / C) * (√(g.gnn + δ) / g.n ^ (7 / 6 : ℝ))
  let d := 2 ^ (1 / 3 : ℝ) * √(((1 + g.zeta) / 2) ^ (5 / 3 : ℝ) + ((1 - g.zeta) / 2) ^ (5 / 3 : ℝ))
  exp (-Φ) * C * g.gnn / (d * g.n ^ (4 / 3 : ℝ))
/-- Perdew 1986. -/
def p86C (δ : ℝ) : ℝ := pz81C g + p86Corr g δ

/-- Local part of Perdew-Wang 1991: the parameters with fewer digits, and `f''(0) = 1.709921`. -/
def pw91Eps (n z : ℝ) : ℝ :=
  let r := rs n
  let P := pwG 0.031091 0.21370 7.5957 3.5876 1.6382 0.49294 r
  let F := pwG 0.015545 0.20548 14.1189 6.1977 3.3662 0.62517 r
  let S := pwG 0.016887 0.11125 10.357 3.6231 0.88026 0.49671 r
  P - S * fPol z / 1.709921 * (1 - z ^ 4) + (F - P) * fPol z * z ^ 4

/-- Perdew et al., Phys. Rev. B 46 (1992) 6671: correlation. -/
def pw91C : ℝ :=
  let z := g.zeta
  let ε := pw91Eps g.n z
  let α := 0.09
  let ν := 16 / pi * (3 * pi ^ 2) ^ (1 / 3 : ℝ)
  let β := ν * 0.004235
  let t2 := tSq g.n z g.gnn
  let A := 2 * α / β / (exp (-2 * α * ε / (phi z ^ 3 * β ^ 2)) - 1)
  let H0 := phi z ^ 3 * β ^ 2 / (2 * α) * log (1 + 2 * α / β * ((t2 + A * t2 ^ 2) / (1 + A * t2 + A ^ 2 * t2 ^ 2)))
  let r := rs g.n
  let Cxc := (2.568 + 23.266 * r + 0.007389 * r ^ 2) / (1 + 8.723 * r + 0.472 * r ^ 2 + 0.07389 * r ^ 3) / 1000
  let Cx := -0.001667
  let H1 := ν * (Cxc - Cx - 0.004235 - 3 / 7 * Cx) * phi z ^ 3 * t2 * exp (-100 * phi z ^ 4 * (ks g.n ^ 2 / kF g.n ^ 2) * t2)
  g.n * (ε + H0 + H1)

/-- Stoll partition of PW92: same-spin part. -/
def stollSame (a : ℝ) : ℝ := a * pw92F (rs a)
/-- Opposite-spin part. -/
def stollOpp : ℝ := pw92C g - stollSame g.a - stollSame g.b

/-- B97 correlation: `γ_σσ = 0.2`, `γ_αβ = 0.006`; coefficients same-spin and opposite-spin. -/
def b97C (s0 s1 s2 o0 o1 o2 : ℝ) : ℝ :=
  stollSame g.a * b97g 0.2 s0 s1 s2 (chiSq g.a g.gaa) + stollSame g.b * b97g 0.2 s0 s1 s2 (chiSq g.b g.gbb) +
    stollOpp g * b97g 0.006 o0 o1 o2 ((chiSq g.a g.gaa + chiSq g.b g.gbb) / 2)

end
end XCFun.Lit
