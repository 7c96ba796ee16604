/-
Meta-GGA functionals and range-separated correlation as they are published (continuation of Spec/Literature).
-/
import Verif.Spec.Literature

namespace XCFun.Lit

noncomputable section

open Real (pi log exp sqrt arsinh arctan)

variable (g : Gas)

/-! ### The Minnesota functionals

Zhao, Schultz, Truhlar, J. Chem. Phys. 123 (2005) 161103 and J. Chem. Theory Comput. 2 (2006) 364 (M05, M05-2X); Zhao, Truhlar, J. Chem. Phys. 125
(2006) 194101, J. Phys. Chem. A 110 (2006) 13126, Theor. Chem. Acc. 120 (2008) 215 (M06-L, M06-HF, M06, M06-2X). -/

/-- `Σ_i c_i x^i`. -/
def series (c : List ℝ) (x : ℝ) : ℝ := (c.zipIdx.map fun p => p.1 * x ^ p.2).sum

/-- PBE exchange energy of one spin. -/
def pbeSpin (a gaa : ℝ) : ℝ := exUnif (2 * a) / 2 * fPBE 0.804 (0.066725 * pi ^ 2 / 3) (sSq (2 * a) (4 * gaa))

/-- Kinetic energy density of one spin of the uniform gas. -/
def tauSpin (a : ℝ) : ℝ := 3 / 10 * (6 * pi ^ 2) ^ (2 / 3 : ℝ) * a ^ (5 / 3 : ℝ)

/-- The variable `w = (t - 1)/(t + 1)`, `t = τ_LSDA/τ`. -/
def mW (a τ : ℝ) : ℝ := (tauSpin a / τ - 1) / (tauSpin a / τ + 1)

/-- The variable `z = 2τ/a^(5/3) - C_F` (published: `C_F = (3/5)(6π²)^(2/3)`). -/
def mZ (CF a τ : ℝ) : ℝ := 2 * τ / a ^ (5 / 3 : ℝ) - CF

/-- The function `h` of Van Voorhis and Scuseria: `γ = 1 + α(x² + z)`. -/
def vs98 (d : List ℝ) (α x2 z : ℝ) : ℝ :=
  let γ := 1 + α * (x2 + z)
  d.getD 0 0 / γ + (d.getD 1 0 * x2 + d.getD 2 0 * z) / γ ^ 2 + (d.getD 3 0 * x2 ^ 2 + d.getD 4 0 * x2 * z + d.getD 5 0 * z ^ 2) / γ ^ 3

/-- Exchange of M05, M05-2X and M06-2X. -/
def m05X (c : List ℝ) : ℝ := pbeSpin g.a g.gaa * series c (mW g.a g.taua) + pbeSpin g.b g.gbb * series c (mW g.b g.taub)

/-- Exchange of M06, M06-L and M06-HF. -/
def m06X (CF : ℝ) (c d : List ℝ) : ℝ :=
  m05X g c + exUnif (2 * g.a) / 2 * vs98 d 0.00186726 (chiSq g.a g.gaa) (mZ CF g.a g.taua) +
    exUnif (2 * g.b) / 2 * vs98 d 0.00186726 (chiSq g.b g.gbb) (mZ CF g.b g.taub)

/-- `g(x²) = Σ c_i (γx²/(1 + γx²))^i`. -/
def mG (γ : ℝ) (c : List ℝ) (x2 : ℝ) : ℝ := series c (γ * x2 / (1 + γ * x2))

/-- Self-interaction factor `1 - τ_W/τ` of one spin. -/
def mD (a gaa τ : ℝ) : ℝ := 1 - tauW a gaa / τ

/-- Correlation of M05 and M05-2X. -/
def m05C (cab css : List ℝ) : ℝ :=
  stollOpp g * mG 0.0031 cab (chiSq g.a g.gaa + chiSq g.b g.gbb) +
    stollSame g.a * (mG 0.06 css (chiSq g.a g.gaa) * mD g.a g.gaa g.taua) + stollSame g.b * (mG 0.06 css (chiSq g.b g.gbb) * mD g.b g.gbb g.taub)

/-- Correlation of the M06 functionals. -/
def m06C (CF : ℝ) (cab dab css dss : List ℝ) : ℝ :=
  stollOpp g * (mG 0.0031 cab (chiSq g.a g.gaa + chiSq g.b g.gbb) +
      vs98 dab 0.00304966 (chiSq g.a g.gaa + chiSq g.b g.gbb) (mZ CF g.a g.taua + mZ CF g.b g.taub)) +
    stollSame g.a * ((mG 0.06 css (chiSq g.a g.gaa) + vs98 dss 0.00515088 (chiSq g.a g.gaa) (mZ CF g.a g.taua)) * mD g.a g.gaa g.taua) +
    stollSame g.b * ((mG 0.06 css (chiSq g.b g.gbb) + vs98 dss 0.00515088 (chiSq g.b g.gbb) (mZ CF g.b g.taub)) * mD g.b g.gbb g.taub)

/-! The tables of coefficients. -/

/-- M05 exchange. -/
def m05Xa : List ℝ :=
  [1, 0.08151, -0.43956, -3.22422, 2.01819, 8.79431, -0.00295, 9.82029, -4.82351, -48.17574, 3.64802, 34.02248]
/-- M05-2X exchange. -/
def m052Xa : List ℝ :=
  [1, -0.56833, -1.30057, 5.50070, 9.06402, -32.21075, -23.73298, 70.22996, 29.88614, -60.25778, -13.22205, 15.23694]
/-- M06-2X exchange. -/
def m062Xa : List ℝ :=
  [0.46, -0.2206052, -0.09431788, 2.164494, -2.556466, -14.22133, 15.55044, 35.98078, -27.22754, -39.24093, 15.22808, 15.22227]
/-- M06 exchange. -/
def m06Xa : List ℝ :=
  [0.5877943, -0.1371776, 0.2682367, -2.515898, -2.978892, 8.710679, 16.88195, -4.489724, -32.99983, -14.49050, 20.43747, 12.56504]
/-- M06 exchange, second part. -/
def m06Xd : List ℝ := [0.1422057, 0.0007370319, -0.01601373]
/-- M06-L exchange. -/
def m06LXa : List ℝ :=
  [0.3987756, 0.2548219, 0.3923994, -2.103655, -6.302147, 10.97615, 30.97273, -23.18489, -56.73480, 21.60364, 34.21814, -9.049762]
/-- M06-L exchange, second part. -/
def m06LXd : List ℝ := [0.6012244, 0.004748822, -0.008635108, -0.000009308062, 0.00004482811]
/-- M06-HF exchange. -/
def m06HFXa : List ℝ :=
  [0.1179732, -1.066708, -0.1462405, 7.481848, 3.776679, -44.36118, -18.30962, 100.3903, 38.64360, -98.06018, -25.57716, 35.90404]
/-- M06-HF exchange, second part. -/
def m06HFXd : List ℝ := [-0.1179732, -0.0025, -0.01180056]
/-- M05 correlation, opposite and same spin. -/
def m05Cc : List ℝ × List ℝ := ([1, 3.78569, -14.15261, -7.46589, 17.94491], [1, 3.77344, -26.04463, 30.69913, -9.22695])
/-- M05-2X correlation. -/
def m052Cc : List ℝ × List ℝ := ([1, 1.09297, -3.79171, 2.82810, -10.58909], [1, -3.05430, 7.61854, 1.47665, -11.92365])
/-- M06 correlation: coefficients `c` and `d` of opposite and same spin. -/
def m06Cc : (List ℝ × List ℝ) × (List ℝ × List ℝ) :=
  (([3.741539, 218.7098, -453.1252, 293.6479, -62.87470], [-2.741539, -0.6720113, -0.07932688, 0.001918681, -0.002032902]),
    ([0.5094055, -1.491085, 17.23922, -38.59018, 28.45044], [0.4905945, -0.1437348, 0.2357824, 0.001871015, -0.003788963]))
/-- M06-L correlation. -/
def m06LCc : (List ℝ × List ℝ) × (List ℝ × List ℝ) :=
  (([0.6042374, 177.6783, -251.3252, 76.35173, -12.55699], [0.3957626, -0.5614546, 0.01403963, 0.0009831442, -0.003577176]),
    ([0.5349466, 0.5396620, -31.61217, 51.49592, -29.19613], [0.4650534, 0.1617589, 0.1833657, 0.0004692100, -0.004990573]))
/-- M06-HF correlation. -/
def m06HFCc : (List ℝ × List ℝ) × (List ℝ × List ℝ) :=
  (([1.674634, 57.32017, 59.55416, -231.1007, 125.5199], [-0.6746338, -0.1534002, -0.09021521, -0.001292037, -0.0002352983]),
    ([0.1023254, -2.453783, 29.13180, -34.94358, 23.15955], [0.8976746, -0.2345830, 0.2368173, -0.0009913890, -0.01146165]))
/-- M06-2X correlation. -/
def m062Cc : (List ℝ × List ℝ) × (List ℝ × List ℝ) :=
  (([0.8833596, 33.57972, -70.43548, 49.78271, -18.52891], [0.1166404, -0.09120847, -0.06726189, 0.00006720580, 0.0008448011]),
    ([0.3097855, -5.528642, 13.47420, -32.13623, 28.46742], [0.6902145, 0.09847204, 0.2214797, -0.001968264, -0.006775479]))

/-! ### TPSS and relatives -/

/-- Enhancement factor of Tao, Perdew, Staroverov, Scuseria, Phys. Rev. Lett. 91 (2003) 146401; `zf` is the function of `z = τ_W/τ` multiplying `c`
    (TPSS: `z²`). -/
def tpssEnh (κ μ b c e : ℝ) (zf : ℝ → ℝ) (n g2 τ : ℝ) : ℝ :=
  let p := sSq n g2
  let z := tauW n g2 / τ
  let α := (τ - tauW n g2) / tauTF n
  let q := 9 / 20 * (α - 1) / √(1 + b * α * (α - 1)) + 2 * p / 3
  let x := ((10 / 81 + c * zf z / (1 + z ^ 2) ^ 2) * p + 146 / 2025 * q ^ 2 - 73 / 405 * q * √((3 / 5 * z) ^ 2 / 2 + p ^ 2 / 2) +
    (10 / 81 * p) ^ 2 / κ + 2 * √e * (10 / 81) * (3 / 5 * z) ^ 2 + e * μ * p ^ 3) / (1 + √e * p) ^ 2
  1 + κ - κ / (1 + x / κ)
/-- TPSS exchange. -/
def tpssX : ℝ := spinScaled g fun n g2 τ => exUnif n * tpssEnh 0.804 0.21951 0.40 1.59096 1.537 (fun z => z ^ 2) n g2 τ
/-- revTPSS exchange: Perdew et al., Phys. Rev. Lett. 103 (2009) 026403. -/
def revtpssX : ℝ := spinScaled g fun n g2 τ => exUnif n * tpssEnh 0.804 0.14 0.40 2.35204 2.1677 (fun z => z ^ 3) n g2 τ
/-- BLOC exchange: Constantin, Fabiano, Della Sala, J. Chem. Theory Comput. 9 (2013) 2256. -/
def blocX : ℝ := spinScaled g fun n g2 τ => exUnif n * tpssEnh 0.804 0.21951 0.40 1.59096 1.537 (fun z => z ^ (4 - 3.3 * z)) n g2 τ

/-- `|∇ζ|²`, from `∇ζ = 2 (b ∇a - a ∇b)/n²`. -/
def gradZetaSq : ℝ := 4 * (g.b ^ 2 * g.gaa - 2 * g.a * g.b * g.gab + g.a ^ 2 * g.gbb) / g.n ^ 4
/-- `ξ² = (|∇ζ|/(2 (3π²n)^(1/3)))²`. -/
def xiSq : ℝ := gradZetaSq g / (2 * kF g.n) ^ 2
/-- `C(ζ,ξ)` from the coefficients of `C(ζ,0)`. -/
def tpssCz (c0 c1 c2 c3 : ℝ) : ℝ :=
  (c0 + c1 * g.zeta ^ 2 + c2 * g.zeta ^ 4 + c3 * g.zeta ^ 6) / (1 + xiSq g * pol (-4 / 3) g.zeta) ^ 4
/-- The revised PKZB energy per electron, from a GGA correlation energy `ε(n, ζ, |∇n|²)` and `C`. -/
def revPKZB (ε : ℝ → ℝ → ℝ → ℝ) (C : ℝ) : ℝ :=
  let e := ε g.n g.zeta g.gnn
  let z := tauW g.n g.gnn / g.tau
  e * (1 + C * z ^ 2) - (1 + C) * z ^ 2 * (g.a / g.n * max (ε g.a 1 g.gaa) e + g.b / g.n * max (ε g.b 1 g.gbb) e)
/-- TPSS correlation with power `k` of `z = τ_W/τ` (TPSS: 3). -/
def tpssLikeC (ε : ℝ → ℝ → ℝ → ℝ) (C d : ℝ) (k : ℕ) : ℝ :=
  g.n * (revPKZB g ε C * (1 + d * revPKZB g ε C * (tauW g.n g.gnn / g.tau) ^ k))
/-- TPSS correlation. -/
def tpssC : ℝ := tpssLikeC g (pbeEps 0.06672455060314922) (tpssCz g 0.53 0.87 0.50 2.26) 2.8 3
/-- TPSSloc correlation: Constantin, Fabiano, Della Sala, Phys. Rev. B 86 (2012) 035130. -/
def tpsslocC : ℝ := tpssLikeC g pbelocEps (tpssCz g 0.35 0.87 0.50 2.26) 4.5 3
/-- The coefficient `β(r_s)` of Hu and Langreth as fitted in revTPSS and SCAN. -/
def betaRs (r : ℝ) : ℝ := 0.066725 * (1 + 0.1 * r) / (1 + 0.1778 * r)
/-- revTPSS correlation with power `k` (published: 3). -/
def revtpssC (k : ℕ) : ℝ :=
  tpssLikeC g (fun n z g2 => pbeEps (betaRs (rs n)) n z g2) (tpssCz g 0.59 0.9269 0.6225 2.1540) 2.8 k

/-! ### The SCAN family

Sun, Ruzsinszky, Perdew, Phys. Rev. Lett. 115 (2015) 036402 (SCAN); Bartok, Yates, J. Chem. Phys. 150 (2019) 161101 (rSCAN); Furness, Kaplan, Ning, Perdew,
Sun, J. Phys. Chem. Lett. 11 (2020) 8208 (r²SCAN) and J. Chem. Phys. 156 (2022) 034109 (r++SCAN, r⁴SCAN). -/

/-- `η`. -/
def η : ℝ := 0.001
/-- The indicator of SCAN, `α = (τ - τ_W)/τ_unif`. -/
def alphaScan (τ τw τu : ℝ) : ℝ := (τ - τw) / τu
/-- The indicator of rSCAN: `α̃³/(α̃² + 0.001)`. -/
def alphaR (x : ℝ) : ℝ := x ^ 3 / (x ^ 2 + 0.001)
/-- The indicator of r++SCAN, r²SCAN and r⁴SCAN. -/
def alphaBar (τ τw τu : ℝ) : ℝ := (τ - τw) / (τu + η * τw)

/-- The interpolation of SCAN. -/
def fScan (c1 c2 d α : ℝ) : ℝ := if α < 1 then exp (-c1 * α / (1 - α)) else -d * exp (c2 / (1 - α))
/-- The interpolation of rSCAN and its successors, with polynomial part on `[0, 2.5)`. -/
def fR (c1 c2 d : ℝ) (c : List ℝ) (α : ℝ) : ℝ :=
  if α < 0 then exp (-c1 * α / (1 - α)) else if α < 2.5 then series c α else -d * exp (c2 / (1 - α))
/-- Coefficients for exchange. -/
def cfx : List ℝ := [1, -0.667, -0.4445555, -0.663086601049, 1.451297044490, -0.887998041597, 0.234528941479, -0.023185843322]
/-- Coefficients for correlation. -/
def cfc : List ℝ := [1, -0.64, -0.4352, -1.535685604549, 3.061560252175, -1.915710236206, 0.516884468372, -0.051848879792]
/-- First derivative of the polynomial at 1. -/
def dSeries (c : List ℝ) : ℝ := (c.zipIdx.map fun p => p.1 * (p.2 : ℝ)).sum
/-- Second derivative of the polynomial at 1. -/
def ddSeries (c : List ℝ) : ℝ := (c.zipIdx.map fun p => p.1 * ((p.2 : ℝ) * ((p.2 : ℝ) - 1))).sum

/-- `h_x⁰`. -/
def h0x : ℝ := 1.174
/-- `h_x¹` of SCAN. -/
def h1xScan (p α : ℝ) : ℝ :=
  let μ := 10 / 81
  let b4 := μ ^ 2 / 0.065 - 0.112654
  let x := μ * p * (1 + b4 * p / μ * exp (-|b4| * p / μ)) + (0.156632 * p + 0.12083 * (1 - α) * exp (-0.5 * (1 - α) ^ 2)) ^ 2
  1 + 0.065 - 0.065 / (1 + x / 0.065)
/-- `C_η`. -/
def cη : ℝ := 20 / 27 + η * 5 / 3
/-- `C₂`. -/
def c2x : ℝ := -dSeries cfx * (1 - h0x)
/-- `h_x¹` of r²SCAN. -/
def h1xR2 (p : ℝ) : ℝ :=
  let x := (cη * c2x * exp (-p ^ 2 / 0.361 ^ 4) + 10 / 81) * p
  1 + 0.065 - 0.065 / (1 + x / 0.065)
/-- `ΔF₄` of r⁴SCAN with damping lengths `da`, `dp`. -/
def ΔF4 (da dp p α : ℝ) : ℝ :=
  let eη := η * 3 / 4 + 2 / 3
  let caa := 73 / 5000 - ddSeries cfx / 2 * (h0x - 1)
  let cpa := 511 / 13500 - 73 / 1500 * η - dSeries cfx * (cη * c2x + 10 / 81)
  let cpp := 146 / 2025 * eη ^ 2 - 73 / 405 * eη + (cη * c2x + 10 / 81) ^ 2 / 0.065
  (c2x * (1 - α - cη * p) + caa * (1 - α) ^ 2 + cpa * p * (1 - α) + cpp * p ^ 2) * (2 * α ^ 2 / (1 + α ^ 4)) *
    exp (-(1 - α) ^ 2 / da ^ 2 - p ^ 2 / dp ^ 4)
/-- `g_x(s) = 1 - exp(-4.9479/√s)`, from `p = s²`. -/
def gxScan (p : ℝ) : ℝ := 1 - exp (-4.9479 / √√p)

/-- Exchange enhancement from `h_x¹`, the interpolation value `f` and the fourth-order term. -/
def fxScan (h1 f Δ p : ℝ) : ℝ := (h1 + f * (h0x - h1) + Δ) * gxScan p

/-- SCAN exchange. -/
def scanX : ℝ := spinScaled g fun n g2 τ =>
  let α := alphaScan τ (tauW n g2) (tauTF n)
  exUnif n * fxScan (h1xScan (sSq n g2) α) (fScan 0.667 0.8 1.24 α) 0 (sSq n g2)
/-- rSCAN exchange; `τ_r = 0.0001`. -/
def rscanX : ℝ := spinScaled g fun n g2 τ =>
  let α := alphaR (alphaScan τ (tauW n g2) (tauTF n + 0.0001))
  exUnif n * fxScan (h1xScan (sSq n g2) α) (fR 0.667 0.8 1.24 cfx α) 0 (sSq n g2)
/-- r++SCAN exchange. -/
def rppscanX : ℝ := spinScaled g fun n g2 τ =>
  let α := alphaBar τ (tauW n g2) (tauTF n)
  exUnif n * fxScan (h1xScan (sSq n g2) α) (fR 0.667 0.8 1.24 cfx α) 0 (sSq n g2)
/-- r²SCAN exchange. -/
def r2scanX : ℝ := spinScaled g fun n g2 τ =>
  let α := alphaBar τ (tauW n g2) (tauTF n)
  exUnif n * fxScan (h1xR2 (sSq n g2)) (fR 0.667 0.8 1.24 cfx α) 0 (sSq n g2)
/-- r⁴SCAN exchange with damping lengths `da`, `dp`. -/
def r4scanX (da dp : ℝ) : ℝ := spinScaled g fun n g2 τ =>
  let α := alphaBar τ (tauW n g2) (tauTF n)
  exUnif n * fxScan (h1xR2 (sSq n g2)) (fR 0.667 0.8 1.24 cfx α) (ΔF4 da dp (sSq n g2) α) (sSq n g2)

/-- `ε_c^LDA0`. -/
def ecLda0 (r : ℝ) : ℝ := -0.0285764 / (1 + 0.0889 * √r + 0.125541 * r)
/-- `G_c(ζ)`. -/
def gcScan (z : ℝ) : ℝ := (1 - 2.363 * (pol (4 / 3) z - 1)) * (1 - z ^ 12)
/-- `ε_c⁰`. -/
def ec0Scan (r p z : ℝ) : ℝ :=
  let w := exp (-ecLda0 r / 0.0285764) - 1
  (ecLda0 r + 0.0285764 * log (1 + w * (1 - 1 / (1 + 4 * 0.12802585262625815 * p) ^ (1 / 4 : ℝ)))) * gcScan z
/-- PW92 with the constant `k = 2^(4/3) - 2` given, as a function of `r_s`. -/
def pw92K (k r z : ℝ) : ℝ :=
  let f := ((1 + z) ^ (4 / 3 : ℝ) + (1 - z) ^ (4 / 3 : ℝ) - 2) / k
  let P := pwG 0.0310907 0.21370 7.5957 3.5876 1.6382 0.49294 r
  let F := pwG 0.01554535 0.20548 14.1189 6.1977 3.3662 0.62517 r
  let S := pwG 0.0168869 0.11125 10.357 3.6231 0.88026 0.49671 r
  P - S * f / (8 / (9 * k)) * (1 - z ^ 4) + (F - P) * f * z ^ 4
/-- `Δy` of r²SCAN; the derivatives are with respect to `r_s`. -/
def Δy (γ k r p z : ℝ) : ℝ :=
  let w := exp (-pw92K k r z / (γ * phi z ^ 3)) - 1
  dSeries cfc / (27 * γ * pol (5 / 3) z * phi z ^ 3 * w) *
    (20 * r * (deriv (fun r => ecLda0 r * gcScan z) r - deriv (fun r => pw92K k r z) r) - 45 * η * (ecLda0 r * gcScan z - pw92K k r z)) *
    p * exp (-p ^ 2 / 0.361 ^ 4)
/-- `ε_c¹`, with `Δy` subtracted from `y = A t²`. -/
def ec1Scan (γ k r t2 z Δ : ℝ) : ℝ :=
  let w := exp (-pw92K k r z / (γ * phi z ^ 3)) - 1
  let A := betaRs r / (γ * w)
  pw92K k r z + γ * phi z ^ 3 * log (1 + w * (1 - 1 / (1 + 4 * (A * t2 - Δ)) ^ (1 / 4 : ℝ)))
/-- Energy per volume from the interpolation value and the two limits. -/
def scanCof (n f e0 e1 : ℝ) : ℝ := n * (e1 + f * (e0 - e1))

/-- SCAN correlation; `γ = (1 - ln 2)/π²` and `k = 2^(4/3) - 2` given numerically. -/
def scanC (γ k : ℝ) : ℝ :=
  let α := alphaScan g.tau (tauW g.n g.gnn) (tauTF g.n * pol (5 / 3) g.zeta)
  scanCof g.n (fScan 0.64 1.5 0.7 α) (ec0Scan (rs g.n) (sSq g.n g.gnn) g.zeta) (ec1Scan γ k (rs g.n) (tSq g.n g.zeta g.gnn) g.zeta 0)
/-- rSCAN correlation. -/
def rscanC (γ k : ℝ) : ℝ :=
  let α := alphaR (alphaScan g.tau (tauW g.n g.gnn) ((tauTF g.n + 0.0001) * pol (5 / 3) g.zeta))
  scanCof g.n (fR 0.64 1.5 0.7 cfc α) (ec0Scan (rs g.n) (sSq g.n g.gnn) g.zeta) (ec1Scan γ k (rs g.n) (tSq g.n g.zeta g.gnn) g.zeta 0)
/-- r++SCAN correlation. -/
def rppscanC (γ k : ℝ) : ℝ :=
  let α := alphaBar g.tau (tauW g.n g.gnn) (tauTF g.n * pol (5 / 3) g.zeta)
  scanCof g.n (fR 0.64 1.5 0.7 cfc α) (ec0Scan (rs g.n) (sSq g.n g.gnn) g.zeta) (ec1Scan γ k (rs g.n) (tSq g.n g.zeta g.gnn) g.zeta 0)
/-- r²SCAN and r⁴SCAN correlation. -/
def r2scanC (γ k : ℝ) : ℝ :=
  let α := alphaBar g.tau (tauW g.n g.gnn) (tauTF g.n * pol (5 / 3) g.zeta)
  scanCof g.n (fR 0.64 1.5 0.7 cfc α) (ec0Scan (rs g.n) (sSq g.n g.gnn) g.zeta)
    (ec1Scan γ k (rs g.n) (tSq g.n g.zeta g.gnn) g.zeta (Δy γ k (rs g.n) (sSq g.n g.gnn) g.zeta))

/-! Where the code evaluates these formulas without regularising -/

/-- The code replaces a small difference `τ - τ_W` by zero; outside this window nothing happens. -/
def ScanTau (x : ℝ) : Prop := x = 0 ∨ 1e-14 < |x|

/-- Where the exchange functionals of this family do not regularise: gradient above the threshold, `τ - τ_W` zero or above the threshold. -/
structure ScanX (g : Gas) : Prop where
  gaa : 1e-16 < 4 * g.gaa
  gbb : 1e-16 < 4 * g.gbb
  ta : ScanTau (2 * g.taua - tauW (2 * g.a) (4 * g.gaa))
  tb : ScanTau (2 * g.taub - tauW (2 * g.b) (4 * g.gbb))

/-- The indicator lies outside the window `(0, 1e-13)` in which the code evaluates the branch for negative values. -/
def OutsideGap (α : ℝ) : Prop := α ≤ 0 ∨ 1e-13 ≤ α

/-- Where the correlation functionals of this family do not regularise. -/
structure ScanC (g : Gas) : Prop where
  gnn : 0 ≤ g.gnn
  tau : ScanTau (g.tau - tauW g.n g.gnn)

/-! ### Range-separated local correlation -/

/-- `α = (4/(9π))^(1/3)`. -/
def αrs : ℝ := (4 / (9 * pi)) ^ (1 / 3 : ℝ)
/-- `Q` of Paziani, Moroni, Gori-Giorgi, Bachelet, Phys. Rev. B 73 (2006) 155111. -/
def qErf (x : ℝ) : ℝ :=
  let b := 3.44851 - 3 * pi * αrs / (4 * log 2 - 4)
  2 * (log 2 - 1) / pi ^ 2 * log ((1 + 5.84605 * x + b * x ^ 2 + 3.91744 * x ^ 3) / (1 + 5.84605 * x + 3.44851 * x ^ 2))
/-- Curvature of the pair density of parallel spins at contact; the coefficient is `0.4319 - 0.454555`, printed rounded as `-0.02267` in the article. -/
def g2Par (r : ℝ) : ℝ := 2 ^ (5 / 3 : ℝ) / (5 * αrs ^ 2 * r ^ 2) * (1 - 0.022655 * r) / (1 + 0.4319 * r + 0.04 * r ^ 2)
/-- On-top pair density. -/
def g0Erf (r : ℝ) : ℝ :=
  (1 + 0.020711 * r + 0.0819306 * r ^ 2 - 0.0127713 * r ^ 3 + 0.00185898 * r ^ 4) * exp (-0.752411 * r) / 2
/-- Long-range correlation energy per electron from the full one. -/
def ecLong (μ r z ε : ℝ) : ℝ :=
  let b0 := 0.784949 * r
  let par := ((1 + z) / 2) ^ 2 * g2Par (r * (2 / (1 + z)) ^ (1 / 3 : ℝ)) + ((1 - z) / 2) ^ 2 * g2Par (r * (2 / (1 - z)) ^ (1 / 3 : ℝ))
  let D2 := exp (-0.547 * r) / r ^ 2 * (-0.388 * r + 0.676 * r ^ 2)
  let D3 := exp (-0.31 * r) / r ^ 3 * (-4.95 * r + r ^ 2)
  let C2 := -3 * (1 - z ^ 2) * (g0Erf r - 1 / 2) / (8 * r ^ 3)
  let C3 := -(1 - z ^ 2) * g0Erf r / (√(2 * pi) * r ^ 3)
  let C4 := -9 / (64 * r ^ 3) * (par + (1 - z ^ 2) * D2 - pol (8 / 3) z / (5 * αrs ^ 2 * r ^ 2))
  let C5 := -9 / (40 * √(2 * pi) * r ^ 3) * (par + (1 - z ^ 2) * D3)
  (phi z ^ 3 * qErf (μ * √r / phi z) + (4 * b0 ^ 6 * C3 + b0 ^ 8 * C5) * μ ^ 3 + (4 * b0 ^ 6 * C2 + b0 ^ 8 * C4 + 6 * b0 ^ 4 * ε) * μ ^ 4 +
    b0 ^ 8 * C3 * μ ^ 5 + (b0 ^ 8 * C2 + 4 * b0 ^ 6 * ε) * μ ^ 6 + b0 ^ 8 * ε * μ ^ 8) / (1 + b0 ^ 2 * μ ^ 2) ^ 4
/-- Short-range local correlation. -/
def ldaErfC (μ : ℝ) : ℝ := g.n * (pw92Eps g.n g.zeta - ecLong μ (rs g.n) g.zeta (pw92Eps g.n g.zeta))

/-- Toulouse, Savin, Flad, Int. J. Quantum Chem. 100 (2004) 1047, eqs. 25-27: `ε_c/(1 + c₁ μ + c₂ μ²)`, with the on-top pair density of Burke, Perdew,
Ernzerhof, J. Chem. Phys. 109 (1998) 3760 normalised by `D`. -/
def ldaErfJT (D k μ : ℝ) : ℝ :=
  let r := rs g.n
  let c1 := (1.0270741452992294 * r - 0.230160617208092 * r ^ 2) / (1 + 0.6196884832404359 * r)
  let g0 := D * ((4.7125 + r) ^ (3 / 2 : ℝ) + 163.44) * exp (-3.2581 * √(4.7125 + r))
  let c2 := vwn5Eps g k / (pi / 2 * g.n * (g0 - 1 / 2))
  g.n * vwn5Eps g k / (1 + c1 * μ + c2 * μ ^ 2)

end
end XCFun.Lit
