/-
The TPSS family, BLOC exchange and the Becke-Roussel functionals.
Files are in src/functionals/.
-/
import Verif.Model.Fun.Minnesota

namespace XCFun.Fun

noncomputable section

/-! tpssx_eps.hpp and tpssx.cpp -/

/-- tpssx_eps.hpp:23-25; the same text in SCAN_like_eps.hpp:71-73 and blocx.cpp:45 -/
def fx_unif (n : Expr Field) : Expr Field :=
  (-0.75 * (3 / Real.pi) ^ (1 / 3 : ℝ) : ℝ) * pow n (4 / 3)

/-- `pow(3 * PI2, 2.0 / 3.0)` (tpssx_eps.hpp:34, 39, blocx.cpp:25, 30, revtpssx_eps.hpp:33, 37,
    SCAN_like_eps.hpp:90, 92, 121, 124, 289) -/
def kF2 : ℝ := (3 * PI2) ^ (2 / 3 : ℝ)

/-- tpssx_eps.hpp:27-52 -/
def tpssx_x (d_n d_gnn d_tau : Expr Field) : Expr Field :=
  let kappa : ℝ := 0.804
  let mu : ℝ := 0.21951
  let b : ℝ := 0.40
  let e : ℝ := 1.537
  let c : ℝ := 1.59096
  let p0 := 1 / ((4 * kF2 : ℝ) * pow d_n (8 / 3))
  let p := d_gnn * p0
  let tauw := d_gnn / (8 * d_n)
  let z := tauw / d_tau
  let z2 := pow2 z
  let tau_unif := (0.3 * kF2 : ℝ) * pow d_n (5 / 3)
  let alpha := (d_tau - tauw) / tau_unif
  let q_b := (9 / 20 : ℝ) * (alpha - 1) / sqrt (1 + b * alpha * (alpha - 1)) + 2 * p / 3
  let x_a := p * ((10 / 81 : ℝ) + c * z2 / pow2 (1 + z2))
  let x_a := x_a + 146 * pow2 q_b / 2025
  let x_a := x_a - (73 / 405 : ℝ) * q_b * d_gnn *
      sqrt ((0.5 * 0.6 * 0.6 : ℝ) * powi (8 * d_n * d_tau) (-2) + 0.5 * p0 * p0)
  let x_a := x_a + pow2 (p * 10 / 81) / kappa
  let x_a := x_a + ((2 * √e * 0.6 * 0.6 : ℝ) * z2 * 10 / 81 + (e * mu : ℝ) * pow3 p)
  x_a / pow2 (1 + (√e : ℝ) * p)

/-- tpssx_eps.hpp:54-59 -/
def tpssx_F_x (d_n d_gnn d_tau : Expr Field) : Expr Field :=
  let kappa : ℝ := 0.804
  let xpz := tpssx_x d_n d_gnn d_tau
  1 + kappa - kappa / (1 + xpz / kappa)

/-- tpssx.cpp:21-27 -/
def tpssx : Expr Field :=
  let Fxa := tpssx_F_x (2 * d.a) (4 * d.gaa) (2 * d.taua)
  let epsxunif_a := fx_unif (2 * d.a)
  let Fxb := tpssx_F_x (2 * d.b) (4 * d.gbb) (2 * d.taub)
  let epsxunif_b := fx_unif (2 * d.b)
  0.5 * (epsxunif_a * Fxa + epsxunif_b * Fxb)

/-! tpssc_eps.hpp and tpssc.cpp -/

/-- `xi2` (tpssc_eps.hpp:23-25, tpsslocc.cpp:64-66, revtpssc_eps.hpp:71-73) -/
def tpss_xi2 : Expr Field :=
  let gzeta2 := (pow2 d.n * d.gss - 2 * d.n * d.s * d.gns + pow2 d.s * d.gnn) / npow d.n 4
  gzeta2 / (4 * pow ((3 * (Real.pi * Real.pi) : ℝ) * d.n) (2 / 3))

/-- tpssc_eps.hpp:22-31 -/
def tpss_C : Expr Field :=
  let C0 := 0.53 + 0.87 * pow2 d.zeta + 0.50 * npow d.zeta 4 + 2.26 * npow d.zeta 6
  C0 * powi (1 + 0.5 * tpss_xi2 * ufunc d.zeta (-4 / 3)) (-4)

/-- tpssc_eps.hpp:33-42 -/
def tpss_epsc_summax : Expr Field :=
  let epsc_pbe := pbec_eps
  let epsc_pbe_a := pbec_eps_polarized d.a d.gaa
  let epsc_pbe_b := pbec_eps_polarized d.b d.gbb;
  (d.a * max epsc_pbe epsc_pbe_a + d.b * max epsc_pbe epsc_pbe_b) / d.n

/-- tpssc_eps.hpp:44-54 -/
def tpss_epsc_revpkzb : Expr Field :=
  let tauwtau2 := pow2 (d.gnn / (8 * d.n * d.tau))
  let epsc_sum := tpss_epsc_summax
  let epsc_pbe := pbec_eps
  let C_zeta_xi := tpss_C
  epsc_pbe * (1 + C_zeta_xi * tauwtau2) - (1 + C_zeta_xi) * tauwtau2 * epsc_sum

/-- tpssc_eps.hpp:56-61 -/
def tpssc_eps : Expr Field :=
  let eps_pkzb := tpss_epsc_revpkzb
  let tauwtau3 := pow3 (d.gnn / (8 * d.n * d.tau))
  let dd : ℝ := 2.8
  eps_pkzb * (1 + dd * eps_pkzb * tauwtau3)

/-- tpssc.cpp:19-22 -/
def tpssc : Expr Field := d.n * tpssc_eps

/-! tpsslocc.cpp (`pbeloc_eps` is in Model/Fun/Correlation) -/

/-- tpsslocc.cpp:43-61 -/
def pbeloc_eps_pola (a gaa : Expr Field) : Expr Field :=
  let beta0 : ℝ := 0.0375
  let aa : ℝ := 0.08
  let u : Expr Field := ((2 : ℝ) ^ (-1 / 3 : ℝ) : ℝ)
  let u3 := pow3 u
  let d2 := t2const * gaa / (u * u * pow a (7 / 3))
  let rs := ((3 / (4 * Real.pi)) ^ (1 / 3 : ℝ) : ℝ) * pow a (-1 / 3)
  let ff := 1 - exp (-rs * rs)
  let beta := beta0 + aa * d2 * ff
  let bg := beta / param_gamma
  let eps := pw92eps_polarized a
  let H := pbeLikeH bg eps u3 d2
  eps + H

/-- tpsslocc.cpp:63-70 -/
def tpssloc_C : Expr Field :=
  let C0 := 0.35 + 0.87 * pow2 d.zeta + 0.50 * npow d.zeta 4 + 2.26 * npow d.zeta 6
  C0 * powi (1 + 0.5 * tpss_xi2 * ufunc d.zeta (-4 / 3)) (-4)

/-- tpsslocc.cpp:72-82 -/
def tpssloc_epsc_summax : Expr Field :=
  let epsc_pbeloc := pbeloc_eps
  let epsc_pbeloc_a := pbeloc_eps_pola d.a d.gaa
  let epsc_pbeloc_b := pbeloc_eps_pola d.b d.gbb;
  (d.a * max epsc_pbeloc epsc_pbeloc_a + d.b * max epsc_pbeloc epsc_pbeloc_b) / d.n

/-- tpsslocc.cpp:84-90 -/
def tpssloc_epsc_revpkzb : Expr Field :=
  let tauwtau2 := pow2 (d.gnn / (8 * d.n * d.tau))
  let epsc_sum := tpssloc_epsc_summax
  let epsc_pbeloc := pbeloc_eps
  let CC := tpssloc_C
  epsc_pbeloc * (1 + CC * tauwtau2) - (1 + CC) * tauwtau2 * epsc_sum

/-- tpsslocc.cpp:92-97 -/
def tpsslocc : Expr Field :=
  let eps_pkzb := tpssloc_epsc_revpkzb
  let tauwtau3 := pow3 (d.gnn / (8 * d.n * d.tau))
  let dd : ℝ := 4.5
  d.n * eps_pkzb * (1 + dd * eps_pkzb * tauwtau3)

/-! revtpssx_eps.hpp and revtpssx.cpp -/

/-- revtpssx_eps.hpp:22-24 -/
def revtpss_epsx_unif (d_n : Expr Field) : Expr Field :=
  (-3) * cbrt ((3 * PI2 : ℝ) * d_n) / (4 * Real.pi : ℝ)

/-- revtpssx_eps.hpp:26-49 -/
def revtpssx_x (d_n d_gnn d_tau : Expr Field) : Expr Field :=
  let kapa : ℝ := 0.804
  let mu : ℝ := 0.14
  let b : ℝ := 0.40
  let e : ℝ := 2.1677
  let c : ℝ := 2.35204
  let p := d_gnn / ((4 * kF2 : ℝ) * pow d_n (8 / 3))
  let tauw := d_gnn / (8 * d_n)
  let z := tauw / d_tau
  let z2 := pow2 z
  let tau_unif := (0.3 * kF2 : ℝ) * pow d_n (5 / 3)
  let alpha := (d_tau - tauw) / tau_unif
  let q_b := 9 * (alpha - 1) / (20 * sqrt (1 + b * alpha * (alpha - 1))) + 2 * p / 3
  let x_a := p * ((10 / 81 : ℝ) + c * z2 * z / pow2 (1 + z2))
  let x_a := x_a + 146 * pow2 q_b / 2025
  let x_a := x_a - (73 / 405 : ℝ) * q_b * d_gnn *
      sqrt ((0.5 * 0.6 * 0.6 : ℝ) * powi (8 * d_n * d_tau) (-2) + 0.5 * p * p)
  let x_a := x_a + pow2 (10 * p / 81) / kapa
  let x_a := x_a + ((√e * 0.6 * 0.6 : ℝ) * z2 * 20 / 81 + (e * mu : ℝ) * pow3 p)
  x_a / (1 + (√e : ℝ) * p)

/-- revtpssx_eps.hpp:51-56 -/
def revtpssx_F_x (d_n d_gnn d_tau : Expr Field) : Expr Field :=
  let kapa : ℝ := 0.804
  let xpz := revtpssx_x d_n d_gnn d_tau
  1 + kapa - kapa / (1 + xpz / kapa)

/-- revtpssx_eps.hpp:58-64, revtpssx.cpp:19-21 -/
def revtpssx : Expr Field :=
  let Fxa := revtpssx_F_x (2 * d.a) (4 * d.gaa) (2 * d.taua)
  let epsxunif_a := revtpss_epsx_unif (2 * d.a)
  let Fxb := revtpssx_F_x (2 * d.b) (4 * d.gbb) (2 * d.taub)
  let epsxunif_b := revtpss_epsx_unif (2 * d.b)
  epsxunif_a * Fxa * d.a + epsxunif_b * Fxb * d.b

/-! revtpssc_eps.hpp and revtpssc.cpp -/

/-- revtpssc_eps.hpp:24-41; `beta_gamma` is computed twice from `beta_tpss / param_gamma` -/
def revtpssH (d2 eps u3 beta_tpss : Expr Field) : Expr Field :=
  pbeLikeH (beta_tpss / param_gamma) eps u3 d2

/-- revtpssc_eps.hpp:43-47 -/
def revtpss_beta (dens : Expr Field) : Expr Field :=
  let r_s := cbrt (3 / ((4 * Real.pi : ℝ) * dens))
  param_beta_pbe_paper * (1 + 0.1 * r_s) / (1 + 0.1778 * r_s)

/-- revtpssc_eps.hpp:49-57; the constant is squared with an `int` exponent here -/
def revtpss_pbec_eps : Expr Field :=
  let beta_tpss := revtpss_beta d.n
  let eps := pw92eps
  let u := phi
  let d2 := pbecD2 u
  eps + revtpssH d2 eps (pow3 u) beta_tpss

/-- revtpssc_eps.hpp:59-68 -/
def revtpss_pbec_eps_polarized (a gaa : Expr Field) : Expr Field :=
  let eps := pw92eps_polarized a
  let u : ℝ := (2 : ℝ) ^ (-1 / 3 : ℝ)
  let beta_tpss := revtpss_beta a
  let d2 := t2const * gaa / ((u * u : ℝ) * pow a (7 / 3))
  eps + revtpssH d2 eps (u * u * u : ℝ) beta_tpss

/-- revtpssc_eps.hpp:70-80 -/
def revtpss_C : Expr Field :=
  let C0 := 0.59 + 0.9269 * pow2 d.zeta + 0.6225 * npow d.zeta 4 + 2.1540 * npow d.zeta 6
  C0 / npow (1 + 0.5 * tpss_xi2 * (pow (1 + d.zeta) (-4 / 3) + pow (1 - d.zeta) (-4 / 3))) 4

/-- revtpssc_eps.hpp:82-91 -/
def revtpss_epsc_summax : Expr Field :=
  let epsc_pbe := revtpss_pbec_eps
  let epsc_pbe_a := revtpss_pbec_eps_polarized d.a d.gaa
  let epsc_pbe_b := revtpss_pbec_eps_polarized d.b d.gbb;
  (d.a * max epsc_pbe epsc_pbe_a + d.b * max epsc_pbe epsc_pbe_b) / d.n

/-- revtpssc_eps.hpp:93-103 -/
def revtpss_epsc_revpkzb : Expr Field :=
  let tauwtau2 := pow2 (d.gnn / (8 * d.n * d.tau))
  let epsc_sum := revtpss_epsc_summax
  let epsc_pbe := revtpss_pbec_eps
  let C_zeta_xi := revtpss_C
  epsc_pbe * (1 + C_zeta_xi * tauwtau2) - (1 + C_zeta_xi) * tauwtau2 * epsc_sum

/-- revtpssc_eps.hpp:105-110 -/
def revtpssc_eps : Expr Field :=
  let eps_pkzb := revtpss_epsc_revpkzb
  let tauwtau2 := pow2 (d.gnn / (8 * d.n * d.tau))
  let dd : ℝ := 2.8
  eps_pkzb * (1 + dd * eps_pkzb * tauwtau2)

/-- revtpssc.cpp:19-22 -/
def revtpssc : Expr Field := d.n * revtpssc_eps

/-! blocx.cpp -/

/-- blocx.cpp:18-47 -/
def energy_blocx (d_n d_gnn d_tau : Expr Field) : Expr Field :=
  let kappa : ℝ := 0.804
  let mu : ℝ := 0.21951
  let b : ℝ := 0.40
  let e : ℝ := 1.537
  let c : ℝ := 1.59096
  let p0 := 1 / ((4 * kF2 : ℝ) * pow d_n (8 / 3))
  let p := d_gnn * p0
  let tauw := d_gnn / (8 * d_n)
  let z := tauw / d_tau
  let z2 := pow2 z
  let tau_unif := (0.3 * kF2 : ℝ) * pow d_n (5 / 3)
  let alpha := (d_tau - tauw) / tau_unif
  let q_b := (9 / 20 : ℝ) * (alpha - 1) / sqrt (1 + b * alpha * (alpha - 1)) + 2 * p / 3
  let ff := 4 - 3.3 * z
  let zf := exp (log z * ff)
  let tmp1 := p * ((10 / 81 : ℝ) + c * zf / pow2 (1 + z2))
  let tmp2 := 146 * pow2 q_b / 2025
  let tmp3 := (-73 / 405 : ℝ) * q_b * d_gnn *
      sqrt ((0.5 * 0.6 * 0.6 : ℝ) * powi (8 * d_n * d_tau) (-2) + 0.5 * p0 * p0)
  let tmp4 := pow2 (p * 10 / 81) / kappa
  let tmp5 := (2 * √e * 0.6 * 0.6 : ℝ) * z2 * 10 / 81 + (e * mu : ℝ) * pow3 p
  let tmp6 := tmp1 + tmp2 + tmp3 + tmp4 + tmp5
  let x := tmp6 / pow2 (1 + (√e : ℝ) * p)
  let Fx := 1 + kappa - kappa / (1 + x / kappa)
  let lda := fx_unif d_n
  lda * Fx

/-- blocx.cpp:49-53 -/
def blocx : Expr Field :=
  let enea := energy_blocx (2 * d.a) (4 * d.gaa) (2 * d.taua)
  let eneb := energy_blocx (2 * d.b) (4 * d.gbb) (2 * d.taub);
  (enea + eneb) / 2

/-! brx.cpp -/

/-- brx.cpp:89-101 -/
def br_polarized (na gaa lapa taua jpaa : Expr Field) : Expr Field :=
  let Q := (lapa - 2 * taua + (0.5 * gaa + 2 * jpaa) / na) / 6
  let x := br ((1 / (2 / 3 * Real.pi ^ (2 / 3 : ℝ)) : ℝ) * Q * pow na (-5 / 3))
  let b := cbrt (pow3 x * exp (-x) / ((8 * Real.pi : ℝ) * na));
  -(1 - (1 + 0.5 * x) * exp (-x)) / b

/-- brx.cpp:103-106 -/
def brx : Expr Field :=
  0.5 * (d.a * br_polarized d.a d.gaa d.lapa (2 * d.taua) d.jpaa +
    d.b * br_polarized d.b d.gbb d.lapb (2 * d.taub) d.jpbb)

/-- `ECopp + ECaa + ECbb` from `UXa`, `UXb` (brx.cpp:109, 112-120 and brx.cpp:124, 127-135);
    the last summand of brc and brxc is added by the callers in the code's order -/
def brECopp (UXa UXb : Expr Field) : Expr Field :=
  let cab : ℝ := 0.63
  let zab := abs (cab * (1 / UXa + 1 / UXb));
  (-0.8) * d.a * d.b * zab * zab * (1 - log (1 + zab) / zab)

/-- `ECaa`, `ECbb` (brx.cpp:112-113, 116-119 and brx.cpp:127-128, 131-134) -/
def brECss (UX na gaa taua jpaa : Expr Field) : Expr Field :=
  let caa : ℝ := 0.88
  let zaa := abs (caa * (2 / UX));
  (-0.01) * na * (2 * taua - (0.25 * gaa + jpaa) / na) * npow zaa 4 *
    (1 - 2 / zaa * log (1 + zaa / 2))

/-- brx.cpp:108-121 -/
def brc : Expr Field :=
  let UXa := br_polarized d.a d.gaa d.lapa (2 * d.taua) d.jpaa
  let UXb := br_polarized d.b d.gbb d.lapb (2 * d.taub) d.jpbb
  let ECopp := brECopp UXa UXb
  let ECaa := brECss UXa d.a d.gaa d.taua d.jpaa
  let ECbb := brECss UXb d.b d.gbb d.taub d.jpbb
  ECopp + ECaa + ECbb

/-- brx.cpp:123-136 -/
def brxc : Expr Field :=
  let UXa := br_polarized d.a d.gaa d.lapa (2 * d.taua) d.jpaa
  let UXb := br_polarized d.b d.gbb d.lapb (2 * d.taub) d.jpbb
  let ECopp := brECopp UXa UXb
  let ECaa := brECss UXa d.a d.gaa d.taua d.jpaa
  let ECbb := brECss UXb d.b d.gbb d.taub d.jpbb
  0.5 * (UXa * d.a + UXb * d.b) + ECopp + ECaa + ECbb

end
end XCFun.Fun
