/-
LDA and GGA correlation functionals.  Files are in src/functionals/.
-/
import Verif.Model.Fun.Exchange

namespace XCFun.Fun

noncomputable section

/-! vwn.hpp -/

/-- the array `p[4]` (vwn.hpp:21) -/
structure VwnP where
  p0 : ℝ
  p1 : ℝ
  p2 : ℝ
  p3 : ℝ

/-- vwn.hpp:21-23 -/
def vwn_a (p : VwnP) : ℝ := p.p0 * p.p2 / (p.p0 * p.p0 + p.p0 * p.p2 + p.p3) - 1
/-- vwn.hpp:25-27 -/
def vwn_b (p : VwnP) : ℝ := 2 * (p.p0 * p.p2 / (p.p0 * p.p0 + p.p0 * p.p2 + p.p3) - 1) + 2
/-- vwn.hpp:29-34 -/
def vwn_c (p : VwnP) : ℝ :=
  2 * p.p2 *
    (1 / √(4 * p.p3 - p.p2 * p.p2) -
      p.p0 / ((p.p0 * p.p0 + p.p0 * p.p2 + p.p3) * √(4 * p.p3 - p.p2 * p.p2) / (p.p2 + 2 * p.p0)))
/-- vwn.hpp:36-38 -/
def vwn_x (s : Expr Field) (p : VwnP) : Expr Field := s * s + p.p2 * s + p.p3
/-- vwn.hpp:40-42 -/
def vwn_y (s : Expr Field) (p : VwnP) : Expr Field := s - p.p0
/-- vwn.hpp:44-46 -/
def vwn_z (s : Expr Field) (p : VwnP) : Expr Field := (√(4 * p.p3 - p.p2 * p.p2) : ℝ) / (2 * s + p.p2)
/-- vwn.hpp:48-52 -/
def vwn_f (s : Expr Field) (p : VwnP) : Expr Field :=
  (0.5 * p.p1 : ℝ) *
    (2 * log s + vwn_a p * log (vwn_x s p) - vwn_b p * log (vwn_y s p) +
      vwn_c p * atan (vwn_z s p))

/-- vwn.hpp:57 (XCFUN_VWN5_REF is not defined) -/
def vwn5_para : VwnP := ⟨-0.10498, 0.0621814, 3.72744, 12.9352⟩
/-- vwn.hpp:58 -/
def vwn5_ferro : VwnP := ⟨-0.325, 0.0310907, 7.06042, 18.0578⟩
/-- vwn.hpp:59-60 -/
def vwn5_inter : VwnP := ⟨-0.0047584, -(3 * Real.pi * Real.pi) ^ (-1 : ℝ), 1.13107, 13.0045⟩

/-- vwn.hpp:54-78 -/
def vwn5_eps : Expr Field :=
  let s := sqrt d.r_s
  let g := 1.92366105093154 * (ufunc d.zeta (4 / 3) - 2)
  let zeta4 := npow d.zeta 4
  let dd := g * ((vwn_f s vwn5_ferro - vwn_f s vwn5_para) * zeta4 +
    vwn_f s vwn5_inter * (1 - zeta4) * (9 / 4 * ((2 : ℝ) ^ (1 / 3 : ℝ) - 1) : ℝ))
  vwn_f s vwn5_para + dd

/-- vwn.hpp:82 -/
def vwn3_para : VwnP := ⟨-0.4092860, 0.0621814, 13.0720, 42.7198⟩
/-- vwn.hpp:83 -/
def vwn3_ferro : VwnP := ⟨-0.7432940, 0.0310907, 20.1231, 101.578⟩

/-- vwn.hpp:80-90 -/
def vwn3_eps : Expr Field :=
  let s := sqrt d.r_s
  let g := 1.92366105093154 * (ufunc d.zeta (4 / 3) - 2)
  let dd := g * (vwn_f s vwn3_ferro - vwn_f s vwn3_para)
  vwn_f s vwn3_para + dd

/-- vwn3.cpp:18-20 -/
def vwn3c : Expr Field := d.n * vwn3_eps
/-- vwn5c.cpp:18-20 -/
def vwn5c : Expr Field := d.n * vwn5_eps

/-! pw92eps.hpp -/

/-- a row of PW92C_PARAMS (pw92eps.hpp:41-44); the last column is not used -/
structure Pw92P where
  t0 : ℝ
  t1 : ℝ
  t2 : ℝ
  t3 : ℝ
  t4 : ℝ
  t5 : ℝ

/-- pw92eps.hpp:20-25 -/
def eopt (sqrtr : Expr Field) (t : Pw92P) : Expr Field :=
  (-2 * t.t0 : ℝ) * (1 + t.t1 * sqrtr * sqrtr) *
    log (1 + 0.5 / (t.t0 * (sqrtr * (t.t2 + sqrtr * (t.t3 + sqrtr * (t.t4 + t.t5 * sqrtr))))))

/-- pw92eps.hpp:32-39 (XCFUN_REF_PW92C is not defined, config.hpp:35) -/
def omega (z : Expr Field) : Expr Field :=
  (ufunc z (4 / 3) - 2) / (2 * (2 : ℝ) ^ (1 / 3 : ℝ) - 2 : ℝ)

/-- pw92eps.hpp:42 -/
def pw92_0 : Pw92P := ⟨0.03109070, 0.21370, 7.59570, 3.5876, 1.63820, 0.49294⟩
/-- pw92eps.hpp:43 -/
def pw92_1 : Pw92P := ⟨0.01554535, 0.20548, 14.1189, 6.1977, 3.36620, 0.62517⟩
/-- pw92eps.hpp:44 -/
def pw92_2 : Pw92P := ⟨0.01688690, 0.11125, 10.3570, 3.6231, 0.88026, 0.49671⟩

/-- pw92eps.hpp:48-61 -/
def pw92eps : Expr Field :=
  let c : ℝ := 8 / (9 * (2 * (2 : ℝ) ^ (1 / 3 : ℝ) - 2))
  let zeta4 := npow d.zeta 4
  let omegaval := omega d.zeta
  let sqrtr := sqrt d.r_s
  let e0 := eopt sqrtr pw92_0
  e0 - eopt sqrtr pw92_2 * omegaval * (1 - zeta4) / c + (eopt sqrtr pw92_1 - e0) * omegaval * zeta4

/-- pw92eps.hpp:63-67 -/
def pw92eps_polarized (a : Expr Field) : Expr Field :=
  let sqrt_r_s := pow (3 / ((4 * Real.pi : ℝ) * a)) (1 / 6)
  eopt sqrt_r_s pw92_1

/-- pw92c.cpp:18-20 -/
def pw92c : Expr Field := pw92eps * d.n

/-! pbec_eps.hpp and pbec.cpp -/

/-- pbec_eps.hpp:23-27, pbec.cpp:20-24 -/
def pbecA (eps u3 : Expr Field) : Expr Field :=
  param_beta_gamma / expm1 (-eps / (param_gamma * u3))

/-- pbec_eps.hpp:29-36, pbec.cpp:26-33 -/
def pbecH (d2 eps u3 : Expr Field) : Expr Field :=
  let d2A := d2 * pbecA eps u3
  param_gamma * u3 * log (1 + param_beta_gamma * d2 * (1 + d2A) / (1 + d2A * (1 + d2A)))

/-- pbec_eps.hpp:39-41, pbec.cpp:36-38, apbec.cpp:20-22, pbeintc.cpp:20-22, pbelocc.cpp:20-22,
    zvpbeint.cpp:20-22, zvpbesolc.cpp:20-22, spbec.cpp:36-38, tpsslocc.cpp:20-22 -/
def phi : Expr Field :=
  ((2 : ℝ) ^ (-1 / 3 : ℝ) : ℝ) * d.n_m13 * d.n_m13 * (sqrt d.a_43 + sqrt d.b_43)

/-- the constant `pow(1.0 / 12 * pow(3, 5.0 / 6.0) / pow(M_PI, -1.0 / 6), 2.0)`
    (pbec_eps.hpp:47, 58, pbec.cpp:44, 53, apbec.cpp:32, pbeintc.cpp:32, pbelocc.cpp:31,
    zvpbeint.cpp:33, zvpbesolc.cpp:34, tpsslocc.cpp:31, 50, revtpssc_eps.hpp:54, 65) -/
def t2const : ℝ := (1 / 12 * (3 : ℝ) ^ (5 / 6 : ℝ) / Real.pi ^ (-1 / 6 : ℝ)) ^ (2 : ℝ)

/-- the quantity `d2` (pbec_eps.hpp:47-48, pbec.cpp:44-45, 53-54, apbec.cpp:32-33,
    pbeintc.cpp:32-33, pbelocc.cpp:31-32, zvpbeint.cpp:33-34, zvpbesolc.cpp:34-35,
    tpsslocc.cpp:31-32, revtpssc_eps.hpp:54-55) -/
def pbecD2 (u : Expr Field) : Expr Field :=
  t2const * d.gnn / (u * u * pow d.n (7 / 3))

/-- pbec_eps.hpp:43-50 -/
def pbec_eps : Expr Field :=
  let eps := pw92eps
  let u := phi
  let d2 := pbecD2 u
  eps + pbecH d2 eps (pow3 u)

/-- pbec_eps.hpp:52-61 -/
def pbec_eps_polarized (a gaa : Expr Field) : Expr Field :=
  let eps := pw92eps_polarized a
  let u : ℝ := (2 : ℝ) ^ (-1 / 3 : ℝ)
  let d2 := t2const * gaa / ((u * u : ℝ) * pow a (7 / 3))
  eps + pbecH d2 eps (u * u * u : ℝ)

/-- pbec.cpp:40-47 -/
def pbec : Expr Field :=
  let eps := pw92eps
  let u := phi
  let d2 := pbecD2 u
  d.n * (eps + pbecH d2 eps (pow3 u))

/-- pbec.cpp:49-56 -/
def vwn_pbec : Expr Field :=
  let eps := vwn5_eps
  let u := phi
  let d2 := pbecD2 u
  d.n * (eps + pbecH d2 eps (pow3 u))

/-- The common body of the PBE-like correlation functionals: `A`, `d2A`, `H`
    (apbec.cpp:34-36, pbeintc.cpp:34-36, pbelocc.cpp:37-39, zvpbeint.cpp:51-53,
    zvpbesolc.cpp:89-91, tpsslocc.cpp:37-39, 57-59) -/
def pbeLikeH (bg eps u3 d2 : Expr Field) : Expr Field :=
  let A := bg / expm1 (-eps / (param_gamma * u3))
  let d2A := d2 * A
  param_gamma * u3 * log (1 + bg * d2 * (1 + d2A) / (1 + d2A * (1 + d2A)))

/-- apbec.cpp:24-38 -/
def apbec : Expr Field :=
  let bg : ℝ := 0.079030523241 / param_gamma
  let eps := pw92eps
  let u := phi
  let u3 := pow3 u
  let d2 := pbecD2 u
  let H := pbeLikeH bg eps u3 d2
  d.n * (eps + H)

/-- pbeintc.cpp:24-38 -/
def pbeintc : Expr Field :=
  let bg : ℝ := 0.052 / param_gamma
  let eps := pw92eps
  let u := phi
  let u3 := pow3 u
  let d2 := pbecD2 u
  let H := pbeLikeH bg eps u3 d2
  d.n * (eps + H)

/-- pbelocc.cpp:26-40, tpsslocc.cpp:24-41 (without the factor `d.n`) -/
def pbeloc_eps : Expr Field :=
  let beta0 : ℝ := 0.0375
  let aa : ℝ := 0.08
  let u := phi
  let u3 := pow3 u
  let d2 := pbecD2 u
  let ff := 1 - exp (-d.r_s * d.r_s)
  let beta := beta0 + aa * d2 * ff
  let bg := beta / param_gamma
  let eps := pw92eps
  let H := pbeLikeH bg eps u3 d2
  eps + H

/-- pbelocc.cpp:24-41 -/
def pbelocc : Expr Field := d.n * pbeloc_eps

/-- the polynomial fit `zw` (zvpbeint.cpp:43-48, zvpbesolc.cpp:81-86) -/
def zvFit : Expr Field :=
  let z := d.zeta
  (0.462757 + 1.30129 * z * z - 1.59546 * z * z * z * z + 1.19635 * z * z * z * z * z * z -
    0.36519 * z * z * z * z * z * z * z * z) * z * z * z * z

/-- zvpbeint.cpp:24-55 with `beta = 0.052`, `alpha = 1.0`; zvpbesolc.cpp:24-93 with
    `beta = 0.046`, `alpha = 1.8` -/
def zvpbe (beta alpha : ℝ) : Expr Field :=
  let bg : ℝ := beta / param_gamma
  let eps := pw92eps
  let u := phi
  let u3 := pow3 u
  let d2 := pbecD2 u
  let tt := pow d2 0.5
  let v := tt * u * pow (d.r_s / 3) (-1 / 6)
  let v3 := pow3 v
  let zw := zvFit
  let ff := exp ((-alpha : ℝ) * v3 * zw)
  let H := pbeLikeH bg eps u3 d2
  d.n * (eps + ff * H)

/-- zvpbeint.cpp:24-55 -/
def zvpbeintc : Expr Field := zvpbe 0.052 1.0
/-- zvpbesolc.cpp:24-93 -/
def zvpbesolc : Expr Field := zvpbe 0.046 1.8

/-! spbec.cpp -/

/-- spbec.cpp:22 -/
def spbecGamm : ℝ := 0.066725
/-- spbec.cpp:23-24 -/
def spbecBetaGamma : ℝ := 0.031091 / spbecGamm
/-- spbec.cpp:26-28 -/
def spbecG (eps phi3 : Expr Field) : Expr Field :=
  spbecBetaGamma / expm1 (-eps / (spbecBetaGamma * phi3))
/-- spbec.cpp:30-33 -/
def H_spbe (t2 eps phi3 : Expr Field) : Expr Field :=
  spbecGamm * phi3 * log (1 + spbecBetaGamma * t2 / (1 + t2 * spbecG eps phi3))
/-- spbec.cpp:40-45 -/
def spbec : Expr Field :=
  let eps := vwn5_eps
  let p := phi
  let t2 := (rcbrt (Real.pi / 3) / 16 : ℝ) * d.gnn * d.n_m13 / pow2 (p * d.n)
  d.n * (eps + H_spbe t2 eps (pow3 p))

/-! pw91c.cpp -/

/-- pw91c.cpp:18-31 -/
def Gc (r : Expr Field) (A a1 b1 b2 b3 b4 p : ℝ) : Expr Field :=
  let sqrtr := sqrt r;
  (-2 * A : ℝ) * (1 + a1 * r) *
    log (1 + 0.5 / (A * (sqrtr * (b1 + sqrtr * (b2 + sqrtr * b3)) + b4 * pow r (p + 1))))

/-- pw91c.cpp:35-37 -/
def uf (p : ℝ) : Expr Field := (pow d.a p + pow d.b p) * pow (2 / d.n) p

/-- pw91c.cpp:39-66 -/
def pw91cEc : Expr Field :=
  let pa : ℝ := 1
  let pe : ℝ := 1
  let d2fz0 : ℝ := 1.709921
  let fz := (uf (4 / 3) - 2) / (2 * (2 : ℝ) ^ (1 / 3 : ℝ) - 2 : ℝ)
  let Ac := Gc d.r_s 0.016887 0.11125 10.357 3.6231 0.88026 0.49671 pa
  let EcP := Gc d.r_s 0.031091 0.21370 7.5957 3.5876 1.6382 0.49294 pe
  let EcF := Gc d.r_s 0.015545 0.20548 14.1189 6.1977 3.3662 0.62517 pe
  EcP - Ac * fz * (1 - npow d.zeta 4) / d2fz0 + (EcF - EcP) * fz * npow d.zeta 4

/-- pw91c.cpp:39-87 -/
def pw91c : Expr Field :=
  let Ec := pw91cEc
  let kF := cbrt ((3 * Real.pi * Real.pi : ℝ) * d.n)
  let ks := (√4 : ℝ) * sqrt (kF / Real.pi)
  let gs := 0.5 * uf (2 / 3)
  let T2 := 0.25 * d.gnn / npow (gs * ks * d.n) 2
  let alpha : ℝ := 0.09
  let Cc0 : ℝ := 0.004235
  let Cx : ℝ := -0.001667
  let nu : ℝ := 16 * rcbrt (3 * Real.pi * Real.pi) / Real.pi
  let beta : ℝ := nu * Cc0
  let A := (2 * alpha / beta : ℝ) / expm1 ((-2) * (alpha * Ec) / (npow gs 3 * beta * beta))
  let Cc := (1 / 1000 : ℝ) *
      ((2.568 + d.r_s * (23.266 + 0.007389 * d.r_s)) /
        (1 + d.r_s * (8.723 + d.r_s * (0.472 + d.r_s * 0.073890)))) - Cx
  let H0 := 0.5 * npow gs 3 * beta * beta / alpha *
      log (1 + 2 * (alpha * (T2 + A * T2 * T2)) / (beta * (1 + A * T2 * (1 + A * T2))))
  let H1 := nu * (Cc - Cc0 - (3 / 7 * Cx : ℝ)) * npow gs 3 * T2 *
      exp ((-100) * npow gs 4 * npow ks 2 * T2 / npow kF 2)
  d.n * (Ec + H0 + H1)

/-! lypc.cpp -/

/-- lypc.cpp:18-39 -/
def lypc : Expr Field :=
  let A : ℝ := 0.04918
  let B : ℝ := 0.132
  let C : ℝ := 0.2533
  let Dd : ℝ := 0.349
  let icbrtn := pow d.n (-1 / 3)
  let P := 1 / (1 + Dd * icbrtn)
  let omega := exp ((-C : ℝ) * icbrtn) * P * pow d.n (-11 / 3)
  let delta := icbrtn * (C + Dd * P)
  let n2 := d.n * d.n;
  (-A : ℝ) * (4 * d.a * d.b * P / d.n +
    B * omega *
      (d.a * d.b *
          (((2 : ℝ) ^ (11 / 3 : ℝ) * CF : ℝ) * (pow d.a (8 / 3) + pow d.b (8 / 3)) +
            (47 - 7 * delta) * d.gnn / 18 -
            (2.5 - delta / 18) * (d.gaa + d.gbb) -
            (delta - 11) / 9 * (d.a * d.gaa + d.b * d.gbb) / d.n) -
        (2 / 3 : ℝ) * n2 * d.gnn + ((2 / 3 : ℝ) * n2 - d.a * d.a) * d.gbb +
        ((2 / 3 : ℝ) * n2 - d.b * d.b) * d.gaa))

/-! pz81c.hpp and p86c.cpp -/

/-- pz81c.hpp:23-27 -/
def pz81fz : Expr Field :=
  let p : ℝ := (2 : ℝ) ^ (4 / 3 : ℝ)
  let q : ℝ := 2 * (2 : ℝ) ^ (1 / 3 : ℝ) - 2
  (p * (d.a_43 + d.b_43) * d.n_m13 / d.n - 2) / q

/-- pz81c.hpp:29-31; the array is `(c0, c1, c2)` -/
def Eld (x : Expr Field) (c0 c1 c2 : ℝ) : Expr Field := c0 / (1 + c1 * sqrt x + c2 * x)

/-- pz81c.hpp:33-35 -/
def Ehd (x : Expr Field) (c0 c1 c2 c3 : ℝ) : Expr Field := c1 + log x * (c0 + x * c2) + c3 * x

/-- pz81c.hpp:37-46; `1 > d.r_s` is `d.r_s < 1` on the constant coefficients -/
def pz81eps : Expr Field :=
  let hd0 := Ehd d.r_s 0.0311 (-0.048) 0.0020 (-0.0116)
  let hd1 := Ehd d.r_s 0.01555000000 (-0.0269) 0.0007 (-0.0048)
  let ld0 := Eld d.r_s (-0.1423) 1.0529 0.3334
  let ld1 := Eld d.r_s (-0.0843) 1.3981 0.2611
  iflt d.r_s 1 (hd0 + (hd1 - hd0) * pz81fz) (ld0 + (ld1 - ld0) * pz81fz)

/-- pz81c.cpp:18-20 -/
def pz81c : Expr Field := pz81eps * d.n

/-- p86c.cpp:20-25 -/
def Cg (r : Expr Field) : Expr Field :=
  let Cx : ℝ := 0.001667
  let Bg : ℝ := 0.000007389
  Cx + (0.002568 + r * (0.023266 + Bg * r)) / (1 + r * (8.723 + r * (0.472 + (10000 * Bg : ℝ) * r)))

/-- p86c.cpp:27-38 (INEXACT_PI is not defined); DBL_EPSILON is `2^-52` -/
def Pg : Expr Field :=
  let Fg : ℝ := 0.11
  let Cinf : ℝ := 0.004235
  let fudge : ℝ := 1 / 2 ^ 52
  let pi_expr : ℝ := (9 * Real.pi) ^ (1 / 6 : ℝ);
  (pi_expr * Fg * Cinf : ℝ) * sqrt (fudge + d.gnn) / (Cg d.r_s * pow d.n (7 / 6))

/-- p86c.cpp:40-43 -/
def p86dz : Expr Field :=
  (rcbrt 2 : ℝ) * sqrt (pow d.a (5 / 3) + pow d.b (5 / 3)) * pow d.n (-5 / 6)

/-- p86c.cpp:50-52 -/
def p86c_corr : Expr Field := exp (-Pg) * Cg d.r_s * d.gnn / (pow d.n (4 / 3) * p86dz)

/-- p86c.cpp:45-48 -/
def p86c : Expr Field :=
  d.n * pz81eps + exp (-Pg) * Cg d.r_s * d.gnn / (pow d.n (4 / 3) * p86dz)

/-! ldaerfc.cpp and ldaerfc_jt.cpp -/

/-- ldaerfc.cpp:24 -/
def Acoul : ℝ := 2 * (Real.log 2 - 1) / (Real.pi * Real.pi)

/-- ldaerfc.cpp:23-31 -/
def Qrpa (x : Expr Field) : Expr Field :=
  let a2 : ℝ := 5.84605
  let c2 : ℝ := 3.91744
  let d2 : ℝ := 3.44851
  let b2 : ℝ := d2 - 3 / (2 * Real.pi * Acoul) * (4 / (9 * Real.pi)) ^ (1 / 3 : ℝ)
  Acoul * log ((1 + x * (a2 + x * (b2 + c2 * x))) / (1 + x * (a2 + d2 * x)))

/-- ldaerfc.cpp:33-40 -/
def dpol (rs : Expr Field) : Expr Field :=
  let cf : ℝ := (9 * Real.pi / 4) ^ (1 / 3 : ℝ)
  let p2p : ℝ := 0.04
  let p3p : ℝ := 0.4319
  let rs2 := rs * rs;
  ((2 : ℝ) ^ (5 / 3 : ℝ) / 5 * cf ^ 2 : ℝ) / rs2 * (1 + (p3p - 0.454555 : ℝ) * rs) /
    (1 + p3p * rs + p2p * rs2)

/-- ldaerfc.cpp:46-53 -/
def g0f (x : Expr Field) : Expr Field :=
  let C0f : ℝ := 0.0819306
  let D0f : ℝ := 0.752411
  let E0f : ℝ := -0.0127713
  let F0f : ℝ := 0.00185898;
  (1 + x * ((D0f - 0.7317 : ℝ) + x * (C0f + x * (E0f + F0f * x)))) * exp ((-D0f : ℝ) * x) / 2

/-- ldaerfc.cpp:55-105; `mu` is a scalar -/
def ecorrlr (mu ec : Expr Field) : Expr Field :=
  let alpha : ℝ := (4 / 9 / Real.pi) ^ (1 / 3 : ℝ)
  let cf : ℝ := 1 / alpha
  let phi := (pow (1 + d.zeta) (2 / 3) + pow (1 - d.zeta) (2 / 3)) / 2
  let adib : ℝ := 0.784949
  let q1a : ℝ := -0.388
  let q2a : ℝ := 0.676
  let q3a : ℝ := 0.547
  let t1a : ℝ := -4.95
  let t2a : ℝ := 1
  let t3a : ℝ := 0.31
  let b0 := adib * d.r_s
  let rs2 := d.r_s * d.r_s
  let rs3 := rs2 * d.r_s
  let d2anti := (q1a * d.r_s + q2a * rs2) * exp ((-q3a : ℝ) * d.r_s) / rs2
  let d3anti := (t1a * d.r_s + t2a * rs2) * exp ((-t3a : ℝ) * d.r_s) / rs3
  let z := d.zeta
  let z2 := d.zeta * d.zeta
  let coe2 := (-3 / 8 : ℝ) / rs3 * (1 - z2) * (g0f d.r_s - 0.5)
  let coe3 := -(1 - z2) * g0f d.r_s / ((√(2 * Real.pi) : ℝ) * rs3)
  let coe4 := (-9 / 64 : ℝ) / rs3 *
    (npow ((1 + z) / 2) 2 * dpol (d.r_s * pow (2 / (1 + z)) (1 / 3)) +
      npow ((1 - z) / 2) 2 * dpol (d.r_s * pow (2 / (1 - z)) (1 / 3)) +
      (1 - z * z) * d2anti -
      (cf ^ 2 / 10 : ℝ) * (pow (1 + z) (8 / 3) + pow (1 - z) (8 / 3)) / rs2)
  let coe5 := (-9 / 40 : ℝ) / ((√(2 * Real.pi) : ℝ) * rs3) *
    (npow ((1 + z) / 2) 2 * dpol (d.r_s * pow (2 / (1 + z)) (1 / 3)) +
      npow ((1 - z) / 2) 2 * dpol (d.r_s * pow (2 / (1 - z)) (1 / 3)) +
      (1 - z2) * d3anti)
  let b06 := npow b0 6
  let b08 := npow b0 8
  let a1 := 4 * b06 * coe3 + b08 * coe5
  let a2 := 4 * b06 * coe2 + b08 * coe4 + 6 * npow b0 4 * ec
  let a3 := b08 * coe3
  let a4 := b06 * (npow b0 2 * coe2 + 4 * ec);
  (npow phi 3 * Qrpa (mu * sqrt d.r_s / phi) + a1 * npow mu 3 + a2 * npow mu 4 + a3 * npow mu 5 +
    a4 * npow mu 6 + npow (b0 * mu) 8 * ec) / npow (1 + npow (b0 * mu) 2) 4

/-- ldaerfc.cpp:106-110 -/
def ldaerfc : Expr Field :=
  let mu := getParam RANGESEP_MU
  let eps := pw92eps
  d.n * (eps - ecorrlr mu eps)

/-- ldaerfc_jt.cpp:24-32 -/
def jtC1 (rs : Expr Field) : Expr Field :=
  let u1 : ℝ := 1.0270741452992294
  let u2 : ℝ := -0.230160617208092
  let v1 : ℝ := 0.6196884832404359
  let rs2 := rs * rs;
  (u1 * rs + u2 * rs2) / (1 + v1 * rs)

/-- ldaerfc_jt.cpp:34-45 -/
def jtC2 : Expr Field :=
  let a : ℝ := 3.2581
  let f : ℝ := 3.39530545262710070631
  let bet : ℝ := 163.44
  let gam : ℝ := 4.7125
  let g0 := f * (pow (gam + d.r_s) 1.5 + bet) * exp ((-a : ℝ) * sqrt (gam + d.r_s))
  let n2 := d.n * d.n
  let denominator := (0.5 * Real.pi : ℝ) * n2 * (g0 - 0.5)
  d.n * vwn5_eps / denominator

/-- ldaerfc_jt.cpp:47-53 -/
def ldaerfc_jt : Expr Field :=
  let mu := getParam RANGESEP_MU
  let denominator := 1 + jtC1 d.r_s * mu + jtC2 * mu * mu
  d.n * vwn5_eps / denominator

/-! b97c.hpp -/

/-- b97c.hpp:25 -/
def b97c_c : (ℝ × ℝ × ℝ) × (ℝ × ℝ × ℝ) := ((0.9454, 0.7471, -4.5961), (0.1737, 2.3487, -2.4868))
/-- b97c.hpp:27-28 -/
def b97_1c_c : (ℝ × ℝ × ℝ) × (ℝ × ℝ × ℝ) :=
  ((0.955689, 0.788552, -5.47869), (0.0820011, 2.71681, -2.87103))
/-- b97c.hpp:30-31 -/
def b97_2c_c : (ℝ × ℝ × ℝ) × (ℝ × ℝ × ℝ) :=
  ((0.999849, 1.40626, -7.44060), (0.585808, -0.691682, 0.394796))

/-- the output argument `e_LSDA` of energy_b97c_par (b97c.hpp:43) -/
def b97c_eLSDA (a : Expr Field) : Expr Field := pw92eps_polarized a * a

/-- b97c.hpp:36-46, returned value -/
def energy_b97c_par (Gamma : ℝ) (c : ℝ × ℝ × ℝ) (a a_43 gaa : Expr Field) : Expr Field :=
  let s2_ab2 := spin_dens_gradient_ab2 gaa a_43
  b97c_eLSDA a * b97enhancement Gamma c s2_ab2

/-- b97c.hpp:48-59 -/
def energy_b97c_antipar (Gamma : ℝ) (c : ℝ × ℝ × ℝ) (ea eb : Expr Field) : Expr Field :=
  let e_LSDA := pw92eps * d.n - ea - eb
  let s2_ab := 0.5 * (spin_dens_gradient_ab2 d.gaa d.a_43 + spin_dens_gradient_ab2 d.gbb d.b_43)
  e_LSDA * b97enhancement Gamma c s2_ab

/-- b97xc.cpp:25-34, b97-1xc.cpp:25-34, b97-2xc.cpp:25-34 for the parameter set `c`;
    Gamma_par and Gamma_antipar are b97c.hpp:33-34 -/
def b97cEn (c : (ℝ × ℝ × ℝ) × (ℝ × ℝ × ℝ)) : Expr Field :=
  let tmp := energy_b97c_par 0.2 c.2 d.a d.a_43 d.gaa + energy_b97c_par 0.2 c.2 d.b d.b_43 d.gbb
  tmp + energy_b97c_antipar 0.006 c.1 (b97c_eLSDA d.a) (b97c_eLSDA d.b)

/-- b97xc.cpp:25-34 -/
def b97c : Expr Field := b97cEn b97c_c
/-- b97-1xc.cpp:25-34 -/
def b97_1c : Expr Field := b97cEn b97_1c_c
/-- b97-2xc.cpp:25-34 -/
def b97_2c : Expr Field := b97cEn b97_2c_c

/-! cs.cpp -/

/-- cs.cpp:17-27 -/
def csc : Expr Field :=
  let a : ℝ := 1
  let b : ℝ := 1
  let c : ℝ := 1
  let dpar : ℝ := 1
  let gamma := 2 * (1 - (d.a * d.a + d.b * d.b) / (d.n * d.n))
  let curv := d.a * d.taua + d.b * d.taub - (1 / 8 : ℝ) * d.gnn - (d.jpaa + d.jpbb);
  (-a : ℝ) * gamma * (d.n + (2 * b : ℝ) * pow d.n (-5 / 3) * curv * exp ((-c : ℝ) * d.n_m13)) /
    (1 + dpar * d.n_m13)

end
end XCFun.Fun
