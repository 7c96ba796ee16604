/-
LDA and GGA exchange functionals and kinetic-energy functionals.
Files are in src/functionals/.
-/
import Verif.Model.Fun.Basic

namespace XCFun.Fun

noncomputable section

/-! slater.hpp -/

/-- slater.hpp:19-21 -/
def slaterx : Expr Field := (-c_slater : ℝ) * (d.a_43 + d.b_43)

/-! pw86x.cpp -/

/-- pw86x.cpp:17-28 -/
def pw86xSpin (na gaa : Expr Field) : Expr Field :=
  let a : ℝ := 1
  let b : ℝ := 1.296
  let c : ℝ := 14
  let dd : ℝ := 0.20
  let rho := 2 * na
  let grad2 := 4 * gaa
  let Ax : ℝ := -(3 / Real.pi) ^ (1 / 3 : ℝ) * 3 / 4
  let kf := pow (((3 * Real.pi ^ 2 : ℝ) : Expr Field) * rho) (1 / 3)
  let s2 := grad2 / npow (2 * kf * rho) 2
  let F := pow (a + s2 * (b + s2 * (c + dd * s2))) (1 / 15)
  Ax * pow rho (4 / 3) * F

/-- pw86x.cpp:30-32 -/
def pw86x : Expr Field := 0.5 * (pw86xSpin d.a d.gaa + pw86xSpin d.b d.gbb)

/-! pw9xx.hpp -/

/-- pw9xx.hpp:39-41 -/
def chi2 (rho grad : Expr Field) : Expr Field := grad / pow rho (8 / 3)

/-- the constant of pw9xx.hpp:45 -/
def S2const : ℝ := ((6 : ℝ) ^ (2 / 3 : ℝ) / (12 * Real.pi ^ (2 / 3 : ℝ))) ^ (2 : ℝ)

/-- pw9xx.hpp:43-46 -/
def S2 (rho grad : Expr Field) : Expr Field := grad / pow rho (8 / 3) * S2const

/-- the constant factors of pw9xx.hpp:61 -/
def prefactorConst : ℝ := -0.75 * 2 ^ (1 / 3 : ℝ) * (3 * Real.pi * Real.pi) ^ (1 / 3 : ℝ)

/-- pw9xx.hpp:51-63 -/
def prefactor (rho : Expr Field) : Expr Field := prefactorConst * pow rho (4 / 3) / Real.pi

/-- pw9xx.hpp:66-70 -/
def pw91k_prefactor (rho : Expr Field) : Expr Field :=
  ((CF * 2 ^ (2 / 3 : ℝ) : ℝ) : Expr Field) * pow rho (5 / 3)

/-- the array `param_AB[6]` (pw9xx.hpp:74) -/
structure ParamAB where
  p0 : ℝ
  p1 : ℝ
  p2 : ℝ
  p3 : ℝ
  p4 : ℝ
  p5 : ℝ

/-- pw9xx.hpp:73-94 -/
def pw91xk_enhancement (q : ParamAB) (rho grad : Expr Field) : Expr Field :=
  let st2 := S2 rho grad
  let t1 := 1 + q.p0 * sqrtxAsinhSqrtx (((q.p1 ^ 2 : ℝ) : Expr Field) * st2) / q.p1
  let t2 := st2 * (q.p2 - q.p3 * exp ((-q.p4 : ℝ) * st2))
  let numerator := t1 + t2
  let denominator := t1 + q.p5 * st2 * st2
  numerator / denominator

/-- pw91x.cpp:19 -/
def pw91xParam : ParamAB := ⟨0.19645, 7.7956, 0.2743, 0.15084, 100, 0.004⟩

/-- pw91x.cpp:18-24 -/
def pw91x : Expr Field :=
  prefactor d.a * pw91xk_enhancement pw91xParam d.a d.gaa +
  prefactor d.b * pw91xk_enhancement pw91xParam d.b d.gbb

/-- pw91k.cpp:22-23 -/
def pw91kParam : ParamAB := ⟨0.093907, 76.320, 0.26608, 0.0809615, 100, 0.57767e-4⟩

/-- pw91k.cpp:21-28 -/
def pw91k : Expr Field :=
  pw91k_prefactor d.a * pw91xk_enhancement pw91kParam d.a d.gaa +
  pw91k_prefactor d.b * pw91xk_enhancement pw91kParam d.b d.gbb

/-! pbex.hpp -/

/-- pbex.hpp:22 -/
def R_pbe : ℝ := 0.804
/-- pbex.hpp:23 -/
def R_revpbe : ℝ := 1.245
/-- pbex.hpp:34 (XCFUN_REF_PBEX_MU is not defined, config.hpp:39) -/
def mu_pbe : ℝ := 0.066725 * Real.pi * Real.pi / 3

/-- pbex.hpp:26-39 -/
def enhancement (R : ℝ) (rho grad : Expr Field) : Expr Field :=
  let st2 := S2 rho grad
  let t1 := 1 + mu_pbe * st2 / R
  1 + R - R / t1

/-- pbex.hpp:44 -/
def mu_rpbe : ℝ := 0.2195149727645171

/-- pbex.hpp:41-46 -/
def enhancement_RPBE (rho grad : Expr Field) : Expr Field :=
  1 - R_pbe * expm1 ((-mu_rpbe / R_pbe : ℝ) * S2 rho grad)

/-- pbex.hpp:48-52 -/
def energy_pbe_ab (R : ℝ) (rho grad : Expr Field) : Expr Field :=
  prefactor rho * enhancement R rho grad

/-- pbex.cpp:20-23 -/
def pbex : Expr Field := energy_pbe_ab R_pbe d.a d.gaa + energy_pbe_ab R_pbe d.b d.gbb

/-- revpbex.cpp:18-21 -/
def revpbex : Expr Field :=
  energy_pbe_ab R_revpbe d.a d.gaa + energy_pbe_ab R_revpbe d.b d.gbb

/-- rpbex.cpp:18-23 -/
def rpbex : Expr Field :=
  prefactor d.a * enhancement_RPBE d.a d.gaa + prefactor d.b * enhancement_RPBE d.b d.gbb

/-- The constant `c` of pbesolx.cpp:30, pbeintx.cpp:32, apbex.cpp:29, beckex.cpp:18, 44, 62. -/
def cLda : ℝ := (81 / (4 * Real.pi)) ^ (1 / 3 : ℝ) / 2

/-- pbesolx.cpp:18-27 -/
def pbesol_enhancement (na gaa : Expr Field) : Expr Field :=
  let muge : ℝ := 0.123456790123
  let kappa : ℝ := 0.804
  let st2 := S2 na gaa
  let t1 := 1 + muge * st2 / kappa
  1 + kappa - kappa / t1

/-- pbesolx.cpp:29-35 -/
def energy_pbesolx (na gaa : Expr Field) : Expr Field :=
  let na43 := pow na (4 / 3)
  let lda := (-cLda : ℝ) * na43
  lda * pbesol_enhancement na gaa

/-- pbesolx.cpp:37-39 -/
def pbesolx : Expr Field := energy_pbesolx d.a d.gaa + energy_pbesolx d.b d.gbb

/-- pbeintx.cpp:18-29 -/
def pbeint_enhancement (na gaa : Expr Field) : Expr Field :=
  let mupbe : ℝ := 0.21951
  let muge : ℝ := 0.123456790123
  let kappa : ℝ := 0.804
  let alpha : ℝ := 0.197
  let st2 := S2 na gaa
  let mu := muge + (((mupbe - muge) * alpha : ℝ) : Expr Field) * st2 / (1 + alpha * st2)
  let t1 := 1 + mu * st2 / kappa
  1 + kappa - kappa / t1

/-- pbeintx.cpp:31-37 -/
def energy_pbeintx (na gaa : Expr Field) : Expr Field :=
  let na43 := pow na (4 / 3)
  let lda := (-cLda : ℝ) * na43
  lda * pbeint_enhancement na gaa

/-- pbeintx.cpp:39-41 -/
def pbeintx : Expr Field := energy_pbeintx d.a d.gaa + energy_pbeintx d.b d.gbb

/-- apbex.cpp:18-26 -/
def apbe_enhancement (na gaa : Expr Field) : Expr Field :=
  let mu : ℝ := 0.26
  let kappa : ℝ := 0.804
  let st2 := S2 na gaa
  let t1 := 1 + mu * st2 / kappa
  1 + kappa - kappa / t1

/-- apbex.cpp:28-34 -/
def energy_apbex (na gaa : Expr Field) : Expr Field :=
  let na43 := pow na (4 / 3)
  let lda := (-cLda : ℝ) * na43
  lda * apbe_enhancement na gaa

/-- apbex.cpp:36-38 -/
def apbex : Expr Field := energy_apbex d.a d.gaa + energy_apbex d.b d.gbb

/-! beckex.cpp -/

/-- beckex.cpp:19, 28, 45, 63 -/
def beckeD : ℝ := 0.0042

/-- beckex.cpp:17-25 -/
def becke_alpha (na gaa : Expr Field) : Expr Field :=
  let na43 := pow na (4 / 3)
  let lda := (-cLda : ℝ) * na43
  let chi2 := gaa * pow na (-8 / 3)
  let b88 := -(beckeD * na43 * chi2) / (1 + (6 * beckeD : ℝ) * sqrtxAsinhSqrtx chi2)
  lda + b88

/-- beckex.cpp:27-32 -/
def becke_corr (na gaa : Expr Field) : Expr Field :=
  let na43 := pow na (4 / 3)
  let chi2 := gaa * pow na (-8 / 3);
  -(beckeD * na43 * chi2) / (1 + (6 * beckeD : ℝ) * sqrtxAsinhSqrtx chi2)

/-- beckex.cpp:42-54; `mu` is a scalar -/
def becke_sr (mu na gaa : Expr Field) : Expr Field :=
  let na43 := pow na (4 / 3)
  let chi2 := gaa * pow na (-8 / 3)
  let K := 2 * (cLda + (beckeD * chi2) / (1 + (6 * beckeD : ℝ) * sqrtxAsinhSqrtx chi2))
  let a := mu * sqrt K / ((6 * √Real.pi : ℝ) * pow na (1 / 3))
  let b := expm1 ((-1) / (4 * a * a))
  let c := 2 * a * a * b + 0.5;
  (-0.5) * na43 * K *
    (1 - (8 / 3 : ℝ) * a * ((√Real.pi : ℝ) * erf (1 / (2 * a)) + 2 * a * (b - c)))

/-- beckex.cpp:56-73; `alpha`, `beta`, `mu` are scalars -/
def becke_cam (alpha beta mu na gaa : Expr Field) : Expr Field :=
  let na43 := pow na (4 / 3)
  let chi2 := gaa * pow na (-8 / 3)
  let K := 2 * (cLda + (beckeD * chi2) / (1 + (6 * beckeD : ℝ) * sqrtxAsinhSqrtx chi2))
  let a := mu * sqrt K / ((6 * √Real.pi : ℝ) * pow na (1 / 3))
  let b := expm1 ((-1) / (4 * a * a))
  let c := 2 * a * a * b + 0.5;
  (-0.5) * na43 * K *
    (1 - alpha - beta * 8 / 3 * a * ((√Real.pi : ℝ) * erf (1 / (2 * a)) + 2 * a * (b - c)))

/-- beckex.cpp:75-77 -/
def beckex : Expr Field := becke_alpha d.a d.gaa + becke_alpha d.b d.gbb
/-- beckex.cpp:79-81 -/
def beckexcorr : Expr Field := becke_corr d.a d.gaa + becke_corr d.b d.gbb
/-- beckex.cpp:83-86 -/
def beckesrx : Expr Field :=
  let mu := getParam RANGESEP_MU
  becke_sr mu d.a d.gaa + becke_sr mu d.b d.gbb
/-- beckex.cpp:88-94 -/
def beckecamx : Expr Field :=
  let mu := getParam RANGESEP_MU
  let alpha := getParam CAM_ALPHA
  let beta := getParam CAM_BETA
  becke_cam alpha beta mu d.a d.gaa + becke_cam alpha beta mu d.b d.gbb

/-! optx.cpp, optxcorr.cpp, ktx.cpp -/

/-- optx.cpp:18-26 -/
def optx : Expr Field :=
  let a1 : ℝ := 1.05151
  let a2 : ℝ := 1.43169
  let gamma : ℝ := 0.006
  let g_xa2 := gamma * d.gaa * pow d.a (-8 / 3)
  let g_xb2 := gamma * d.gbb * pow d.b (-8 / 3);
  -(d.a_43 * ((a1 * c_slater : ℝ) + a2 * npow g_xa2 2 * powi (1 + g_xa2) (-2))) -
   (d.b_43 * ((a1 * c_slater : ℝ) + a2 * npow g_xb2 2 * powi (1 + g_xb2) (-2)))

/-- optxcorr.cpp:18-33 -/
def optxcorr : Expr Field :=
  let gamma : ℝ := 0.006
  let g_xa2 := gamma * d.gaa * pow d.a (-8 / 3)
  let g_xb2 := gamma * d.gbb * pow d.b (-8 / 3)
  d.a_43 * (npow g_xa2 2 * powi (1 + g_xa2) (-2)) +
  d.b_43 * (npow g_xb2 2 * powi (1 + g_xb2) (-2))

/-- ktx.cpp:18-24 -/
def ktx : Expr Field :=
  let DELTA : ℝ := 0.1
  let ea := d.gaa / (DELTA + pow d.a (4 / 3))
  let eb := d.gbb / (DELTA + pow d.b (4 / 3))
  ea + eb

/-! Kinetic energy functionals -/

/-- tfk.cpp:20-24 -/
def tfk : Expr Field := CF * pow d.n (5 / 3)

/-- tw.cpp:20-22 -/
def tw : Expr Field := (1 / 8 : ℝ) * pow (d.gaa + d.gbb) 2 / d.n

/-- vonw.cpp:17-19 -/
def vW_alpha (na gaa : Expr Field) : Expr Field := gaa / (8 * na)
/-- vonw.cpp:21-23 -/
def vW : Expr Field := vW_alpha d.a d.gaa + vW_alpha d.b d.gbb

/-- btk.cpp:17-23 -/
def btk_alpha (na gaa : Expr Field) : Expr Field :=
  let qav : ℝ := 0.3434125
  let beta : ℝ := 1.990328
  let fudge : ℝ := 1e-24
  let na53 := pow na (5 / 3)
  beta * na53 * pow (fudge + gaa) (0.5 * qav) / pow na (4 / 3 * qav)
/-- btk.cpp:25-27 -/
def btk : Expr Field := 0.5 * (btk_alpha (2 * d.a) (4 * d.gaa) + btk_alpha (2 * d.b) (4 * d.gbb))

/-! b97x.hpp, b97xc.hpp -/

/-- b97xc.hpp:22-26 -/
def spin_dens_gradient_ab2 (gaa a_43 : Expr Field) : Expr Field := abs gaa / a_43 / a_43

/-- b97xc.hpp:28-32 -/
def ux_ab (Gamma : ℝ) (x : Expr Field) : Expr Field := Gamma * x / (1 + Gamma * x)

/-- b97xc.hpp:34-41; the array `c_params` is the triple `c` -/
def b97enhancement (Gamma : ℝ) (c : ℝ × ℝ × ℝ) (x : Expr Field) : Expr Field :=
  let ux := ux_ab Gamma x
  c.1 + c.2.1 * ux + c.2.2 * ux * ux

/-- b97x.hpp:24-26 -/
def e_x_LSDA_ab (a_43 : Expr Field) : Expr Field := (-0.9305257363491002) * a_43

/-- b97x.hpp:30 -/
def b97x_c : ℝ × ℝ × ℝ := (0.8094, 0.5073, 0.7481)
/-- b97x.hpp:31 -/
def b97_1x_c : ℝ × ℝ × ℝ := (0.789518, 0.573805, 0.660975)
/-- b97x.hpp:32 -/
def b97_2x_c : ℝ × ℝ × ℝ := (0.827642, 0.047840, 1.76125)
/-- b97x.hpp:33 -/
def b97x_Gamma : ℝ := 0.004

/-- b97x.hpp:35-42 -/
def energy_b97x_ab (Gamma : ℝ) (c : ℝ × ℝ × ℝ) (a_43 gaa : Expr Field) : Expr Field :=
  let s2_ab := spin_dens_gradient_ab2 gaa a_43
  e_x_LSDA_ab a_43 * b97enhancement Gamma c s2_ab

/-- b97xc.cpp:20-23 -/
def b97x : Expr Field :=
  energy_b97x_ab b97x_Gamma b97x_c d.a_43 d.gaa + energy_b97x_ab b97x_Gamma b97x_c d.b_43 d.gbb
/-- b97-1xc.cpp:20-23 -/
def b97_1x : Expr Field :=
  energy_b97x_ab b97x_Gamma b97_1x_c d.a_43 d.gaa + energy_b97x_ab b97x_Gamma b97_1x_c d.b_43 d.gbb
/-- b97-2xc.cpp:20-23 -/
def b97_2x : Expr Field :=
  energy_b97x_ab b97x_Gamma b97_2x_c d.a_43 d.gaa + energy_b97x_ab b97x_Gamma b97_2x_c d.b_43 d.gbb

/-! ldaerfx.cpp -/

/-- ldaerfx.cpp:24-48; `mu` is a scalar -/
def esrx_ldaerfspin (na mu : Expr Field) : Expr Field :=
  let ckf : ℝ := 3.093667726280136
  let rhoa := 2 * na
  let akf := ckf * pow rhoa (1 / 3)
  let a := mu / (2 * akf)
  let a2 := a * a
  let a3 := a2 * a
  let cube := pow (24 * rhoa / Real.pi) (1 / 3)
  iflt a 1e-9 ((-3 / 8 : ℝ) * rhoa * cube)
    (iflt a 100
      (-(rhoa * cube) *
        ((3 / 8 : ℝ) - a * ((√Real.pi : ℝ) * erf (0.5 / a) +
          (2 * a - 4 * a3) * exp ((-0.25) / a2) - 3 * a + 4 * a3)))
      (iflt a 1e9 (-(rhoa * cube) / (96 * a2)) 0))

/-- ldaerfx.cpp:49-52 -/
def lda_erfx : Expr Field :=
  let mu := getParam RANGESEP_MU
  0.5 * (esrx_ldaerfspin d.a mu + esrx_ldaerfspin d.b mu)

end
end XCFun.Fun
