/-
The SCAN family: src/functionals/SCAN_like_eps.hpp and the ten files *SCAN{c,x}.cpp.
The `int` arguments IALPHA, IINTERP, IDELFX, IDELEC are literals at every call; the branches
that print "Unknown ..." (and leave 0) are kept as the final `else`.
-/
import Verif.Model.Fun.Meta

namespace XCFun.Fun

noncomputable section

/-- IE_PARAMS (SCAN_like_eps.hpp:143-150) -/
def IEx : List ℝ :=
  [1.0, -0.667, -0.4445555, -0.663086601049, 1.451297044490, -0.887998041597, 0.234528941479,
   -0.023185843322]

/-- IE_PARAMS (SCAN_like_eps.hpp:262-269) -/
def IEc : List ℝ :=
  [1.0, -0.64, -0.4352, -1.535685604549, 3.061560252175, -1.915710236206, 0.516884468372,
   -0.051848879792]

/-- `ief += IE_PARAMS[i] * pow(alpha, i)` for `i = 0..7` starting from 0
    (SCAN_like_eps.hpp:180-182, 337-339) -/
def ieSum (c : List ℝ) (alpha : Expr Field) : Expr Field :=
  c.zipIdx.foldl (fun acc p => acc + p.1 * npow alpha p.2) 0

/-- `del_f2 += i * IE_PARAMS[i]` for `i = 1..7` (SCAN_like_eps.hpp:207-209, 436-438); the
    term `i = 0` vanishes and is included here -/
def delF2 (c : List ℝ) : ℝ := c.zipIdx.foldl (fun acc p => acc + p.2 * p.1) 0

/-- `del_f4 += i * (i - 1) * IE_PARAMS[i]` for `i = 1..7` (SCAN_like_eps.hpp:228-230) -/
def delF4 (c : List ℝ) : ℝ := c.zipIdx.foldl (fun acc p => acc + p.2 * (p.2 - 1) * p.1) 0

/-- SCAN_like_eps.hpp:82, 271 -/
def ETA : ℝ := 1.0e-3
/-- SCAN_like_eps.hpp:83, 272 -/
def TAU_R : ℝ := 1.0e-4
/-- SCAN_like_eps.hpp:84, 273 -/
def A_REG : ℝ := 1.0e-3

/-- the selection of `alpha` (SCAN_like_eps.hpp:95-116 and 299-320) from `tau - tauw`, the
    uniform value and `tauw` -/
def scanAlpha (IALPHA : ℕ) (diff unif tauw : Expr Field) : Expr Field :=
  if IALPHA = 0 then iflt 1.0e-14 (abs diff) (diff / unif) 0
  else if IALPHA = 1 then
    let alpha := diff / unif
    npow alpha 3 / (pow2 alpha + A_REG)
  else if IALPHA = 2 then iflt 1.0e-14 (abs diff) (diff / (unif + ETA * tauw)) 0
  else 0

/-- the interpolation function `ief` (SCAN_like_eps.hpp:166-188 with CFX1, CFX2, CFDX1 and
    SCAN_like_eps.hpp:323-345 with CFC1, CFC2, CFDC1) -/
def scanIef (IINTERP : ℕ) (c1 c2 cd1 : ℝ) (ie : List ℝ) (alpha : Expr Field) : Expr Field :=
  let oma := 1 - alpha
  let low := exp ((-c1 : ℝ) * alpha / oma)
  let high := (-cd1 : ℝ) * exp (c2 / oma)
  if IINTERP = 0 then iflt alpha 1 low high
  else if IINTERP = 1 then iflt alpha 1.0e-13 low (iflt alpha 2.5 (ieSum ie alpha) high)
  else 0

/-- K1, K0, MU (SCAN_like_eps.hpp:139-141) -/
def scanK1 : ℝ := 0.065
/-- SCAN_like_eps.hpp:140 -/
def scanK0 : ℝ := 0.174
/-- SCAN_like_eps.hpp:141 -/
def scanMU : ℝ := 10 / 81
/-- SCAN_like_eps.hpp:163 -/
def ALPHA_GE : ℝ := 20 / 27 + ETA * 5 / 3
/-- the constant expansion `C2` (SCAN_like_eps.hpp:191, 210) -/
def scanC2 : Expr Field := -(delF2 IEx : Expr Field) * (1 - (1 + scanK0 : ℝ))

/-- `h1x` (SCAN_like_eps.hpp:194-216) -/
def scanH1x (IDELFX : ℕ) (p oma : Expr Field) : Expr Field :=
  if IDELFX = 0 then
    let B1 : ℝ := 0.156632
    let B2 : ℝ := 0.12083
    let B3 : ℝ := 0.5
    let B4 : ℝ := scanMU * scanMU / scanK1 - 0.112654
    let wfac := B4 * pow2 p * exp ((-B4 : ℝ) * p / scanMU)
    let vfac := B1 * p + B2 * oma * exp ((-B3 : ℝ) * pow2 oma)
    let yfac := scanMU * p + wfac + pow2 vfac
    (1 + scanK1 : ℝ) - scanK1 / (1 + yfac / scanK1)
  else if IDELFX = 1 ∨ IDELFX = 2 then
    let damp := exp (-pow2 p / ((0.361 : ℝ) ^ 4 : ℝ))
    (1 + scanK1 : ℝ) - scanK1 / (1 + p * (scanMU + ALPHA_GE * scanC2 * damp) / scanK1)
  else 0

/-- `del_fx` (SCAN_like_eps.hpp:222-246) -/
def scanDelFx (IDELFX : ℕ) (p alpha oma : Expr Field) : Expr Field :=
  if IDELFX = 2 then
    let h0x : Expr Field := (1 + scanK0 : ℝ)
    let del_f2 : Expr Field := delF2 IEx
    let del_f4 : Expr Field := delF4 IEx
    let eta_term : Expr Field := (ETA * 3 / 4 + 2 / 3 : ℝ)
    let C_aa := (73 / 5000 : ℝ) - 0.5 * del_f4 * (h0x - 1)
    let C_pa := (511 / 13500 - 73 / 1500 * ETA : ℝ) - del_f2 * (ALPHA_GE * scanC2 + scanMU)
    let C_pp := (146 / 2025 : ℝ) * pow2 eta_term - (73 / 405 : ℝ) * eta_term +
      pow2 (ALPHA_GE * scanC2 + scanMU) / scanK1
    let order_1 := scanC2 * (oma - ALPHA_GE * p)
    let t1 := order_1 + C_aa * pow2 oma + C_pa * p * oma + C_pp * pow2 p
    let damp_4_t1 := 2 * pow2 alpha / (1 + npow alpha 4)
    let damp_4_t2 := exp (-pow2 oma / ((0.232 : ℝ) * 0.232 : ℝ) - pow2 p / ((0.232 : ℝ) ^ 4 : ℝ))
    let damp_4 := damp_4_t1 * damp_4_t2
    t1 * damp_4
  else 0

/-- SCAN_X_Fx (SCAN_like_eps.hpp:132-251) -/
def SCAN_X_Fx (p alpha : Expr Field) (IINTERP IDELFX : ℕ) : Expr Field :=
  let A1 : ℝ := 4.9479
  let oma := 1 - alpha
  let ief := scanIef IINTERP 0.667 0.8 1.24 IEx alpha
  let h0x : Expr Field := (1 + scanK0 : ℝ)
  let h1x := scanH1x IDELFX p oma
  let gx := 1 - exp ((-A1 : ℝ) / pow p (1 / 4))
  let del_fx := scanDelFx IDELFX p alpha oma;
  (h1x + ief * (h0x - h1x) + del_fx) * gx

/-- get_SCAN_Fx (SCAN_like_eps.hpp:75-130) -/
def get_SCAN_Fx (d_n d_g d_tau : Expr Field) (IALPHA IINTERP IDELFX : ℕ) : Expr Field :=
  let tauw := d_g / (8 * d_n)
  let tauUnif :=
    if IALPHA = 1 then (3 / 10 * kF2 : ℝ) * pow d_n (5 / 3) + TAU_R
    else (0.3 * kF2 : ℝ) * pow d_n (5 / 3)
  let alpha := scanAlpha IALPHA (d_tau - tauw) tauUnif tauw
  let p := iflt 1.0e-16 (abs d_g) (d_g / ((4 * kF2 : ℝ) * pow d_n (8 / 3)))
    (1e-16 / ((4 * kF2 : ℝ) * pow d_n (8 / 3)))
  SCAN_X_Fx p alpha IINTERP IDELFX

/-- SCANx.cpp:19-28, rSCANx.cpp:19-28, rppSCANx.cpp:19-28, r2SCANx.cpp:19-28,
    r4SCANx.cpp:19-28 -/
def scanX (IALPHA IINTERP IDELFX : ℕ) : Expr Field :=
  let Fx_a := get_SCAN_Fx (2 * d.a) (4 * d.gaa) (2 * d.taua) IALPHA IINTERP IDELFX
  let epsxunif_a := fx_unif (2 * d.a)
  let Fx_b := get_SCAN_Fx (2 * d.b) (4 * d.gbb) (2 * d.taub) IALPHA IINTERP IDELFX
  let epsxunif_b := fx_unif (2 * d.b)
  0.5 * (Fx_a * epsxunif_a + Fx_b * epsxunif_b)

/-- SCANx.cpp:19-28 -/
def scanx : Expr Field := scanX 0 0 0
/-- rSCANx.cpp:19-28 -/
def rscanx : Expr Field := scanX 1 1 0
/-- rppSCANx.cpp:19-28 -/
def rppscanx : Expr Field := scanX 2 1 0
/-- r2SCANx.cpp:19-28 -/
def r2scanx : Expr Field := scanX 2 1 1
/-- r4SCANx.cpp:19-28 -/
def r4scanx : Expr Field := scanX 2 1 2

/-! Correlation -/

/-- SCAN_like_eps.hpp:275 -/
def B1C : ℝ := 0.0285764
/-- SCAN_like_eps.hpp:276 -/
def B2C : ℝ := 0.0889
/-- SCAN_like_eps.hpp:277 -/
def B3C : ℝ := 0.125541

/-- lda_0 (SCAN_like_eps.hpp:378-385) -/
def lda_0 (rs : Expr Field) : Expr Field := (-B1C : ℝ) / (1 + B2C * sqrt rs + B3C * rs)

/-- `gc_z` (SCAN_like_eps.hpp:366-367, 404-405) -/
def gc_z (zeta : Expr Field) : Expr Field :=
  let dx_z := ufunc zeta (4 / 3) / 2;
  (1 - 2.363 * (dx_z - 1)) * (1 - npow zeta 12)

/-- scan_ec0 (SCAN_like_eps.hpp:355-376) -/
def scan_ec0 (rs s zeta : Expr Field) : Expr Field :=
  let CHI_LD : ℝ := 0.12802585262625815
  let eclda := lda_0 rs
  let w0 := exp (-eclda / B1C) - 1
  let ginf := 1 / pow (1 + (4 * CHI_LD : ℝ) * s * s) (1 / 4)
  let h0 := B1C * log (1 + w0 * (1 - ginf));
  (eclda + h0) * gc_z zeta

/-- `Q1` of gcor2 (SCAN_like_eps.hpp:510-511) -/
def gcorQ1 (P : Pw92P) (sqrtrs : Expr Field) : Expr Field :=
  (2 * P.t0 : ℝ) * sqrtrs *
    (P.t2 + sqrtrs * (P.t3 + sqrtrs * (P.t4 + P.t5 * sqrtrs)))

/-- the output `GG` of gcor2 (SCAN_like_eps.hpp:499-521) -/
def gcorG (P : Pw92P) (rs sqrtrs : Expr Field) : Expr Field :=
  let Q0 := (-2 * P.t0 : ℝ) * (1 + P.t1 * rs)
  let Q2 := log (1 + 1 / gcorQ1 P sqrtrs)
  Q0 * Q2

/-- the output `GGRS` of gcor2 (SCAN_like_eps.hpp:499-521) -/
def gcorGrs (P : Pw92P) (rs sqrtrs : Expr Field) : Expr Field :=
  let Q0 := (-2 * P.t0 : ℝ) * (1 + P.t1 * rs)
  let Q0RS : Expr Field := (-2 * P.t0 * P.t1 : ℝ)
  let Q1 := gcorQ1 P sqrtrs
  let Q1RS := P.t0 * ((2 * P.t3 : ℝ) + P.t2 / sqrtrs + (3 * P.t4 : ℝ) * sqrtrs +
    (4 * P.t5 : ℝ) * rs)
  let Q2 := log (1 + 1 / Q1)
  let Q2RS := -Q1RS / ((1 + 1 / Q1) * pow2 Q1)
  Q0 * Q2RS + Q2 * Q0RS

/-- SCAN_like_eps.hpp:469 -/
def scanGAM : ℝ := 0.51984209978974632953442121455650
/-- SCAN_like_eps.hpp:470 -/
def scanFZZ : ℝ := 8 / (9 * scanGAM)
/-- SCAN_like_eps.hpp:471-472 -/
def p_eu : Pw92P := ⟨0.03109070, 0.213700, 7.59570, 3.58760, 1.63820, 0.492940⟩
/-- SCAN_like_eps.hpp:473-474 -/
def p_ep : Pw92P := ⟨0.015545350, 0.205480, 14.11890, 6.19770, 3.36620, 0.625170⟩
/-- SCAN_like_eps.hpp:475-476 -/
def p_alfm : Pw92P := ⟨0.01688690, 0.111250, 10.3570, 3.62310, 0.880260, 0.496710⟩

/-- the output `eclda1` of get_lsda1 (SCAN_like_eps.hpp:463-497) -/
def lsda1 (rs sqrtrs zeta : Expr Field) : Expr Field :=
  let eu := gcorG p_eu rs sqrtrs
  let ep := gcorG p_ep rs sqrtrs
  let alfm := gcorG p_alfm rs sqrtrs
  let z4 := zeta * npow zeta 3
  let f := (ufunc zeta (4 / 3) - 2) / scanGAM
  eu * (1 - f * z4) + ep * f * z4 - alfm * f * (1 - z4) / scanFZZ

/-- the output `d_eclda1_drs` of get_lsda1 (SCAN_like_eps.hpp:463-497) -/
def lsda1_drs (rs sqrtrs zeta : Expr Field) : Expr Field :=
  let deudrs := gcorGrs p_eu rs sqrtrs
  let depdrs := gcorGrs p_ep rs sqrtrs
  let dalfmdrs := gcorGrs p_alfm rs sqrtrs
  let z4 := zeta * npow zeta 3
  let f := (ufunc zeta (4 / 3) - 2) / scanGAM;
  (1 - z4 * f) * deudrs + z4 * f * depdrs - (1 - z4) * f * dalfmdrs / scanFZZ

/-- `del_y` (SCAN_like_eps.hpp:424-454) -/
def scanDelY (IDELEC : ℕ) (rs s zeta phi3 w1 : Expr Field) : Expr Field :=
  if IDELEC = 0 then 0
  else if IDELEC = 1 ∨ IDELEC = 2 then
    let GAMMA : ℝ := 0.031090690869655
    let sqrtrs := sqrt rs
    let eclda0 := lda_0 rs
    let eclsda1 := lsda1 rs sqrtrs zeta
    let d_eclsda1_drs := lsda1_drs rs sqrtrs zeta
    let p := s * s
    let ds_z := ufunc zeta (5 / 3) / 2
    let del_f2 : Expr Field := delF2 IEc
    let eclsda0 := eclda0 * gc_z zeta
    let d_eclsda0_drs := gc_z zeta * (B3C + B2C / (2 * sqrtrs)) * pow2 eclda0 / B1C
    let t1 := del_f2 / ((27 * GAMMA : ℝ) * ds_z * phi3 * w1)
    let t2 := 20 * rs * (d_eclsda0_drs - d_eclsda1_drs)
    let t3 := (45 * ETA : ℝ) * (eclsda0 - eclsda1)
    let k := t1 * (t2 - t3)
    let damp := exp (-pow2 p / ((0.361 : ℝ) ^ 4 : ℝ))
    k * p * damp
  else 0

/-- scan_ec1 (SCAN_like_eps.hpp:387-461) -/
def scan_ec1 (rs s zeta : Expr Field) (IDELEC : ℕ) : Expr Field :=
  let BETA_MB : ℝ := 0.066725
  let AFACTOR : ℝ := 0.1
  let BFACTOR : ℝ := 0.1778
  let GAMMA : ℝ := 0.031090690869655
  let AFIX_T : ℝ := √(Real.pi / 4) * (9 * Real.pi / 4) ^ (1 / 6 : ℝ)
  let phi := ufunc zeta (2 / 3) / 2
  let phi3 := npow phi 3
  let sqrtrs := sqrt rs
  let eclsda1 := lsda1 rs sqrtrs zeta
  let t := AFIX_T * s / (sqrtrs * phi)
  let w1 := exp (-eclsda1 / (GAMMA * phi3)) - 1
  let beta := BETA_MB * (1 + AFACTOR * rs) / (1 + BFACTOR * rs)
  let y := beta / (GAMMA * w1) * pow2 t
  let del_y := scanDelY IDELEC rs s zeta phi3 w1
  let g_y := 1 / pow (1 + 4 * (y - del_y)) (1 / 4)
  let h1 := GAMMA * phi3 * log (1 + w1 * (1 - g_y))
  eclsda1 + h1

/-- SCAN_C (SCAN_like_eps.hpp:253-353); the local `sqrtrs` (280-283) is not used by the code -/
def SCAN_C (IALPHA IINTERP IDELEC : ℕ) : Expr Field :=
  let rs := pow ((4 * Real.pi : ℝ) * d.n / 3) (-(1 / 3))
  let ds_z := ufunc d.zeta (5 / 3) / 2
  let s := sqrt d.gnn / ((2 * (3 * PI2) ^ (1 / 3 : ℝ) : ℝ) * pow d.n (4 / 3))
  let tueg_con : Expr Field := (3 / 10 * kF2 : ℝ)
  let tueg :=
    if IALPHA = 1 then (tueg_con * pow d.n (5 / 3) + TAU_R) * ds_z
    else tueg_con * pow d.n (5 / 3) * ds_z
  let tauw := d.gnn / (8 * d.n)
  let alpha := scanAlpha IALPHA (d.tau - tauw) tueg tauw
  let ief := scanIef IINTERP 0.64 1.5 0.7 IEc alpha
  let ec0 := scan_ec0 rs s d.zeta
  let ec1 := scan_ec1 rs s d.zeta IDELEC;
  (ec1 + ief * (ec0 - ec1)) * d.n

/-- SCANc.cpp:19-23 -/
def scanc : Expr Field := SCAN_C 0 0 0
/-- rSCANc.cpp:19-23 -/
def rscanc : Expr Field := SCAN_C 1 1 0
/-- rppSCANc.cpp:19-23 -/
def rppscanc : Expr Field := SCAN_C 2 1 0
/-- r2SCANc.cpp:19-23 -/
def r2scanc : Expr Field := SCAN_C 2 1 1
/-- r4SCANc.cpp:19-23 -/
def r4scanc : Expr Field := SCAN_C 2 1 2

end
end XCFun.Fun
