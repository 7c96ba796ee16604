/-
The functionals by id: which C++ function each entry of the functional table points to
(macros FUNCTIONAL and ENERGY_FUNCTION, src/functional.hpp:20-30).
-/
import Verif.Model.Fun.Exchange
import Verif.Model.Fun.Correlation
import Verif.Model.Fun.Minnesota
import Verif.Model.Fun.Meta
import Verif.Model.Fun.Scan

namespace XCFun.Fun

noncomputable section

/-- The energy expressions in the order of the enumeration
    (src/functionals/list_of_functionals.hpp:17-98); the pointers `fp0 ... fp6` of the
    table entry (xcint.hpp:43-66) are the instances of this one template at
    `ctaylor<double,0> ... ctaylor<double,6>`. -/
def energies : List (Expr Field) := [
  slaterx, -- 0 XC_SLATERX: slaterx.cpp:27 ENERGY_FUNCTION(slaterx)
  pw86x, -- 1 XC_PW86X: pw86x.cpp:39 ENERGY_FUNCTION(pw86xtot)
  vwn3c, -- 2 XC_VWN3C: vwn3.cpp:30 ENERGY_FUNCTION(vwn3c)
  vwn5c, -- 3 XC_VWN5C: vwn5c.cpp:31 ENERGY_FUNCTION(vwn5c)
  pbec, -- 4 XC_PBEC: pbec.cpp:67 ENERGY_FUNCTION(pbec)
  pbex, -- 5 XC_PBEX: pbex.cpp:32 ENERGY_FUNCTION(pbex_en)
  beckex, -- 6 XC_BECKEX: beckex.cpp:104 ENERGY_FUNCTION(beckex)
  beckexcorr, -- 7 XC_BECKECORRX: beckex.cpp:128 ENERGY_FUNCTION(beckexcorr)
  beckesrx, -- 8 XC_BECKESRX: beckex.cpp:163 ENERGY_FUNCTION(beckesrx)
  beckecamx, -- 9 XC_BECKECAMX: beckex.cpp:169 ENERGY_FUNCTION(beckecamx)
  brx, -- 10 XC_BRX: brx.cpp:143 ENERGY_FUNCTION(brx)
  brc, -- 11 XC_BRC: brx.cpp:150 ENERGY_FUNCTION(brc)
  brxc, -- 12 XC_BRXC: brx.cpp:157 ENERGY_FUNCTION(brxc)
  lda_erfx, -- 13 XC_LDAERFX: ldaerfx.cpp:63 ENERGY_FUNCTION(lda_erfx)
  ldaerfc, -- 14 XC_LDAERFC: ldaerfc.cpp:121 ENERGY_FUNCTION(ldaerfc)
  ldaerfc_jt, -- 15 XC_LDAERFC_JT: ldaerfc_jt.cpp:64 ENERGY_FUNCTION(ldaerfc_jt)
  lypc, -- 16 XC_LYPC: lypc.cpp:49 ENERGY_FUNCTION(lypc)
  optx, -- 17 XC_OPTX: optx.cpp:32 ENERGY_FUNCTION(optx)
  optxcorr, -- 18 XC_OPTXCORR: optxcorr.cpp:40 ENERGY_FUNCTION(optxcorr)
  revpbex, -- 19 XC_REVPBEX: revpbex.cpp:28 ENERGY_FUNCTION(revpbex)
  rpbex, -- 20 XC_RPBEX: rpbex.cpp:31 ENERGY_FUNCTION(rpbex)
  spbec, -- 21 XC_SPBEC: spbec.cpp:53 ENERGY_FUNCTION(spbec)
  vwn_pbec, -- 22 XC_VWN_PBEC: pbec.cpp:92 ENERGY_FUNCTION(vwn_pbec)
  ktx, -- 23 XC_KTX: ktx.cpp:50 ENERGY_FUNCTION(ktx)
  tfk, -- 24 XC_TFK: tfk.cpp:30 ENERGY_FUNCTION(tfk)
  tw, -- 25 XC_TW: tw.cpp:29 ENERGY_FUNCTION(tw)
  pw91x, -- 26 XC_PW91X: pw91x.cpp:36 ENERGY_FUNCTION(pw91x)
  pw91k, -- 27 XC_PW91K: pw91k.cpp:35 ENERGY_FUNCTION(pw91k)
  pw92c, -- 28 XC_PW92C: pw92c.cpp:29 ENERGY_FUNCTION(pw92c)
  m05x, -- 29 XC_M05X: m05x.cpp:47 ENERGY_FUNCTION(m05x)
  m05x2x, -- 30 XC_M05X2X: m05x2x.cpp:47 ENERGY_FUNCTION(m05x2x)
  m06x, -- 31 XC_M06X: m06x.cpp:63 ENERGY_FUNCTION(m06x)
  m06x2x, -- 32 XC_M06X2X: m06x2x.cpp:49 ENERGY_FUNCTION(m06x2x)
  m06lx, -- 33 XC_M06LX: m06lx.cpp:62 ENERGY_FUNCTION(m06lx)
  m06hfx, -- 34 XC_M06HFX: m06hfx.cpp:62 ENERGY_FUNCTION(m06hfx)
  m05x2c, -- 35 XC_M05X2C: m05x2c.cpp:56 ENERGY_FUNCTION(m05x2c)
  m05c, -- 36 XC_M05C: m05c.cpp:56 ENERGY_FUNCTION(m05c)
  m06c, -- 37 XC_M06C: m06c.cpp:72 ENERGY_FUNCTION(m06c)
  m06hfc, -- 38 XC_M06HFC: m06hfc.cpp:71 ENERGY_FUNCTION(m06hfc)
  m06lc, -- 39 XC_M06LC: m06lc.cpp:69 ENERGY_FUNCTION(m06lc)
  m06x2c, -- 40 XC_M06X2C: m06x2c.cpp:71 ENERGY_FUNCTION(m06x2c)
  tpssc, -- 41 XC_TPSSC: tpssc.cpp:33 ENERGY_FUNCTION(tpssc)
  tpssx, -- 42 XC_TPSSX: tpssx.cpp:38 ENERGY_FUNCTION(tpssx)
  revtpssc, -- 43 XC_REVTPSSC: revtpssc.cpp:33 ENERGY_FUNCTION(revtpssc)
  revtpssx, -- 44 XC_REVTPSSX: revtpssx.cpp:32 ENERGY_FUNCTION(revtpssx)
  scanc, -- 45 XC_SCANC: SCANc.cpp:31 ENERGY_FUNCTION(SCANC)
  scanx, -- 46 XC_SCANX: SCANx.cpp:37 ENERGY_FUNCTION(SCANX)
  rscanc, -- 47 XC_RSCANC: rSCANc.cpp:32 ENERGY_FUNCTION(rSCANC)
  rscanx, -- 48 XC_RSCANX: rSCANx.cpp:37 ENERGY_FUNCTION(rSCANX)
  rppscanc, -- 49 XC_RPPSCANC: rppSCANc.cpp:31 ENERGY_FUNCTION(rppSCANC)
  rppscanx, -- 50 XC_RPPSCANX: rppSCANx.cpp:36 ENERGY_FUNCTION(rppSCANX)
  r2scanc, -- 51 XC_R2SCANC: r2SCANc.cpp:32 ENERGY_FUNCTION(r2SCANC)
  r2scanx, -- 52 XC_R2SCANX: r2SCANx.cpp:37 ENERGY_FUNCTION(r2SCANX)
  r4scanc, -- 53 XC_R4SCANC: r4SCANc.cpp:31 ENERGY_FUNCTION(r4SCANC)
  r4scanx, -- 54 XC_R4SCANX: r4SCANx.cpp:36 ENERGY_FUNCTION(r4SCANX)
  pz81c, -- 55 XC_PZ81C: pz81c.cpp:26 ENERGY_FUNCTION(pz81c)
  p86c, -- 56 XC_P86C: p86c.cpp:61 ENERGY_FUNCTION(p86c)
  p86c_corr, -- 57 XC_P86CORRC: p86c.cpp:119 ENERGY_FUNCTION(p86c_corr)
  btk, -- 58 XC_BTK: btk.cpp:33 ENERGY_FUNCTION(btk)
  vW, -- 59 XC_VWK: vonw.cpp:29 ENERGY_FUNCTION(vW)
  b97x, -- 60 XC_B97X: b97xc.cpp:43 ENERGY_FUNCTION(b97x_en)
  b97c, -- 61 XC_B97C: b97xc.cpp:52 ENERGY_FUNCTION(b97c_en)
  b97_1x, -- 62 XC_B97_1X: b97-1xc.cpp:42 ENERGY_FUNCTION(b97_1x_en)
  b97_1c, -- 63 XC_B97_1C: b97-1xc.cpp:50 ENERGY_FUNCTION(b97_1c_en)
  b97_2x, -- 64 XC_B97_2X: b97-2xc.cpp:43 ENERGY_FUNCTION(b97_2x_en)
  b97_2c, -- 65 XC_B97_2C: b97-2xc.cpp:52 ENERGY_FUNCTION(b97_2c_en)
  csc, -- 66 XC_CSC: cs.cpp:35 ENERGY_FUNCTION(csc)
  apbec, -- 67 XC_APBEC: apbec.cpp:46 ENERGY_FUNCTION(energy)
  apbex, -- 68 XC_APBEX: apbex.cpp:46 ENERGY_FUNCTION(energy)
  zvpbesolc, -- 69 XC_ZVPBESOLC: zvpbesolc.cpp:101 ENERGY_FUNCTION(energy)
  blocx, -- 70 XC_BLOCX: blocx.cpp:61 ENERGY_FUNCTION(energy)
  pbeintc, -- 71 XC_PBEINTC: pbeintc.cpp:46 ENERGY_FUNCTION(energy)
  pbeintx, -- 72 XC_PBEINTX: pbeintx.cpp:49 ENERGY_FUNCTION(energy)
  pbelocc, -- 73 XC_PBELOCC: pbelocc.cpp:50 ENERGY_FUNCTION(energy)
  pbesolx, -- 74 XC_PBESOLX: pbesolx.cpp:46 ENERGY_FUNCTION(energy)
  tpsslocc, -- 75 XC_TPSSLOCC: tpsslocc.cpp:105 ENERGY_FUNCTION(energy)
  zvpbeintc, -- 76 XC_ZVPBEINTC: zvpbeint.cpp:63 ENERGY_FUNCTION(energy)
  pw91c -- 77 XC_PW91C: pw91c.cpp:101 ENERGY_FUNCTION(pw91c)
]

/-- The energy expression of functional `id` (list_of_functionals.hpp:17-98);
    `none`: not a functional id -/
def energy (id : ℕ) : Option (Expr Field) := energies[id]?

end

end XCFun.Fun
