/-!
# The constant tables of XCFun

Transcribed entry by entry; every entry cites its line(s) in `/repo`.  Names of functionals and parameters are the
enumerator symbols without the leading `XC_` (`src/xcint.cpp:52-91` set `name = symbol + 3`).
Descriptions are not transcribed: `Desc` (in `Model/Api`) identifies which table entry's description is returned.
-/

namespace XCFun

/-- `src/xcint.hpp:44` -/
def DENSITY : Nat := 1
/-- `src/xcint.hpp:45` -/
def GRADIENT : Nat := 2
/-- `src/xcint.hpp:46` -/
def LAPLACIAN : Nat := 4
/-- `src/xcint.hpp:47` -/
def KINETIC : Nat := 8
/-- `src/xcint.hpp:48` -/
def JP : Nat := 16

/-- `functional_data`, `src/xcint.hpp:50-65` (name and `depends`; the energy function is in `Model/Fun`). -/
structure FunData where
  name : String
  depends : Nat
  deriving Repr, DecidableEq

/-- `parameter_data`, `src/xcint.hpp:67-72`; the default value is the decimal `mant / 10^exp`. -/
structure ParamData where
  name : String
  mant : Int
  exp : Nat
  deriving Repr, DecidableEq

/-- `vars_data`, `src/xcint.hpp:74-78` -/
structure VarsData where
  symbol : String
  len : Nat
  provides : Nat
  deriving Repr, DecidableEq

/-- One term of an alias; the weight is the decimal literal `mant / 10^exp`. `src/xcint.hpp:83-86` -/
structure AliasTerm where
  name : String
  mant : Int
  exp : Nat
  deriving Repr, DecidableEq

/-- `alias_data`, `src/xcint.hpp:80-87`; `terms` stops at the first null name. -/
structure AliasData where
  name : String
  terms : List AliasTerm
  deriving Repr, DecidableEq

/-- `xcint_funs` after `xcint_assure_setup`, in the order of `enum xcfun_functional_id`
(`src/functionals/list_of_functionals.hpp:17-97`); second citation: the `FUNCTIONAL(...)` block declaring `depends`
(files in `src/functionals/`). -/
def funs : List FunData := [
  ⟨"SLATERX", DENSITY⟩, -- list_of_functionals.hpp:18, slaterx.cpp:18-26
  ⟨"PW86X", DENSITY ||| GRADIENT⟩, -- list_of_functionals.hpp:19, pw86x.cpp:34-38
  ⟨"VWN3C", DENSITY⟩, -- list_of_functionals.hpp:20, vwn3.cpp:22-29
  ⟨"VWN5C", DENSITY⟩, -- list_of_functionals.hpp:21, vwn5c.cpp:22-30
  ⟨"PBEC", DENSITY ||| GRADIENT⟩, -- list_of_functionals.hpp:22, pbec.cpp:58-66
  ⟨"PBEX", DENSITY ||| GRADIENT⟩, -- list_of_functionals.hpp:23, pbex.cpp:25-31
  ⟨"BECKEX", DENSITY ||| GRADIENT⟩, -- list_of_functionals.hpp:24, beckex.cpp:96-103
  ⟨"BECKECORRX", DENSITY ||| GRADIENT⟩, -- list_of_functionals.hpp:25, beckex.cpp:120-127
  ⟨"BECKESRX", DENSITY ||| GRADIENT⟩, -- list_of_functionals.hpp:26, beckex.cpp:158-162
  ⟨"BECKECAMX", DENSITY ||| GRADIENT⟩, -- list_of_functionals.hpp:27, beckex.cpp:165-168
  ⟨"BRX", DENSITY ||| GRADIENT ||| KINETIC ||| LAPLACIAN ||| JP⟩, -- list_of_functionals.hpp:28, brx.cpp:138-142
  ⟨"BRC", DENSITY ||| GRADIENT ||| KINETIC ||| LAPLACIAN ||| JP⟩, -- list_of_functionals.hpp:29, brx.cpp:145-149
  ⟨"BRXC", DENSITY ||| GRADIENT ||| KINETIC ||| LAPLACIAN ||| JP⟩, -- list_of_functionals.hpp:30, brx.cpp:152-156
  ⟨"LDAERFX", DENSITY⟩, -- list_of_functionals.hpp:31, ldaerfx.cpp:54-62
  ⟨"LDAERFC", DENSITY⟩, -- list_of_functionals.hpp:32, ldaerfc.cpp:112-120
  ⟨"LDAERFC_JT", DENSITY⟩, -- list_of_functionals.hpp:33, ldaerfc_jt.cpp:55-63
  ⟨"LYPC", DENSITY ||| GRADIENT⟩, -- list_of_functionals.hpp:34, lypc.cpp:41-48
  ⟨"OPTX", DENSITY ||| GRADIENT⟩, -- list_of_functionals.hpp:35, optx.cpp:28-31
  ⟨"OPTXCORR", DENSITY ||| GRADIENT⟩, -- list_of_functionals.hpp:36, optxcorr.cpp:35-39
  ⟨"REVPBEX", DENSITY ||| GRADIENT⟩, -- list_of_functionals.hpp:37, revpbex.cpp:23-27
  ⟨"RPBEX", DENSITY ||| GRADIENT⟩, -- list_of_functionals.hpp:38, rpbex.cpp:25-30
  ⟨"SPBEC", DENSITY ||| GRADIENT⟩, -- list_of_functionals.hpp:39, spbec.cpp:47-52
  ⟨"VWN_PBEC", DENSITY ||| GRADIENT⟩, -- list_of_functionals.hpp:40, pbec.cpp:82-91
  ⟨"KTX", DENSITY ||| GRADIENT⟩, -- list_of_functionals.hpp:41, ktx.cpp:26-49
  ⟨"TFK", DENSITY⟩, -- list_of_functionals.hpp:42, tfk.cpp:26-29
  ⟨"TW", DENSITY ||| GRADIENT⟩, -- list_of_functionals.hpp:43, tw.cpp:24-28
  ⟨"PW91X", DENSITY ||| GRADIENT⟩, -- list_of_functionals.hpp:44, pw91x.cpp:26-35
  ⟨"PW91K", DENSITY ||| GRADIENT⟩, -- list_of_functionals.hpp:45, pw91k.cpp:30-34
  ⟨"PW92C", DENSITY⟩, -- list_of_functionals.hpp:46, pw92c.cpp:22-28
  ⟨"M05X", DENSITY ||| GRADIENT ||| KINETIC⟩, -- list_of_functionals.hpp:47, m05x.cpp:41-46
  ⟨"M05X2X", DENSITY ||| GRADIENT ||| KINETIC⟩, -- list_of_functionals.hpp:48, m05x2x.cpp:41-46
  ⟨"M06X", DENSITY ||| GRADIENT ||| KINETIC⟩, -- list_of_functionals.hpp:49, m06x.cpp:56-62
  ⟨"M06X2X", DENSITY ||| GRADIENT ||| KINETIC⟩, -- list_of_functionals.hpp:50, m06x2x.cpp:43-48
  ⟨"M06LX", DENSITY ||| GRADIENT ||| KINETIC⟩, -- list_of_functionals.hpp:51, m06lx.cpp:56-61
  ⟨"M06HFX", DENSITY ||| GRADIENT ||| KINETIC⟩, -- list_of_functionals.hpp:52, m06hfx.cpp:56-61
  ⟨"M05X2C", DENSITY ||| GRADIENT ||| KINETIC⟩, -- list_of_functionals.hpp:53, m05x2c.cpp:50-55
  ⟨"M05C", DENSITY ||| GRADIENT ||| KINETIC⟩, -- list_of_functionals.hpp:54, m05c.cpp:50-55
  ⟨"M06C", DENSITY ||| GRADIENT ||| KINETIC⟩, -- list_of_functionals.hpp:55, m06c.cpp:65-71
  ⟨"M06HFC", DENSITY ||| GRADIENT ||| KINETIC⟩, -- list_of_functionals.hpp:56, m06hfc.cpp:65-70
  ⟨"M06LC", DENSITY ||| GRADIENT ||| KINETIC⟩, -- list_of_functionals.hpp:57, m06lc.cpp:64-68
  ⟨"M06X2C", DENSITY ||| GRADIENT ||| KINETIC⟩, -- list_of_functionals.hpp:58, m06x2c.cpp:65-70
  ⟨"TPSSC", DENSITY ||| GRADIENT ||| KINETIC⟩, -- list_of_functionals.hpp:59, tpssc.cpp:24-32
  ⟨"TPSSX", DENSITY ||| GRADIENT ||| KINETIC⟩, -- list_of_functionals.hpp:60, tpssx.cpp:29-37
  ⟨"REVTPSSC", DENSITY ||| GRADIENT ||| KINETIC⟩, -- list_of_functionals.hpp:61, revtpssc.cpp:24-32
  ⟨"REVTPSSX", DENSITY ||| GRADIENT⟩, -- list_of_functionals.hpp:62, revtpssx.cpp:23-31
  ⟨"SCANC", DENSITY ||| GRADIENT ||| KINETIC⟩, -- list_of_functionals.hpp:63, SCANc.cpp:25-30
  ⟨"SCANX", DENSITY ||| GRADIENT ||| KINETIC⟩, -- list_of_functionals.hpp:64, SCANx.cpp:30-36
  ⟨"RSCANC", DENSITY ||| GRADIENT ||| KINETIC⟩, -- list_of_functionals.hpp:65, rSCANc.cpp:25-31
  ⟨"RSCANX", DENSITY ||| GRADIENT ||| KINETIC⟩, -- list_of_functionals.hpp:66, rSCANx.cpp:30-36
  ⟨"RPPSCANC", DENSITY ||| GRADIENT ||| KINETIC⟩, -- list_of_functionals.hpp:67, rppSCANc.cpp:25-30
  ⟨"RPPSCANX", DENSITY ||| GRADIENT ||| KINETIC⟩, -- list_of_functionals.hpp:68, rppSCANx.cpp:30-35
  ⟨"R2SCANC", DENSITY ||| GRADIENT ||| KINETIC⟩, -- list_of_functionals.hpp:69, r2SCANc.cpp:25-31
  ⟨"R2SCANX", DENSITY ||| GRADIENT ||| KINETIC⟩, -- list_of_functionals.hpp:70, r2SCANx.cpp:30-36
  ⟨"R4SCANC", DENSITY ||| GRADIENT ||| KINETIC⟩, -- list_of_functionals.hpp:71, r4SCANc.cpp:25-30
  ⟨"R4SCANX", DENSITY ||| GRADIENT ||| KINETIC⟩, -- list_of_functionals.hpp:72, r4SCANx.cpp:30-35
  ⟨"PZ81C", DENSITY⟩, -- list_of_functionals.hpp:73, pz81c.cpp:22-25
  ⟨"P86C", DENSITY ||| GRADIENT⟩, -- list_of_functionals.hpp:74, p86c.cpp:54-60
  ⟨"P86CORRC", DENSITY ||| GRADIENT⟩, -- list_of_functionals.hpp:75, p86c.cpp:112-118
  ⟨"BTK", DENSITY ||| GRADIENT⟩, -- list_of_functionals.hpp:76, btk.cpp:29-32
  ⟨"VWK", DENSITY ||| GRADIENT⟩, -- list_of_functionals.hpp:77, vonw.cpp:25-28
  ⟨"B97X", DENSITY ||| GRADIENT⟩, -- list_of_functionals.hpp:78, b97xc.cpp:36-42
  ⟨"B97C", DENSITY ||| GRADIENT⟩, -- list_of_functionals.hpp:79, b97xc.cpp:45-51
  ⟨"B97_1X", DENSITY ||| GRADIENT⟩, -- list_of_functionals.hpp:80, b97-1xc.cpp:36-41
  ⟨"B97_1C", DENSITY ||| GRADIENT⟩, -- list_of_functionals.hpp:81, b97-1xc.cpp:44-49
  ⟨"B97_2X", DENSITY ||| GRADIENT⟩, -- list_of_functionals.hpp:82, b97-2xc.cpp:36-42
  ⟨"B97_2C", DENSITY ||| GRADIENT⟩, -- list_of_functionals.hpp:83, b97-2xc.cpp:45-51
  ⟨"CSC", DENSITY ||| GRADIENT ||| KINETIC ||| LAPLACIAN ||| JP⟩, -- list_of_functionals.hpp:84, cs.cpp:29-34
  ⟨"APBEC", DENSITY ||| GRADIENT⟩, -- list_of_functionals.hpp:85, apbec.cpp:40-45
  ⟨"APBEX", DENSITY ||| GRADIENT⟩, -- list_of_functionals.hpp:86, apbex.cpp:40-45
  ⟨"ZVPBESOLC", DENSITY ||| GRADIENT⟩, -- list_of_functionals.hpp:87, zvpbesolc.cpp:95-100
  ⟨"BLOCX", DENSITY ||| GRADIENT ||| KINETIC⟩, -- list_of_functionals.hpp:88, blocx.cpp:55-60
  ⟨"PBEINTC", DENSITY ||| GRADIENT⟩, -- list_of_functionals.hpp:89, pbeintc.cpp:40-45
  ⟨"PBEINTX", DENSITY ||| GRADIENT⟩, -- list_of_functionals.hpp:90, pbeintx.cpp:43-48
  ⟨"PBELOCC", DENSITY ||| GRADIENT⟩, -- list_of_functionals.hpp:91, pbelocc.cpp:43-49
  ⟨"PBESOLX", DENSITY ||| GRADIENT⟩, -- list_of_functionals.hpp:92, pbesolx.cpp:41-45
  ⟨"TPSSLOCC", DENSITY ||| GRADIENT ||| KINETIC⟩, -- list_of_functionals.hpp:93, tpsslocc.cpp:99-104
  ⟨"ZVPBEINTC", DENSITY ||| GRADIENT⟩, -- list_of_functionals.hpp:94, zvpbeint.cpp:57-62
  ⟨"PW91C", DENSITY ||| GRADIENT⟩  -- list_of_functionals.hpp:95, pw91c.cpp:90-100
  ]

/-- `XC_NR_FUNCTIONALS`, `src/functionals/list_of_functionals.hpp:96` -/
def NR_FUNCTIONALS : Nat := 78

/-- The parameters, in the order of `enum xc_parameter` (`list_of_functionals.hpp:99-105`) with the defaults of
`src/functionals/common_parameters.cpp:17-29`. -/
def params : List ParamData := [
  ⟨"RANGESEP_MU", 4, 1⟩, -- list_of_functionals.hpp:100, common_parameters.cpp:17
  ⟨"EXX", 0, 0⟩,         -- list_of_functionals.hpp:101, common_parameters.cpp:19-21
  ⟨"CAM_ALPHA", 19, 2⟩,  -- list_of_functionals.hpp:102, common_parameters.cpp:23-25
  ⟨"CAM_BETA", 46, 2⟩    -- list_of_functionals.hpp:103, common_parameters.cpp:27-29
  ]

/-- `XC_RANGESEP_MU`, `list_of_functionals.hpp:100` -/
def RANGESEP_MU : Nat := 78
/-- `XC_EXX`, `list_of_functionals.hpp:101` -/
def EXX : Nat := 79
/-- `XC_CAM_ALPHA`, `list_of_functionals.hpp:102` -/
def CAM_ALPHA : Nat := 80
/-- `XC_CAM_BETA`, `list_of_functionals.hpp:103` -/
def CAM_BETA : Nat := 81

/-- `XC_NR_PARAMETERS_AND_FUNCTIONALS`, `list_of_functionals.hpp:104` -/
def NR_PARAMETERS_AND_FUNCTIONALS : Nat := 82

/-- `XC_MAX_ALIASES`, `src/xcint.hpp:26` -/
def MAX_ALIASES : Nat := 60
/-- `MAX_ALIAS_TERMS`, `src/xcint.hpp:27` -/
def MAX_ALIAS_TERMS : Nat := 10
/-- `XC_MAX_INVARS`, `src/xcint.hpp:28` -/
def MAX_INVARS : Nat := 20

/-- `aliases_array`, `src/functionals/aliases.cpp:17-140`: 46 entries; the remaining entries up to
`XC_MAX_ALIASES` are zero-initialised (null names). -/
def aliases : List AliasData := [
  ⟨"null", [⟨"slaterx", 0, 0⟩]⟩, -- aliases.cpp:18-18
  ⟨"lda", [⟨"slaterx", 1, 0⟩, ⟨"vwn5c", 1, 0⟩]⟩, -- aliases.cpp:19-21
  ⟨"blyp", [⟨"beckex", 1, 0⟩, ⟨"lypc", 1, 0⟩]⟩, -- aliases.cpp:22-22
  ⟨"pbe", [⟨"pbex", 1, 0⟩, ⟨"pbec", 1, 0⟩]⟩, -- aliases.cpp:23-23
  ⟨"bp86", [⟨"beckex", 1, 0⟩, ⟨"p86c", 1, 0⟩]⟩, -- aliases.cpp:24-24
  ⟨"kt1", [⟨"slaterx", 1, 0⟩, ⟨"ktx", -6, 3⟩, ⟨"vwn5c", 1, 0⟩]⟩, -- aliases.cpp:25-25
  ⟨"kt2", [⟨"slaterx", 107173, 5⟩, ⟨"ktx", -6, 3⟩, ⟨"vwn5c", 576727, 6⟩]⟩, -- aliases.cpp:26-28
  ⟨"kt3", [⟨"slaterx", 1092, 3⟩, ⟨"ktx", -4, 3⟩, ⟨"optxcorr", -925452, 6⟩, ⟨"lypc", 864409, 6⟩]⟩, -- aliases.cpp:29-34
  ⟨"ldaerf", [⟨"ldaerfx", 1, 0⟩, ⟨"ldaerfc", 1, 0⟩]⟩, -- aliases.cpp:35-37
  ⟨"pbe0", [⟨"pbex", 75, 2⟩, ⟨"pbec", 1, 0⟩, ⟨"exx", 25, 2⟩]⟩, -- aliases.cpp:39-41
  ⟨"b3lyp", [⟨"slaterx", 8, 1⟩, ⟨"beckecorrx", 72, 2⟩, ⟨"lypc", 81, 2⟩, ⟨"vwn5c", 19, 2⟩, ⟨"exx", 2, 1⟩]⟩, -- aliases.cpp:42-48
  ⟨"m06", [⟨"m06c", 1, 0⟩, ⟨"m06x", 1, 0⟩]⟩, -- aliases.cpp:49-49
  ⟨"m06-2x", [⟨"m06x2c", 1, 0⟩, ⟨"m06x2x", 1, 0⟩]⟩, -- aliases.cpp:50-50
  ⟨"m06L", [⟨"m06lc", 1, 0⟩, ⟨"m06lx", 1, 0⟩]⟩, -- aliases.cpp:51-51
  ⟨"b3lyp-g", [⟨"slaterx", 8, 1⟩, ⟨"beckecorrx", 72, 2⟩, ⟨"lypc", 81, 2⟩, ⟨"vwn3c", 19, 2⟩, ⟨"exx", 2, 1⟩]⟩, -- aliases.cpp:52-58
  ⟨"b3p86", [⟨"slaterx", 8, 1⟩, ⟨"beckecorrx", 72, 2⟩, ⟨"p86corrc", 81, 2⟩, ⟨"vwn5c", 1, 0⟩, ⟨"exx", 2, 1⟩]⟩, -- aliases.cpp:59-65
  ⟨"b3p86-g", [⟨"slaterx", 8, 1⟩, ⟨"beckecorrx", 72, 2⟩, ⟨"p86corrc", 81, 2⟩, ⟨"vwn3c", 1, 0⟩, ⟨"exx", 2, 1⟩]⟩, -- aliases.cpp:66-72
  ⟨"bpw91", [⟨"beckex", 1, 0⟩, ⟨"pw91c", 1, 0⟩]⟩, -- aliases.cpp:73-73
  ⟨"b97", [⟨"b97x", 1, 0⟩, ⟨"b97c", 1, 0⟩, ⟨"exx", 1943, 4⟩]⟩, -- aliases.cpp:74-76
  ⟨"b97-1", [⟨"b97_1x", 1, 0⟩, ⟨"b97_1c", 1, 0⟩, ⟨"exx", 21, 2⟩]⟩, -- aliases.cpp:77-79
  ⟨"b97_2", [⟨"b97_2x", 1, 0⟩, ⟨"b97_2c", 1, 0⟩, ⟨"exx", 21, 2⟩]⟩, -- aliases.cpp:80-82
  ⟨"camb3lyp", [⟨"cam_alpha", 19, 2⟩, ⟨"cam_beta", 46, 2⟩, ⟨"rangesep_mu", 33, 2⟩, ⟨"beckecamx", 1, 0⟩, ⟨"vwn5c", 19, 2⟩, ⟨"lypc", 81, 2⟩, ⟨"exx", 1, 0⟩]⟩, -- aliases.cpp:83-91
  ⟨"vwn", [⟨"vwn5c", 1, 0⟩]⟩, -- aliases.cpp:93-93
  ⟨"vwn5", [⟨"vwn5c", 1, 0⟩]⟩, -- aliases.cpp:94-94
  ⟨"vwn3", [⟨"vwn3c", 1, 0⟩]⟩, -- aliases.cpp:95-95
  ⟨"svwn", [⟨"slaterx", 1, 0⟩, ⟨"vwn5c", 1, 0⟩]⟩, -- aliases.cpp:96-98
  ⟨"svwn5", [⟨"slaterx", 1, 0⟩, ⟨"vwn5c", 1, 0⟩]⟩, -- aliases.cpp:99-101
  ⟨"svwn3", [⟨"slaterx", 1, 0⟩, ⟨"vwn3c", 1, 0⟩]⟩, -- aliases.cpp:102-104
  ⟨"becke", [⟨"beckecorrx", 1, 0⟩]⟩, -- aliases.cpp:105-105
  ⟨"slater", [⟨"slaterx", 1, 0⟩]⟩, -- aliases.cpp:106-106
  ⟨"olyp", [⟨"lypc", 1, 0⟩, ⟨"optx", 1, 0⟩]⟩, -- aliases.cpp:107-107
  ⟨"lyp", [⟨"lypc", 1, 0⟩]⟩, -- aliases.cpp:108-108
  ⟨"B88X", [⟨"slaterx", 1, 0⟩, ⟨"beckecorrx", 1, 0⟩]⟩, -- aliases.cpp:110-110
  ⟨"LDAX", [⟨"slaterx", 1, 0⟩]⟩, -- aliases.cpp:111-111
  ⟨"PBEX", [⟨"pbex", 1, 0⟩]⟩, -- aliases.cpp:112-112
  ⟨"HF", [⟨"exx", 1, 0⟩]⟩, -- aliases.cpp:114-114
  ⟨"KT3X", [⟨"slaterx", 1092, 3⟩, ⟨"ktx", -4, 3⟩, ⟨"optxcorr", -925452, 6⟩]⟩, -- aliases.cpp:115-117
  ⟨"OPTX", [⟨"slaterx", 105151, 5⟩, ⟨"optxcorr", -143169, 5⟩]⟩, -- aliases.cpp:118-118
  ⟨"camcompx", [⟨"beckex", 1, 0⟩, ⟨"beckecamx", -1, 0⟩, ⟨"cam_alpha", 19, 2⟩, ⟨"cam_beta", 46, 2⟩, ⟨"rangesep_mu", 33, 2⟩]⟩, -- aliases.cpp:119-125
  ⟨"tfk", [⟨"tfk", 1, 0⟩]⟩, -- aliases.cpp:127-129
  ⟨"tw", [⟨"tw", 1, 0⟩]⟩, -- aliases.cpp:130-132
  ⟨"scan", [⟨"scanx", 1, 0⟩, ⟨"scanc", 1, 0⟩]⟩, -- aliases.cpp:133-133
  ⟨"rscan", [⟨"rscanx", 1, 0⟩, ⟨"rscanc", 1, 0⟩]⟩, -- aliases.cpp:134-134
  ⟨"rppscan", [⟨"rppscanx", 1, 0⟩, ⟨"rppscanc", 1, 0⟩]⟩, -- aliases.cpp:135-135
  ⟨"r2scan", [⟨"r2scanx", 1, 0⟩, ⟨"r2scanc", 1, 0⟩]⟩, -- aliases.cpp:136-136
  ⟨"r4scan", [⟨"r4scanx", 1, 0⟩, ⟨"r4scanc", 1, 0⟩]⟩  -- aliases.cpp:137-137
  ]

/-- `xcint_vars`, `src/xcint.cpp:93-135`, indexed by `enum xcfun_vars` (`api/xcfun.h:86-122`). -/
def varsTable : List VarsData := [
  ⟨"XC_A", 1, DENSITY⟩, -- xcint.cpp:94
  ⟨"XC_N", 1, DENSITY⟩, -- xcint.cpp:95
  ⟨"XC_A_B", 2, DENSITY⟩, -- xcint.cpp:96
  ⟨"XC_N_S", 2, DENSITY⟩, -- xcint.cpp:97
  ⟨"XC_A_GAA", 2, DENSITY ||| GRADIENT⟩, -- xcint.cpp:98
  ⟨"XC_N_GNN", 2, DENSITY ||| GRADIENT⟩, -- xcint.cpp:99
  ⟨"XC_A_B_GAA_GAB_GBB", 5, DENSITY ||| GRADIENT⟩, -- xcint.cpp:100
  ⟨"XC_N_S_GNN_GNS_GSS", 5, DENSITY ||| GRADIENT⟩, -- xcint.cpp:101
  ⟨"XC_A_GAA_LAPA", 3, DENSITY ||| GRADIENT ||| LAPLACIAN⟩, -- xcint.cpp:102
  ⟨"XC_A_GAA_TAUA", 3, DENSITY ||| GRADIENT ||| KINETIC⟩, -- xcint.cpp:103
  ⟨"XC_N_GNN_LAPN", 3, DENSITY ||| GRADIENT ||| LAPLACIAN⟩, -- xcint.cpp:104
  ⟨"XC_N_GNN_TAUN", 3, DENSITY ||| GRADIENT ||| KINETIC⟩, -- xcint.cpp:105
  ⟨"XC_A_B_GAA_GAB_GBB_LAPA_LAPB", 7, DENSITY ||| GRADIENT ||| LAPLACIAN⟩, -- xcint.cpp:106
  ⟨"XC_A_B_GAA_GAB_GBB_TAUA_TAUB", 7, DENSITY ||| GRADIENT ||| KINETIC⟩, -- xcint.cpp:107
  ⟨"XC_N_S_GNN_GNS_GSS_LAPN_LAPS", 7, DENSITY ||| GRADIENT ||| LAPLACIAN⟩, -- xcint.cpp:108
  ⟨"XC_N_S_GNN_GNS_GSS_TAUN_TAUS", 7, DENSITY ||| GRADIENT ||| KINETIC⟩, -- xcint.cpp:109
  ⟨"XC_A_B_GAA_GAB_GBB_LAPA_LAPB_TAUA_TAUB", 9, DENSITY ||| GRADIENT ||| LAPLACIAN ||| KINETIC⟩, -- xcint.cpp:110
  ⟨"XC_A_B_GAA_GAB_GBB_LAPA_LAPB_TAUA_TAUB_JPAA_JPBB", 11, DENSITY ||| GRADIENT ||| LAPLACIAN ||| KINETIC ||| JP⟩, -- xcint.cpp:113
  ⟨"XC_N_S_GNN_GNS_GSS_LAPN_LAPS_TAUN_TAUS", 9, DENSITY ||| GRADIENT ||| LAPLACIAN ||| KINETIC⟩, -- xcint.cpp:116
  ⟨"XC_A_AX_AY_AZ", 4, DENSITY ||| GRADIENT⟩, -- xcint.cpp:119
  ⟨"XC_A_B_AX_AY_AZ_BX_BY_BZ", 8, DENSITY ||| GRADIENT⟩, -- xcint.cpp:120
  ⟨"XC_N_NX_NY_NZ", 4, DENSITY ||| GRADIENT⟩, -- xcint.cpp:121
  ⟨"XC_N_S_NX_NY_NZ_SX_SY_SZ", 8, DENSITY ||| GRADIENT⟩, -- xcint.cpp:122
  ⟨"XC_A_AX_AY_AZ_TAUA", 5, DENSITY ||| GRADIENT ||| KINETIC⟩, -- xcint.cpp:123
  ⟨"XC_A_B_AX_AY_AZ_BX_BY_BZ_TAUA_TAUB", 10, DENSITY ||| GRADIENT ||| KINETIC⟩, -- xcint.cpp:124
  ⟨"XC_N_NX_NY_NZ_TAUN", 5, DENSITY ||| GRADIENT ||| KINETIC⟩, -- xcint.cpp:127
  ⟨"XC_N_S_NX_NY_NZ_SX_SY_SZ_TAUN_TAUS", 10, DENSITY ||| GRADIENT ||| KINETIC⟩, -- xcint.cpp:128
  ⟨"XC_A_2ND_TAYLOR", 10, DENSITY ||| GRADIENT ||| LAPLACIAN⟩, -- xcint.cpp:131
  ⟨"XC_A_B_2ND_TAYLOR", 20, DENSITY ||| GRADIENT ||| LAPLACIAN⟩, -- xcint.cpp:132
  ⟨"XC_N_2ND_TAYLOR", 10, DENSITY ||| GRADIENT ||| LAPLACIAN⟩, -- xcint.cpp:133
  ⟨"XC_N_S_2ND_TAYLOR", 20, DENSITY ||| GRADIENT ||| LAPLACIAN⟩  -- xcint.cpp:134
  ]

end XCFun
