/-
The enumerations of the C header, the Fortran module and the Python binding, as declared.
-/
import Mathlib.Data.Int.Notation
import Verif.Model.Vars

namespace XCFun

/-- Values of the enumerators of a declaration.  The same rule holds in C (C11 6.7.2.2) and in Fortran `enum, bind(C)` (F2003 4.6): an
enumerator with an initialiser has that value, any other has the value of its predecessor plus one, the first 0. `next` is the
value an enumerator without initialiser would get. -/
def enumerate (next : ℤ) : List (String × Option ℤ) → List (String × ℤ)
  | [] => []
  | (name, init) :: l => (name, init.getD next) :: enumerate (init.getD next + 1) l

/-- `xcfun_mode`, `api/xcfun.h:35-41`. -/
def headerModes : List (String × Option ℤ) := [
  ("XC_MODE_UNSET", some (0)), -- xcfun.h:36
  ("XC_PARTIAL_DERIVATIVES", none), -- xcfun.h:37
  ("XC_POTENTIAL", none), -- xcfun.h:38
  ("XC_CONTRACTED", none), -- xcfun.h:39
  ("XC_NR_MODES", none)] -- xcfun.h:40

/-- `xcfun_vars`, `api/xcfun.h:86-122`. -/
def headerVars : List (String × Option ℤ) := [
  ("XC_VARS_UNSET", some (-1)), -- xcfun.h:87
  ("XC_A", none), -- xcfun.h:88
  ("XC_N", none), -- xcfun.h:89
  ("XC_A_B", none), -- xcfun.h:90
  ("XC_N_S", none), -- xcfun.h:91
  ("XC_A_GAA", none), -- xcfun.h:93
  ("XC_N_GNN", none), -- xcfun.h:94
  ("XC_A_B_GAA_GAB_GBB", none), -- xcfun.h:95
  ("XC_N_S_GNN_GNS_GSS", none), -- xcfun.h:96
  ("XC_A_GAA_LAPA", none), -- xcfun.h:97
  ("XC_A_GAA_TAUA", none), -- xcfun.h:98
  ("XC_N_GNN_LAPN", none), -- xcfun.h:99
  ("XC_N_GNN_TAUN", none), -- xcfun.h:100
  ("XC_A_B_GAA_GAB_GBB_LAPA_LAPB", none), -- xcfun.h:101
  ("XC_A_B_GAA_GAB_GBB_TAUA_TAUB", none), -- xcfun.h:102
  ("XC_N_S_GNN_GNS_GSS_LAPN_LAPS", none), -- xcfun.h:103
  ("XC_N_S_GNN_GNS_GSS_TAUN_TAUS", none), -- xcfun.h:104
  ("XC_A_B_GAA_GAB_GBB_LAPA_LAPB_TAUA_TAUB", none), -- xcfun.h:105
  ("XC_A_B_GAA_GAB_GBB_LAPA_LAPB_TAUA_TAUB_JPAA_JPBB", none), -- xcfun.h:106
  ("XC_N_S_GNN_GNS_GSS_LAPN_LAPS_TAUN_TAUS", none), -- xcfun.h:107
  ("XC_A_AX_AY_AZ", none), -- xcfun.h:108
  ("XC_A_B_AX_AY_AZ_BX_BY_BZ", none), -- xcfun.h:109
  ("XC_N_NX_NY_NZ", none), -- xcfun.h:110
  ("XC_N_S_NX_NY_NZ_SX_SY_SZ", none), -- xcfun.h:111
  ("XC_A_AX_AY_AZ_TAUA", none), -- xcfun.h:112
  ("XC_A_B_AX_AY_AZ_BX_BY_BZ_TAUA_TAUB", none), -- xcfun.h:113
  ("XC_N_NX_NY_NZ_TAUN", none), -- xcfun.h:114
  ("XC_N_S_NX_NY_NZ_SX_SY_SZ_TAUN_TAUS", none), -- xcfun.h:115
  ("XC_A_2ND_TAYLOR", none), -- xcfun.h:117
  ("XC_A_B_2ND_TAYLOR", none), -- xcfun.h:118
  ("XC_N_2ND_TAYLOR", none), -- xcfun.h:119
  ("XC_N_S_2ND_TAYLOR", none), -- xcfun.h:120
  ("XC_NR_VARS", none)] -- xcfun.h:121

/-- Evaluation modes of the Fortran module, `api/xcfun.f90:20-26`. -/
def fortranModes : List (String × Option ℤ) := [
  ("XC_MODE_UNSET", some (0)), -- xcfun.f90:21
  ("XC_PARTIAL_DERIVATIVES", none), -- xcfun.f90:22
  ("XC_POTENTIAL", none), -- xcfun.f90:23
  ("XC_CONTRACTED", none), -- xcfun.f90:24
  ("XC_NR_MODES", none)] -- xcfun.f90:25

/-- Variable combinations of the Fortran module, `api/xcfun.f90:29-62`. -/
def fortranVars : List (String × Option ℤ) := [
  ("XC_VARS_UNSET", some (-1)), -- xcfun.f90:30
  ("XC_A", none), -- xcfun.f90:31
  ("XC_N", none), -- xcfun.f90:32
  ("XC_A_B", none), -- xcfun.f90:33
  ("XC_N_S", none), -- xcfun.f90:34
  ("XC_A_GAA", none), -- xcfun.f90:35
  ("XC_N_GNN", none), -- xcfun.f90:36
  ("XC_A_B_GAA_GAB_GBB", none), -- xcfun.f90:37
  ("XC_N_S_GNN_GNS_GSS", none), -- xcfun.f90:38
  ("XC_A_GAA_LAPA", none), -- xcfun.f90:39
  ("XC_A_GAA_TAUA", none), -- xcfun.f90:40
  ("XC_N_GNN_LAPN", none), -- xcfun.f90:41
  ("XC_N_GNN_TAUN", none), -- xcfun.f90:42
  ("XC_A_B_GAA_GAB_GBB_LAPA_LAPB", none), -- xcfun.f90:43
  ("XC_A_B_GAA_GAB_GBB_TAUA_TAUB", none), -- xcfun.f90:44
  ("XC_N_S_GNN_GNS_GSS_LAPN_LAPS", none), -- xcfun.f90:45
  ("XC_N_S_GNN_GNS_GSS_TAUN_TAUS", none), -- xcfun.f90:46
  ("XC_A_B_GAA_GAB_GBB_LAPA_LAPB_TAUA_TAUB", none), -- xcfun.f90:47
  ("XC_A_B_GAA_GAB_GBB_LAPA_LAPB_TAUA_TAUB_JPAA_JPBB", none), -- xcfun.f90:48
  ("XC_N_S_GNN_GNS_GSS_LAPN_LAPS_TAUN_TAUS", none), -- xcfun.f90:49
  ("XC_A_AX_AY_AZ", none), -- xcfun.f90:50
  ("XC_A_B_AX_AY_AZ_BX_BY_BZ", none), -- xcfun.f90:51
  ("XC_N_NX_NY_NZ", none), -- xcfun.f90:52
  ("XC_N_S_NX_NY_NZ_SX_SY_SZ", none), -- xcfun.f90:53
  ("XC_A_AX_AY_AZ_TAUA", none), -- xcfun.f90:54
  ("XC_A_B_AX_AY_AZ_BX_BY_BZ_TAUA_TAUB", none), -- xcfun.f90:55
  ("XC_N_NX_NY_NZ_TAUN", none), -- xcfun.f90:56
  ("XC_N_S_NX_NY_NZ_SX_SY_SZ_TAUN_TAUS", none), -- xcfun.f90:57
  ("XC_A_2ND_TAYLOR", none), -- xcfun.f90:58
  ("XC_A_B_2ND_TAYLOR", none), -- xcfun.f90:59
  ("XC_N_2ND_TAYLOR", none), -- xcfun.f90:60
  ("XC_N_S_2ND_TAYLOR", none)] -- xcfun.f90:61

/-- `py::enum_<xcfun_mode>`, `python/export_xcfun.cpp:31-37`: exported name, enumerator of the C header. -/
def pythonModes : List (String × String) := [
  ("XC_MODE_UNSET", "XC_MODE_UNSET"), -- export_xcfun.cpp:32
  ("XC_PARTIAL_DERIVATIVES", "XC_PARTIAL_DERIVATIVES"), -- export_xcfun.cpp:33
  ("XC_POTENTIAL", "XC_POTENTIAL"), -- export_xcfun.cpp:34
  ("XC_CONTRACTED", "XC_CONTRACTED"), -- export_xcfun.cpp:35
  ("XC_NR_MODES", "XC_NR_MODES")] -- export_xcfun.cpp:36

/-- `py::enum_<xcfun_vars>`, `python/export_xcfun.cpp:39-80`: exported name, enumerator of the C header. -/
def pythonVars : List (String × String) := [
  ("XC_VARS_UNSET", "XC_VARS_UNSET"), -- export_xcfun.cpp:40
  ("XC_A", "XC_A"), -- export_xcfun.cpp:41
  ("XC_N", "XC_N"), -- export_xcfun.cpp:42
  ("XC_A_B", "XC_A_B"), -- export_xcfun.cpp:43
  ("XC_N_S", "XC_N_S"), -- export_xcfun.cpp:44
  ("XC_A_GAA", "XC_A_GAA"), -- export_xcfun.cpp:45
  ("XC_N_S_GNN_GNS_GSS", "XC_N_S_GNN_GNS_GSS"), -- export_xcfun.cpp:46
  ("XC_A_GAA_LAPA", "XC_A_GAA_LAPA"), -- export_xcfun.cpp:47
  ("XC_A_GAA_TAUA", "XC_A_GAA_TAUA"), -- export_xcfun.cpp:48
  ("XC_N_GNN_LAPN", "XC_N_GNN_LAPN"), -- export_xcfun.cpp:49
  ("XC_N_GNN_TAUN", "XC_N_GNN_TAUN"), -- export_xcfun.cpp:50
  ("XC_A_B_GAA_GAB_GBB_LAPA_LAPB", "XC_A_B_GAA_GAB_GBB_LAPA_LAPB"), -- export_xcfun.cpp:51
  ("XC_A_B_GAA_GAB_GBB_TAUA_TAUB", "XC_A_B_GAA_GAB_GBB_TAUA_TAUB"), -- export_xcfun.cpp:53
  ("XC_N_S_GNN_GNS_GSS_LAPN_LAPS", "XC_N_S_GNN_GNS_GSS_LAPN_LAPS"), -- export_xcfun.cpp:55
  ("XC_N_S_GNN_GNS_GSS_TAUN_TAUS", "XC_N_S_GNN_GNS_GSS_TAUN_TAUS"), -- export_xcfun.cpp:57
  ("XC_A_B_GAA_GAB_GBB_LAPA_LAPB_TAUA_TAUB", "XC_A_B_GAA_GAB_GBB_LAPA_LAPB_TAUA_TAUB"), -- export_xcfun.cpp:59
  ("XC_A_B_GAA_GAB_GBB_LAPA_LAPB_TAUA_TAUB_JPAA_JPBB", "XC_A_B_GAA_GAB_GBB_LAPA_LAPB_TAUA_TAUB_JPAA_JPBB"), -- export_xcfun.cpp:61
  ("XC_N_S_GNN_GNS_GSS_LAPN_LAPS_TAUN_TAUS", "XC_N_S_GNN_GNS_GSS_LAPN_LAPS_TAUN_TAUS"), -- export_xcfun.cpp:63
  ("XC_A_AX_AY_AZ", "XC_A_AX_AY_AZ"), -- export_xcfun.cpp:65
  ("XC_A_B_AX_AY_AZ_BX_BY_BZ", "XC_A_B_AX_AY_AZ_BX_BY_BZ"), -- export_xcfun.cpp:66
  ("XC_N_NX_NY_NZ", "XC_N_NX_NY_NZ"), -- export_xcfun.cpp:67
  ("XC_N_S_NX_NY_NZ_SX_SY_SZ", "XC_N_S_NX_NY_NZ_SX_SY_SZ"), -- export_xcfun.cpp:68
  ("XC_A_AX_AY_AZ_TAUA", "XC_A_AX_AY_AZ_TAUA"), -- export_xcfun.cpp:69
  ("XC_A_B_AX_AY_AZ_BX_BY_BZ_TAUA_TAUB", "XC_A_B_AX_AY_AZ_BX_BY_BZ_TAUA_TAUB"), -- export_xcfun.cpp:70
  ("XC_N_NX_NY_NZ_TAUN", "XC_N_NX_NY_NZ_TAUN"), -- export_xcfun.cpp:72
  ("XC_N_S_NX_NY_NZ_SX_SY_SZ_TAUN_TAUS", "XC_N_S_NX_NY_NZ_SX_SY_SZ_TAUN_TAUS"), -- export_xcfun.cpp:73
  ("XC_A_2ND_TAYLOR", "XC_A_2ND_TAYLOR"), -- export_xcfun.cpp:75
  ("XC_A_B_2ND_TAYLOR", "XC_A_B_2ND_TAYLOR"), -- export_xcfun.cpp:76
  ("XC_N_2ND_TAYLOR", "XC_N_2ND_TAYLOR"), -- export_xcfun.cpp:77
  ("XC_N_S_2ND_TAYLOR", "XC_N_S_2ND_TAYLOR"), -- export_xcfun.cpp:78
  ("XC_NR_VARS", "XC_NR_VARS")] -- export_xcfun.cpp:79

end XCFun
