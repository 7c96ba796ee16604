import Verif.Model.Tables

/-!
# Variable sets and modes
-/

namespace XCFun

/-- `enum xcfun_vars` without `XC_VARS_UNSET` and `XC_NR_VARS`, `api/xcfun.h:86-122`. -/
inductive Vars where
  | A -- xcfun.h:88
  | N -- xcfun.h:89
  | A_B -- xcfun.h:90
  | N_S -- xcfun.h:91
  | A_GAA -- xcfun.h:93
  | N_GNN -- xcfun.h:94
  | A_B_GAA_GAB_GBB -- xcfun.h:95
  | N_S_GNN_GNS_GSS -- xcfun.h:96
  | A_GAA_LAPA -- xcfun.h:97
  | A_GAA_TAUA -- xcfun.h:98
  | N_GNN_LAPN -- xcfun.h:99
  | N_GNN_TAUN -- xcfun.h:100
  | A_B_GAA_GAB_GBB_LAPA_LAPB -- xcfun.h:101
  | A_B_GAA_GAB_GBB_TAUA_TAUB -- xcfun.h:102
  | N_S_GNN_GNS_GSS_LAPN_LAPS -- xcfun.h:103
  | N_S_GNN_GNS_GSS_TAUN_TAUS -- xcfun.h:104
  | A_B_GAA_GAB_GBB_LAPA_LAPB_TAUA_TAUB -- xcfun.h:105
  | A_B_GAA_GAB_GBB_LAPA_LAPB_TAUA_TAUB_JPAA_JPBB -- xcfun.h:106
  | N_S_GNN_GNS_GSS_LAPN_LAPS_TAUN_TAUS -- xcfun.h:107
  | A_AX_AY_AZ -- xcfun.h:108
  | A_B_AX_AY_AZ_BX_BY_BZ -- xcfun.h:109
  | N_NX_NY_NZ -- xcfun.h:110
  | N_S_NX_NY_NZ_SX_SY_SZ -- xcfun.h:111
  | A_AX_AY_AZ_TAUA -- xcfun.h:112
  | A_B_AX_AY_AZ_BX_BY_BZ_TAUA_TAUB -- xcfun.h:113
  | N_NX_NY_NZ_TAUN -- xcfun.h:114
  | N_S_NX_NY_NZ_SX_SY_SZ_TAUN_TAUS -- xcfun.h:115
  | A_2ND_TAYLOR -- xcfun.h:117
  | A_B_2ND_TAYLOR -- xcfun.h:118
  | N_2ND_TAYLOR -- xcfun.h:119
  | N_S_2ND_TAYLOR -- xcfun.h:120
  deriving Repr, DecidableEq

namespace Vars

/-- All variable sets in the order of the enumeration, `api/xcfun.h:88-120`. -/
def all : List Vars := [
  .A,
  .N,
  .A_B,
  .N_S,
  .A_GAA,
  .N_GNN,
  .A_B_GAA_GAB_GBB,
  .N_S_GNN_GNS_GSS,
  .A_GAA_LAPA,
  .A_GAA_TAUA,
  .N_GNN_LAPN,
  .N_GNN_TAUN,
  .A_B_GAA_GAB_GBB_LAPA_LAPB,
  .A_B_GAA_GAB_GBB_TAUA_TAUB,
  .N_S_GNN_GNS_GSS_LAPN_LAPS,
  .N_S_GNN_GNS_GSS_TAUN_TAUS,
  .A_B_GAA_GAB_GBB_LAPA_LAPB_TAUA_TAUB,
  .A_B_GAA_GAB_GBB_LAPA_LAPB_TAUA_TAUB_JPAA_JPBB,
  .N_S_GNN_GNS_GSS_LAPN_LAPS_TAUN_TAUS,
  .A_AX_AY_AZ,
  .A_B_AX_AY_AZ_BX_BY_BZ,
  .N_NX_NY_NZ,
  .N_S_NX_NY_NZ_SX_SY_SZ,
  .A_AX_AY_AZ_TAUA,
  .A_B_AX_AY_AZ_BX_BY_BZ_TAUA_TAUB,
  .N_NX_NY_NZ_TAUN,
  .N_S_NX_NY_NZ_SX_SY_SZ_TAUN_TAUS,
  .A_2ND_TAYLOR,
  .A_B_2ND_TAYLOR,
  .N_2ND_TAYLOR,
  .N_S_2ND_TAYLOR]

/-- Numeric value of the enumerator: `XC_A` is 0 because `XC_VARS_UNSET = -1` precedes it (`api/xcfun.h:87-88`). -/
def code (v : Vars) : Nat := v.ctorIdx

/-- The enumerator with a given numeric value.  `none` for `XC_VARS_UNSET = -1`, `XC_NR_VARS = 31` and every other
int: indexing `xcint_vars` with those is out of range. -/
def ofCode (i : Int) : Option Vars :=
  if i < 0 then none else all[i.toNat]?

/-- The row `xcint_vars[v]` of the table, `src/xcint.cpp:93-135`. -/
def data (v : Vars) : VarsData := (varsTable[v.code]?).getD ⟨"", 0, 0⟩

/-- `xcint_vars[v].len` -/
def len (v : Vars) : Nat := v.data.len

/-- `xcint_vars[v].provides` -/
def provides (v : Vars) : Nat := v.data.provides

end Vars

/-- `XC_MODE_UNSET`, `api/xcfun.h:36` -/
def MODE_UNSET : Int := 0
/-- `XC_PARTIAL_DERIVATIVES`, `api/xcfun.h:37` -/
def PARTIAL_DERIVATIVES : Int := 1
/-- `XC_POTENTIAL`, `api/xcfun.h:38` -/
def POTENTIAL : Int := 2
/-- `XC_CONTRACTED`, `api/xcfun.h:39` -/
def CONTRACTED : Int := 3
/-- `XC_NR_MODES`, `api/xcfun.h:40` -/
def NR_MODES : Int := 4

/-- `XCFUN_MAX_ORDER`: default build, `api/xcfun.h:30-32`, `cmake/custom/xcfun.cmake:19`. -/
def MAX_ORDER : Int := 6

end XCFun
