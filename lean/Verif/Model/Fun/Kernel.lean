/-
The numerical kernels of the code: the constructor of `densvars` and the functionals.
-/
import Verif.Model.Eval
import Verif.Model.Fun.Table

namespace XCFun

/-- The elements of `d[]` read by the constructor of `densvars` for each variable set
    (densvars.hpp:40-212, with the fall-throughs); `none`: it calls `die` (209-211). -/
def DV.reads : Vars → Option (List ℕ)
  | .A_GAA => some [1]
  | .A => some []
  | .A_B_GAA_GAB_GBB_TAUA_TAUB => some [5, 6, 2, 3, 4, 0, 1]
  | .A_B_GAA_GAB_GBB => some [2, 3, 4, 0, 1]
  | .A_B => some [0, 1]
  | .N_S_GNN_GNS_GSS_TAUN_TAUS => some [5, 6, 2, 3, 4, 0, 1]
  | .N_S_GNN_GNS_GSS => some [2, 3, 4, 0, 1]
  | .N_S => some [0, 1]
  | .N_GNN_TAUN => some [2, 1, 0]
  | .N_GNN => some [1, 0]
  | .N => some [0]
  | .N_2ND_TAYLOR => some [4, 7, 9, 1, 2, 3, 0]
  | .N_NX_NY_NZ_TAUN => some [4, 1, 2, 3, 0]
  | .N_NX_NY_NZ => some [1, 2, 3, 0]
  | .A_B_2ND_TAYLOR => some [4, 7, 9, 14, 17, 19, 0, 10, 1, 2, 3, 11, 12, 13]
  | .A_B_AX_AY_AZ_BX_BY_BZ_TAUA_TAUB => some [8, 9, 0, 1, 2, 3, 4, 5, 6, 7]
  | .A_B_AX_AY_AZ_BX_BY_BZ => some [0, 1, 2, 3, 4, 5, 6, 7]
  | .N_S_NX_NY_NZ_SX_SY_SZ_TAUN_TAUS => some [8, 9, 0, 1, 2, 3, 4, 5, 6, 7]
  | .N_S_NX_NY_NZ_SX_SY_SZ => some [0, 1, 2, 3, 4, 5, 6, 7]
  | .A_B_GAA_GAB_GBB_LAPA_LAPB_TAUA_TAUB_JPAA_JPBB => some [9, 10, 5, 6, 7, 8, 2, 3, 4, 0, 1]
  | .A_B_GAA_GAB_GBB_LAPA_LAPB_TAUA_TAUB => some [5, 6, 7, 8, 2, 3, 4, 0, 1]
  | .A_GAA_LAPA | .A_GAA_TAUA | .N_GNN_LAPN | .A_B_GAA_GAB_GBB_LAPA_LAPB
  | .N_S_GNN_GNS_GSS_LAPN_LAPS | .N_S_GNN_GNS_GSS_LAPN_LAPS_TAUN_TAUS
  | .A_AX_AY_AZ | .A_AX_AY_AZ_TAUA | .A_2ND_TAYLOR | .N_S_2ND_TAYLOR => none

/-- `fpN(densvars(fun, in))` over the real numbers (functional.hpp:24-25,
    densvars.hpp:38-218); a functional id outside the table never becomes active. -/
noncomputable def codeFp (v : Vars) (par : ℕ → ℝ) (id N : ℕ) (ins : ℕ → CT ℝ N) : CT ℝ N :=
  match densvars par v, Fun.energy id with
  | some f, some e => e.evalCT fun fld => (f fld).evalCT ins
  | _, _ => 0

/-- The kernels of the code in exact arithmetic (XCFunctional.cpp:508-511). -/
noncomputable def codeKernel : Kernel ℝ where
  reads := DV.reads
  fp := codeFp

end XCFun
