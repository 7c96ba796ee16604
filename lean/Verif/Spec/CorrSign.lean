/-
Correlation functionals whose energy is negative at all densities.
-/
import Verif.Spec.Smooth

namespace XCFun.Spec

/-- VWN3C, VWN5C, PBEC, SPBEC, VWN_PBEC, PW92C, APBEC, ZVPBESOLC, PBEINTC, PBELOCC, ZVPBEINTC. -/
def correlationNegative : List ℕ := [2, 3, 4, 21, 22, 28, 67, 69, 71, 73, 76]

/-- Variable sets of total and spin density in which the code uses `n + s` and `n - s` for the spin densities, so that they do not sum to `n`. -/
def Doubled (v : Vars) : Prop := v ∈ [Vars.N_S, .N_S_GNN_GNS_GSS, .N_S_GNN_GNS_GSS_TAUN_TAUS]

end XCFun.Spec
