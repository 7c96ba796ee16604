/-
Which accepted configurations cannot be evaluated, and how large the buffers of the caller must be.
-/
import Verif.Spec.Setup

namespace XCFun.Spec

/-- Variable sets the code lists as enumerators but has no density variables for (src/densvars.hpp:40-212 has no case). -/
def Unsupported (v : Vars) : Prop :=
  v ∈ [.A_GAA_LAPA, .A_GAA_TAUA, .N_GNN_LAPN, .A_B_GAA_GAB_GBB_LAPA_LAPB, .N_S_GNN_GNS_GSS_LAPN_LAPS,
    .N_S_GNN_GNS_GSS_LAPN_LAPS_TAUN_TAUS, .A_AX_AY_AZ, .A_AX_AY_AZ_TAUA, .A_2ND_TAYLOR, .N_S_2ND_TAYLOR]

instance (v : Vars) : Decidable (Unsupported v) := inferInstanceAs (Decidable (_ ∈ _))

/-- Configurations whose evaluation aborts: no density variables, fourth partial derivatives, or a mode that is
    none of the three documented ones. -/
def CannotEvaluate (v : Vars) (mode order : ℤ) : Prop :=
  Unsupported v ∨ (mode = PARTIAL_DERIVATIVES ∧ order = 4) ∨
    (mode ≠ PARTIAL_DERIVATIVES ∧ mode ≠ POTENTIAL ∧ mode ≠ CONTRACTED)

/-- Number of doubles the caller must supply. -/
def needIn (v : Vars) (mode order : ℤ) : ℕ :=
  if mode = CONTRACTED then v.len * 2 ^ order.toNat else v.len

/-- Number of doubles the caller must make room for. -/
def needOut (v : Vars) (mode order : ℤ) : ℕ :=
  if mode = PARTIAL_DERIVATIVES then numMonomials v.len order.toNat
  else if mode = CONTRACTED then 2 ^ order.toNat else 3

/-- The unrestricted GGA potential. -/
def UnrestrictedGga {V : Type _} (s : State V) (v : Vars) (mode : ℤ) : Prop :=
  mode = POTENTIAL ∧ v = .A_B_2ND_TAYLOR ∧ Needs s 1

end XCFun.Spec
