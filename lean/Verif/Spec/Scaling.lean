/-
Uniform scaling of the coordinates: `n_g(r) = g^3 n(g r)`.
-/
import Mathlib.Analysis.SpecialFunctions.Pow.Real
import Verif.Model.Vars
import Verif.Model.Densvars
import Verif.Model.Fun.Basic
import Verif.Model.Api

namespace XCFun.Spec

/-- How the density variables scale: densities with `g^3`, each derivative adds one power of `g`. -/
def fieldDeg : Field → ℤ
  | .a | .b | .n | .s => 3
  | .gaa | .gab | .gbb | .gnn | .gns | .gss => 8
  | .tau | .taua | .taub | .lapa | .lapb => 5
  | .jpaa | .jpbb => 8
  | .zeta => 0
  | .r_s | .n_m13 => -1
  | .a_43 | .b_43 => 4
  | .param _ => 0

/-- The scaled density variables. -/
noncomputable def scaleField (g : ℝ) (ρ : Field → ℝ) (f : Field) : ℝ := g ^ fieldDeg f * ρ f

/-- The scaled density variables together with a range-separation parameter scaled like an inverse length. -/
noncomputable def scaleMu (g : ℝ) (ρ : Field → ℝ) (f : Field) : ℝ :=
  if f = .param Fun.RANGESEP_MU then g * ρ f else scaleField g ρ f

/-- The object with the range-separation parameter multiplied by `g`. -/
noncomputable def scaleObject (g : ℝ) (s : State ℝ) : State ℝ :=
  { s with settings := Function.update s.settings Fun.RANGESEP_MU (g * s.settings Fun.RANGESEP_MU) }

/-- How the inputs of each variable set scale (api/xcfun.h:59-95). -/
def inputDeg : Vars → ℕ → ℕ
  | .A, _ | .A_B, _ | .N, _ | .N_S, _ => 3
  | .A_B_GAA_GAB_GBB, i | .A_B_GAA_GAB_GBB_TAUA_TAUB, i | .A_B_GAA_GAB_GBB_LAPA_LAPB, i
  | .N_S_GNN_GNS_GSS_LAPN_LAPS, i | .N_S_GNN_GNS_GSS_LAPN_LAPS_TAUN_TAUS, i
  | .A_B_GAA_GAB_GBB_LAPA_LAPB_TAUA_TAUB, i | .N_S_GNN_GNS_GSS, i | .N_S_GNN_GNS_GSS_TAUN_TAUS, i =>
    if i < 2 then 3 else if i < 5 then 8 else 5
  | .A_B_GAA_GAB_GBB_LAPA_LAPB_TAUA_TAUB_JPAA_JPBB, i =>
    if i < 2 then 3 else if i < 5 then 8 else if i < 9 then 5 else 8
  | .N_GNN, i | .N_GNN_TAUN, i | .N_GNN_LAPN, i | .A_GAA, i | .A_GAA_LAPA, i | .A_GAA_TAUA, i =>
    if i < 1 then 3 else if i < 2 then 8 else 5
  | .A_B_AX_AY_AZ_BX_BY_BZ, i | .A_B_AX_AY_AZ_BX_BY_BZ_TAUA_TAUB, i | .N_S_NX_NY_NZ_SX_SY_SZ, i
  | .N_S_NX_NY_NZ_SX_SY_SZ_TAUN_TAUS, i => if i < 2 then 3 else if i < 8 then 4 else 5
  | .N_NX_NY_NZ, i | .N_NX_NY_NZ_TAUN, i | .A_AX_AY_AZ, i | .A_AX_AY_AZ_TAUA, i => if i < 1 then 3 else if i < 4 then 4 else 5
  | .A_B_2ND_TAYLOR, i | .N_2ND_TAYLOR, i | .A_2ND_TAYLOR, i | .N_S_2ND_TAYLOR, i =>
    if i % 10 < 1 then 3 else if i % 10 < 4 then 4 else 5

/-- The scaled inputs. -/
def scaleInputs (v : Vars) (g : ℝ) (x : ℕ → ℝ) (i : ℕ) : ℝ := g ^ inputDeg v i * x i

/-- Exchange functionals without range separation or fixed thresholds (ids in list_of_functionals.hpp order): SLATERX, PW86X, PBEX, BECKEX,
BECKECORRX, BRX, OPTX, OPTXCORR, REVPBEX, RPBEX, PW91X, M05X, M05X2X, M06X, M06X2X, M06LX, M06HFX, TPSSX, B97X, B97_1X,
B97_2X, APBEX, BLOCX, PBEINTX, PBESOLX. -/
def exchangeIds : List ℕ :=
  [0, 1, 5, 6, 7, 10, 17, 18, 19, 20, 26, 29, 30, 31, 32, 33, 34, 42, 60, 62, 64, 68, 70, 72, 74]

/-- Range-separated exchange functionals: BECKESRX, BECKECAMX, LDAERFX. -/
def rangeSeparatedIds : List ℕ := [8, 9, 13]

/-- Kinetic energy functionals: TFK, PW91K, VWK. -/
def kineticIds : List ℕ := [24, 27, 59]

/-- One spin channel is away from the two thresholds of the SCAN functionals (SCAN_like_eps.hpp:98, 109, 119): the kinetic energy
density `2 t` differs from the von Weizsaecker one of the density `2 n` and squared gradient `4 g`, and the gradient does not vanish. -/
def FarSpin (n g t : ℝ) : Prop := 1e-14 < |2 * t - 4 * g / (8 * (2 * n))| ∧ 1e-16 < |4 * g|

end XCFun.Spec
