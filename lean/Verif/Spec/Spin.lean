/-
Exchanging the two spins.
-/
import Verif.Model.Vars
import Verif.Model.Densvars

namespace XCFun.Spec

/-- What the exchange of alpha and beta does to the density variables: alpha and beta quantities change places, totals
stay, differences change sign. -/
def flipField {R : Type _} [Neg R] (g : Field → R) : Field → R
  | .a => g .b | .b => g .a
  | .gaa => g .gbb | .gab => g .gab | .gbb => g .gaa
  | .n => g .n | .s => -g .s
  | .gnn => g .gnn | .gns => -g .gns | .gss => g .gss
  | .tau => g .tau | .taua => g .taub | .taub => g .taua
  | .lapa => g .lapb | .lapb => g .lapa
  | .zeta => -g .zeta | .r_s => g .r_s | .n_m13 => g .n_m13
  | .a_43 => g .b_43 | .b_43 => g .a_43
  | .jpaa => g .jpbb | .jpbb => g .jpaa
  | .param i => g (.param i)

/-- The pairs of inputs that belong to opposite spins (api/xcfun.h:59-95).  Sets that treat the spins alike (`N...`) and
sets of one spin (`A...`) have none. -/
def spinPairs : Vars → List (ℕ × ℕ)
  | .A_B => [(0, 1)]
  | .A_B_GAA_GAB_GBB => [(0, 1), (2, 4)]
  | .A_B_GAA_GAB_GBB_TAUA_TAUB | .A_B_GAA_GAB_GBB_LAPA_LAPB => [(0, 1), (2, 4), (5, 6)]
  | .A_B_GAA_GAB_GBB_LAPA_LAPB_TAUA_TAUB => [(0, 1), (2, 4), (5, 6), (7, 8)]
  | .A_B_GAA_GAB_GBB_LAPA_LAPB_TAUA_TAUB_JPAA_JPBB => [(0, 1), (2, 4), (5, 6), (7, 8), (9, 10)]
  | .A_B_AX_AY_AZ_BX_BY_BZ => [(0, 1), (2, 5), (3, 6), (4, 7)]
  | .A_B_AX_AY_AZ_BX_BY_BZ_TAUA_TAUB => [(0, 1), (2, 5), (3, 6), (4, 7), (8, 9)]
  | .A_B_2ND_TAYLOR => [(0, 10), (1, 11), (2, 12), (3, 13), (4, 14), (5, 15), (6, 16), (7, 17), (8, 18), (9, 19)]
  | _ => []

/-- Where the exchange of alpha and beta moves each input. -/
def flipIndex (v : Vars) (i : ℕ) : ℕ :=
  match (spinPairs v).find? fun p => p.1 == i || p.2 == i with
  | some (j, k) => if i = j then k else j
  | none => i

/-- The inputs that change sign: spin density, its gradient, and differences formed with them. -/
def flipsSign : Vars → ℕ → Bool
  | .N_S, i => i == 1
  | .N_S_GNN_GNS_GSS, i => i == 1 || i == 3
  | .N_S_GNN_GNS_GSS_TAUN_TAUS, i => i == 1 || i == 3 || i == 6
  | .N_S_NX_NY_NZ_SX_SY_SZ, i => i == 1 || i == 5 || i == 6 || i == 7
  | .N_S_NX_NY_NZ_SX_SY_SZ_TAUN_TAUS, i => i == 1 || i == 5 || i == 6 || i == 7 || i == 9
  | _, _ => false

/-- The inputs with alpha and beta exchanged. -/
def flipInputs {R : Type _} [Neg R] (v : Vars) (ρ : ℕ → R) (i : ℕ) : R :=
  if flipsSign v i then -ρ (flipIndex v i) else ρ (flipIndex v i)

end XCFun.Spec
