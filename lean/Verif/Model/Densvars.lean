/-
The constructor of `densvars<T>` (src/densvars.hpp:35-245): from the input array to the
density variables used by the functionals.  `in[i]` is `Expr.var i`.
-/
import Verif.Model.Expr
import Verif.Model.Vars

namespace XCFun

/-- Names of the members of `densvars<T>` (densvars.hpp:223-244); `param i` is
    `get_param(i)`, that is `parent->settings[i]` (densvars.hpp:221). -/
inductive Field where
  | a | b | gaa | gab | gbb | n | s | gnn | gns | gss | tau | taua | taub | lapa | lapb
  | zeta | r_s | n_m13 | a_43 | b_43 | jpaa | jpbb
  | param (i : ℕ)
  deriving DecidableEq, Repr

/-- `struct densvars<T>`: the members, all initialised to `0` (densvars.hpp:223-244). -/
structure DV (ι : Type) where
  a : Expr ι := 0
  b : Expr ι := 0
  gaa : Expr ι := 0
  gab : Expr ι := 0
  gbb : Expr ι := 0
  n : Expr ι := 0
  s : Expr ι := 0
  gnn : Expr ι := 0
  gns : Expr ι := 0
  gss : Expr ι := 0
  tau : Expr ι := 0
  taua : Expr ι := 0
  taub : Expr ι := 0
  lapa : Expr ι := 0
  lapb : Expr ι := 0
  zeta : Expr ι := 0
  r_s : Expr ι := 0
  n_m13 : Expr ι := 0
  a_43 : Expr ι := 0
  b_43 : Expr ι := 0
  jpaa : Expr ι := 0
  jpbb : Expr ι := 0

namespace DV

noncomputable section

/-- `d[i]` -/
local notation "d[" i "]" => (Expr.var (i : ℕ) : Expr ℕ)

/-- case XC_A_GAA, own statements (densvars.hpp:42-47) -/
def caseAGAA (v : DV ℕ) : DV ℕ :=
  let v := { v with gaa := d[1] }
  let v := { v with gab := 0 }
  let v := { v with gbb := 0 }
  let v := { v with gnn := v.gaa }
  let v := { v with gss := v.gaa }
  { v with gns := v.gaa }

/-- case XC_A (densvars.hpp:49-53); `d[0]` is never read -/
def caseA (v : DV ℕ) : DV ℕ :=
  let v := { v with b := 0 }
  let v := { v with n := v.a }
  let v := { v with n := .reg v.n }
  { v with s := v.n }

/-- case XC_A_B_GAA_GAB_GBB_TAUA_TAUB, own statements (densvars.hpp:55-57) -/
def caseABTau (v : DV ℕ) : DV ℕ :=
  let v := { v with taua := d[5] }
  let v := { v with taub := d[6] }
  { v with tau := v.taua + v.taub }

/-- `gnn`, `gss`, `gns` from `gaa`, `gab`, `gbb` (densvars.hpp:62-64, 142-144, 161-163,
    199-201) -/
def total (v : DV ℕ) : DV ℕ :=
  let v := { v with gnn := v.gaa + 2 * v.gab + v.gbb }
  let v := { v with gss := v.gaa - 2 * v.gab + v.gbb }
  { v with gns := v.gaa - v.gbb }

/-- case XC_A_B_GAA_GAB_GBB, own statements (densvars.hpp:59-64) -/
def caseABGrad (v : DV ℕ) : DV ℕ :=
  let v := { v with gaa := d[2] }
  let v := { v with gab := d[3] }
  let v := { v with gbb := d[4] }
  v.total

/-- `a`, `b` regularised from two slots, then `n` and `s`
    (densvars.hpp:66-71; the same statements at 135-138, 145-146, at 154-157, 164-165 and at
    202-207; where other statements stand between them they touch other members) -/
def caseABAt (i j : ℕ) (v : DV ℕ) : DV ℕ :=
  let v := { v with a := d[i] }
  let v := { v with a := .reg v.a }
  let v := { v with b := d[j] }
  let v := { v with b := .reg v.b }
  let v := { v with n := v.a + v.b }
  { v with s := v.a - v.b }

/-- case XC_N_S_GNN_GNS_GSS_TAUN_TAUS, own statements (densvars.hpp:74-76) -/
def caseNSTau (v : DV ℕ) : DV ℕ :=
  let v := { v with taua := d[5] + d[6] }
  let v := { v with taub := d[5] - d[6] }
  { v with tau := v.taua + v.taub }

/-- `gaa`, `gab`, `gbb` from `gnn`, `gns`, `gss` (densvars.hpp:81-83, 183-185) -/
def spinGrad (v : DV ℕ) : DV ℕ :=
  let v := { v with gaa := 0.25 * (v.gnn + 2 * v.gns + v.gss) }
  let v := { v with gab := 0.25 * (v.gnn - v.gss) }
  { v with gbb := 0.25 * (v.gnn - 2 * v.gns + v.gss) }

/-- case XC_N_S_GNN_GNS_GSS, own statements (densvars.hpp:78-83) -/
def caseNSGrad (v : DV ℕ) : DV ℕ :=
  let v := { v with gnn := d[2] }
  let v := { v with gns := d[3] }
  let v := { v with gss := d[4] }
  v.spinGrad

/-- case XC_N_S (densvars.hpp:85-91) -/
def caseNS (v : DV ℕ) : DV ℕ :=
  let v := { v with n := d[0] }
  let v := { v with n := .reg v.n }
  let v := { v with s := d[1] }
  let v := { v with a := v.n + v.s }
  let v := { v with a := .reg v.a }
  let v := { v with b := v.n - v.s }
  { v with b := .reg v.b }

/-- `taua`, `taub`, `tau` from one total slot (densvars.hpp:94-96, 115-117) -/
def caseTauNAt (i : ℕ) (v : DV ℕ) : DV ℕ :=
  let v := { v with taua := d[i] / 2 }
  let v := { v with taub := d[i] / 2 }
  { v with tau := d[i] }

/-- `gss`, `gns`, `gaa`, `gab`, `gbb` of a closed shell (densvars.hpp:99-103, 120-124) -/
def closedGrad (v : DV ℕ) : DV ℕ :=
  let v := { v with gss := 0 }
  let v := { v with gns := 0 }
  let v := { v with gaa := 0.25 * v.gnn }
  let v := { v with gab := v.gaa }
  { v with gbb := v.gaa }

/-- case XC_N_GNN, own statements (densvars.hpp:98-103) -/
def caseNGrad (v : DV ℕ) : DV ℕ :=
  let v := { v with gnn := d[1] }
  v.closedGrad

/-- case XC_N (densvars.hpp:105-109), also the end of XC_N_NX_NY_NZ (125-129) -/
def caseN (v : DV ℕ) : DV ℕ :=
  let v := { v with n := d[0] }
  let v := { v with n := .reg v.n }
  let v := { v with s := 0 }
  let v := { v with a := 0.5 * v.n }
  { v with b := v.a }

/-- case XC_N_2ND_TAYLOR, own statements (densvars.hpp:112-113) -/
def caseN2nd (v : DV ℕ) : DV ℕ :=
  let v := { v with lapa := 0.5 * (d[4] + d[7] + d[9]) }
  { v with lapb := v.lapa }

/-- case XC_N_NX_NY_NZ, first part (densvars.hpp:119-124) -/
def caseNXyz (v : DV ℕ) : DV ℕ :=
  let v := { v with gnn := d[1] * d[1] + d[2] * d[2] + d[3] * d[3] }
  v.closedGrad

/-- `gaa`, `gab`, `gbb` from gradient components starting at slots `i` and `j`
    (densvars.hpp:139-141, 158-160) -/
def dotGrad (i j : ℕ) (v : DV ℕ) : DV ℕ :=
  let v := { v with gaa := d[i] * d[i] + d[i+1] * d[i+1] + d[i+2] * d[i+2] }
  let v := { v with gab := d[i] * d[j] + d[i+1] * d[j+1] + d[i+2] * d[j+2] }
  let v := { v with gbb := d[j] * d[j] + d[j+1] * d[j+1] + d[j+2] * d[j+2] }
  v.total

/-- case XC_A_B_2ND_TAYLOR (densvars.hpp:133-146) -/
def caseAB2nd (v : DV ℕ) : DV ℕ :=
  let v := { v with lapa := d[4] + d[7] + d[9] }
  let v := { v with lapb := d[14] + d[17] + d[19] }
  (v.dotGrad 1 11).caseABAt 0 10

/-- case XC_A_B_AX_AY_AZ_BX_BY_BZ_TAUA_TAUB, own statements (densvars.hpp:149-151) -/
def caseABXyzTau (v : DV ℕ) : DV ℕ :=
  let v := { v with taua := d[8] }
  let v := { v with taub := d[9] }
  { v with tau := d[8] + d[9] }

/-- case XC_A_B_AX_AY_AZ_BX_BY_BZ (densvars.hpp:154-165) -/
def caseABXyz (v : DV ℕ) : DV ℕ := (v.dotGrad 2 5).caseABAt 0 1

/-- case XC_N_S_NX_NY_NZ_SX_SY_SZ_TAUN_TAUS, own statements (densvars.hpp:168-170) -/
def caseNSXyzTau (v : DV ℕ) : DV ℕ :=
  let v := { v with taua := 0.5 * (d[8] + d[9]) }
  let v := { v with taub := 0.5 * (d[8] - d[9]) }
  { v with tau := d[8] }

/-- case XC_N_S_NX_NY_NZ_SX_SY_SZ (densvars.hpp:173-185) -/
def caseNSXyz (v : DV ℕ) : DV ℕ :=
  let v := { v with n := d[0] }
  let v := { v with n := .reg v.n }
  let v := { v with s := d[1] }
  let v := { v with a := 0.5 * (v.n + v.s) }
  let v := { v with a := .reg v.a }
  let v := { v with b := 0.5 * (v.n - v.s) }
  let v := { v with b := .reg v.b }
  let v := { v with gnn := d[2] * d[2] + d[3] * d[3] + d[4] * d[4] }
  let v := { v with gss := d[5] * d[5] + d[6] * d[6] + d[7] * d[7] }
  let v := { v with gns := d[2] * d[5] + d[3] * d[6] + d[4] * d[7] }
  v.spinGrad

/-- case XC_A_B_..._JPAA_JPBB, own statements (densvars.hpp:188-189) -/
def caseJp (v : DV ℕ) : DV ℕ :=
  let v := { v with jpaa := d[9] }
  { v with jpbb := d[10] }

/-- case XC_A_B_GAA_GAB_GBB_LAPA_LAPB_TAUA_TAUB (densvars.hpp:191-207) -/
def caseLapTau (v : DV ℕ) : DV ℕ :=
  let v := { v with lapa := d[5] }
  let v := { v with lapb := d[6] }
  let v := { v with taua := d[7] }
  let v := { v with taub := d[8] }
  let v := { v with tau := v.taua + v.taub }
  v.caseABGrad.caseABAt 0 1

/-- The statements after the switch (densvars.hpp:213-217). -/
def finish (v : DV ℕ) : DV ℕ :=
  let v := { v with zeta := v.s / v.n }
  let v := { v with r_s := Expr.pow (3 / (v.n * 4 * (Real.pi : Expr ℕ))) (1 / 3) }
  let v := { v with n_m13 := Expr.pow v.n (-1 / 3) }
  let v := { v with a_43 := Expr.pow v.a (4 / 3) }
  { v with b_43 := Expr.pow v.b (4 / 3) }

/-- The switch (densvars.hpp:40-212) with its fall-throughs, started with members `w`; `none` is
    the `die` of the default branch (209-211). -/
def selectFrom (w : DV ℕ) : Vars → Option (DV ℕ)
  | .A_GAA => some (caseAGAA w).caseA
  | .A => some (caseA w)
  | .A_B_GAA_GAB_GBB_TAUA_TAUB => some ((caseABTau w).caseABGrad.caseABAt 0 1)
  | .A_B_GAA_GAB_GBB => some ((caseABGrad w).caseABAt 0 1)
  | .A_B => some (caseABAt 0 1 w)
  | .N_S_GNN_GNS_GSS_TAUN_TAUS => some (caseNSTau w).caseNSGrad.caseNS
  | .N_S_GNN_GNS_GSS => some (caseNSGrad w).caseNS
  | .N_S => some (caseNS w)
  | .N_GNN_TAUN => some (caseTauNAt 2 w).caseNGrad.caseN
  | .N_GNN => some (caseNGrad w).caseN
  | .N => some (caseN w)
  | .N_2ND_TAYLOR => some ((caseN2nd w).caseTauNAt 4).caseNXyz.caseN
  | .N_NX_NY_NZ_TAUN => some (caseTauNAt 4 w).caseNXyz.caseN
  | .N_NX_NY_NZ => some (caseNXyz w).caseN
  | .A_B_2ND_TAYLOR => some (caseAB2nd w)
  | .A_B_AX_AY_AZ_BX_BY_BZ_TAUA_TAUB => some (caseABXyzTau w).caseABXyz
  | .A_B_AX_AY_AZ_BX_BY_BZ => some (caseABXyz w)
  | .N_S_NX_NY_NZ_SX_SY_SZ_TAUN_TAUS => some (caseNSXyzTau w).caseNSXyz
  | .N_S_NX_NY_NZ_SX_SY_SZ => some (caseNSXyz w)
  | .A_B_GAA_GAB_GBB_LAPA_LAPB_TAUA_TAUB_JPAA_JPBB => some (caseJp w).caseLapTau
  | .A_B_GAA_GAB_GBB_LAPA_LAPB_TAUA_TAUB => some (caseLapTau w)
  | .A_GAA_LAPA | .A_GAA_TAUA | .N_GNN_LAPN | .A_B_GAA_GAB_GBB_LAPA_LAPB
  | .N_S_GNN_GNS_GSS_LAPN_LAPS | .N_S_GNN_GNS_GSS_LAPN_LAPS_TAUN_TAUS
  | .A_AX_AY_AZ | .A_AX_AY_AZ_TAUA | .A_2ND_TAYLOR | .N_S_2ND_TAYLOR => none

/-- The switch started with the default member initialisers (densvars.hpp:223-244). -/
def select (v : Vars) : Option (DV ℕ) := selectFrom {} v

/-- Reading a member; `par` is `parent->settings` (densvars.hpp:221). -/
def field {ι : Type} (par : ℕ → ℝ) (v : DV ι) : Field → Expr ι
  | .a => v.a | .b => v.b | .gaa => v.gaa | .gab => v.gab | .gbb => v.gbb
  | .n => v.n | .s => v.s | .gnn => v.gnn | .gns => v.gns | .gss => v.gss
  | .tau => v.tau | .taua => v.taua | .taub => v.taub | .lapa => v.lapa | .lapb => v.lapb
  | .zeta => v.zeta | .r_s => v.r_s | .n_m13 => v.n_m13 | .a_43 => v.a_43 | .b_43 => v.b_43
  | .jpaa => v.jpaa | .jpbb => v.jpbb
  | .param i => par i

end
end DV

/-- The constructor `densvars(parent, d)` (densvars.hpp:38-218): every member as an
    expression in the input slots. -/
noncomputable def densvars (par : ℕ → ℝ) (v : Vars) : Option (Field → Expr ℕ) :=
  (DV.select v).map fun w => w.finish.field par

end XCFun
