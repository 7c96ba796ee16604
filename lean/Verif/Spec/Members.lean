/-
How the different variable sets describe the same physical situation: density inputs and the threshold, gradients and
their invariants, closed shells, charge and spin densities, rotations.  `R` is the type of numbers (reals, or
expansions); `h` is its one half.
-/
import Mathlib.Data.Matrix.Mul
import Mathlib.LinearAlgebra.Matrix.Notation
import Mathlib.Data.Real.Basic
import Verif.Model.Vars
import Verif.Model.CT
import Verif.Model.Densvars

namespace XCFun.Spec

/-- The positions of the densities among the inputs (api/xcfun.h:59-95): everywhere the first, and for `A_B...` the
    second (the eleventh for `A_B_2ND_TAYLOR`).  The spin density of `N_S...` may have any sign and is not one of them. -/
def densSlots : Vars → List ℕ
  | .A_B | .A_B_GAA_GAB_GBB | .A_B_GAA_GAB_GBB_LAPA_LAPB | .A_B_GAA_GAB_GBB_TAUA_TAUB
  | .A_B_GAA_GAB_GBB_LAPA_LAPB_TAUA_TAUB | .A_B_GAA_GAB_GBB_LAPA_LAPB_TAUA_TAUB_JPAA_JPBB
  | .A_B_AX_AY_AZ_BX_BY_BZ | .A_B_AX_AY_AZ_BX_BY_BZ_TAUA_TAUB => [0, 1]
  | .A_B_2ND_TAYLOR => [0, 10]
  | _ => [0]

/-- The density threshold. -/
noncomputable def threshold : ℝ := 1e-14

section
variable {R : Type _} [CommRing R] (h : R)

/-- Scalar product of the vectors at positions `i` and `j`. -/
def dot (ρ : ℕ → R) (i j : ℕ) : R := ρ i * ρ j + ρ (i + 1) * ρ (j + 1) + ρ (i + 2) * ρ (j + 2)

/-- `a b ∇a ∇b [taua taub]` to `a b gaa gab gbb [taua taub]`. -/
def spinInvariants (ρ : ℕ → R) : ℕ → R
  | 0 => ρ 0
  | 1 => ρ 1
  | 2 => dot ρ 2 2
  | 3 => dot ρ 2 5
  | 4 => dot ρ 5 5
  | 5 => ρ 8
  | 6 => ρ 9
  | _ => 0

/-- Second-order expansions of `a` and `b` to `a b gaa gab gbb lapa lapb taua taub`, without kinetic energy. -/
def expansionInvariants (ρ : ℕ → R) : ℕ → R
  | 0 => ρ 0
  | 1 => ρ 10
  | 2 => dot ρ 1 1
  | 3 => dot ρ 1 11
  | 4 => dot ρ 11 11
  | 5 => ρ 4 + ρ 7 + ρ 9
  | 6 => ρ 14 + ρ 17 + ρ 19
  | _ => 0

/-- `n ∇n [tau]` to `n gnn [tau]`. -/
def totalInvariants (ρ : ℕ → R) : ℕ → R
  | 0 => ρ 0
  | 1 => dot ρ 1 1
  | 2 => ρ 4
  | _ => 0

/-- `n [gnn [tau]]` of a closed shell to `a b [gaa gab gbb [taua taub]]`. -/
def openInvariants (ρ : ℕ → R) : ℕ → R
  | 0 | 1 => h * ρ 0
  | 2 | 3 | 4 => h * h * ρ 1
  | 5 | 6 => h * ρ 2
  | _ => 0

/-- `n ∇n [tau]` of a closed shell to `a b ∇a ∇b [taua taub]`. -/
def openComponents (ρ : ℕ → R) : ℕ → R
  | 0 | 1 => h * ρ 0
  | 2 | 5 => h * ρ 1
  | 3 | 6 => h * ρ 2
  | 4 | 7 => h * ρ 3
  | 8 | 9 => h * ρ 4
  | _ => 0

/-- The second-order expansion of `n` of a closed shell to those of `a` and `b`. -/
def openExpansion (ρ : ℕ → R) (l : ℕ) : R := if l < 10 then h * ρ l else h * ρ (l - 10)

/-- `n s ∇n ∇s [tau taus]` to `a b ∇a ∇b [taua taub]` with `a = (n+s)/2`, `b = (n-s)/2`. -/
def spinComponents (ρ : ℕ → R) : ℕ → R
  | 0 => h * (ρ 0 + ρ 1)
  | 1 => h * (ρ 0 - ρ 1)
  | 2 => h * (ρ 2 + ρ 5)
  | 3 => h * (ρ 3 + ρ 6)
  | 4 => h * (ρ 4 + ρ 7)
  | 5 => h * (ρ 2 - ρ 5)
  | 6 => h * (ρ 3 - ρ 6)
  | 7 => h * (ρ 4 - ρ 7)
  | 8 => h * (ρ 8 + ρ 9)
  | 9 => h * (ρ 8 - ρ 9)
  | _ => 0

/-- All spin-resolved quantities and the totals and differences formed from them. -/
def spinFields (a b : R) (gaa gab gbb : R) (taua taub lapa lapb jpaa jpbb : R) : Field → R
  | .a => a | .b => b | .n => a + b | .s => a - b
  | .gaa => gaa | .gab => gab | .gbb => gbb
  | .gnn => gaa + 2 * gab + gbb | .gns => gaa - gbb | .gss => gaa - 2 * gab + gbb
  | .taua => taua | .taub => taub | .tau => taua + taub
  | .lapa => lapa | .lapb => lapb | .jpaa => jpaa | .jpbb => jpbb
  | _ => 0

/-- The same with total and spin density given separately. -/
def withTotals (n s : R) (g : Field → R) : Field → R
  | .n => n | .s => s | f => g f

/-- What the inputs stand for (`h` is one half).  In the sets `N_S`, `N_S_GNN_GNS_GSS` and `N_S_GNN_GNS_GSS_TAUN_TAUS`
    the code takes `n+s`, `n-s` (and the like for `tau`) for the spin densities, twice what they are in the sets with
    gradient components; in `N_2ND_TAYLOR` the fifth input serves both as second derivative and as `tau`
    (src/densvars.hpp:73-91, 111-117). -/
def given (ρ : ℕ → R) : Vars → Field → R
  | .A_GAA => spinFields 0 0 (ρ 1) 0 0 0 0 0 0 0 0
  | .A_B => spinFields (ρ 0) (ρ 1) 0 0 0 0 0 0 0 0 0
  | .A_B_GAA_GAB_GBB => spinFields (ρ 0) (ρ 1) (ρ 2) (ρ 3) (ρ 4) 0 0 0 0 0 0
  | .A_B_GAA_GAB_GBB_TAUA_TAUB => spinFields (ρ 0) (ρ 1) (ρ 2) (ρ 3) (ρ 4) (ρ 5) (ρ 6) 0 0 0 0
  | .A_B_GAA_GAB_GBB_LAPA_LAPB_TAUA_TAUB =>
    spinFields (ρ 0) (ρ 1) (ρ 2) (ρ 3) (ρ 4) (ρ 7) (ρ 8) (ρ 5) (ρ 6) 0 0
  | .A_B_GAA_GAB_GBB_LAPA_LAPB_TAUA_TAUB_JPAA_JPBB =>
    spinFields (ρ 0) (ρ 1) (ρ 2) (ρ 3) (ρ 4) (ρ 7) (ρ 8) (ρ 5) (ρ 6) (ρ 9) (ρ 10)
  | .A_B_AX_AY_AZ_BX_BY_BZ => spinFields (ρ 0) (ρ 1) (dot ρ 2 2) (dot ρ 2 5) (dot ρ 5 5) 0 0 0 0 0 0
  | .A_B_AX_AY_AZ_BX_BY_BZ_TAUA_TAUB =>
    spinFields (ρ 0) (ρ 1) (dot ρ 2 2) (dot ρ 2 5) (dot ρ 5 5) (ρ 8) (ρ 9) 0 0 0 0
  | .A_B_2ND_TAYLOR => spinFields (ρ 0) (ρ 10) (dot ρ 1 1) (dot ρ 1 11) (dot ρ 11 11) 0 0 (ρ 4 + ρ 7 + ρ 9)
      (ρ 14 + ρ 17 + ρ 19) 0 0
  | .N => spinFields (h * ρ 0) (h * ρ 0) 0 0 0 0 0 0 0 0 0
  | .N_GNN => spinFields (h * ρ 0) (h * ρ 0) (h * h * ρ 1) (h * h * ρ 1) (h * h * ρ 1) 0 0 0 0 0 0
  | .N_GNN_TAUN => spinFields (h * ρ 0) (h * ρ 0) (h * h * ρ 1) (h * h * ρ 1) (h * h * ρ 1) (h * ρ 2) (h * ρ 2) 0 0 0 0
  | .N_NX_NY_NZ => spinFields (h * ρ 0) (h * ρ 0) (h * h * dot ρ 1 1) (h * h * dot ρ 1 1) (h * h * dot ρ 1 1)
      0 0 0 0 0 0
  | .N_NX_NY_NZ_TAUN => spinFields (h * ρ 0) (h * ρ 0) (h * h * dot ρ 1 1) (h * h * dot ρ 1 1) (h * h * dot ρ 1 1)
      (h * ρ 4) (h * ρ 4) 0 0 0 0
  | .N_2ND_TAYLOR => spinFields (h * ρ 0) (h * ρ 0) (h * h * dot ρ 1 1) (h * h * dot ρ 1 1) (h * h * dot ρ 1 1)
      (h * ρ 4) (h * ρ 4) (h * (ρ 4 + ρ 7 + ρ 9)) (h * (ρ 4 + ρ 7 + ρ 9)) 0 0
  | .N_S_NX_NY_NZ_SX_SY_SZ => spinFields (h * (ρ 0 + ρ 1)) (h * (ρ 0 - ρ 1))
      (h * h * (dot ρ 2 2 + 2 * dot ρ 2 5 + dot ρ 5 5)) (h * h * (dot ρ 2 2 - dot ρ 5 5))
      (h * h * (dot ρ 2 2 - 2 * dot ρ 2 5 + dot ρ 5 5)) 0 0 0 0 0 0
  | .N_S_NX_NY_NZ_SX_SY_SZ_TAUN_TAUS => spinFields (h * (ρ 0 + ρ 1)) (h * (ρ 0 - ρ 1))
      (h * h * (dot ρ 2 2 + 2 * dot ρ 2 5 + dot ρ 5 5)) (h * h * (dot ρ 2 2 - dot ρ 5 5))
      (h * h * (dot ρ 2 2 - 2 * dot ρ 2 5 + dot ρ 5 5)) (h * (ρ 8 + ρ 9)) (h * (ρ 8 - ρ 9)) 0 0 0 0
  | .N_S => withTotals (ρ 0) (ρ 1) (spinFields (ρ 0 + ρ 1) (ρ 0 - ρ 1) 0 0 0 0 0 0 0 0 0)
  | .N_S_GNN_GNS_GSS => withTotals (ρ 0) (ρ 1) (spinFields (ρ 0 + ρ 1) (ρ 0 - ρ 1)
      (h * h * (ρ 2 + 2 * ρ 3 + ρ 4)) (h * h * (ρ 2 - ρ 4)) (h * h * (ρ 2 - 2 * ρ 3 + ρ 4)) 0 0 0 0 0 0)
  | .N_S_GNN_GNS_GSS_TAUN_TAUS => withTotals (ρ 0) (ρ 1) (spinFields (ρ 0 + ρ 1) (ρ 0 - ρ 1)
      (h * h * (ρ 2 + 2 * ρ 3 + ρ 4)) (h * h * (ρ 2 - ρ 4)) (h * h * (ρ 2 - 2 * ρ 3 + ρ 4)) (ρ 5 + ρ 6) (ρ 5 - ρ 6)
      0 0 0 0)
  | _ => fun _ => 0

/-- The densities that are kept above the threshold. -/
def densities (ρ : ℕ → R) : Vars → List R
  | .N_S | .N_S_GNN_GNS_GSS | .N_S_GNN_GNS_GSS_TAUN_TAUS => [ρ 0, ρ 0 + ρ 1, ρ 0 - ρ 1]
  | .N_S_NX_NY_NZ_SX_SY_SZ | .N_S_NX_NY_NZ_SX_SY_SZ_TAUN_TAUS => [ρ 0, h * (ρ 0 + ρ 1), h * (ρ 0 - ρ 1)]
  | v => (densSlots v).map ρ

/-- The densities themselves. -/
def IsDensity (f : Field) : Prop := f = .a ∨ f = .b ∨ f = .n ∨ f = .s

/-- Gradients, kinetic energy densities, Laplacians, currents. -/
def IsOther (f : Field) : Prop :=
  f ∈ [Field.gaa, .gab, .gbb, .gnn, .gns, .gss, .tau, .taua, .taub, .lapa, .lapb, .jpaa, .jpbb]

/-- The vector at position `i` multiplied by the matrix `Q`. -/
def rotateVector (Q : Matrix (Fin 3) (Fin 3) R) (i : ℕ) (ρ : ℕ → R) (l : ℕ) : R :=
  if l = i then Q 0 0 * ρ i + Q 0 1 * ρ (i + 1) + Q 0 2 * ρ (i + 2)
  else if l = i + 1 then Q 1 0 * ρ i + Q 1 1 * ρ (i + 1) + Q 1 2 * ρ (i + 2)
  else if l = i + 2 then Q 2 0 * ρ i + Q 2 1 * ρ (i + 1) + Q 2 2 * ρ (i + 2)
  else ρ l

/-- The symmetric matrix stored at position `i` as `xx xy xz yy yz zz`. -/
def symmetric (ρ : ℕ → R) (i : ℕ) : Matrix (Fin 3) (Fin 3) R :=
  !![ρ i, ρ (i + 1), ρ (i + 2); ρ (i + 1), ρ (i + 3), ρ (i + 4); ρ (i + 2), ρ (i + 4), ρ (i + 5)]

/-- The symmetric matrix `H` at position `i` replaced by `Q H Qᵀ`. -/
def rotateSymmetric (Q : Matrix (Fin 3) (Fin 3) R) (i : ℕ) (ρ : ℕ → R) (l : ℕ) : R :=
  let H := Q * symmetric ρ i * Q.transpose
  if l = i then H 0 0 else if l = i + 1 then H 0 1 else if l = i + 2 then H 0 2
  else if l = i + 3 then H 1 1 else if l = i + 4 then H 1 2 else if l = i + 5 then H 2 2 else ρ l

/-- All vectors and second derivatives among the inputs rotated. -/
def rotate (Q : Matrix (Fin 3) (Fin 3) R) (v : Vars) (ρ : ℕ → R) : ℕ → R :=
  match v with
  | .A_B_AX_AY_AZ_BX_BY_BZ | .A_B_AX_AY_AZ_BX_BY_BZ_TAUA_TAUB
  | .N_S_NX_NY_NZ_SX_SY_SZ | .N_S_NX_NY_NZ_SX_SY_SZ_TAUN_TAUS => rotateVector Q 5 (rotateVector Q 2 ρ)
  | .N_NX_NY_NZ | .N_NX_NY_NZ_TAUN => rotateVector Q 1 ρ
  | .N_2ND_TAYLOR => rotateSymmetric Q 4 (rotateVector Q 1 ρ)
  | .A_B_2ND_TAYLOR =>
    rotateSymmetric Q 14 (rotateVector Q 11 (rotateSymmetric Q 4 (rotateVector Q 1 ρ)))
  | _ => ρ

end
end XCFun.Spec
