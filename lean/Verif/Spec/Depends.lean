/-
Which density variables belong to which declared quantity, and which functionals are documented
to read which parameter.
-/
import Verif.Model.Densvars

namespace XCFun.Spec

/-- The quantity a density variable belongs to: bit 0 density, 1 gradient, 2 Laplacian,
    3 kinetic energy, 4 current (the bits of `XC_DENSITY` ... `XC_JP`); parameters belong to
    none. -/
def quantity : Field → Option ℕ
  | .a | .b | .n | .s | .zeta | .r_s | .n_m13 | .a_43 | .b_43 => some 0
  | .gaa | .gab | .gbb | .gnn | .gns | .gss => some 1
  | .lapa | .lapb => some 2
  | .tau | .taua | .taub => some 3
  | .jpaa | .jpbb => some 4
  | .param _ => none

/-- The variable is covered by the dependency mask `m`. -/
def covered (m : ℕ) (f : Field) : Prop := ∀ k, quantity f = some k → m.testBit k = true

instance (m : ℕ) (f : Field) : Decidable (covered m f) :=
  match h : quantity f with
  | none => isTrue fun k hk => by rw [h] at hk; cases hk
  | some k =>
    if hm : m.testBit k = true then isTrue fun k' hk => by rw [h] at hk; cases hk; exact hm
    else isFalse fun hc => hm (hc k h)

/-- The functionals that read a parameter: `XC_RANGESEP_MU` (78) is read by BECKESRX, BECKECAMX,
    LDAERFX, LDAERFC, LDAERFC_JT; `XC_CAM_ALPHA` (80) and `XC_CAM_BETA` (81) by BECKECAMX;
    `XC_EXX` (79) by none. -/
def readers (p : ℕ) : List ℕ :=
  if p = 78 then [8, 9, 13, 14, 15] else if p = 80 ∨ p = 81 then [9] else []

end XCFun.Spec
