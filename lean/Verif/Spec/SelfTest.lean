/-
What the self test of the library is supposed to do.
-/
import Verif.Model.SelfTest
import Verif.Model.History

namespace XCFun.Spec

/-- A functional with reference data: id, name, variables and order of the derivatives. -/
structure Tested where
  id : ℕ
  name : String
  vars : Vars
  order : ℕ
  deriving DecidableEq

/-- The functionals with reference data. -/
def tested : List Tested := [
  ⟨0, "SLATERX", .A_B, 2⟩,
  ⟨3, "VWN5C", .A_B, 2⟩,
  ⟨4, "PBEC", .A_B_GAA_GAB_GBB, 2⟩,
  ⟨6, "BECKEX", .A_B_GAA_GAB_GBB, 2⟩,
  ⟨7, "BECKECORRX", .A_B_GAA_GAB_GBB, 2⟩,
  ⟨13, "LDAERFX", .A_B, 2⟩,
  ⟨14, "LDAERFC", .A_B, 2⟩,
  ⟨16, "LYPC", .A_B_GAA_GAB_GBB, 2⟩,
  ⟨23, "KTX", .A_B_GAA_GAB_GBB, 2⟩,
  ⟨24, "TFK", .A_B, 1⟩,
  ⟨26, "PW91X", .A_B_GAA_GAB_GBB, 2⟩,
  ⟨28, "PW92C", .A_B, 2⟩,
  ⟨29, "M05X", .A_B_GAA_GAB_GBB_TAUA_TAUB, 1⟩,
  ⟨30, "M05X2X", .A_B_GAA_GAB_GBB_TAUA_TAUB, 1⟩,
  ⟨32, "M06X2X", .A_B_GAA_GAB_GBB_TAUA_TAUB, 1⟩,
  ⟨33, "M06LX", .A_B_GAA_GAB_GBB_TAUA_TAUB, 1⟩,
  ⟨34, "M06HFX", .A_B_GAA_GAB_GBB_TAUA_TAUB, 1⟩,
  ⟨37, "M06C", .A_B_GAA_GAB_GBB_TAUA_TAUB, 1⟩,
  ⟨41, "TPSSC", .A_B_GAA_GAB_GBB_TAUA_TAUB, 1⟩,
  ⟨42, "TPSSX", .A_B_GAA_GAB_GBB_TAUA_TAUB, 1⟩,
  ⟨45, "SCANC", .A_B_GAA_GAB_GBB_TAUA_TAUB, 1⟩,
  ⟨46, "SCANX", .A_B_GAA_GAB_GBB_TAUA_TAUB, 1⟩,
  ⟨47, "RSCANC", .A_B_GAA_GAB_GBB_TAUA_TAUB, 1⟩,
  ⟨48, "RSCANX", .A_B_GAA_GAB_GBB_TAUA_TAUB, 1⟩,
  ⟨49, "RPPSCANC", .A_B_GAA_GAB_GBB_TAUA_TAUB, 1⟩,
  ⟨50, "RPPSCANX", .A_B_GAA_GAB_GBB_TAUA_TAUB, 1⟩,
  ⟨51, "R2SCANC", .A_B_GAA_GAB_GBB_TAUA_TAUB, 1⟩,
  ⟨52, "R2SCANX", .A_B_GAA_GAB_GBB_TAUA_TAUB, 1⟩,
  ⟨53, "R4SCANC", .A_B_GAA_GAB_GBB_TAUA_TAUB, 1⟩,
  ⟨54, "R4SCANX", .A_B_GAA_GAB_GBB_TAUA_TAUB, 1⟩,
  ⟨55, "PZ81C", .A_B, 2⟩,
  ⟨56, "P86C", .A_B_GAA_GAB_GBB, 2⟩,
  ⟨77, "PW91C", .A_B_GAA_GAB_GBB, 2⟩]

section
variable {V : Type} [Zero V] [One V] [Add V] [Sub V] [Mul V] [Lit V]

/-- What a user gets who creates an object, sets the functional `name` to 1, asks for partial derivatives up to the given order and evaluates at `x`:
    the values `res`, whatever is in memory. -/
def UserValues (K : Kernel V) (name : String) (v : Vars) (order : ℤ) (x res : List V) : Prop :=
  ∃ s₀ s, run State.init [.set name (lit 1 0)] = .ok s₀ ∧ evalSetup s₀ v.code PARTIAL_DERIVATIVES order = .ok (0, s) ∧
    outputLength s = .ok (res.length : ℤ) ∧
    ∀ rest output junk, res.length ≤ output.length → xcfunEval K junk s (x ++ rest) output = .ok (res ++ output.drop res.length)

/-- The reference point of functional `f`. -/
def refPoint (f : ℕ) : List V := ((testTable[f]?.map TestData.input).getD []).map fun d => lit d.1 d.2

/-- The reference values of functional `f`. -/
def refValues (f : ℕ) : List V := (testTable[f]?.map fun d => d.output.map fun c => lit c.1 c.2).getD []

/-- The permitted relative error for functional `f`. -/
def refThreshold (f : ℕ) : V := (testTable[f]?.map fun d => lit d.threshold.1 d.threshold.2).getD (lit 0 0)

/-- Some entry of `res` is far from that of `ref`, where missing reference values are zero. -/
def Deviates (far : V → V → V → Bool) (thr : V) (res ref : List V) : Prop :=
  ∃ i, ∃ o, res[i]? = some o ∧ far o (ref.getD i (lit 0 0)) thr = true

end
end XCFun.Spec
