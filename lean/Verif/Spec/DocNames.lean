/-
The names of functionals and parameters in the documentation.
-/
namespace XCFun.Spec

/-- The functionals listed in `docs/functionals.rst:9-51`. -/
def documentedFunctionals : List String := [
  "SLATERX", "PW86X", "VWN5C", "PBEC", "PBEX", "BECKEX", "BECKECORRX", "BECKESRX",
  "LDAERFX", "LDAERFC", "LDAERFC_JT", "LYPC", "OPTX", "REVPBEX", "RPBEX", "SPBEC",
  "VWN_PBEC", "KTX", "TFK", "PW91X", "PW91K", "PW92C", "M05X", "M05X2X",
  "M06X", "M06X2X", "M06LX", "M06HFX", "M05X2C", "M05C", "M06C", "M06LC",
  "M06X2C", "TPSSC", "TPSSX", "REVTPSSC", "REVTPSSX", "PZ81C", "P86C"]

/-- The parameters at the end of the same table, `docs/functionals.rst:52-53`. -/
def documentedParameters : List String := ["RANGESEP_MU", "EXX"]

end XCFun.Spec
