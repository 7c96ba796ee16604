/-
The version of the library: its number, its text, and the check offered to host programs.
-/
import Mathlib.Data.Nat.Bitwise

namespace XCFun

/-- The three constants of a release, `src/version_info.hpp:18-20`. -/
structure Version where
  major : ℕ
  minor : ℕ
  patch : ℕ
  deriving DecidableEq, Repr

/-- This release, `src/version_info.hpp:18-20`. -/
def thisVersion : Version := ⟨2, 1, 1⟩

/-- `XCFun_VERSION`, `src/version_info.hpp:21-22`, returned by `xcfun_get_version`, `src/XCFunctional.cpp:45`. The C++ type is `int`; the model has no width, so
statements ask for constants that fit. -/
def versionNumber (v : Version) : ℕ := (v.major <<< 16) ||| v.minor ||| v.patch

/-- `version_as_string`, `src/XCFunctional.cpp:37-43`, returned by `xcfun_version`, `:48-51`. -/
def versionText (v : Version) : List Char := Nat.toDigits 10 v.major ++ ['.'] ++ Nat.toDigits 10 v.minor ++ ['.'] ++ Nat.toDigits 10 v.patch

/-- `xcfun_is_compatible_library`, `src/XCFunctional.cpp:126-129`: both numbers are those the library was compiled with. -/
def isCompatibleLibrary (library : Version) : Bool := versionNumber library >>> 16 == library.major

end XCFun
