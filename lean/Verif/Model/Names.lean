import Verif.Model.Tables

/-!
# Name lookup

`strcasecmp` in the C locale: bytes are compared after mapping `A`-`Z` to `a`-`z`.  Names are Lean strings; a C
string is the special case of bytes without NUL.
-/

namespace XCFun

/-- ASCII `tolower`, as used by `strcasecmp` in the C locale (`src/xcint.cpp:21-26`). -/
def lower (c : Char) : Char :=
  if 'A' ≤ c ∧ c ≤ 'Z' then Char.ofNat (c.toNat + 32) else c

/-- The case-folded characters of a name. -/
def fold (s : String) : List Char := s.toList.map lower

/-- `strcasecmp(a, b) == 0`, used at `src/xcint.cpp:33`, `:40`, `:47`. -/
def strcaseEq (a b : String) : Bool := fold a == fold b

/-- `xcint_lookup_functional`, `src/xcint.cpp:31-36`; `none` stands for `-1`. -/
def lookupFunctional (name : String) : Option Nat :=
  funs.findIdx? fun f => strcaseEq name f.name

/-- `xcint_lookup_parameter`, `src/xcint.cpp:38-43`; the returned index is offset by `XC_NR_FUNCTIONALS`. -/
def lookupParameter (name : String) : Option Nat :=
  (params.findIdx? fun p => strcaseEq name p.name).map (· + NR_FUNCTIONALS)

/-- `xcint_lookup_alias`, `src/xcint.cpp:45-50`.  The table has 46 named entries followed by null names, so the loop
bound `XC_MAX_ALIASES` is never the reason to stop. -/
def lookupAlias (name : String) : Option Nat :=
  aliases.findIdx? fun a => strcaseEq name a.name

end XCFun
