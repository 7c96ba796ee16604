import Verif.Spec.Setup

/-!
# Reading a variable set off its symbol

`XC_A_B_GAA_GAB_GBB_TAUA_TAUB` etc.: the documented naming scheme of `api/xcfun.h:45-84`.
-/

namespace XCFun.Spec

/-- Split a list of characters at underscores. -/
def splitUnderscore : List Char → List (List Char)
  | [] => [[]]
  | c :: cs =>
    if c = '_' then [] :: splitUnderscore cs
    else match splitUnderscore cs with
      | w :: ws => (c :: w) :: ws
      | [] => [[c]]

/-- The words of the symbol of a variable set, without the leading `XC`. -/
def words (v : Vars) : List (List Char) :=
  match varsTable[v.code]? with
  | some d => (splitUnderscore d.symbol.toList).tail
  | none => []

/-- The density variables a set starts with: 0 = A, 1 = N, 2 = A and B, 3 = N and S. -/
def densityKind (v : Vars) : Option Nat :=
  match words v with
  | ['A'] :: ['B'] :: _ => some 2
  | ['N'] :: ['S'] :: _ => some 3
  | ['A'] :: _ => some 0
  | ['N'] :: _ => some 1
  | _ => none

/-- The gradient is given by its Cartesian components. -/
def explicitGradient (v : Vars) : Bool :=
  (words v).contains ['A', 'X'] || (words v).contains ['N', 'X']

/-- The set is one of the Taylor expansions of the density. -/
def isTaylorSymbol (v : Vars) : Bool := (words v).contains "TAYLOR".toList

end XCFun.Spec
