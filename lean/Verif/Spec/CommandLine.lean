/-
What a command line of funeval says (examples/C_host/funeval.c:61-118).
-/
import Verif.Model.CHost
import Verif.Model.History

namespace XCFun.Spec

variable {V : Type}

/-- The things one can say. -/
inductive Word (V : Type) where
  | quiet
  | density (v : Vars)
  | order (k : ℤ)
  | rep (r : ℤ)
  | weight (name : String) (w : V)

/-- The words with a meaning of their own. -/
def optionNames : List String := ["--quiet", "--ns", "--n", "--ngnn", "--ngnntaun", "--ab", "--order", "--rep"]

/-- How they are written. -/
inductive Written (E : FunevalEnv V) : Word V → List String → Prop
  | quiet : Written E .quiet ["--quiet"]
  | ab : Written E (.density .A_B) ["--ab"]
  | ns : Written E (.density .N_S) ["--ns"]
  | n : Written E (.density .N) ["--n"]
  | ngnn : Written E (.density .N_GNN) ["--ngnn"]
  | ngnntaun : Written E (.density .N_GNN_TAUN) ["--ngnntaun"]
  | order (t : String) (k : ℤ) (h : E.scanInt t = some k) : Written E (.order k) ["--order", t]
  | rep (t : String) (r : ℤ) (h : E.scanInt t = some r) : Written E (.rep r) ["--rep", t]
  | weight (a t : String) (w : V) (ha : a ∉ optionNames) (h : E.scanNum t = some w) : Written E (.weight a w) [a, t]

/-- A whole command line. -/
inductive CommandLine (E : FunevalEnv V) : List (Word V) → List String → Prop
  | nil : CommandLine E [] []
  | cons {w : Word V} {ws : List (Word V)} {a as : List String} (h : Written E w a) (hs : CommandLine E ws as) : CommandLine E (w :: ws) (a ++ as)

/-- The variables, order, number of repetitions and setting in a word. -/
def Word.density? : Word V → Option Vars
  | .density v => some v
  | _ => none

@[inherit_doc Word.density?]
def Word.order? : Word V → Option ℤ
  | .order k => some k
  | _ => none

@[inherit_doc Word.density?]
def Word.rep? : Word V → Option ℤ
  | .rep r => some r
  | _ => none

@[inherit_doc Word.density?]
def Word.setting? : Word V → Option (Call V)
  | .weight a w => some (.set a w)
  | _ => none

/-- The variables: those named last, otherwise spin densities. -/
def varsOf (ws : List (Word V)) : Vars := ((ws.filterMap Word.density?).getLast?).getD .A_B

/-- The order: the one named last, otherwise 1. -/
def derivOrder (ws : List (Word V)) : ℤ := ((ws.filterMap Word.order?).getLast?).getD 1

/-- The number of repetitions: the one named last, otherwise 1. -/
def repOf (ws : List (Word V)) : ℤ := ((ws.filterMap Word.rep?).getLast?).getD 1

/-- Is there a `--quiet`? -/
def isQuiet (ws : List (Word V)) : Bool := ws.any fun | .quiet => true | _ => false

/-- The settings, as calls of the library. -/
def settingsOf (ws : List (Word V)) : List (Call V) := ws.filterMap Word.setting?

end XCFun.Spec
