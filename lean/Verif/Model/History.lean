import Verif.Model.Api

/-!
# Call histories on one object
-/

namespace XCFun

/-- One API call on an object, with its arguments.  `eval` stands for `xcfun_eval`/`xcfun_eval_vec`; whether it
returns is given by a predicate because evaluation is modelled elsewhere (`Model/Eval`) and takes the object by
`const` pointer (`src/XCFunctional.cpp:493`, `:798`): it cannot change it. -/
inductive Call (V : Type _) where
  | set (name : String) (value : V)
  | get (name : String)
  | isGga
  | isMetagga
  | evalSetup (vars mode order : Int)
  | userEvalSetup (order : Int) (func dens mode lap kin cur expl : Nat)
  | inputLength
  | outputLength
  | eval (run : State V → Outcome Unit)

variable {V : Type _} [Add V] [Mul V] [Lit V]

/-- The effect of one call on the object (`src/XCFunctional.cpp:369-806`); its results are dropped. -/
def Call.step (s : State V) : Call V → Outcome (State V)
  | .set name v => do let r ← xcfunSet s name v; pure r.2
  | .get _ => .ok s
  | .isGga => .ok s
  | .isMetagga => .ok s
  | .evalSetup v m o => do let r ← XCFun.evalSetup s v m o; pure r.2
  | .userEvalSetup o f d m l k c e => do let r ← XCFun.userEvalSetup s o f d m l k c e; pure r.2
  | .inputLength => do let _ ← XCFun.inputLength s; pure s
  | .outputLength => do let _ ← XCFun.outputLength s; pure s
  | .eval run => do let _ ← run s; pure s

/-- A whole history. It stops at the first call that kills the process or is undefined. -/
def run (s : State V) : List (Call V) → Outcome (State V)
  | [] => .ok s
  | c :: cs => do let s ← c.step s; run s cs

end XCFun
