/-
What the process is supposed to look like to a caller: objects that know nothing of each other, and constant tables.
-/
import Verif.Model.Process

namespace XCFun.Spec

variable {V : Type} [Zero V] [One V] [Add V] [Sub V] [Mul V] [Lit V]

/-- A call on an object as if it were the only one and the tables were constants. -/
def alone (K : Kernel V) (s : State V) : ObjCall V → Outcome (Ret V × State V)
  | .set name v => do let r ← xcfunSet s name v; pure (.code r.1, r.2)
  | .get name => .ok (.value (xcfunGet s name).1 (xcfunGet s name).2, s)
  | .isGga => .ok (.bool (isGga s), s)
  | .isMetagga => .ok (.bool (isMetagga s), s)
  | .evalSetup v m o => do let r ← XCFun.evalSetup s v m o; pure (.code r.1, r.2)
  | .userEvalSetup o f d m l k c e => do let r ← XCFun.userEvalSetup s o f d m l k c e; pure (.code r.1, r.2)
  | .inputLength => do let n ← XCFun.inputLength s; pure (.code n, s)
  | .outputLength => do let n ← XCFun.outputLength s; pure (.code n, s)
  | .eval junk input output => do let o ← xcfunEval K junk s input output; pure (.buffer o, s)
  | .evalVec junk n d db dp r rb rp => do
    let o ← xcfunEvalVec K junk s n d db dp r rb rp
    pure (.buffer o, s)

/-- What can happen to one address. -/
inductive Event (V : Type) where
  | new
  | delete
  | call (c : ObjCall V)

/-- The life of one address: created in the initial state, used, deleted, possibly created again. -/
def slotStep (K : Kernel V) (a : ℕ) : Option (State V) → Event V → Outcome (Ret V × Option (State V))
  | none, .new => .ok (.ptr (some a), some State.init)
  | some _, .new => .ub
  | none, .delete => .ub
  | some _, .delete => .ok (.unit, none)
  | none, .call _ => .ub
  | some s, .call c => do let r ← alone K s c; pure (r.1, some r.2)

/-- A sequence of events at one address: its results and what is there afterwards. -/
def slotRun (K : Kernel V) (a : ℕ) : Option (State V) → List (Event V) → Outcome (List (Ret V) × Option (State V))
  | x, [] => .ok ([], x)
  | x, e :: es => do
    let r ← slotStep K a x e
    let q ← slotRun K a r.2 es
    pure (r.1 :: q.1, q.2)

/-- The address an entry point works on, and what it does there. -/
def target : Op V → Option (ℕ × Event V)
  | .new (some a) => some (a, .new)
  | .delete (some a) => some (a, .delete)
  | .call (some a) c => some (a, .call c)
  | _ => none

/-- Entry points that work on no object: their result is a constant. -/
def constStep : Op V → Outcome (Ret V)
  | .new _ => .die
  | .delete _ => .ok .unit
  | .call _ _ => .ub
  | .enumerateParameters n => do let r ← XCFun.enumerateParameters n; pure (.name r)
  | .enumerateAliases n => .ok (.name (XCFun.enumerateAliases n))
  | .describeShort name => .ok (.desc (XCFun.describeShort name))
  | .describeLong name => .ok (.desc (XCFun.describeLong name))
  | .whichVars f d l k c e => do let v ← XCFun.whichVars f d l k c e; pure (.vars v)
  | .whichMode m => do let c ← XCFun.whichMode m; pure (.code c)
  | .info => .ok .unit

/-- The events at address `a` in a sequence of calls. -/
def eventsAt (a : ℕ) (ops : List (Op V)) : List (Event V) :=
  ops.filterMap fun o => (target o).bind fun t => if t.1 = a then some t.2 else none

/-- The results, among all results `rs`, of the calls on address `a`. -/
def resultsAt (a : ℕ) (ops : List (Op V)) (rs : List (Ret V)) : List (Ret V) :=
  (ops.zip rs).filterMap fun x => (target x.1).bind fun t => if t.1 = a then some x.2 else none

end XCFun.Spec
