/-
The whole library in one process: the lazily filled tables, the heap of objects, and every C entry point.
-/
import Verif.Model.Eval

namespace XCFun

variable {V : Type}

/-! ### Lazily filled tables (src/xcint.cpp) -/

/-- `xcint_funs`, `xcint_params` (src/xcint.cpp:28-29) and the function-local `static bool is_setup` (138).  An entry that
    is still zero-initialised is `none`: its `name` is a null pointer. -/
structure Tables where
  isSetup : Bool
  funTab : ℕ → Option FunData
  parTab : ℕ → Option ParamData

/-- Program start: static storage is zero (src/xcint.cpp:28-29, 138). -/
def Tables.zero : Tables := ⟨false, fun _ => none, fun _ => none⟩

/-- The ids for which `retarded_helper<FUN, SPAN>::doit` (src/xcint.cpp:64-80) executes its leaf, in order. -/
def visit (f span : ℕ) : List ℕ :=
  if span ≤ 1 then [f] else visit f (span / 2) ++ visit (f + span / 2) ((span + 1) / 2)
termination_by span
decreasing_by all_goals omega

/-- The leaf of `retarded_helper` (src/xcint.cpp:71-80): `xcint_funs[FUN] = fundat_db<FUN>::d`, with the name set from the
    symbol.  (The check that the symbol starts with `XC_` concerns `#F`, which does by src/functional.hpp:20-21.) -/
def fillFun (tab : ℕ → Option FunData) (i : ℕ) : ℕ → Option FunData := upd tab i funs[i]?

/-- `xcint_parameter_setup_helper<P>` for `cnt` more parameters (src/xcint.cpp:82-92). -/
def fillParams (tab : ℕ → Option ParamData) : (cnt p : ℕ) → ℕ → Option ParamData
  | 0, _ => tab
  | cnt + 1, p => fillParams (upd tab p params[p - NR_FUNCTIONALS]?) cnt (p + 1)

/-- `xcint_assure_setup` (src/xcint.cpp:137-151).  The assertions about `xcint_vars` hold (`len_le`). -/
def assureSetup (t : Tables) : Tables :=
  if t.isSetup then t
  else
    { isSetup := true
      funTab := (visit 0 NR_FUNCTIONALS).foldl fillFun t.funTab
      parTab := fillParams t.parTab (NR_PARAMETERS_AND_FUNCTIONALS - NR_FUNCTIONALS) NR_FUNCTIONALS }

/-- The loop of the lookup functions (src/xcint.cpp:31-43): `strcasecmp` with a null pointer is undefined. -/
def scan (names : ℕ → Option String) (name : String) : (cnt i : ℕ) → Outcome (Option ℕ)
  | 0, _ => .ok none
  | cnt + 1, i =>
    match names i with
    | none => .ub
    | some n => if strcaseEq name n then .ok (some i) else scan names name cnt (i + 1)

/-- `xcint_lookup_functional` (src/xcint.cpp:31-36) -/
def Tables.lookupFun (t : Tables) (name : String) : Outcome (Option ℕ) :=
  scan (fun i => (t.funTab i).map FunData.name) name NR_FUNCTIONALS 0

/-- `xcint_lookup_parameter` (src/xcint.cpp:38-43) -/
def Tables.lookupPar (t : Tables) (name : String) : Outcome (Option ℕ) :=
  scan (fun i => (t.parTab i).map ParamData.name) name
    (NR_PARAMETERS_AND_FUNCTIONALS - NR_FUNCTIONALS) NR_FUNCTIONALS

/-! ### API functions as they read the tables -/

section
variable [Lit V]

/-- `XCFunctional::XCFunctional` (XCFunctional.cpp:350-355, XCFunctional.hpp:29-35).  A zero-initialised table entry has
    default value 0. -/
def Tables.construct (t : Tables) : State V where
  active := []
  order := -1
  depends := 0
  mode := MODE_UNSET
  vars := none
  settings := fun i =>
    if i < NR_FUNCTIONALS then lit 0 0
    else match t.parTab i with
      | some p => lit p.mant p.exp
      | none => lit 0 0

end

/-- Functional branch of `xcfun_set` (XCFunctional.cpp:372-386), reading `xcint_funs[item].depends` from the table. -/
def Tables.setFunctional [Add V] (t : Tables) (s : State V) (item : ℕ) (value : V) : Outcome (State V) :=
  let s := { s with settings := upd s.settings item (s.settings item + value) }
  if item ∈ s.active then .ok s
  else if s.active.length < NR_FUNCTIONALS then
    .ok { s with
      active := s.active ++ [item]
      depends := s.depends ||| ((t.funTab item).map FunData.depends).getD 0 }
  else .ub

section
variable [Add V] [Mul V] [Lit V]

/-- `xcfun_set` (XCFunctional.cpp:369-405), every level of the recursion calling `xcint_assure_setup` (370). -/
def Tables.setFuel : ℕ → Tables → State V → String → V → Outcome (ℤ × State V × Tables)
  | 0, _, _, _, _ => .diverge
  | fuel + 1, t, s, name, value =>
    let t := assureSetup t
    do
      match ← t.lookupFun name with
      | some item => do
        let s ← t.setFunctional s item value
        pure (0, s, t)
      | none =>
        match ← t.lookupPar name with
        | some item => pure (0, setParameter s item value, t)
        | none =>
          match lookupAlias name with
          | some item => do
            let terms := ((aliases[item]?).map AliasData.terms).getD []
            let r ← (terms.take MAX_ALIAS_TERMS).foldlM (init := (s, t)) fun st a => do
              let (rc, s, t) ← Tables.setFuel fuel st.2 st.1 a.name (value * lit a.mant a.exp)
              if rc ≠ 0 then .die else pure (s, t)
            pure (0, r.1, r.2)
          | none => pure (-1, s, t)

end

/-- `xcfun_get` (XCFunctional.cpp:407-418): return code, the value stored through the pointer (if any). -/
def Tables.get (t : Tables) (s : State V) (name : String) : Outcome ((ℤ × Option V) × Tables) :=
  let t := assureSetup t
  do
    match ← t.lookupFun name with
    | some item => pure ((0, some (s.settings item)), t)
    | none =>
      match ← t.lookupPar name with
      | some item => pure ((0, some (s.settings item)), t)
      | none => pure ((-1, none), t)

/-- `xcfun_enumerate_parameters` (XCFunctional.cpp:302-311) -/
def Tables.enumerateParameters (t : Tables) (n : ℤ) : Outcome (Option String × Tables) :=
  let t := assureSetup t
  if 0 ≤ n ∧ n < NR_FUNCTIONALS then .ok ((t.funTab n.toNat).map FunData.name, t)
  else if n < NR_PARAMETERS_AND_FUNCTIONALS then
    if n < 0 then .ub else .ok ((t.parTab n.toNat).map ParamData.name, t)
  else .ok (none, t)

/-- `xcfun_describe_short` (XCFunctional.cpp:322-334) and, with `long`, `xcfun_describe_long` (336-348) -/
def Tables.describe (t : Tables) (long : Bool) (name : String) : Outcome (Option Desc × Tables) :=
  let t := assureSetup t
  do
    match ← t.lookupFun name with
    | some k => pure (some (if long then .funLong k else .funShort k), t)
    | none =>
      match ← t.lookupPar name with
      | some k => pure (some (.param k), t)
      | none => pure ((lookupAlias name).map .alias, t)

/-! ### The process -/

/-- The tables and the live objects by address. -/
structure Proc (V : Type) where
  tabs : Tables
  heap : ℕ → Option (State V)

/-- Program start. -/
def Proc.start : Proc V := ⟨.zero, fun _ => none⟩

/-- A call on an object, with its arguments.  Buffers are passed by value: the caller owns them.  `junk` is the content of
    uninitialised automatic storage during the call. -/
inductive ObjCall (V : Type) where
  | set (name : String) (value : V)
  | get (name : String)
  | isGga
  | isMetagga
  | evalSetup (vars mode order : ℤ)
  | userEvalSetup (order : ℤ) (func dens mode lap kin cur expl : ℕ)
  | inputLength
  | outputLength
  | eval (junk : Junk V) (input output : List V)
  | evalVec (junk : Junk V) (n : ℤ) (density : List V) (dBase dPitch : ℤ) (result : List V) (rBase rPitch : ℤ)

/-- What a call hands back to the caller: return value and contents of the buffers written through pointers. -/
inductive Ret (V : Type) where
  | unit
  | code (c : ℤ)
  | value (c : ℤ) (v : Option V)
  | bool (b : Bool)
  | buffer (l : List V)
  | name (s : Option String)
  | desc (d : Option Desc)
  | ptr (p : Option ℕ)
  | vars (v : Vars)
  deriving DecidableEq

section
variable [Zero V] [One V] [Add V] [Sub V] [Mul V] [Lit V]

/-- A call on an object (XCFunctional.cpp:369-806); `xcfun_get`, the queries and evaluation take it by pointer to const. -/
def objStep (K : Kernel V) (t : Tables) (s : State V) : ObjCall V → Outcome (Ret V × State V × Tables)
  | .set name v => do let r ← Tables.setFuel 2 t s name v; pure (.code r.1, r.2.1, r.2.2)
  | .get name => do let r ← t.get s name; pure (.value r.1.1 r.1.2, s, r.2)
  | .isGga => .ok (.bool (XCFun.isGga s), s, t)
  | .isMetagga => .ok (.bool (XCFun.isMetagga s), s, t)
  | .evalSetup v m o => do let r ← XCFun.evalSetup s v m o; pure (.code r.1, r.2, t)
  | .userEvalSetup o f d m l k c e => do let r ← XCFun.userEvalSetup s o f d m l k c e; pure (.code r.1, r.2, t)
  | .inputLength => do let n ← XCFun.inputLength s; pure (.code n, s, t)
  | .outputLength => do let n ← XCFun.outputLength s; pure (.code n, s, t)
  | .eval junk input output => do let o ← xcfunEval K junk s input output; pure (.buffer o, s, t)
  | .evalVec junk n d db dp r rb rp => do
    let o ← xcfunEvalVec K junk s n d db dp r rb rp
    pure (.buffer o, s, t)

/-- The C entry points of api/xcfun.h (XCFunctional.cpp:50-348, 809-877; not `xcfun_test`). -/
inductive Op (V : Type) where
  /-- `xcfun_new`; the address is the allocator's choice, `none` if there is no memory -/
  | new (addr : Option ℕ)
  /-- `xcfun_delete`; `none` is a null pointer -/
  | delete (p : Option ℕ)
  /-- a call on an object; `none` is a null pointer -/
  | call (p : Option ℕ) (c : ObjCall V)
  | enumerateParameters (n : ℤ)
  | enumerateAliases (n : ℤ)
  | describeShort (name : String)
  | describeLong (name : String)
  | whichVars (func dens lap kin cur expl : ℕ)
  | whichMode (m : ℕ)
  /-- `xcfun_version`, `xcfun_splash`, `xcfun_authors`, `xcfun_is_compatible_library`: constants -/
  | info

/-- One entry point.
* `xcfun_new` (XCFunctional.cpp:358-361): `operator new` yields an address that is not in use (anything else is outside
  of the language: `ub`) or throws, which nothing catches (`die`);
* `xcfun_delete` (363-367): a null pointer is ignored, a dangling one is undefined;
* every other call dereferences the object pointer. -/
def opStep (K : Kernel V) (w : Proc V) : Op V → Outcome (Ret V × Proc V)
  | .new addr =>
    let t := assureSetup w.tabs
    match addr with
    | none => .die
    | some a =>
      match w.heap a with
      | some _ => .ub
      | none => .ok (.ptr (some a), ⟨t, upd w.heap a (some t.construct)⟩)
  | .delete none => .ok (.unit, w)
  | .delete (some p) =>
    match w.heap p with
    | none => .ub
    | some _ => .ok (.unit, ⟨w.tabs, upd w.heap p none⟩)
  | .call none _ => .ub
  | .call (some p) c =>
    match w.heap p with
    | none => .ub
    | some s => do
      let r ← objStep K w.tabs s c
      pure (r.1, ⟨r.2.2, upd w.heap p (some r.2.1)⟩)
  | .enumerateParameters n => do
    let r ← w.tabs.enumerateParameters n
    pure (.name r.1, ⟨r.2, w.heap⟩)
  | .enumerateAliases n => .ok (.name (XCFun.enumerateAliases n), w)
  | .describeShort name => do
    let r ← w.tabs.describe false name
    pure (.desc r.1, ⟨r.2, w.heap⟩)
  | .describeLong name => do
    let r ← w.tabs.describe true name
    pure (.desc r.1, ⟨r.2, w.heap⟩)
  | .whichVars f d l k c e => do let v ← XCFun.whichVars f d l k c e; pure (.vars v, w)
  | .whichMode m => do let c ← XCFun.whichMode m; pure (.code c, w)
  | .info => .ok (.unit, w)

/-- A sequence of entry points; the results in order. -/
def opRun (K : Kernel V) : Proc V → List (Op V) → Outcome (List (Ret V) × Proc V)
  | w, [] => .ok ([], w)
  | w, o :: os => do
    let r ← opStep K w o
    let q ← opRun K r.2 os
    pure (r.1 :: q.1, q.2)

end
end XCFun
