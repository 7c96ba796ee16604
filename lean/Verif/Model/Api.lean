import Verif.Model.Outcome
import Verif.Model.Vars
import Verif.Model.Names
import Verif.Model.Taylorlen

/-!
# The object state and the API calls other than evaluation

`src/XCFunctional.cpp:126-491`.  Everything is generic in the type `V` of doubles: only the operations the code uses
are assumed (`+`, `*`, decimal literals), and no algebraic law about them, so the results hold for IEEE arithmetic.
-/

namespace XCFun

/-- Decimal floating-point literals: `lit m e` is the literal with value `m / 10^e`. -/
class Lit (V : Type _) where
  lit : Int → Nat → V

export Lit (lit)

/-- `struct XCFunctional`, `src/XCFunctional.hpp:26-36`.
* `active`: the first `nr_active_functionals` entries of `active_functionals`, as functional ids (the array holds
  pointers `&xcint_funs[id]`, one per id); the C array has capacity `XC_NR_FUNCTIONALS`;
* `vars = none` is `XC_VARS_UNSET`;
* `settings`: the array of `XC_NR_PARAMETERS_AND_FUNCTIONALS` doubles (indices from 82 on are never accessed). -/
structure State (V : Type _) where
  active : List Nat
  order : Int
  depends : Nat
  mode : Int
  vars : Option Vars
  settings : Nat → V

variable {V : Type _}

section
variable [Lit V]

/-- Default of a parameter: `xcint_params[i].default_value`, `src/functionals/common_parameters.cpp:17-29`. -/
def paramDefault (i : Nat) : V :=
  match params[i - NR_FUNCTIONALS]? with
  | some p => lit p.mant p.exp
  | none => lit 0 0

/-- `XCFunctional::XCFunctional`, `src/XCFunctional.cpp:350-355` with the member initialisers of
`src/XCFunctional.hpp:29-35`. -/
def State.init : State V where
  active := []
  order := -1
  depends := 0
  mode := MODE_UNSET
  vars := none
  settings := fun i => if i < NR_FUNCTIONALS then lit 0 0 else paramDefault i

end

/-- Assignment to one array element. -/
def upd {α : Type _} (f : Nat → α) (i : Nat) (x : α) : Nat → α :=
  fun j => if j = i then x else f j

/-- `xcint_funs[item].depends`, `src/functionals/*.cpp`. -/
def dependsOf (item : Nat) : Nat := ((funs[item]?).map FunData.depends).getD 0

section
variable [Add V]

/-- The functional branch of `xcfun_set`, `src/XCFunctional.cpp:372-386`.  Appending to a full
`active_functionals` array would be an out-of-range write. -/
def setFunctional (s : State V) (item : Nat) (value : V) : Outcome (State V) :=
  let s := { s with settings := upd s.settings item (s.settings item + value) }
  if item ∈ s.active then .ok s
  else if s.active.length < NR_FUNCTIONALS then
    .ok { s with active := s.active ++ [item], depends := s.depends ||| dependsOf item }
  else .ub

end

/-- The parameter branch of `xcfun_set`, `src/XCFunctional.cpp:387-389`. -/
def setParameter (s : State V) (item : Nat) (value : V) : State V :=
  { s with settings := upd s.settings item value }

section
variable [Add V] [Mul V] [Lit V]

/-- `xcfun_set`, `src/XCFunctional.cpp:369-405`, including the recursion through aliases (`:390-402`).
`fuel` bounds the recursion depth; running out of it is `Outcome.diverge`. -/
def xcfunSetFuel : Nat → State V → String → V → Outcome (Int × State V)
  | 0, _, _, _ => .diverge
  | fuel + 1, s, name, value =>
    match lookupFunctional name with
    | some item => do
      let s ← setFunctional s item value
      pure (0, s)
    | none =>
      match lookupParameter name with
      | some item => pure (0, setParameter s item value)
      | none =>
        match lookupAlias name with
        | some item => do
          let terms := ((aliases[item]?).map AliasData.terms).getD []
          let s ← (terms.take MAX_ALIAS_TERMS).foldlM (init := s) fun s t => do
            let (rc, s) ← xcfunSetFuel fuel s t.name (value * lit t.mant t.exp)
            if rc ≠ 0 then .die else pure s
          pure (0, s)
        | none => pure (-1, s)

/-- `xcfun_set` itself.  Two levels of recursion are enough: see `C03_set_terminates` (more fuel never changes the
outcome). -/
def xcfunSet (s : State V) (name : String) (value : V) : Outcome (Int × State V) :=
  xcfunSetFuel 2 s name value

end

/-- `xcfun_get`, `src/XCFunctional.cpp:407-418`: return code and the value stored through the pointer (if any). -/
def xcfunGet (s : State V) (name : String) : Int × Option V :=
  match lookupFunctional name with
  | some item => (0, some (s.settings item))
  | none =>
    match lookupParameter name with
    | some item => (0, some (s.settings item))
    | none => (-1, none)

/-- `xcfun_is_gga`, `src/XCFunctional.cpp:420` -/
def isGga (s : State V) : Bool := (s.depends &&& GRADIENT) != 0

/-- `xcfun_is_metagga`, `src/XCFunctional.cpp:422-424` -/
def isMetagga (s : State V) : Bool := (s.depends &&& (LAPLACIAN ||| KINETIC)) != 0

/-- `XC_EORDER`, `src/XCFunctional.hpp:40` -/
def EORDER : Int := 1
/-- `XC_EVARS`, `src/XCFunctional.hpp:43` -/
def EVARS : Int := 2
/-- `XC_EMODE`, `src/XCFunctional.hpp:46` -/
def EMODE : Int := 4
/-- `XC_EVARS | XC_EMODE`, `src/XCFunctional.cpp:442` -/
def EVARS_EMODE : Int := 6

/-- The four Taylor variable sets tested at `src/XCFunctional.cpp:440-441`. -/
def isTaylorVars (v : Vars) : Bool :=
  v == .A_2ND_TAYLOR || v == .A_B_2ND_TAYLOR || v == .N_2ND_TAYLOR || v == .N_S_2ND_TAYLOR

/-- `xcfun_eval_setup` for a valid enumerator, `src/XCFunctional.cpp:430-451`. -/
def evalSetupVars (s : State V) (vars : Vars) (mode order : Int) : Int × State V :=
  if (s.depends &&& vars.provides) ≠ s.depends then (EVARS, s)
  else if (order < 0 ∨ order > MAX_ORDER) ∨ (mode = PARTIAL_DERIVATIVES ∧ order > 4) then (EORDER, s)
  else if mode = POTENTIAL ∧ (s.depends &&& GRADIENT) ≠ 0 ∧ !isTaylorVars vars then (EVARS_EMODE, s)
  else if mode = POTENTIAL ∧ (s.depends &&& (LAPLACIAN ||| KINETIC)) ≠ 0 then (EMODE, s)
  else (0, { s with mode := mode, vars := some vars, order := order })

/-- `xcfun_eval_setup`, `src/XCFunctional.cpp:426-452`.  `xcint_vars[vars]` (`:431`) is read before any check, so an
int that is not one of the 31 enumerators is an out-of-range read. -/
def evalSetup (s : State V) (vars mode order : Int) : Outcome (Int × State V) :=
  match Vars.ofCode vars with
  | some v => .ok (evalSetupVars s v mode order)
  | none => .ub

/-- The `switch` of `xcfun_which_vars`, `src/XCFunctional.cpp:177-273`. -/
def decodeVars : Nat → Option Vars
  | 0 => some .A
  | 16 => some .N
  | 32 => some .A_B
  | 48 => some .N_S
  | 64 => some .A_GAA
  | 65 => some .A_AX_AY_AZ
  | 80 => some .N_GNN
  | 81 => some .N_NX_NY_NZ
  | 96 => some .A_B_GAA_GAB_GBB
  | 97 => some .A_B_AX_AY_AZ_BX_BY_BZ
  | 112 => some .N_S_GNN_GNS_GSS
  | 113 => some .N_S_NX_NY_NZ_SX_SY_SZ
  | 132 => some .A_GAA_TAUA
  | 133 => some .A_AX_AY_AZ_TAUA
  | 136 => some .A_GAA_LAPA
  | 148 => some .N_GNN_TAUN
  | 149 => some .N_NX_NY_NZ_TAUN
  | 152 => some .N_GNN_LAPN
  | 164 => some .A_B_GAA_GAB_GBB_TAUA_TAUB
  | 165 => some .A_B_AX_AY_AZ_BX_BY_BZ_TAUA_TAUB
  | 168 => some .A_B_GAA_GAB_GBB_LAPA_LAPB
  | 172 => some .A_B_GAA_GAB_GBB_LAPA_LAPB_TAUA_TAUB
  | 174 => some .A_B_GAA_GAB_GBB_LAPA_LAPB_TAUA_TAUB_JPAA_JPBB
  | 180 => some .N_S_GNN_GNS_GSS_TAUN_TAUS
  | 181 => some .N_S_NX_NY_NZ_SX_SY_SZ_TAUN_TAUS
  | 184 => some .N_S_GNN_GNS_GSS_LAPN_LAPS
  | 188 => some .N_S_GNN_GNS_GSS_LAPN_LAPS_TAUN_TAUS
  | 192 => some .A_2ND_TAYLOR
  | 208 => some .N_2ND_TAYLOR
  | 224 => some .A_B_2ND_TAYLOR
  | 240 => some .N_S_2ND_TAYLOR
  | _ => none

/-- `xcfun_which_vars`, `src/XCFunctional.cpp:131-277`.  The arguments are `unsigned int`s (any natural number
here).  After the range check the shifts and sums stay below 256. -/
def whichVars (func dens lap kin cur expl : Nat) : Outcome Vars :=
  if func > 3 ∨ dens > 3 ∨ lap > 1 ∨ kin > 1 ∨ cur > 1 ∨ expl > 1 then .die
  else
    match decodeVars (func <<< 6 + dens <<< 4 + lap <<< 3 + kin <<< 2 + cur <<< 1 + expl) with
    | some v => .ok v
    | none => .die

/-- `xcfun_which_mode`, `src/XCFunctional.cpp:279-300`. -/
def whichMode (m : Nat) : Outcome Int :=
  if m > 3 then .die
  else if m = 1 then .ok PARTIAL_DERIVATIVES
  else if m = 2 then .ok POTENTIAL
  else if m = 3 then .ok CONTRACTED
  else .die

/-- `xcfun_user_eval_setup`, `src/XCFunctional.cpp:454-467`. -/
def userEvalSetup (s : State V) (order : Int) (func dens mode lap kin cur expl : Nat) : Outcome (Int × State V) := do
  let v ← whichVars func dens lap kin cur expl
  let m ← whichMode mode
  evalSetup s v.code m order

/-- `xcfun_input_length`, `src/XCFunctional.cpp:469-471`: no guard, so unset variables index `xcint_vars[-1]`. -/
def inputLength (s : State V) : Outcome Int :=
  match s.vars with
  | some v => .ok v.len
  | none => .ub

/-- `xcfun_output_length`, `src/XCFunctional.cpp:473-491`. -/
def outputLength (s : State V) : Outcome Int :=
  if s.mode = MODE_UNSET then .die
  else match s.vars with
    | none => .die
    | some v =>
      if s.order = -1 then .die
      else if s.mode = PARTIAL_DERIVATIVES then taylorlen v.len s.order
      else if s.mode = POTENTIAL then
        if v = .A ∨ v = .A_2ND_TAYLOR then .ok 2 else .ok 3
      else .die

/-- `xcfun_enumerate_parameters`, `src/XCFunctional.cpp:302-311`: `some none` is a null pointer.  A negative argument
passes the second test and indexes `xcint_params` out of range. -/
def enumerateParameters (n : Int) : Outcome (Option String) :=
  if 0 ≤ n ∧ n < NR_FUNCTIONALS then .ok ((funs[n.toNat]?).map FunData.name)
  else if n < NR_PARAMETERS_AND_FUNCTIONALS then
    if n < 0 then .ub else .ok ((params[n.toNat - NR_FUNCTIONALS]?).map ParamData.name)
  else .ok none

/-- `xcfun_enumerate_aliases`, `src/XCFunctional.cpp:313-320`; entries 46..59 of the table have null names. -/
def enumerateAliases (n : Int) : Option String :=
  if 0 ≤ n ∧ n < MAX_ALIASES then (aliases[n.toNat]?).map AliasData.name else none

/-- Which description string is returned: the field and the index of the table entry. -/
inductive Desc where
  | funShort (i : Nat)
  | funLong (i : Nat)
  | param (i : Nat)
  | alias (i : Nat)
  deriving Repr, DecidableEq

/-- `xcfun_describe_short`, `src/XCFunctional.cpp:322-334`; `none` is a null pointer. -/
def describeShort (name : String) : Option Desc :=
  match lookupFunctional name with
  | some k => some (.funShort k)
  | none =>
    match lookupParameter name with
    | some k => some (.param k)
    | none => (lookupAlias name).map .alias

/-- `xcfun_describe_long`, `src/XCFunctional.cpp:336-348`; `none` is a null pointer. -/
def describeLong (name : String) : Option Desc :=
  match lookupFunctional name with
  | some k => some (.funLong k)
  | none =>
    match lookupParameter name with
    | some k => some (.param k)
    | none => (lookupAlias name).map .alias

end XCFun
