/-
The C programs that come with the library: examples/C_host/example.c and examples/C_host/funeval.c.

Conversions of text to numbers by `sscanf` are parameters, and the standard input is the list of the numbers that `scanf` would read before it fails for the first
time.  What has been written before the process is aborted by the library is not recorded.
-/
import Verif.Model.Programs
import Verif.Model.Funeval

namespace XCFun

variable {V : Type}

/-! ### examples/C_host/example.c -/

section
variable [Zero V] [One V] [Add V] [Sub V] [Mul V] [Lit V] (K : Kernel V)

/-- `main` (example.c:22-45): the numbers printed and the return value.  The return codes of `xcfun_set` and `xcfun_eval_setup` are not looked at.  `buf` is the
memory returned by `malloc` (35), `none` if there is not enough. -/
def cExampleMain (junk : Junk V) (buf : Option (ℕ → V)) (p : ℕ) : Prog V (ℤ × List V) := do
  Prog.new K p
  let _ ← Prog.int (Prog.call K p (.set "blyp" (lit 9 1)))
  let _ ← Prog.int (Prog.call K p (.set "pbec" (lit 1 1)))
  let _ ← Prog.int (Prog.call K p (.evalSetup Vars.A_B_AX_AY_AZ_BX_BY_BZ.code PARTIAL_DERIVATIVES 1))
  let nout ← Prog.int (Prog.call K p .outputLength)
  match buf with
  | none => Prog.ofOutcome .ub
  | some buf =>
    let output ← Prog.buffer (Prog.call K p (.eval junk [lit 1 0, lit 21 1, lit 11 1, lit 12 1, lit 13 1, lit 14 1, lit 15 1, lit 16 1]
      ((List.range nout.toNat).map buf)))
    Prog.delete K p
    return (0, output)

/-! ### examples/C_host/funeval.c -/

/-- What funeval writes to the standard streams. -/
inductive Line (V : Type) where
  /-- funeval.c:116 -/
  | usage
  /-- 77, 88: nothing after `--order`, `--rep` -/
  | noInteger (option : String)
  /-- 81, 92 -/
  | badInteger (option text : String)
  /-- 102 -/
  | noNumber (name : String)
  /-- 107 -/
  | badWeight (text : String)
  /-- 122 -/
  | setupError (code : ℤ)
  /-- 128-131 -/
  | header (mode order outputLength nvar : ℤ)
  /-- 140 -/
  | readError
  /-- 149-155 -/
  | table (rows : List (List ℕ × V))
  /-- 157-159 -/
  | values (l : List V)

/-- The local variables of `main` (55-58). -/
structure FunevalOpts where
  mode : ℤ := Vars.A_B.code
  quiet : Bool := false
  order : ℤ := 1
  rep : ℤ := 1
  deriving DecidableEq

/-- Surroundings of the program: `sscanf` with the formats `%i` and `%lf`; whether the standard input ends after its numbers (otherwise something that is no number
follows); for every round of the loop whether there is memory, what the arrays `out` and `m` contain when they have been allocated, and, for every evaluation, the
contents of uninitialised automatic storage. -/
structure FunevalEnv (V : Type) where
  scanInt : String → Option ℤ
  scanNum : String → Option V
  eof : Bool
  alloc : ℕ → Bool
  out : ℕ → ℕ → V
  m : ℕ → ℕ → ℕ
  junk : ℕ → ℕ → Junk V

variable (E : FunevalEnv V) (p : ℕ)

/-- The loop over the arguments (61-114), `argv[argc]` being a null pointer: options, or the message before `return EXIT_FAILURE`.
The return code of `xcfun_set` (111) is not looked at. -/
def funevalArgs : List String → FunevalOpts → Prog V (Except (Line V) FunevalOpts)
  | [], o => return .ok o
  | a :: rest, o =>
    if a = "--quiet" then funevalArgs rest { o with quiet := true }
    else if a = "--ns" then funevalArgs rest { o with mode := Vars.N_S.code }
    else if a = "--n" then funevalArgs rest { o with mode := Vars.N.code }
    else if a = "--ngnn" then funevalArgs rest { o with mode := Vars.N_GNN.code }
    else if a = "--ngnntaun" then funevalArgs rest { o with mode := Vars.N_GNN_TAUN.code }
    else if a = "--ab" then funevalArgs rest { o with mode := Vars.A_B.code }
    else if a = "--order" then
      match rest with
      | [] => return .error (.noInteger a)
      | b :: rest =>
        match E.scanInt b with
        | none => return .error (.badInteger a b)
        | some k => funevalArgs rest { o with order := k }
    else if a = "--rep" then
      match rest with
      | [] => return .error (.noInteger a)
      | b :: rest =>
        match E.scanInt b with
        | none => return .error (.badInteger a b)
        | some k => funevalArgs rest { o with rep := k }
    else
      match rest with
      | [] => return .error (.noNumber a)
      | b :: rest =>
        match E.scanNum b with
        | none => return .error (.badWeight b)
        | some x => do
          let _ ← Prog.int (Prog.call K p (.set a x))
          funevalArgs rest o

/-- The loop `for (i = 0; i < rep_times; i++)` (144-145), from `i = k`. -/
def funevalRepeat (junk : ℕ → Junk V) (inp : List V) : (cnt k : ℕ) → List V → Prog V (List V)
  | 0, _, out => return out
  | cnt + 1, k, out => do
    let out ← Prog.buffer (Prog.call K p (.eval (junk k) inp out))
    funevalRepeat junk inp cnt (k + 1) out

/-- Output for one point (146-160).  Without an evaluation the array `out` has never been written (`rep_times ≤ 0`). -/
def funevalPrint (o : FunevalOpts) (nvar : ℤ) (out : List V) (m : ℕ → ℕ) : Outcome (List (Line V)) :=
  if o.rep ≤ 0 then .ub
  else if o.quiet then .ok [.values out]
  else do
    let t ← printTable nvar.toNat out m
    .ok [.table t]

/-- The endless loop (126-164), round `k`, at most `fuel` rounds: return value and text. -/
def funevalLoop (o : FunevalOpts) (nvar : ℤ) : (fuel k : ℕ) → List V → Prog V (ℤ × List (Line V))
  | 0, _, _ => Prog.ofOutcome .diverge
  | fuel + 1, k, input => do
    let nout ← Prog.int (Prog.call K p .outputLength)
    let nin ← Prog.int (Prog.call K p .inputLength)
    let header : List (Line V) := if o.quiet then [] else [.header o.mode o.order nout nvar]
    if E.alloc k then
      if input.length < nin.toNat then
        return (1, header ++ if !o.quiet && !E.eof then [.readError] else [])
      else
        let out ← funevalRepeat K p (E.junk k) (input.take nin.toNat) o.rep.toNat 0 ((List.range nout.toNat).map (E.out k))
        let lines ← Prog.ofOutcome (funevalPrint o nvar out (E.m k))
        let r ← funevalLoop o nvar fuel (k + 1) (input.drop nin.toNat)
        return (r.1, header ++ lines ++ r.2)
    else Prog.ofOutcome .ub

/-- `main` (53-169); `args` are `argv[1]`, …, `argv[argc - 1]`.  In every round at least one number is read (all variable sets have a variable), so that
`input.length + 1` rounds are enough. -/
def funevalMain (args : List String) (input : List V) : Prog V (ℤ × List (Line V)) := do
  Prog.new K p
  match args with
  | [] => return (0, [.usage])
  | a :: args => do
    match ← funevalArgs K E p (a :: args) {} with
    | .error l => return (1, [l])
    | .ok o => do
      let res ← Prog.int (Prog.call K p (.evalSetup o.mode PARTIAL_DERIVATIVES o.order))
      if res ≠ 0 then return (1, [.setupError res])
      else do
        let nvar ← Prog.int (Prog.call K p .inputLength)
        funevalLoop K E p o nvar (input.length + 1) 0 input

end
end XCFun
