/-
Programs that come with the library: examples/CXX_host/example.cpp, examples/Fortran_host/example.f90 and tests/testall.cpp.

Text written to the standard streams is not modelled, except for the complaints of example.cpp, which are its only way to report.
`xcfun_splash` of the Fortran module, called in example.f90:80 for its text, is treated in Model/Fortran (`textHandler`).
-/
import Verif.Model.SelfTest
import Verif.Model.Fortran

namespace XCFun

variable {V : Type}

/-- A program: it changes the process and either returns or calls `exit` with a code. -/
def Prog (V α : Type) : Type := Proc V → Outcome (Except ℤ α × Proc V)

namespace Prog
variable {α β : Type}

def pure (a : α) : Prog V α := fun w => .ok (.ok a, w)

/-- One statement after another; nothing is executed after `exit`. -/
def bind (m : Prog V α) (f : α → Prog V β) : Prog V β := fun w => do
  let r ← m w
  match r.1 with
  | .ok a => f a r.2
  | .error e => .ok (.error e, r.2)

instance : Monad (Prog V) where
  pure := pure
  bind := bind

/-- `exit(code)` -/
def exit (code : ℤ) : Prog V α := fun w => .ok (.error code, w)

/-- A step whose outcome does not concern the process. -/
def ofOutcome (x : Outcome α) : Prog V α := fun w => do let a ← x; Outcome.ok (.ok a, w)

section
variable [Zero V] [One V] [Add V] [Sub V] [Mul V] [Lit V] (K : Kernel V)

/-- `xcfun_new()` with the allocator's choice. -/
def new (a : ℕ) : Prog V Unit := fun w => do
  let r ← opStep K w (.new (some a))
  Outcome.ok (.ok (), r.2)

/-- `xcfun_delete(fun)` -/
def delete (p : ℕ) : Prog V Unit := fun w => do
  let r ← opStep K w (.delete (some p))
  Outcome.ok (.ok (), r.2)

/-- A call on the object at `p`. -/
def call (p : ℕ) (c : ObjCall V) : Prog V (Ret V) := fun w => do
  let r ← opStep K w (.call (some p) c)
  Outcome.ok (.ok r.1, r.2)

/-- An integer result; no other calls are passed to it. -/
def int (m : Prog V (Ret V)) : Prog V ℤ := do
  match ← m with
  | .code c => return c
  | _ => ofOutcome .ub

/-- The array written by `xcfun_eval`. -/
def buffer (m : Prog V (Ret V)) : Prog V (List V) := do
  match ← m with
  | .buffer l => return l
  | _ => ofOutcome .ub

/-- The return code and the value of `xcfun_get`. -/
def value (m : Prog V (Ret V)) : Prog V (ℤ × Option V) := do
  match ← m with
  | .value c v => return (c, v)
  | _ => ofOutcome .ub

end
end Prog

/-- `fabs` and `<` on doubles. -/
structure Order (V : Type) where
  abs : V → V
  lt : V → V → Bool

section
variable [Zero V] [One V] [Add V] [Sub V] [Mul V] [Lit V] (K : Kernel V) (O : Order V)

/-- `xcfun_test()` (testall.cpp:208, example.f90:70) with memory for all its objects. -/
def runSelfTest (far : V → V → V → Bool) (junk : ℕ → Junk V) (buf : ℕ → ℕ → V) (addr : ℕ → ℕ) : Prog V ℕ := fun w => do
  let r ← xcfunTest K far junk buf (fun f => some (addr f)) w
  Outcome.ok (.ok r.1, r.2)

/-! ### examples/CXX_host/example.cpp -/

/-- What the program reports (example.cpp:59, 73, 93). -/
inductive Complaint where
  | nameNotRecognized
  | setupFailed
  | mismatch
  deriving DecidableEq

/-- `derivative` (example.cpp:267-289): `inp_array[n++] = density[k][j][i]` for `j < 4`, `k < vector_length`, one grid point. -/
def exDerivative (junk : Junk V) (p : ℕ) (vectorLength : ℕ) (density : List (List V)) : Prog V V := do
  let inp ← Prog.ofOutcome <| (List.range (4 * vectorLength)).mapM fun n => do
    let row ← rdBuf density (n % vectorLength)
    rdBuf row (n / vectorLength)
  let out ← Prog.buffer (Prog.call K p (.eval junk inp (List.replicate vectorLength 0)))
  Prog.ofOutcome (rdBuf out (vectorLength - 1))

/-- One of the five blocks (example.cpp:64-94, 99-127, 135-162, 166-201, 205-257); `density[k][j]` as in the block. -/
def exBlock (junk : Junk V) (p : ℕ) (order : ℕ) (density : List (List V)) (ref : V) : Prog V (List Complaint) := do
  let ierr ← Prog.int (Prog.call K p (.evalSetup Vars.N_NX_NY_NZ.code CONTRACTED order))
  let res ← exDerivative K junk p (2 ^ order) density
  return (if ierr ≠ 0 then [.setupFailed] else []) ++ (if O.lt (lit 1 6) (O.abs (ref - res)) then [.mismatch] else [])

/-- A row of small integers. -/
def row (l : List ℤ) : List V := l.map fun m => lit m 0

/-- `main` (example.cpp:45-264) on an allocator that places the object at `p`; `junk k` is uninitialised storage during block `k`. -/
def exampleMain (junk : ℕ → Junk V) (p : ℕ) : Prog V (List Complaint) := do
  Prog.new K p
  let ierr ← Prog.int (Prog.call K p (.set "pbe" (lit 1 0)))
  let c0 : List Complaint := if ierr ≠ 0 then [.nameNotRecognized] else []
  let c1 ← exBlock K O (junk 1) p 0 [row [1, 2, 3, 4]] (lit (-86494159400066051) 17)
  let c2 ← exBlock K O (junk 2) p 1 [row [1, 2, 3, 4], row [5, 6, 7, 8]] (lit (-51509916226154067) 16)
  let c3 ← exBlock K O (junk 3) p 1 [row [1, 2, 3, 4], row [0, 0, 1, 0]] (lit (-13470456737102541) 18)
  let c4 ← exBlock K O (junk 4) p 2 [row [1, 2, 3, 4], row [5, 6, 7, 8], row [5, 6, 7, 8], row [0, 0, 0, 0]]
    (lit (-94927931153398468) 16)
  let c5 ← exBlock K O (junk 5) p 3 [row [1, 2, 3, 4], row [5, 6, 7, 8], row [9, 10, 11, 12], row [5, 6, 7, 8], row [9, 10, 11, 12],
    row [5, 6, 7, 8], row [9, 10, 11, 12], row [0, 0, 0, 0]] (lit 47091223089835331 15)
  Prog.delete K p
  return c0 ++ c1 ++ c2 ++ c3 ++ c4 ++ c5

/-! ### examples/Fortran_host/example.f90 -/

/-- `assert` (example.f90:402-412): `stop 1` -/
def fAssert (cond : Bool) : Prog V Unit := if cond then pure () else Prog.exit 1

/-- A Fortran string on its way to the library (api/xcfun.f90:383-399). -/
def fName (s : String) : Prog V String := Prog.ofOutcome (cString (fstringToCarray s))

/-- `xcfun_eval_vec` of the module on the object at `p` (api/xcfun.f90:470-484). -/
def fEvalVecAt (junk : Junk V) (p : ℕ) (n : ℤ) (density res : FArray V) : Prog V (List V) :=
  if density.cols = 0 ∨ res.cols = 0 then Prog.ofOutcome .ub
  else Prog.buffer (Prog.call K p (.evalVec junk n density.flat 0 density.rows res.flat 0 res.rows))

/-- `derivative` (example.f90:361-399); `density[k][j]` is `density(k+1, j+1, 1)`; `buf` holds what `allocate` leaves in `output_array`.  The
generic `xcfun_eval` with four arguments is `xcfun_eval_vec` (api/xcfun.f90:246-256). -/
def fDerivative (junk : Junk V) (buf : ℕ → V) (p : ℕ) (vectorLength : ℕ) (density : List (List V)) : Prog V V := do
  let inp ← Prog.ofOutcome <| (List.range (4 * vectorLength)).mapM fun n => do
    let row ← rdBuf density (n % vectorLength)
    rdBuf row (n / vectorLength)
  let out ← fEvalVecAt K junk p 1 ⟨4 * vectorLength, 1, fun i _ => inp.getD i 0⟩ ⟨vectorLength, 1, fun i _ => buf i⟩
  Prog.ofOutcome (rdBuf out (vectorLength - 1))

/-- `xcfun_eval_setup` and its `assert` (example.f90:109-110, 141-142, 208-209, 250-251, 321-323). -/
def fSetup (p : ℕ) (vars mode order : ℤ) : Prog V Unit := do
  let ierr ← Prog.int (Prog.call K p (.evalSetup vars mode order))
  fAssert (ierr = 0)

/-- A call of `derivative` and the comparison (example.f90:112-133, 144-168, 178-201, 211-243, 253-301). -/
def fCompare (junk : Junk V) (buf : ℕ → V) (p : ℕ) (order : ℕ) (density : List (List V)) (ref : V) : Prog V Unit := do
  let res ← fDerivative K junk buf p (2 ^ order) density
  fAssert (O.lt (O.abs (ref - res)) (lit 1 6))

/-- `dens` (example.f90:331-336) -/
def fDens : FArray V :=
  ⟨5, 5, fun i j => if i < 2 then lit 1 1 * lit (j + 1) 0 * lit 5 1 else lit 1 1 * lit (j + 1) 0 * lit 25 2⟩

/-- `vrho_ref` (example.f90:65-66) -/
def vrhoRef : List V := [lit (-41114303) 8, lit (-54041968) 8, lit (-63521105) 8, lit (-70819636) 8, lit (-76829536) 8]
/-- `vsig_ref` (example.f90:67-68) -/
def vsigRef : List V := [lit (-10299851) 8, lit (-59386172) 9, lit (-38032091) 9, lit (-26939729) 9, lit (-20408009) 9]

/-- `diff=pots(row,:)-ref(:)` and `dot_product(diff,diff)` (example.f90:345-348); `pots` has `len` rows, `row` counts from 0. -/
def fDeviation (pots : List V) (len row : ℕ) (ref : List V) : Outcome V := do
  let diff ← (List.range 5).mapM fun j => do
    let x ← rdBuf pots (j * len + row)
    let r ← rdBuf ref j
    pure (x - r)
  pure (diff.foldl (fun a d => a + d * d) (lit 0 0))

/-- The memory used by the program: places of the objects of `xcfun_test`, of the two objects, contents of uninitialised storage. -/
structure FMemory (V : Type) where
  test : ℕ → ℕ
  testJunk : ℕ → Junk V
  testBuf : ℕ → ℕ → V
  obj₁ : ℕ
  obj₂ : ℕ
  junk : ℕ → Junk V
  buf : ℕ → ℕ → V

/-- An entry point without an object. -/
def fOp (o : Op V) : Prog V Unit := fun w => do
  let r ← opStep K w o
  Outcome.ok (.ok (), r.2)

/-- The main program (example.f90:70-358). -/
def fortranMain (far : V → V → V → Bool) (m : FMemory V) : Prog V Unit := do
  let ierr ← runSelfTest K far m.testJunk m.testBuf m.test
  fAssert (ierr = 0)
  fOp K (.whichVars 1 0 0 0 0 0)
  fOp K (.whichMode 3)
  let p := m.obj₁
  Prog.new K p
  let n ← fName "pbe"
  let ierr ← Prog.int (Prog.call K p (.set n (lit 1 0)))
  fAssert (ierr = 0)
  let n ← fName "pbex"
  let r ← Prog.value (Prog.call K p (.get n))
  fAssert (r.1 = 0)
  let n ← fName "pbec"
  let r ← Prog.value (Prog.call K p (.get n))
  fAssert (r.1 = 0)
  fSetup K p Vars.N_NX_NY_NZ.code CONTRACTED (0 : ℕ)
  fCompare K O (m.junk 1) (m.buf 1) p 0 [row [1, 2, 3, 4]] (lit (-86494159400066051) 17)
  fSetup K p Vars.N_NX_NY_NZ.code CONTRACTED (1 : ℕ)
  fCompare K O (m.junk 2) (m.buf 2) p 1 [row [1, 2, 3, 4], row [5, 6, 7, 8]] (lit (-51509916226154067) 16)
  fCompare K O (m.junk 3) (m.buf 3) p 1 [row [1, 2, 3, 4], row [0, 0, 1, 0]] (lit (-13470456737102541) 18)
  fSetup K p Vars.N_NX_NY_NZ.code CONTRACTED (2 : ℕ)
  fCompare K O (m.junk 4) (m.buf 4) p 2 [row [1, 2, 3, 4], row [5, 6, 7, 8], row [5, 6, 7, 8], row [0, 0, 0, 0]] (lit (-94927931153398468) 16)
  fSetup K p Vars.N_NX_NY_NZ.code CONTRACTED (3 : ℕ)
  fCompare K O (m.junk 5) (m.buf 5) p 3 [row [1, 2, 3, 4], row [5, 6, 7, 8], row [9, 10, 11, 12], row [5, 6, 7, 8], row [9, 10, 11, 12],
    row [5, 6, 7, 8], row [9, 10, 11, 12], row [0, 0, 0, 0]] (lit 47091223089835331 15)
  Prog.delete K p
  let p := m.obj₂
  Prog.new K p
  let n ← fName "pbex"
  let ierr ← Prog.int (Prog.call K p (.set n (lit 1 0)))
  fAssert (ierr = 0)
  fSetup K p Vars.A_B_GAA_GAB_GBB.code PARTIAL_DERIVATIVES (1 : ℕ)
  let len ← Prog.int (Prog.call K p .outputLength)
  let pots ← fEvalVecAt K (m.junk 6) p 5 fDens ⟨len.toNat, 5, fun _ _ => lit 0 0⟩
  let dev1 ← Prog.ofOutcome (fDeviation pots len.toNat 1 vrhoRef)
  let dev2 ← Prog.ofOutcome (fDeviation pots len.toNat 3 vsigRef)
  fAssert (O.lt dev1 (lit 1 8))
  fAssert (O.lt dev2 (lit 1 8))
  Prog.delete K p

/-! ### tests/testall.cpp -/

/-- `check` (testall.cpp:24-29) -/
def check (cond : Bool) : Prog V Unit := if cond then pure () else Prog.exit (-1)

/-- `checknum` (testall.cpp:31-49) -/
def checknum (x xref abserr relerr : V) : Prog V Unit :=
  if O.lt (O.abs (x - xref)) abserr then pure ()
  else if O.lt (O.abs (x - xref)) (relerr * xref) then pure ()
  else Prog.exit (-1)

/-- The comparisons with `0, 1e-14, 1e-12`. -/
def checkzero (x : V) : Prog V Unit := checknum O x (lit 0 0) (lit 1 14) (lit 1 12)

/-- `checknum(..., l[i] - l'[j], 0, 1e-14, 1e-12)` -/
def checkdiff (l : List V) (i : ℕ) (l' : List V) (j : ℕ) : Prog V Unit := do
  let a ← Prog.ofOutcome (rdBuf l i)
  let b ← Prog.ofOutcome (rdBuf l' j)
  checkzero O (a - b)

/-- `new double[nout]` with indeterminate contents, then `xcfun_eval`; the array is passed on. -/
def evalInto (junk : Junk V) (p : ℕ) (input buf : List V) : Prog V (List V) := Prog.buffer (Prog.call K p (.eval junk input buf))

/-- `consistency_test` (testall.cpp:52-83).  `buf` holds the indeterminate contents of the two arrays.  The return values of `xcfun_set` and
`xcfun_eval_setup` are ignored. -/
def consistencyTest (junk : ℕ → Junk V) (buf : ℕ → ℕ → V) (p : ℕ) : Prog V Unit := do
  Prog.new K p
  let dUnpolarized : List V := row [1, 1, 2, -3, 4, 2, -3, 4]
  let dPolA : List V := [lit 1 0, lit 21 1, lit 2 0, lit (-3) 0, lit 4 0, lit 7 0, lit (-8) 0, lit 9 0]
  let dPolB : List V := [lit 21 1, lit 1 0, lit 7 0, lit (-8) 0, lit 9 0, lit 2 0, lit (-3) 0, lit 4 0]
  let _ ← Prog.call K p (.set "pbe" (lit 1 0))
  let _ ← Prog.call K p (.evalSetup Vars.A_B_AX_AY_AZ_BX_BY_BZ.code PARTIAL_DERIVATIVES 1)
  let nout ← Prog.int (Prog.call K p .outputLength)
  check (nout = 9)
  let output ← evalInto K (junk 0) p dUnpolarized ((List.range nout.toNat).map (buf 0))
  checkdiff O output 1 output 2
  checkdiff O output 3 output 6
  checkdiff O output 4 output 7
  checkdiff O output 5 output 8
  let output ← evalInto K (junk 1) p dPolA output
  let out2 ← evalInto K (junk 2) p dPolB ((List.range nout.toNat).map (buf 1))
  checkdiff O output 1 out2 2
  checkdiff O output 3 out2 6
  checkdiff O output 4 out2 7
  checkdiff O output 5 out2 8
  checkdiff O out2 1 output 2
  checkdiff O out2 3 output 6
  checkdiff O out2 4 output 7
  checkdiff O out2 5 output 8
  Prog.delete K p

/-- `d_elements` of `gradient_forms_test` (testall.cpp:88). -/
def dElements : List V := [lit 1 0, lit 21 1, lit 11 1, lit 12 1, lit 13 1, lit 14 1, lit 15 1, lit 16 1]

/-- `d_sqnorm` (testall.cpp:89, 106-111) -/
def dSqnorm (d : ℕ → V) : List V :=
  [d 0, d 1, d 2 * d 2 + d 3 * d 3 + d 4 * d 4, d 2 * d 5 + d 3 * d 6 + d 4 * d 7, d 5 * d 5 + d 6 * d 6 + d 7 * d 7]

/-- The two comparisons of one component (testall.cpp:118-131). -/
def checkComponent (d : ℕ → V) (output out2 : List V) (i : ℕ) : Prog V Unit := do
  let a ← Prog.ofOutcome (rdBuf output (3 + i))
  let g3 ← Prog.ofOutcome (rdBuf out2 3)
  let g4 ← Prog.ofOutcome (rdBuf out2 4)
  checkzero O (a - (lit 2 0 * g3 * d (2 + i) + g4 * d (5 + i)))
  let b ← Prog.ofOutcome (rdBuf output (6 + i))
  let g5 ← Prog.ofOutcome (rdBuf out2 5)
  checkzero O (b - (lit 2 0 * g5 * d (5 + i) + g4 * d (2 + i)))

/-- `gradient_forms_test` (testall.cpp:86-136) -/
def gradientFormsTest (junk : ℕ → Junk V) (buf : ℕ → ℕ → V) (p : ℕ) : Prog V Unit := do
  Prog.new K p
  let d : ℕ → V := fun i => dElements.getD i (lit 0 0)
  let _ ← Prog.call K p (.set "blyp" (lit 1 0))
  let _ ← Prog.call K p (.evalSetup Vars.A_B_AX_AY_AZ_BX_BY_BZ.code PARTIAL_DERIVATIVES 1)
  let nout ← Prog.int (Prog.call K p .outputLength)
  check (nout = 9)
  let output ← evalInto K (junk 0) p dElements ((List.range nout.toNat).map (buf 0))
  let _ ← Prog.call K p (.evalSetup Vars.A_B_GAA_GAB_GBB.code PARTIAL_DERIVATIVES 1)
  let nout ← Prog.int (Prog.call K p .outputLength)
  check (nout = 6)
  let out2 ← evalInto K (junk 1) p (dSqnorm d) ((List.range nout.toNat).map (buf 1))
  checkdiff O output 0 out2 0
  checkdiff O output 1 out2 1
  checkdiff O output 2 out2 2
  checkComponent O d output out2 0
  checkComponent O d output out2 1
  checkComponent O d output out2 2
  Prog.delete K p

/-- `user_setup_test` (testall.cpp:138-154) -/
def userSetupTest (p₁ p₂ p₃ : ℕ) : Prog V Unit := do
  Prog.new K p₁
  Prog.new K p₂
  Prog.new K p₃
  let _ ← Prog.call K p₁ (.set "lda" (lit 1 0))
  let _ ← Prog.call K p₂ (.set "pbe" (lit 1 0))
  let _ ← Prog.call K p₃ (.set "m06l" (lit 1 0))
  let rval1 ← Prog.int (Prog.call K p₁ (.userEvalSetup 0 0 0 1 0 0 0 0))
  let rval2 ← Prog.int (Prog.call K p₂ (.userEvalSetup 1 1 1 1 0 0 0 1))
  let rval3 ← Prog.int (Prog.call K p₃ (.userEvalSetup 2 2 2 1 0 1 0 1))
  check (rval1 = 0)
  check (rval2 = 0)
  check (rval3 = 0)
  Prog.delete K p₁
  Prog.delete K p₂
  Prog.delete K p₃

/-- `check(..., xcfun_get(fun, name, &x) == 0)`: the value; the variable stays indeterminate if nothing is stored. -/
def getValid (p : ℕ) (name : String) : Prog V V := do
  let r ← Prog.value (Prog.call K p (.get name))
  check (r.1 = 0)
  match r.2 with
  | some x => return x
  | none => Prog.ofOutcome .ub

/-- `xcfun_get_test` (testall.cpp:156-177) -/
def xcfunGetTest (p : ℕ) : Prog V Unit := do
  Prog.new K p
  let _ ← Prog.call K p (.set "B3LYP" (lit 1 0))
  let s ← getValid K p "SLATERX"
  let b ← getValid K p "BECKECORRX"
  let lyp ← getValid K p "LYPC"
  let vwn ← getValid K p "VWN5C"
  let exx ← getValid K p "EXX"
  let kt ← getValid K p "KTX"
  let foo ← Prog.value (Prog.call K p (.get "FOO"))
  check (foo.1 ≠ 0)
  checknum O s (lit 80 2) (lit 1 14) (lit 1 12)
  checknum O b (lit 72 2) (lit 1 14) (lit 1 12)
  checknum O lyp (lit 81 2) (lit 1 14) (lit 1 12)
  checknum O vwn (lit 19 2) (lit 1 14) (lit 1 12)
  checknum O exx (lit 20 2) (lit 1 14) (lit 1 12)
  checknum O kt (lit 0 2) (lit 1 14) (lit 1 0)
  Prog.delete K p

/-- The loops that print the names (testall.cpp:189-196, 199-206): from `i` on until the null pointer, at most `fuel` rounds.  The description
is asked for by name; a null pointer is not printed. -/
def printNames (enumerate : ℤ → Op V) : ℕ → ℤ → Prog V Unit
  | 0, _ => Prog.ofOutcome .diverge
  | fuel + 1, i => fun w => do
    let r ← opStep K w (enumerate i)
    match r.1 with
    | .name none => Outcome.ok (.ok (), r.2)
    | .name (some n) => do
      let q ← opStep K r.2 (.describeShort n)
      printNames enumerate fuel (i + 1) q.2
    | _ => .ub

/-- The memory used by the program: objects of the four functions (`user` has three) and of `xcfun_test`, contents of uninitialised storage. -/
structure Memory (V : Type) where
  consistency : ℕ
  gradient : ℕ
  user : ℕ × ℕ × ℕ
  get : ℕ
  test : ℕ → ℕ
  junk : ℕ → ℕ → Junk V
  buf : ℕ → ℕ → ℕ → V
  testJunk : ℕ → Junk V
  testBuf : ℕ → ℕ → V

/-- `main` (testall.cpp:179-215); the number returned, if the program does not exit before. -/
def testallMain (far : V → V → V → Bool) (fuel : ℕ) (m : Memory V) : Prog V ℤ := do
  consistencyTest K O (m.junk 0) (m.buf 0) m.consistency
  gradientFormsTest K O (m.junk 1) (m.buf 1) m.gradient
  userSetupTest K m.user.1 m.user.2.1 m.user.2.2
  xcfunGetTest K O m.get
  printNames K .enumerateParameters fuel 0
  printNames K .enumerateAliases fuel 0
  let nfail ← runSelfTest K far m.testJunk m.testBuf m.test
  if nfail = 0 then return 0 else return -1

end

/-- `fabs` and `<` on real numbers. -/
noncomputable def realOrder : Order ℝ := ⟨fun x => |x|, fun x y => open Classical in decide (x < y)⟩

end XCFun
