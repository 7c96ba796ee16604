/-
`xcfun_eval` and `xcfun_eval_vec` (src/XCFunctional.cpp:493-806).

Generic in the type `V` of doubles (no algebraic law is assumed) and in the numerical kernels
(`Kernel`): what is modelled here is the control flow, the indices, the work arrays and the
user's buffers.  The kernels of the code are plugged in by `Model/Fun/Kernel`.

Simplifications: the input and output buffers do not overlap; inactive preprocessor branches
are those of `XCFUN_MAX_ORDER = 6` (all `#if` taken).
-/
import Verif.Model.Api
import Verif.Model.CT

namespace XCFun

universe u
variable {V : Type u}

/-! ### User buffers -/

/-- `buf[i]` as a value: reading past the end is undefined. -/
def rdBuf (buf : List V) (i : ℕ) : Outcome V :=
  match buf[i]? with
  | some x => .ok x
  | none => .ub

/-- `buf[i] = x`: writing past the end is undefined. -/
def wrBuf (buf : List V) (i : ℕ) (x : V) : Outcome (List V) :=
  if i < buf.length then .ok (buf.set i x) else .ub

/-- `for (int i = lo; i < lo + cnt; i++) body` with loop state `σ`. -/
def forLoop {σ : Type u} (body : ℕ → σ → Outcome σ) : (cnt lo : ℕ) → σ → Outcome σ
  | 0, _, s => .ok s
  | cnt + 1, lo, s => do
    let s ← body lo s
    forLoop body cnt (lo + 1) s

/-! ### Work arrays `ttype in[XC_MAX_INVARS]` -/

/-- `VAR0`, `VAR1`, `VAR2`, `CNST` (external/upstream/taylor/ctaylor.hpp:12-15) -/
def CNST : ℕ := 0
@[inherit_doc CNST] def VAR0 : ℕ := 1
@[inherit_doc CNST] def VAR1 : ℕ := 2
@[inherit_doc CNST] def VAR2 : ℕ := 4

/-- The work array.  A coefficient that was never assigned is `none`. -/
abbrev Slots (V : Type u) (N : ℕ) := ℕ → CT (Option V) N

/-- What uninitialised storage holds.  `none`: reading it is undefined behaviour (the C++ rule).
    `some j`: it holds arbitrary doubles `j` (what compiled code does); a theorem for all
    `some j` says what happens for every content of the memory.  The arrays declared during one
    call of `xcfun_eval` have different `N`. -/
abbrev Junk (V : Type u) := Option ((N : ℕ) → ℕ → CT V N)

/-- `ttype in[XC_MAX_INVARS];` the default constructor leaves the coefficients unset
    (ctaylor.hpp:160-164) -/
def fresh (junk : Junk V) (N : ℕ) : Slots V N :=
  match junk with
  | none => fun _ => CT.ofFn N fun _ => none
  | some j => fun i => (j N i).map some

/-- `in[i] = t` -/
def put {N : ℕ} (m : Slots V N) (i : ℕ) (t : CT (Option V) N) : Outcome (Slots V N) :=
  if i < MAX_INVARS then .ok (upd m i t) else .ub

/-- `in[i] = x` for a `double x` (ctaylor.hpp:210-219) -/
def putScalar [Zero V] {N : ℕ} (m : Slots V N) (i : ℕ) (x : V) : Outcome (Slots V N) :=
  put m i ((CT.const N x).map some)

/-- `in[i] = ttype(x, var, c)` (constructor ctaylor.hpp:199-209) -/
def putVar [Zero V] {N : ℕ} (m : Slots V N) (i : ℕ) (x : V) (var : ℕ) (c : V) :
    Outcome (Slots V N) :=
  put m i (((CT.const N x).set var c).map some)

/-- `in[i].set(j, x)` (ctaylor.hpp:241-249, assertion 242-243) -/
def putCoef {N : ℕ} (m : Slots V N) (i j : ℕ) (x : V) : Outcome (Slots V N) :=
  if j < 2 ^ N then put m i ((m i).set j (some x)) else .ub

/-- All coefficients have been assigned. -/
def CT.known : {n : ℕ} → CT (Option V) n → Bool
  | _, leaf c => c.isSome
  | _, node lo hi => lo.known && hi.known

/-- The values of a fully assigned object. -/
def CT.vals [Zero V] {n : ℕ} (t : CT (Option V) n) : CT V n := t.map (·.getD 0)

/-- The numerical part of an evaluation.
* `reads v`: the slots of `in[]` read by the constructor of `densvars` for variables `v`, or
  `none` if it calls `die` (densvars.hpp:35-219);
* `fp v settings id N in`: the value of `active->fpN(densvars(fun, in))`
  (XCFunctional.cpp:508-511). -/
structure Kernel (V : Type u) where
  reads : Vars → Option (List ℕ)
  fp : Vars → (ℕ → V) → (id N : ℕ) → (ℕ → CT V N) → CT V N

section
variable [Zero V] [One V] [Add V] [Sub V] [Mul V]

/-- `densvars<ttype> d(fun, in); for (...) out += settings[id] * fpN(d);`
    (XCFunctional.cpp:508-511 and its copies at 525-530, 545-549, 575-579, 600-604, 627-630,
    658-662, 691-695, 704-708, 715-719, 746-750, 762-766, 778-782). -/
def accumulate (K : Kernel V) (s : State V) (v : Vars) {N : ℕ} (m : Slots V N) (out : CT V N) :
    Outcome (CT V N) :=
  match K.reads v with
  | none => .die
  | some slots =>
    if slots.all fun i => (m i).known then
      .ok (s.active.foldl (fun out id =>
        out + CT.smul (s.settings id) (K.fp v s.settings id N fun i => (m i).vals)) out)
    else .ub

/-- `for (int i = 0; i < inlen; i++) in[i] = input[i];` (XCFunctional.cpp:506-507) -/
def loadInput {N : ℕ} (input : List V) (inlen : ℕ) (m : Slots V N) : Outcome (Slots V N) :=
  forLoop (fun i m => do
    let x ← rdBuf input i
    putScalar m i x) inlen 0 m

/-- case 0 (XCFunctional.cpp:502-513) -/
def evalOrder0 (K : Kernel V) (junk : Junk V) (s : State V) (v : Vars) (input output : List V) :
    Outcome (List V) := do
  let m ← loadInput input v.len (fresh junk 0)
  let out ← accumulate K s v m 0
  wrBuf output 0 (out.get CNST)

/-- Body of the loop over pairs of inputs (XCFunctional.cpp:522-535); the loop state is
    `in2`, `out2` and the output buffer. -/
def order1Body (K : Kernel V) (s : State V) (v : Vars) (input : List V) (j : ℕ)
    (st : Slots V 2 × CT V 2 × List V) : Outcome (Slots V 2 × CT V 2 × List V) := do
  let m ← putCoef st.1 (2 * j) VAR0 1
  let m ← putCoef m (2 * j + 1) VAR1 1
  let out ← accumulate K s v m 0
  let x ← rdBuf input (2 * j)
  let m ← putScalar m (2 * j) x
  let x ← rdBuf input (2 * j + 1)
  let m ← putScalar m (2 * j + 1) x
  let o ← wrBuf st.2.2 (2 * j + 1) (out.get VAR0)
  let o ← wrBuf o (2 * j + 2) (out.get VAR1)
  pure (m, out, o)

/-- The remaining input of an odd number (XCFunctional.cpp:538-555) -/
def order1Last (K : Kernel V) (junk : Junk V) (s : State V) (v : Vars)
    (input output : List V) : Outcome (List V) := do
  let inlen := v.len
  let m ← loadInput input inlen (fresh junk 1)
  let j := inlen - 1
  let m ← putCoef m j VAR0 1
  let out ← accumulate K s v m 0
  let x ← rdBuf input j
  let _ ← putScalar m j x
  let o ← wrBuf output (j + 1) (out.get VAR0)
  wrBuf o 0 (out.get CNST)

/-- case 1 (XCFunctional.cpp:515-556) -/
def evalOrder1 (K : Kernel V) (junk : Junk V) (s : State V) (v : Vars) (input output : List V) :
    Outcome (List V) := do
  let inlen := v.len
  let m ← loadInput input inlen (fresh junk 2)
  let st ← forLoop (order1Body K s v input) (inlen / 2) 0 (m, 0, output)
  let o ← wrBuf st.2.2 0 (st.2.1.get CNST)
  if inlen &&& 1 ≠ 0 then order1Last K junk s v input o else pure o

/-- Innermost loop body for third derivatives (XCFunctional.cpp:573-582); the loop state is
    `in`, the output buffer and `k`. -/
def order3Body (K : Kernel V) (s : State V) (v : Vars) (t : ℕ)
    (st : Slots V 3 × List V × ℕ) : Outcome (Slots V 3 × List V × ℕ) := do
  let m ← putCoef st.1 t VAR2 1
  let out ← accumulate K s v m 0
  let o ← wrBuf st.2.1 st.2.2 (out.get (VAR0 ||| VAR1 ||| VAR2))
  let m ← putCoef m t VAR2 0
  pure (m, o, st.2.2 + 1)

/-- Third derivatives (XCFunctional.cpp:562-587), before falling through to case 2 -/
def evalOrder3 (K : Kernel V) (junk : Junk V) (s : State V) (v : Vars) (input output : List V) :
    Outcome (List V) := do
  let inlen := v.len
  let m ← loadInput input inlen (fresh junk 3)
  let st ← forLoop (fun i st => do
    let m ← putCoef st.1 i VAR0 1
    let st ← forLoop (fun j st => do
      let m ← putCoef st.1 j VAR1 1
      let st ← forLoop (order3Body K s v) (inlen - j) j (m, st.2)
      let m ← putCoef st.1 j VAR1 0
      pure (m, st.2)) (inlen - i) i (m, st.2)
    let x ← rdBuf input i
    let m ← putScalar st.1 i x
    pure (m, st.2)) inlen 0 (m, output, 1 + inlen + (inlen * (inlen + 1)) / 2)
  pure st.2.1

/-- Inner loop body for second derivatives (XCFunctional.cpp:598-607); the loop state is `in`,
    `out`, the output buffer and `k`. -/
def order2Body (K : Kernel V) (s : State V) (v : Vars) (j : ℕ)
    (st : Slots V 2 × CT V 2 × List V × ℕ) : Outcome (Slots V 2 × CT V 2 × List V × ℕ) := do
  let m ← putCoef st.1 j VAR1 1
  let out ← accumulate K s v m 0
  let o ← wrBuf st.2.2.1 st.2.2.2 (out.get (VAR0 ||| VAR1))
  let m ← putCoef m j VAR1 0
  pure (m, out, o, st.2.2.2 + 1)

/-- case 2 (XCFunctional.cpp:589-612) -/
def evalOrder2 (K : Kernel V) (junk : Junk V) (s : State V) (v : Vars) (input output : List V) :
    Outcome (List V) := do
  let inlen := v.len
  let m ← loadInput input inlen (fresh junk 2)
  let st ← forLoop (fun i st => do
    let m ← putCoef st.1 i VAR0 1
    let st ← forLoop (order2Body K s v) (inlen - i) i (m, st.2)
    let o ← wrBuf st.2.2.1 (i + 1) (st.2.1.get VAR0)
    let x ← rdBuf input i
    let m ← putScalar st.1 i x
    pure (m, st.2.1, o, st.2.2.2)) inlen 0 (m, 0, output, inlen + 1)
  wrBuf st.2.2.1 0 (st.2.1.get CNST)

/-- `XC_PARTIAL_DERIVATIVES` (XCFunctional.cpp:500-617): `case 3` falls through to `case 2` -/
def evalPartial (K : Kernel V) (junk : Junk V) (s : State V) (v : Vars) (input output : List V) :
    Outcome (List V) :=
  if s.order = 0 then evalOrder0 K junk s v input output
  else if s.order = 1 then evalOrder1 K junk s v input output
  else if s.order = 3 then do
    let o ← evalOrder3 K junk s v input output
    evalOrder2 K junk s v input o
  else if s.order = 2 then evalOrder2 K junk s v input output
  else .die

/-- `DOEVAL(N)` (XCFunctional.cpp:619-633) -/
def evalContractedN (K : Kernel V) (junk : Junk V) (s : State V) (v : Vars)
    (input output : List V) (N : ℕ) : Outcome (List V) := do
  let st ← forLoop (fun i st =>
    forLoop (fun j (st : Slots V N × ℕ) => do
      let x ← rdBuf input st.2
      let m ← putCoef st.1 i j x
      pure (m, st.2 + 1)) (2 ^ N) 0 st) v.len 0 (fresh junk N, 0)
  let out ← accumulate K s v st.1 0
  forLoop (fun i o => wrBuf o i (out.get i)) (2 ^ N) 0 output

/-- `XC_CONTRACTED` (XCFunctional.cpp:618-636) -/
def evalContracted (K : Kernel V) (junk : Junk V) (s : State V) (v : Vars)
    (input output : List V) : Outcome (List V) :=
  if 0 ≤ s.order ∧ s.order ≤ 6 then evalContractedN K junk s v input output s.order.toNat
  else .die

/-- `npot` and `inpos` (XCFunctional.cpp:640-653) -/
def potentialShape (inlen : ℕ) : ℕ × ℕ :=
  if inlen = 1 ∨ inlen = 10 then (1, 0)
  else (2, if inlen = 2 then 1 else if inlen = 20 then 10 else 0)

/-- Energy and density derivatives (XCFunctional.cpp:654-671) -/
def evalPotentialLda (K : Kernel V) (junk : Junk V) (s : State V) (v : Vars)
    (input output : List V) : Outcome (List V) := do
  let npot := (potentialShape v.len).1
  let inpos := (potentialShape v.len).2
  let m ← loadInput input v.len (fresh junk 1)
  let st ← forLoop (fun j (st : Slots V 1 × CT V 1 × List V) => do
    let m ← putCoef st.1 (j * inpos) VAR0 1
    let out ← accumulate K s v m 0
    let x ← rdBuf input (j * inpos)
    let m ← putScalar m (j * inpos) x
    let o ← wrBuf st.2.2 (j + 1) (out.get VAR0)
    pure (m, out, o)) npot 0 (m, 0, output)
  wrBuf st.2.2 0 (st.2.1.get CNST)

/-- `in[i] = ttype(input[i], VAR0, input[k])` (XCFunctional.cpp:684 and the like) -/
def seed (input : List V) (m : Slots V 2) (i k : ℕ) : Outcome (Slots V 2) := do
  let x ← rdBuf input i
  let c ← rdBuf input k
  putVar m i x VAR0 c

/-- The four assignments of one spatial direction for the density at `off`
    (XCFunctional.cpp:684-686, 699-702, 710-713): `k` lists the positions of the derivatives of
    the density and of the three gradient components. -/
def seed4 (input : List V) (m : Slots V 2) (off : ℕ) (k : ℕ × ℕ × ℕ × ℕ) :
    Outcome (Slots V 2) := do
  let m ← seed input m (0 + off) (k.1 + off)
  let m ← seed input m (1 + off) (k.2.1 + off)
  let m ← seed input m (2 + off) (k.2.2.1 + off)
  seed input m (3 + off) (k.2.2.2 + off)

/-- `for (int i = 4; i < 10; i++) in[i] = 0;` (XCFunctional.cpp:687-688, 741-742) -/
def zeroHessian (m : Slots V 2) : Outcome (Slots V 2) :=
  forLoop (fun i m => putScalar m i 0) 6 4 m

/-- d/dx, d/dy, d/dz of n gx gy gz (XCFunctional.cpp:684-686, 699-702, 710-713) -/
def dirX : ℕ × ℕ × ℕ × ℕ := (1, 4, 5, 6)
@[inherit_doc dirX] def dirY : ℕ × ℕ × ℕ × ℕ := (2, 5, 7, 8)
@[inherit_doc dirX] def dirZ : ℕ × ℕ × ℕ × ℕ := (3, 6, 8, 9)

/-- Restricted GGA potential (XCFunctional.cpp:681-721) -/
def evalPotentialGgaN (K : Kernel V) (junk : Junk V) (s : State V) (v : Vars)
    (input output : List V) : Outcome (List V) := do
  -- d/dx
  let m ← seed4 input (fresh junk 2) 0 dirX
  let m ← zeroHessian m
  let m ← putCoef m 1 VAR1 1
  let out ← accumulate K s v m 0
  -- d/dy
  let m ← seed4 input m 0 dirY
  let m ← putCoef m 2 VAR1 1
  let out ← accumulate K s v m out
  -- d/dz
  let m ← seed4 input m 0 dirZ
  let m ← putCoef m 3 VAR1 1
  let out ← accumulate K s v m out
  let e ← rdBuf output 1
  wrBuf output 1 (e - out.get (VAR0 ||| VAR1))

/-- Body of the spin loop of the unrestricted GGA potential (XCFunctional.cpp:731-787); the loop
    state is `in` and the output buffer. -/
def ggaSpinBody (K : Kernel V) (s : State V) (v : Vars) (input : List V) (j : ℕ)
    (st : Slots V 2 × List V) : Outcome (Slots V 2 × List V) := do
  let offset := 10
  -- d/dx
  let m ← seed4 input st.1 0 dirX
  let m ← seed4 input m offset dirX
  let m ← zeroHessian m
  let m ← putCoef m (1 + offset * j) VAR1 1
  let out ← accumulate K s v m 0
  -- d/dy
  let m ← seed4 input m 0 dirY
  let m ← seed4 input m offset dirY
  let m ← putCoef m (2 + offset * j) VAR1 1
  let out ← accumulate K s v m out
  -- d/dz
  let m ← seed4 input m 0 dirZ
  let m ← seed4 input m offset dirZ
  let m ← putCoef m (3 + offset * j) VAR1 1
  let out ← accumulate K s v m out
  let e ← rdBuf st.2 (j + 1)
  let o ← wrBuf st.2 (j + 1) (e - out.get (VAR0 ||| VAR1))
  pure (m, o)

/-- Unrestricted GGA potential (XCFunctional.cpp:722-790) -/
def evalPotentialGgaAB (K : Kernel V) (junk : Junk V) (s : State V) (v : Vars)
    (input output : List V) : Outcome (List V) := do
  let st ← forLoop (ggaSpinBody K s v input) 2 0 (fresh junk 2, output)
  pure st.2

/-- `XC_POTENTIAL` (XCFunctional.cpp:637-792) -/
def evalPotential (K : Kernel V) (junk : Junk V) (s : State V) (v : Vars)
    (input output : List V) : Outcome (List V) := do
  let o ← evalPotentialLda K junk s v input output
  if s.depends &&& GRADIENT ≠ 0 then
    if v = .A_2ND_TAYLOR ∨ v = .N_2ND_TAYLOR then evalPotentialGgaN K junk s v input o
    else evalPotentialGgaAB K junk s v input o
  else pure o

/-- `xcfun_eval` (XCFunctional.cpp:493-796): the output buffer after the call. -/
def xcfunEval (K : Kernel V) (junk : Junk V) (s : State V) (input output : List V) :
    Outcome (List V) :=
  if s.mode = MODE_UNSET then .die
  else match s.vars with
    | none => .die
    | some v =>
      if s.order = -1 ∧ s.mode ≠ POTENTIAL then .die
      else if s.mode = PARTIAL_DERIVATIVES then evalPartial K junk s v input output
      else if s.mode = CONTRACTED then evalContracted K junk s v input output
      else if s.mode = POTENTIAL then evalPotential K junk s v input output
      else .die

/-- `INT_MIN <= i <= INT_MAX` for the 32-bit `int` of the supported platforms -/
def inInt (i : ℤ) : Prop := -2147483648 ≤ i ∧ i ≤ 2147483647

instance (i : ℤ) : Decidable (inInt i) := inferInstanceAs (Decidable (_ ∧ _))

/-- `xcfun_eval_vec` (XCFunctional.cpp:798-806).  The arguments `density` and `result` point to
    element `dBase` and `rBase` of buffers; forming a pointer outside of the buffer (or
    overflowing `i * pitch`) is undefined. -/
def xcfunEvalVec (K : Kernel V) (junk : Junk V) (s : State V) (nrPoints : ℤ)
    (density : List V) (dBase dPitch : ℤ) (result : List V) (rBase rPitch : ℤ) :
    Outcome (List V) :=
  forLoop (fun i result =>
    let d := dBase + i * dPitch
    let r := rBase + i * rPitch
    if inInt (i * dPitch) ∧ inInt (i * rPitch) ∧ 0 ≤ d ∧ d ≤ density.length ∧
        0 ≤ r ∧ r ≤ result.length then do
      let o ← xcfunEval K junk s (density.drop d.toNat) (result.drop r.toNat)
      pure (result.take r.toNat ++ o)
    else .ub) nrPoints.toNat 0 result

end

end XCFun
