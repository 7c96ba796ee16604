/-
The wrappers of the Fortran module (api/xcfun.f90) that do more than convert integers: strings in both directions and
`xcfun_eval` on two-dimensional arrays.

Simplification: `integer` is `integer(c_int)` (the default of all supported compilers).
-/
import Verif.Model.Eval

namespace XCFun

variable {V : Type}

/-- The C string starting at a piece of memory: the characters before the first NUL.  Without a NUL the library reads past the
piece. -/
def cString : List Char → Outcome String
  | [] => .ub
  | c :: cs => if c = '\x00' then .ok "" else do
    let s ← cString cs
    pure (String.ofList (c :: s.toList))

/-- `fstring_to_carray` (api/xcfun.f90:262-272): after the loop `i` is `len + 1`. -/
def fstringToCarray (s : String) : List Char := s.toList ++ ['\x00']

section
variable [Add V] [Mul V] [Lit V]

/-- `xcfun_set` (api/xcfun.f90:383-390) -/
def fSet (s : State V) (param : String) (val : V) : Outcome (Int × State V) := do
  let name ← cString (fstringToCarray param)
  xcfunSet s name val

end

/-- `xcfun_get` (api/xcfun.f90:392-399) -/
def fGet (s : State V) (param : String) : Outcome (Int × Option V) := do
  let name ← cString (fstringToCarray param)
  pure (xcfunGet s name)

/-- `xcfun_describe_short_C(name)` in `xcfun_describe_short` (api/xcfun.f90:369-374): the characters of the actual argument are passed
without a terminating NUL. -/
def fDescribeShort (name : List Char) : Outcome (Option Desc) := do
  let name ← cString name
  pure (describeShort name)

/-- `xcfun_describe_long_C(name)` in `xcfun_describe_long` (api/xcfun.f90:376-381) -/
def fDescribeLong (name : List Char) : Outcome (Option Desc) := do
  let name ← cString name
  pure (describeLong name)

/-- `text_handler` (api/xcfun.f90:274-292).  `mem` is what can be read from `C_text` on; `none` is a null pointer, which
`c_f_pointer` (283) must not be given.  The loop (285-287) reads `length` elements; its last assignment, to `msg(length:length+1)`,
is outside `msg`.  `checked = false` describes a program in which that store (a blank) has no effect. -/
def textHandler (checked : Bool) (mem : Option (List Char)) (length : ℕ) : Outcome (List Char) :=
  match mem with
  | none => .ub
  | some mem =>
    if mem.length < length then .ub
    else if checked ∧ 0 < length then .ub
    else
      let msg := mem.take length
      -- `msg(1:index(msg, c_null_char))` (289): the whole up to and including the first NUL, empty without NUL
      let upto := if '\x00' ∈ msg then msg.take (msg.idxOf '\x00' + 1) else []
      let msgLength := (upto.reverse.dropWhile (· = ' ')).length
      -- assignment pads with blanks (291)
      let t := msg.take (msgLength - 1)
      .ok (t ++ List.replicate (length - t.length) ' ')

/-- A two-dimensional Fortran array, elements in array element order (first index fastest). -/
structure FArray (V : Type) where
  rows : ℕ
  cols : ℕ
  elem : ℕ → ℕ → V

/-- Storage order: column by column. -/
def FArray.flat (a : FArray V) : List V := (List.range a.cols).flatMap fun j => (List.range a.rows).map fun i => a.elem i j

section
variable [Zero V] [One V] [Add V] [Sub V] [Mul V]

/-- `xcfun_eval_vec` (api/xcfun.f90:470-484): the pitches are the numbers of rows; `density(:,1)` needs a first column (480-481).
Returns the storage of `res`. -/
def fEvalVec (K : Kernel V) (junk : Junk V) (s : State V) (n : ℤ) (density res : FArray V) : Outcome (List V) :=
  if density.cols = 0 ∨ res.cols = 0 then .ub
  else xcfunEvalVec K junk s n density.flat 0 density.rows res.flat 0 res.rows

end

end XCFun
