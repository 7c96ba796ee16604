/-
The Python module: `xcfun_eval` and `xcfun_eval_setup` of the binding (python/export_xcfun.cpp:120-164) and the class
`Functional` (python/xcfun.py).

Simplifications: arrays hold doubles (the conversion `forcecast` of other element types is not modelled) and allocating them
succeeds; an array is its shape and its elements by index, so memory layout (`c_style` makes a contiguous copy) is invisible.
-/
import Verif.Model.Eval

namespace XCFun

variable {V : Type}

/-- A numpy array: `shape`, and the element at a multi-index (meaningful inside the shape only). -/
structure NdArray (V : Type) where
  shape : List ℕ
  elem : List ℕ → V

/-- The elements in C order, as `density.data()` presents them (export_xcfun.cpp:147, 152). -/
def NdArray.flat (a : NdArray V) : List V := go a.shape a.elem
where
  /-- recursion over the axes -/
  go : List ℕ → (List ℕ → V) → List V
    | [], f => [f []]
    | n :: sh, f => (List.range n).flatMap fun i => go sh fun is => f (i :: is)

/-- The exceptions raised: `XCFunException` (xcfun.py:21-24), `std::invalid_argument` (export_xcfun.cpp:123-125, 140, 157). -/
inductive PyExc where
  | xcfunException
  | invalidArgument
  deriving DecidableEq

/-- A two-dimensional result array: rows, columns, elements in C order (export_xcfun.cpp:143-144). -/
structure PyArray (V : Type) where
  rows : ℕ
  cols : ℕ
  data : List V

/-- `(int) n` for the `int nr_points` parameter of `xcfun_eval_vec` (export_xcfun.cpp:151). -/
def toInt (n : ℤ) : ℤ := (n + 2147483648) % 4294967296 - 2147483648

section
variable [Zero V] [One V] [Add V] [Sub V] [Mul V]

/-- `xcfun_eval` of the binding (export_xcfun.cpp:132-164).  `uninit` is the content of the freshly allocated output array, which
nothing initialises (143-144).  `density.shape(-1)` of an array without axes is an out-of-range read (139). -/
def pyEval (K : Kernel V) (junk : Junk V) (uninit : ℕ → V) (s : State V) (density : NdArray V) :
    Outcome (Except PyExc (PyArray V)) := do
  let densLen ← inputLength s
  let outLen ← outputLength s
  match density.shape with
  | [] => .ub
  | nr :: rest =>
    if ((nr :: rest).getLast (List.cons_ne_nil _ _) : ℤ) ≠ densLen then .ok (.error .invalidArgument)
    else
      let out := (List.range (nr * outLen.toNat)).map uninit
      match rest with
      | [] => do
        let o ← xcfunEval K junk s density.flat out
        pure (.ok ⟨nr, outLen.toNat, o⟩)
      | [len] => do
        let o ← xcfunEvalVec K junk s (toInt nr) density.flat 0 len out 0 outLen
        pure (.ok ⟨nr, outLen.toNat, o⟩)
      | _ => .ok (.error .invalidArgument)

/-- `xcfun_eval_setup` of the binding (export_xcfun.cpp:120-131): a nonzero code becomes an exception.  The arguments are
enumerators, so the variables are always in range. -/
def pyEvalSetup (s : State V) (vars : Vars) (mode order : ℤ) : Outcome (Except PyExc Unit × State V) := do
  let r ← evalSetup s vars.code mode order
  pure (if r.1 ≠ 0 then .error .invalidArgument else .ok (), r.2)

/-- `xcfun_eval_setup(...)` followed by `shapes` (the shape checks of the caller) and `xcfun_eval(self._func, dens)`; an exception
leaves the object as it is at that point. -/
def pySetupEval (K : Kernel V) (junk : Junk V) (uninit : ℕ → V) (s : State V) (vars : Vars) (mode order : ℤ)
    (shapes : Bool) (dens : NdArray V) : Outcome (Except PyExc (PyArray V) × State V) := do
  let r ← pyEvalSetup s vars mode order
  match r.1 with
  | .error e => pure (.error e, r.2)
  | .ok () =>
    if shapes then do
      let a ← pyEval K junk uninit r.2 dens
      pure (a, r.2)
    else pure (.error .xcfunException, r.2)

/-- `[:, 0]` (xcfun.py:98, 202) -/
def column0 (a : PyArray V) : Outcome (List V) := (List.range a.rows).mapM fun i => rdBuf a.data (i * a.cols)

/-- `return xcfun_eval(self._func, dens)[:, 0]` (xcfun.py:98, 202) -/
def firstColumn (x : Outcome (Except PyExc (PyArray V) × State V)) : Outcome (Except PyExc (List V) × State V) := do
  let r ← x
  match r.1 with
  | .error e => pure (.error e, r.2)
  | .ok a => do
    let c ← column0 a
    pure (.ok c, r.2)

/-- `numpy.zeros((n, 4))` with the density and the gradient filled in (xcfun.py:89-91); `reshape((n, 1))` (96) without gradient. -/
def pyDensN (n : ℕ) (density : NdArray V) (grad : Option (NdArray V)) : NdArray V where
  shape := [n, if grad.isSome then 4 else 1]
  elem
    | [i, 0] => density.elem [i]
    | [i, k + 1] => (grad.map fun g => g.elem [i, k]).getD 0
    | _ => 0

/-- `eval_energy_n` (xcfun.py:57-98) -/
def evalEnergyN (K : Kernel V) (junk : Junk V) (uninit : ℕ → V) (s : State V) (density : NdArray V)
    (densgrad : Option (NdArray V)) : Outcome (Except PyExc (List V) × State V) :=
  match density.shape with
  | [n] =>
    if isMetagga s then .ok (.error .xcfunException, s)
    else if isGga s then
      match densgrad with
      | none => .ok (.error .xcfunException, s)
      | some g => firstColumn <|
        pySetupEval K junk uninit s .N_NX_NY_NZ PARTIAL_DERIVATIVES 0 (g.shape = [n, 3]) (pyDensN n density (some g))
    else firstColumn <| pySetupEval K junk uninit s .N PARTIAL_DERIVATIVES 0 true (pyDensN n density none)
  | _ => .ok (.error .xcfunException, s)

/-- `numpy.zeros((n, 10))` filled in (xcfun.py:141-144) -/
def pyDensN2 (n : ℕ) (density grad hess : NdArray V) : NdArray V where
  shape := [n, 10]
  elem
    | [i, 0] => density.elem [i]
    | [i, k + 1] => if k < 3 then grad.elem [i, k] else hess.elem [i, k - 3]
    | _ => 0

/-- `eval_potential_n` (xcfun.py:100-151) -/
def evalPotentialN (K : Kernel V) (junk : Junk V) (uninit : ℕ → V) (s : State V) (density : NdArray V)
    (densgrad denshess : Option (NdArray V)) : Outcome (Except PyExc (PyArray V) × State V) :=
  match density.shape with
  | [n] =>
    if isMetagga s then .ok (.error .xcfunException, s)
    else if isGga s then
      match densgrad, denshess with
      | some g, some h =>
        pySetupEval K junk uninit s .N_2ND_TAYLOR POTENTIAL 1 (g.shape = [n, 3] ∧ h.shape = [n, 6]) (pyDensN2 n density g h)
      | _, _ => .ok (.error .xcfunException, s)
    else pySetupEval K junk uninit s .N POTENTIAL 1 true (pyDensN n density none)
  | _ => .ok (.error .xcfunException, s)

/-- `numpy.zeros((n, 8))` filled in (xcfun.py:191-195) -/
def pyDensAB (n : ℕ) (density grad : NdArray V) : NdArray V where
  shape := [n, 8]
  elem
    | [i, k] =>
      if k < 2 then density.elem [i, k]
      else if k < 5 then grad.elem [i, k - 2, 0]
      else grad.elem [i, k - 5, 1]
    | _ => 0

/-- `eval_energy_ab` (xcfun.py:153-202) -/
def evalEnergyAB (K : Kernel V) (junk : Junk V) (uninit : ℕ → V) (s : State V) (density : NdArray V)
    (densgrad : Option (NdArray V)) : Outcome (Except PyExc (List V) × State V) :=
  match density.shape with
  | [n, 2] =>
    if isMetagga s then .ok (.error .xcfunException, s)
    else if isGga s then
      match densgrad with
      | none => .ok (.error .xcfunException, s)
      | some g => firstColumn <|
        pySetupEval K junk uninit s .A_B_AX_AY_AZ_BX_BY_BZ PARTIAL_DERIVATIVES 0 (g.shape = [n, 3, 2]) (pyDensAB n density g)
    else firstColumn <| pySetupEval K junk uninit s .A_B PARTIAL_DERIVATIVES 0 true density
  | _ => .ok (.error .xcfunException, s)

/-- `numpy.zeros((n, 20))` filled in (xcfun.py:252-258) -/
def pyDensAB2 (n : ℕ) (density grad hess : NdArray V) : NdArray V where
  shape := [n, 20]
  elem
    | [i, k] =>
      let σ := k / 10
      let k := k % 10
      if k = 0 then density.elem [i, σ]
      else if k < 4 then grad.elem [i, k - 1, σ]
      else hess.elem [i, k - 4, σ]
    | _ => 0

/-- `eval_potential_ab` (xcfun.py:204-265) -/
def evalPotentialAB (K : Kernel V) (junk : Junk V) (uninit : ℕ → V) (s : State V) (density : NdArray V)
    (densgrad denshess : Option (NdArray V)) : Outcome (Except PyExc (PyArray V) × State V) :=
  match density.shape with
  | [n, 2] =>
    if isMetagga s then .ok (.error .xcfunException, s)
    else if isGga s then
      match densgrad, denshess with
      | some g, some h =>
        pySetupEval K junk uninit s .A_B_2ND_TAYLOR POTENTIAL 1 (g.shape = [n, 3, 2] ∧ h.shape = [n, 6, 2])
          (pyDensAB2 n density g h)
      | _, _ => .ok (.error .xcfunException, s)
    else pySetupEval K junk uninit s .A_B POTENTIAL 1 true density
  | _ => .ok (.error .xcfunException, s)

end

section
variable [Add V] [Mul V] [Lit V]

/-- `Functional.__init__` (xcfun.py:30-43): the dictionary in insertion order.  When the exception is raised the object exists and is
later deleted by `__del__` (45-46). -/
def pyInit : List (String × V) → Outcome (Except PyExc (State V))
  | l => go State.init l
where
  /-- the loop (40-43) -/
  go (s : State V) : List (String × V) → Outcome (Except PyExc (State V))
    | [] => .ok (.ok s)
    | (name, w) :: l => do
      let r ← xcfunSet s name w
      if r.1 ≠ 0 then .ok (.error .xcfunException) else go r.2 l

end

/-- The property `type` (xcfun.py:48-55) -/
def pyType (s : State V) : ℕ := if isMetagga s then 2 else if isGga s then 1 else 0

end XCFun
