/-
`xcint_assure_setup` executed by several threads: the shared memory accesses it performs, one by one.
-/
import Verif.Model.Process

namespace XCFun

/-- Shared objects touched by `xcint_assure_setup` (src/xcint.cpp:28-29, 138). -/
inductive Loc where
  | flag
  | funEntry (i : ℕ)
  | parEntry (i : ℕ)
  deriving DecidableEq

/-- A memory access; none of them is atomic and no lock is taken (src/xcint.cpp:137-151). -/
structure Access where
  thread : ℕ
  loc : Loc
  write : Bool

/-- What `xcint_assure_setup` writes when the flag is not set, in order (src/xcint.cpp:140-149). -/
def setupWrites : List Loc :=
  (visit 0 NR_FUNCTIONALS).map .funEntry ++
    (List.range' NR_FUNCTIONALS (NR_PARAMETERS_AND_FUNCTIONALS - NR_FUNCTIONALS)).map .parEntry ++ [.flag]

/-- Where a thread is: before the test of the flag (src/xcint.cpp:139), before the `k`-th write, or returned. -/
inductive PC where
  | start
  | fill (k : ℕ)
  | done
  deriving DecidableEq

/-- Memory, the position of every thread, and the accesses so far. -/
structure Threads where
  tabs : Tables
  pc : ℕ → PC
  trace : List Access

/-- The effect of one write on the tables (src/xcint.cpp:78, 89, 149). -/
def writeLoc (t : Tables) : Loc → Tables
  | .flag => { t with isSetup := true }
  | .funEntry i => { t with funTab := upd t.funTab i funs[i]? }
  | .parEntry i => { t with parTab := upd t.parTab i params[i - NR_FUNCTIONALS]? }

/-- Thread `i` performs its next access (src/xcint.cpp:137-151). -/
def threadStep (m : Threads) (i : ℕ) : Threads :=
  match m.pc i with
  | .start =>
    { m with
      pc := upd m.pc i (if m.tabs.isSetup then .done else .fill 0)
      trace := m.trace ++ [⟨i, .flag, false⟩] }
  | .fill k =>
    match setupWrites[k]? with
    | some l =>
      { tabs := writeLoc m.tabs l
        pc := upd m.pc i (if k + 1 < setupWrites.length then .fill (k + 1) else .done)
        trace := m.trace ++ [⟨i, l, true⟩] }
    | none => m
  | .done => m

/-- A schedule: which thread moves at each step. -/
def threadRun (m : Threads) (sched : List ℕ) : Threads := sched.foldl threadStep m

/-- All threads about to make a library call. -/
def Threads.init (t : Tables) : Threads := ⟨t, fun _ => .start, []⟩

end XCFun
