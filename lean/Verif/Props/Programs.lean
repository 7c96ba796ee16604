/-
C63, C64, C65: the programs that come with the library.
-/
import Verif.Proofs.ProgramsFortran

namespace XCFun.Props
open XCFun Spec Num

/-- **C63.** In exact arithmetic examples/CXX_host/example.cpp runs to its end without a complaint: the name is recognised, all setups are accepted, and the
energy density and the contracted derivatives of order 1, 2, 3 of PBE agree with the numbers in the program up to `10^-6`.  All memory is given back.  Wherever the
object is placed and whatever uninitialised storage contains. -/
theorem C63_example (junk : ℕ → Junk ℝ) (p : ℕ) : ∃ w, exampleMain codeKernel realOrder junk p Proc.start = .ok (.ok [], w) ∧ ∀ a, w.heap a = none :=
  ⟨_, example_run junk p Proc.start (Or.inl rfl) rfl, fun _ => rfl⟩

/-- **C63, as a part of a larger program.** Called after any sequence of library calls, it also ends without a complaint and leaves all objects of the caller as they
were. -/
theorem C63_example_after (ops : List (Op ℝ)) (rs : List (Ret ℝ)) (w : Proc ℝ) (h : opRun codeKernel Proc.start ops = .ok (rs, w)) (junk : ℕ → Junk ℝ) (p : ℕ)
    (hp : w.heap p = none) : ∃ w', exampleMain codeKernel realOrder junk p w = .ok (.ok [], w') ∧ w'.heap = w.heap := by
  have hc : w.tabs.Consistent := by
    obtain ⟨t, ht, hr⟩ := (independent_core codeKernel ops Proc.start (Or.inl rfl) rs w.heap).2
      ((C23_objects_independent codeKernel ops rs w.heap).1 ⟨w.tabs, h⟩)
    rw [h] at hr
    cases w
    simp only [Outcome.ok.injEq, Prod.mk.injEq, Proc.mk.injEq] at hr
    rw [hr.2.1]; exact ht
  exact ⟨_, example_run junk p w hc hp, rfl⟩

/-- **C64.** In exact arithmetic tests/testall.cpp returns 0: the checks of spin symmetry of PBE, of the chain rule between gradient components and their scalar
products for BLYP, of `xcfun_user_eval_setup`, of the weights of B3LYP, and the self test of the library all succeed, both loops over the names end, no call aborts or
is undefined, and all memory is given back.  For every content of uninitialised storage and every placement of the objects by the allocator; `fuel` bounds the rounds
of the loops. -/
theorem C64_testall (fuel : ℕ) (hf : 82 < fuel) (m : Memory ℝ) (hm : m.Distinct) :
    ∃ w, testallMain codeKernel realOrder farReal fuel m Proc.start = .ok (.ok 0, w) ∧ ∀ a, w.heap a = none :=
  ⟨_, testall_run fuel hf m hm, fun _ => rfl⟩

/-- **C65.** In exact arithmetic examples/Fortran_host/example.f90 runs to its end, no `assert` fails: the self test succeeds, the five contracted derivatives of PBE are
as in the C++ example, and the derivatives of PBE exchange at five points, computed by one call on an array, deviate from the reference potentials by less than
`10^-8` in the sum of squares.  All memory is given back. -/
theorem C65_fortran_example (m : FMemory ℝ) : ∃ w, fortranMain codeKernel realOrder farReal m Proc.start = .ok (.ok (), w) ∧ ∀ a, w.heap a = none :=
  ⟨_, fortran_run m, fun _ => rfl⟩

/-! ## Cases -/

/-- Storage that cannot be read at all: the program never reads what it has not written. -/
example : ∃ w, exampleMain codeKernel realOrder (fun _ => none) 17 Proc.start = .ok (.ok [], w) ∧ ∀ a, w.heap a = none := C63_example _ _

/-- Memory of testall.cpp in which every object gets the same place, except for those that exist at the same time. -/
example : ∃ w, testallMain codeKernel realOrder farReal 100 ⟨0, 0, (0, 1, 2), 0, fun _ => 0, fun _ _ => none, fun _ _ _ => 0, fun _ => none, fun _ _ => 0⟩
    Proc.start = .ok (.ok 0, w) ∧ ∀ a, w.heap a = none := C64_testall _ (by omega) _ (by simp [Memory.Distinct])

/-- The condition on the addresses is needed: `operator new` does not return an address in use. -/
example (w : Proc ℝ) : userSetupTest codeKernel 0 0 1 w = .ub := by
  unfold userSetupTest
  rw [show (Prog.new codeKernel 0 >>= _) w = Prog.bind (Prog.new codeKernel 0) _ w from rfl]
  unfold Prog.bind Prog.new
  simp only [opStep]
  cases h : w.heap 0 with
  | some s => rfl
  | none =>
    simp only [Outcome.ok_bind]
    show (Prog.bind (Prog.new codeKernel 0) _) _ = _
    unfold Prog.bind Prog.new
    simp only [opStep, upd_same]
    rfl

/-- A program with a wrong expectation is told so: 0.72 of B3LYP is BECKECORRX, not 0.73. -/
example (w : Proc ℝ) : checknum realOrder (lit 72 2 : ℝ) (lit 73 2) (lit 1 14) (lit 1 12) w = .ok (.error (-1), w) := by
  unfold checknum realOrder
  have h1 : ¬ |(lit 72 2 : ℝ) - lit 73 2| < lit 1 14 := by norm_num [lit, XCFun.Lit.lit, abs_of_neg]
  have h2 : ¬ |(lit 72 2 : ℝ) - lit 73 2| < lit 1 12 * lit 73 2 := by norm_num [lit, XCFun.Lit.lit, abs_of_neg]
  simp only [h1, h2, decide_false, Bool.false_eq_true, if_false]
  rfl

example : ∃ w, fortranMain codeKernel realOrder farReal ⟨fun f => f, fun _ => none, fun _ _ => 0, 3, 3, fun _ => none, fun _ _ => 1⟩ Proc.start = .ok (.ok (), w) ∧
    ∀ a, w.heap a = none := C65_fortran_example _

end XCFun.Props
