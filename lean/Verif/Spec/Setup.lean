import Verif.Spec.Names
import Mathlib.Data.Sym.Card
import Mathlib.Algebra.BigOperators.Group.Finset.Basic

/-!
# Specification vocabulary for setup and lengths
-/

namespace XCFun.Spec

variable {V : Type _}

/-- Some active functional declares quantity `k` (bit 0 density, 1 gradient, 2 Laplacian, 3 kinetic, 4 current). -/
def Needs (s : State V) (k : Nat) : Prop :=
  ∃ i ∈ s.active, ∃ f, funs[i]? = some f ∧ f.depends.testBit k = true

/-- The variable set `v` carries quantity `k`, according to `xcint_vars`. -/
def Carries (v : Vars) (k : Nat) : Prop :=
  ∃ d, varsTable[v.code]? = some d ∧ d.provides.testBit k = true

/-- The variables provide everything the active functionals need. -/
def Sufficient (s : State V) (v : Vars) : Prop := ∀ k, Needs s k → Carries v k

/-- The documented range of orders. -/
def OrderOk (mode order : Int) : Prop :=
  0 ≤ order ∧ order ≤ 6 ∧ (mode = PARTIAL_DERIVATIVES → order ≤ 4)

/-- The density with all first and second derivatives is given. -/
def HessianVars (v : Vars) : Prop :=
  v = .A_2ND_TAYLOR ∨ v = .A_B_2ND_TAYLOR ∨ v = .N_2ND_TAYLOR ∨ v = .N_S_2ND_TAYLOR

/-- Number of monomials of degree at most `d` in `n` variables: multisets of `j ≤ d` variables. -/
def numMonomials (n d : Nat) : Nat :=
  ∑ j ∈ Finset.range (d + 1), Fintype.card (Sym (Fin n) j)

variable [Add V] [Mul V] [Lit V]

/-- The call is a setup call that returns 0 on this object. -/
def SetupSucceeds (s : State V) : Call V → Prop
  | .evalSetup v m o => ∃ s', evalSetup s v m o = .ok (0, s')
  | .userEvalSetup o f d m l k c e => ∃ s', userEvalSetup s o f d m l k c e = .ok (0, s')
  | _ => False

/-- No call of the history, run from `s`, is a successful setup. -/
def NeverSetUp (s : State V) : List (Call V) → Prop
  | [] => True
  | c :: cs => ¬ SetupSucceeds s c ∧ ∀ s', c.step s = .ok s' → NeverSetUp s' cs

end XCFun.Spec
