/-
What `xcfun_eval` is supposed to compute: the weighted sum of the active functionals and its
partial derivatives.
-/
import Mathlib.Analysis.Calculus.Deriv.Basic
import Verif.Spec.Domain
import Verif.Model.Fun.Kernel

namespace XCFun

/-- Decimal literals as exact real numbers. -/
noncomputable instance : Lit ℝ := ⟨fun m e => (m : ℝ) / 10 ^ e⟩

namespace Spec

/-- One functional as an expression in the input slots: the functional applied to the density
    variables.  (`0` for variable sets without density variables; never active otherwise.) -/
noncomputable def fullExpr (par : ℕ → ℝ) (v : Vars) (id : ℕ) : Expr ℕ :=
  match densvars par v, Fun.energy id with
  | some f, some e => e.subst f
  | _, _ => .lit 0

/-- The energy of an object with variables `v` at the input `x`:
    the sum of weight times functional. -/
noncomputable def energyAt (s : State ℝ) (v : Vars) (x : ℕ → ℝ) : ℝ :=
  (s.active.map fun id => s.settings id * (fullExpr s.settings v id).evalR x).sum

/-- The same sum on multilinear expansions (the formal energy along perturbed inputs). -/
noncomputable def energyOn (s : State ℝ) (v : Vars) {N : ℕ} (ρ : ℕ → CT ℝ N) : CT ℝ N :=
  (s.active.map fun id =>
    CT.const N (s.settings id) * (fullExpr s.settings v id).evalCT ρ).sum

/-- `x` is strictly inside the domain of all active functionals and no branch is tied. -/
def RegularAt (s : State ℝ) (v : Vars) (x : ℕ → ℝ) : Prop :=
  ∀ id ∈ s.active, (fullExpr s.settings v id).Reg x

/-- Partial derivative with respect to coordinate `i`. -/
noncomputable def pderiv {ι : Type} [DecidableEq ι] (i : ι) (f : (ι → ℝ) → ℝ) (x : ι → ℝ) : ℝ :=
  deriv (fun t => f (Function.update x i t)) (x i)

/-- Partial derivative with respect to several coordinates, the last one innermost. -/
noncomputable def pderivs {ι : Type} [DecidableEq ι] (is : List ι) (f : (ι → ℝ) → ℝ) :
    (ι → ℝ) → ℝ := is.foldr pderiv f

/-- The coordinates whose bit is set in `S`. -/
def bits (N S : ℕ) : List ℕ := (List.range N).filter fun k => S.testBit k

/-- The multilinear path of contracted mode: input `i` at the parameters `e` is
    `sum_S y[i*2^N+S] * prod_{k in S} e_k`. -/
noncomputable def pathAt (N : ℕ) (y : ℕ → ℝ) (e : ℕ → ℝ) (i : ℕ) : ℝ :=
  ((List.range (2 ^ N)).map fun S => y (i * 2 ^ N + S) * ((bits N S).map e).prod).sum

end Spec
end XCFun
