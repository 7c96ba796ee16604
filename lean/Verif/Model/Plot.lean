/-
The script tests/plot-functional.py, which draws curves of a functional computed by funeval.

The numbers go to funeval and come back as text (`"%.15e"`, plot-functional.py:42, and `"%.16e"`, funeval.c:158); here they are passed on unchanged.  Drawing is
left out: the result is what is handed to `plt.plot`.
-/
import Verif.Model.CHost
import Verif.Spec.Energy

namespace XCFun

/-- `evaluator_args` (plot-functional.py:19) without the name of the program. -/
def plotArgs : List String := ["--quiet", "--order", "0", "--ngnntaun", "m06l", "1.0"]

/-- A row of `gen_grad2_tau` (22-31): density, squared gradient and kinetic energy density. -/
noncomputable def genGrad2Tau (rho s z : ℝ) : List ℝ :=
  let kf := (3 * Real.pi ^ 2 * rho) ^ (1.0 / 3.0 : ℝ)
  let gnn := s ^ 2 * (2 * kf * rho) ^ 2
  let tauw := 1.0 / 8.0 * gnn / rho
  [rho, gnn, tauw / z]

/-- `map(float, out[0].split())` (44) for a line of funeval.  Messages go to the standard error stream, which is not read; of the text, `float` raises an
exception (funeval.c:77-159). -/
def Line.floats {V : Type} : Line V → Option (List V)
  | .values l => some l
  | .usage | .header _ _ _ _ | .table _ => none
  | .noInteger _ | .badInteger _ _ | .noNumber _ | .badWeight _ | .setupError _ | .readError => some []

/-- `eval_fun` (34-44) when funeval can be started.  The exit status of funeval is not looked at. -/
noncomputable def plotEval (K : Kernel ℝ) (E : FunevalEnv ℝ) (p : ℕ) (rho : List ℝ) (s z : ℝ) : Outcome (List ℝ) := do
  let r ← funevalMain K E p plotArgs (rho.flatMap fun r => genGrad2Tau r s z) Proc.start
  match r.1 with
  | .ok (_, lines) =>
    match lines.mapM Line.floats with
    | some l => .ok l.flatten
    | none => .die
  | .error _ => .ok []

/-- `linspace(a, b, n)` (48). -/
noncomputable def linspace (a b : ℝ) (n : ℕ) : List ℝ := (List.range n).map fun i : ℕ => a + i * ((b - a) / (n - 1))

/-- A curve (54): label, and the points. -/
structure Curve where
  s : ℝ
  points : List (ℝ × ℝ)

/-- A diagram (52-59): its place from the top, its title, its curves, and whether it has a legend. -/
structure Panel where
  place : ℤ
  z : ℝ
  curves : List Curve
  legend : Bool

/-- `rho` (48). -/
noncomputable def plotRho : List ℝ := linspace 1e-6 2e1 100

/-- `ss` (49). -/
noncomputable def plotS : List ℝ := [1e-6, 0.1, 0.5, 1.0]

/-- `zs` (50). -/
noncomputable def plotZ : List ℝ := [1e-3, 0.5, 1.0]

/-- The inner loop (53-54). `plt.plot` raises an exception when there are more or fewer values than densities. -/
noncomputable def plotCurves (K : Kernel ℝ) (E : FunevalEnv ℝ) (p : ℕ) (z : ℝ) : List ℝ → Outcome (List Curve)
  | [] => .ok []
  | s :: ss => do
    let y ← plotEval K E p plotRho s z
    if y.length = plotRho.length then
      let r ← plotCurves K E p z ss
      .ok (⟨s, plotRho.zip y⟩ :: r)
    else .die

/-- The outer loop (51-59), from `i` on. -/
noncomputable def plotPanels (K : Kernel ℝ) (E : FunevalEnv ℝ) (p : ℕ) : ℕ → List ℝ → Outcome (List Panel)
  | _, [] => .ok []
  | i, z :: zs => do
    let c ← plotCurves K E p z plotS
    let r ← plotPanels K E p (i + 1) zs
    .ok (⟨(plotZ.length : ℤ) - i, z, c, i = 0⟩ :: r)

/-- The script (47-60). -/
noncomputable def plotMain (K : Kernel ℝ) (E : FunevalEnv ℝ) (p : ℕ) : Outcome (List Panel) := plotPanels K E p 0 plotZ

end XCFun
