/-
What tests/plot-functional.py wants to show: M06-L for closed shells of given density, reduced gradient and iso-orbital indicator.  Nothing here refers to the
model of the code.
-/
import Verif.Spec.GradientExpansion
import Verif.Spec.LiteratureMeta

namespace XCFun.Lit

noncomputable section

/-- A closed shell of density `n`, of reduced gradient `s = |∇n|/(2 k_F n)`, and with the fraction `z = τ_W/τ` of the kinetic energy density that of one orbital. -/
structure HasSZ (g : Gas) (n s z : ℝ) : Prop where
  a : g.a = n / 2
  b : g.b = n / 2
  gab : g.gab = g.gaa
  gbb : g.gbb = g.gaa
  s : sSq n (g.gaa + 2 * g.gab + g.gbb) = s ^ 2
  taub : g.taub = g.taua
  z : tauW n (g.gaa + 2 * g.gab + g.gbb) / (g.taua + g.taub) = z

/-- Exchange and correlation of M06-L. -/
def m06L (CF : ℝ) (g : Gas) : ℝ := m06X g CF m06LXa m06LXd + m06C g CF m06LCc.1.1 m06LCc.1.2 m06LCc.2.1 m06LCc.2.2

end

end XCFun.Lit
