/-
Which functionals are homogeneous under uniform scaling.
-/
import Verif.Proofs.Scaling

namespace XCFun.Fun
open Spec

/-- A product of densities and non-negative constants. -/
macro "nn_step" : tactic => `(tactic| first
  | exact Nn.a | exact Nn.b | exact Nn.n
  | (refine Nn.lit ?_; first | positivity | (norm_num; done))
  | refine Nn.div ?_ ?_
  | refine Nn.mul ?_ ?_)
/-- Non-negativity. -/
macro "nn" : tactic => `(tactic| ((repeat' nn_step); done))
/-- Follow the structure of the expression. -/
macro "deg_step" : tactic => `(tactic| first
  | (eapply Deg.lit _)
  | (eapply Deg.var _)
  | (eapply Deg.pow2)
  | (eapply Deg.pow3)
  | (eapply Deg.div)
  | (eapply Deg.mul)
  | (eapply Deg.add)
  | (eapply Deg.sub)
  | (eapply Deg.neg)
  | (eapply Deg.npow)
  | (eapply Deg.abs)
  | (eapply Deg.sqrtxAsinhSqrtx)
  | (eapply Deg.pow; (· nn))
  | (eapply Deg.sqrt)
  | (eapply Deg.cbrt)
  | (eapply Deg.powi_neg)
  | (eapply Deg.prim _)
  | (eapply Deg.poly)
  | (eapply Deg.iflt)
  | rfl
  | (norm_num [fieldDeg]; done))
/-- Homogeneity. -/
macro "deg" : tactic => `(tactic| repeat' deg_step)
theorem deg_slaterx : Deg slaterx 4 := by deg
theorem deg_pw86x : Deg pw86x 4 := by deg
theorem deg_pbex : Deg pbex 4 := by deg
theorem deg_beckex : Deg beckex 4 := by deg
theorem deg_beckexcorr : Deg beckexcorr 4 := by deg
theorem deg_revpbex : Deg revpbex 4 := by deg
theorem deg_rpbex : Deg rpbex 4 := by deg
theorem deg_pw91x : Deg pw91x 4 := by deg
theorem deg_optx : Deg optx 4 := by deg
theorem deg_optxcorr : Deg optxcorr 4 := by deg
theorem deg_m05x : Deg m05x 4 := by deg
theorem deg_m05x2x : Deg m05x2x 4 := by deg
theorem deg_m06x : Deg m06x 4 := by deg
theorem deg_m06x2x : Deg m06x2x 4 := by deg
theorem deg_m06lx : Deg m06lx 4 := by deg
theorem deg_m06hfx : Deg m06hfx 4 := by deg
theorem deg_tpssx : Deg tpssx 4 := by deg
theorem deg_b97x : Deg b97x 4 := by deg
theorem deg_b97_1x : Deg b97_1x 4 := by deg
theorem deg_b97_2x : Deg b97_2x 4 := by deg
theorem deg_apbex : Deg apbex 4 := by deg
theorem deg_pbeintx : Deg pbeintx 4 := by deg
theorem deg_pbesolx : Deg pbesolx 4 := by deg
theorem deg_blocx : Deg blocx 4 := by deg
theorem deg_brx : Deg brx 4 := by deg
theorem deg_tfk : Deg tfk 5 := by deg
theorem deg_vW : Deg vW 5 := by deg
theorem deg_pw91k : Deg pw91k 5 := by deg
end XCFun.Fun
