/-
Densities of one electron, approached through densities that have a little of the other spin.  Nothing here refers to the model of the code.
-/
import Verif.Spec.LiteratureMeta
import Mathlib.Topology.Order.Basic

namespace XCFun.Lit
open Filter Topology

/-- Along the filter the gas becomes that of a single orbital of spin up, with density `n` and squared gradient `g2`: the kinetic energy density is then
`g2/(8 n)`, and there is nothing of spin down.  The gradients are those of two real densities: squares are not negative, nor is `|b ∇a - a ∇b|²`. -/
structure ToOneElectron {ι : Type} (l : Filter ι) (g : ι → Gas) (n g2 : ℝ) : Prop where
  n_pos : 0 < n
  g2_pos : 0 < g2
  a_pos : ∀ i, 0 < (g i).a
  b_pos : ∀ i, 0 < (g i).b
  gaa_nonneg : ∀ i, 0 ≤ (g i).gaa
  gbb_nonneg : ∀ i, 0 ≤ (g i).gbb
  mixed : ∀ i, 0 ≤ (g i).b ^ 2 * (g i).gaa - 2 * (g i).a * (g i).b * (g i).gab + (g i).a ^ 2 * (g i).gbb
  a : Tendsto (fun i => (g i).a) l (𝓝 n)
  b : Tendsto (fun i => (g i).b) l (𝓝 0)
  gaa : Tendsto (fun i => (g i).gaa) l (𝓝 g2)
  gab : Tendsto (fun i => (g i).gab) l (𝓝 0)
  gbb : Tendsto (fun i => (g i).gbb) l (𝓝 0)
  tau : Tendsto (fun i => (g i).taua + (g i).taub) l (𝓝 (g2 / (8 * n)))

end XCFun.Lit
