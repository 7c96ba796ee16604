/-
How far the energies may be from the published formulas where the code switches to approximations.
-/
import Verif.Spec.LiteratureTable

namespace XCFun.Lit
noncomputable section

/-- Gradients of non-negative length. -/
def Gas.RealGradients (g : Gas) : Prop := 0 ≤ g.gaa ∧ 0 ≤ g.gbb

/-- The gases for which functional `id` is near formula `F`: the domain of the formula, and beyond it all gases for BECKEX, BECKECORRX, PW91X, PW91K
(with real gradients), for BECKESRX, BECKECAMX (range separation positive as well) and LDAERFX (range separation positive). -/
def nearDomain (id : ℕ) (F : Formula) (q : Par) (g : Gas) : Prop :=
  F.domain q g ∨ (id ∈ [6, 7, 26, 27] ∧ g.RealGradients) ∨ (id ∈ [8, 9] ∧ g.RealGradients ∧ 0 < q.μ) ∨ (id = 13 ∧ 0 < q.μ)

/-- The largest distance from the published energy. -/
def tolerance (F : Formula) (q : Par) (g : Gas) : ℕ → ℝ
  | 6 | 7 | 26 | 27 => 1e-16 * |F.energy q g|
  | 8 => 8e-16 * |b88X g|
  | 9 => 4e-16 * (1 + |q.α| + |q.β|) * |b88X g|
  | 13 => 5e-9 * |slaterX g|
  | _ => 0

end
end XCFun.Lit
