/-
The conditions from which the PBE correlation energy was made.

Perdew, Burke and Ernzerhof (Phys. Rev. Lett. 77, 3865) write `E_c = ∫ n (ε + H)` with `ε` of the uniform gas and ask of `H` that
(a) for slowly varying densities `H → β φ³ t²`; (b) for rapidly varying ones, `t → ∞`, `H → -ε`, making correlation vanish.
-/
import Verif.Spec.Smooth
import Verif.Spec.Literature

namespace XCFun.Spec

/-- PBEC, VWN_PBEC, APBEC, PBEINTC, PBELOCC. -/
def pbeFamily : List ℕ := [4, 22, 67, 71, 73]

/-- ZVPBESOLC and ZVPBEINTC, whose `H` is multiplied by a factor that is 1 for unpolarised densities. -/
def zvFamily : List ℕ := [69, 76]

/-- The functional of the uniform gas the member is built on: VWN5C for VWN_PBEC and SPBEC, otherwise PW92C. -/
def ldaOf (id : ℕ) : ℕ := if id = 22 ∨ id = 21 then 3 else 28

/-- The coefficient `β` of the gradient expansion; for PBELOCC its value without gradient. -/
noncomputable def pbeBeta (id : ℕ) : ℝ :=
  if id = 67 then 0.079030523241 else if id = 71 then 0.052 else if id = 73 then 0.0375 else 0.06672455060314922

/-- The two environments have the same densities. -/
def SameDensities (ρ σ : Field → ℝ) : Prop := ∀ f, IsDensity f → ρ f = σ f

end XCFun.Spec
