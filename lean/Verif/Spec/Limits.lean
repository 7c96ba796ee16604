/-
The uniform-gas limit and the sign of exchange.
-/
import Mathlib.Analysis.SpecialFunctions.Pow.Real
import Mathlib.Analysis.Real.Pi.Bounds
import Verif.Model.Densvars

namespace XCFun.Spec

/-- Exchange energy density of the uniform spin-polarised electron gas: `-(3/4) (6/π)^(1/3) (a^(4/3) + b^(4/3))`. -/
noncomputable def uniformExchange (a b : ℝ) : ℝ := -(3 / 4) * (6 / Real.pi) ^ (1 / 3 : ℝ) * (a ^ (4 / 3 : ℝ) + b ^ (4 / 3 : ℝ))

/-- The gradient fields. -/
def IsGradient (f : Field) : Prop := f = .gaa ∨ f = .gab ∨ f = .gbb ∨ f = .gnn ∨ f = .gns ∨ f = .gss

/-- Density variables as the constructor leaves them: positive densities, and the two powers. -/
structure Physical (ρ : Field → ℝ) : Prop where
  a : 0 < ρ .a
  b : 0 < ρ .b
  n : 0 < ρ .n
  a_43 : ρ .a_43 = ρ .a ^ (4 / 3 : ℝ)
  b_43 : ρ .b_43 = ρ .b ^ (4 / 3 : ℝ)

/-- SLATERX, PW86X, PBEX, BECKEX, REVPBEX, RPBEX, PW91X, APBEX, PBEINTX, PBESOLX: exchange functionals that are exact for the uniform gas. -/
def slaterLike : List ℕ := [0, 1, 5, 6, 19, 20, 26, 68, 72, 74]

/-- BECKECORRX, OPTXCORR, KTX, TW, P86CORRC, VWK: corrections that vanish with the gradients. -/
def gradientOnly : List ℕ := [7, 18, 23, 25, 57, 59]

/-- Correlation functionals and the local functional they reduce to: PBEC, APBEC, ZVPBESOLC, PBEINTC, PBELOCC, ZVPBEINTC to PW92C; SPBEC,
VWN_PBEC to VWN5C; P86C to PZ81C. -/
def localCorrelation : List (ℕ × ℕ) := [(4, 28), (67, 28), (69, 28), (71, 28), (73, 28), (76, 28), (21, 3), (22, 3), (56, 55)]

/-- Exchange functionals that are never positive: SLATERX, PW86X, PBEX, BECKEX, BECKECORRX, OPTX, REVPBEX, RPBEX, PW91X, B97X, B97_1X,
B97_2X, APBEX, PBEINTX, PBESOLX. -/
def exchangeNonpos : List ℕ := [0, 1, 5, 6, 7, 17, 19, 20, 26, 60, 62, 64, 68, 72, 74]

/-- Exchange functionals whose gradients only lower the energy: SLATERX, PW86X, PBEX, BECKEX, REVPBEX, RPBEX, APBEX, PBEINTX, PBESOLX. -/
def belowUniform : List ℕ := [0, 1, 5, 6, 19, 20, 68, 72, 74]

/-- Exchange functionals with a bounded enhancement factor, and the bound: SLATERX, PBEX, RPBEX, APBEX, PBEINTX, PBESOLX, REVPBEX. -/
def enhancementBound : List (ℕ × ℝ) :=
  [(0, 1), (5, 1.804), (20, 1.804), (68, 1.804), (72, 1.804), (74, 1.804), (19, 2.245)]

/-- Kinetic energies TFK, TW, PW91K, BTK, VWK. -/
def kineticNonneg : List ℕ := [24, 25, 27, 58, 59]

end XCFun.Spec
