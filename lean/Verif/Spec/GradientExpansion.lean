/-
The second-order gradient expansion of exchange and correlation energies of closed shells, `E = E_LDA + C |∇n|²/(k_F n) + ...`, as the publications of the
functionals give its coefficient.  Nothing here refers to the model of the code.
-/
import Verif.Spec.Literature

namespace XCFun.Lit

noncomputable section

/-- A closed shell of density `n` with squared gradient `g2`. -/
structure ClosedShell (g : Gas) (n g2 : ℝ) : Prop where
  a : g.a = n / 2
  b : g.b = n / 2
  gaa : g.gaa = g2 / 4
  gab : g.gab = g2 / 4
  gbb : g.gbb = g2 / 4

/-- An exchange energy `exUnif n (1 + μ s² + ...)` has the term `-(3 μ/(16 π)) |∇n|²/(k_F n)`. -/
def exchangeTerm (μ n : ℝ) : ℝ := -(3 * μ / (16 * Real.pi)) / (kF n * n)

/-- A correlation energy `n (ε + β t² + ...)` has the term `(π β/16) |∇n|²/(k_F n)`. -/
def correlationTerm (β n : ℝ) : ℝ := Real.pi * β / 16 / (kF n * n)

/-- The coefficients of `s²` (exchange) and `t²` (correlation) in the expansions of functionals, by functional id.
PBEX and REVPBEX: `μ = β π²/3` with `β = 0.066725`; RPBEX: 0.21951 in more digits; PBESOLX, PBEINTX: 10/81 in 12 digits; APBEX: 0.26; PW86X: 1.296/15.
PBEC, VWN_PBEC: `β = 0.066725` in more digits; APBEC: 3 · 0.26/π² in 11 digits; PBEINTC and ZVPBEINTC: 0.052; ZVPBESOLC: 0.046; PBELOCC: 0.0375.
The local functionals have none. -/
def gradientTerm (n : ℝ) : ℕ → Option ℝ
  | 0 => some 0 -- SLATERX
  | 1 => some (exchangeTerm (1.296 / 15) n) -- PW86X
  | 3 => some 0 -- VWN5C
  | 4 => some (correlationTerm 0.06672455060314922 n) -- PBEC
  | 5 => some (exchangeTerm (0.066725 * Real.pi ^ 2 / 3) n) -- PBEX
  | 19 => some (exchangeTerm (0.066725 * Real.pi ^ 2 / 3) n) -- REVPBEX
  | 20 => some (exchangeTerm 0.2195149727645171 n) -- RPBEX
  | 22 => some (correlationTerm 0.06672455060314922 n) -- VWN_PBEC
  | 28 => some 0 -- PW92C
  | 67 => some (correlationTerm 0.079030523241 n) -- APBEC
  | 68 => some (exchangeTerm 0.26 n) -- APBEX
  | 69 => some (correlationTerm 0.046 n) -- ZVPBESOLC
  | 71 => some (correlationTerm 0.052 n) -- PBEINTC
  | 72 => some (exchangeTerm 0.123456790123 n) -- PBEINTX
  | 73 => some (correlationTerm 0.0375 n) -- PBELOCC
  | 74 => some (exchangeTerm 0.123456790123 n) -- PBESOLX
  | 76 => some (correlationTerm 0.052 n) -- ZVPBEINTC
  | _ => none

end

end XCFun.Lit
