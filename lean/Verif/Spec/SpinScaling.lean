/-
The spin scaling relation of exchange (Oliver and Perdew, Phys. Rev. A 20, 397 (1979)):
`E[n_a, n_b] = (E[n_a, n_a] + E[n_b, n_b]) / 2`.
-/
import Verif.Spec.Spin

namespace XCFun.Spec

/-- The density variables that belong to one spin, alpha beside beta. -/
def spinFieldPairs : List (Field × Field) :=
  [(.a, .b), (.gaa, .gbb), (.taua, .taub), (.lapa, .lapb), (.a_43, .b_43), (.jpaa, .jpbb)]

/-- The functionals that obey the relation: all exchange functionals and the kinetic energy functionals other than
XC_TFK and XC_TW, by number in the enumeration. -/
def spinScaled : List ℕ :=
  [0, 1, 5, 6, 7, 8, 9, 10, 13, 17, 18, 19, 20, 23, 26, 27, 29, 30, 31, 32, 33, 34, 42, 44, 46, 48, 50, 52, 54, 58, 59, 60,
   62, 64, 68, 70, 72, 74]

/-- Sets of input variables in which every input belongs to one spin, apart from `gab`. -/
def SpinResolved (v : Vars) : Prop := spinPairs v ≠ []

instance (v : Vars) : Decidable (SpinResolved v) := inferInstanceAs (Decidable (_ ≠ _))

/-- The input array of the unpolarised system in which both spins have the alpha (`up = true`) or both have the beta
quantities of `ρ`.  The only input of these sets without a partner, `gab` (number 3), becomes `gaa` or `gbb`. -/
def bothSpins {R : Type _} (up : Bool) (v : Vars) (ρ : ℕ → R) (i : ℕ) : R :=
  match (spinPairs v).find? fun p => p.1 == i || p.2 == i with
  | some (j, k) => ρ (if up then j else k)
  | none => if i = 3 then ρ (if up then 2 else 4) else ρ i

/-- Input `i` belongs to alpha. -/
def IsAlpha (v : Vars) (i : ℕ) : Prop := ∃ p ∈ spinPairs v, p.1 = i
/-- Input `i` belongs to beta. -/
def IsBeta (v : Vars) (i : ℕ) : Prop := ∃ p ∈ spinPairs v, p.2 = i

instance (v : Vars) (i : ℕ) : Decidable (IsAlpha v i) := inferInstanceAs (Decidable (∃ p ∈ spinPairs v, p.1 = i))
instance (v : Vars) (i : ℕ) : Decidable (IsBeta v i) := inferInstanceAs (Decidable (∃ p ∈ spinPairs v, p.2 = i))

end XCFun.Spec
