/-
The numbers compared by the tests of the Python module, computed in the kernel.
-/
import Verif.Proofs.PyTests

namespace XCFun
open Spec Props Num

/-! ## Energies and potentials at the points -/

noncomputable def eN (i : ℕ) : Q := energyQ Dens.codeN [densQ i] ldaTerms
noncomputable def vN (i : ℕ) : Q := derivQ Dens.codeN [densQ i] ldaTerms 0
noncomputable def eAB (a b : ℕ → Q) (i : ℕ) : Q := energyQ Dens.codeAB [a i, b i] ldaTerms
noncomputable def vAB (a b : ℕ → Q) (j i : ℕ) : Q := derivQ Dens.codeAB [a i, b i] ldaTerms j

noncomputable def eNX (i : ℕ) : Q := energyQ Dens.codeNX (rowNQ i) pbeTerms
noncomputable def eN2 (i : ℕ) : Q := energyQ Dens.codeNX (rowN2Q i) pbeTerms
noncomputable def vN2 (i : ℕ) : Q := (derivQ Dens.codeNX (rowN2Q i) pbeTerms 0).sub (divNQ Dens.codeNX (rowN2Q i) pbeTerms)
noncomputable def eABX (r : ℕ → List Q) (i : ℕ) : Q := energyQ Dens.codeABX (r i) pbeTerms
noncomputable def eAB2 (r : ℕ → List Q) (i : ℕ) : Q := energyQ Dens.codeABT (r i) pbeTerms
noncomputable def vAB2 (r : ℕ → List Q) (j i : ℕ) : Q :=
  (derivQ Dens.codeABT (r i) pbeTerms (Nat.mul 10 j)).sub (divABQ Dens.codeABT (r i) pbeTerms j)

noncomputable def closedX : ℕ → List Q := rowABQ halfQ halfQ (5, 1) (5, 1)
noncomputable def closed2 : ℕ → List Q := rowAB2Q halfQ halfQ (5, 1) (5, 1) (5, 1) (5, 1)
noncomputable def openX : ℕ → List Q := rowABQ open2AQ open2BQ (4, 1) (6, 1)
noncomputable def open2 : ℕ → List Q := rowAB2Q open2AQ open2BQ (4, 1) (6, 1) (7, 1) (2, 1)

/-! ## Checks -/

theorem num_old : relQ (energyQ Dens.codeN [ofDec (1, 0)] ldaTerms) (ofDec (-8101513, 7)) = true ∧
    relQ (derivQ Dens.codeN [ofDec (1, 0)] ldaTerms 0) (ofDec (-106468341, 8)) = true := by decide +kernel
theorem num_eN : closeN eN (refQ refenLdaZ) 10 = true := by decide +kernel
theorem num_vN : closeN vN (refQ refpotLdaZ) 10 = true := by decide +kernel
theorem num_eClosed : closeN (eAB halfQ halfQ) (refQ refenLdaZ) 10 = true := by decide +kernel
theorem num_vClosed0 : closeN (vAB halfQ halfQ 0) (refQ refpotLdaZ) 10 = true := by decide +kernel
theorem num_vClosed1 : closeN (vAB halfQ halfQ 1) (refQ refpotLdaZ) 10 = true := by decide +kernel
theorem num_eOpen : closeN (eAB openAQ openBQ) (refQ refenLdaOpenZ) 10 = true := by decide +kernel
theorem num_eOpenSame : closeN (eAB openAQ openBQ) (eAB openAQ openBQ) 10 = true := by decide +kernel
theorem num_vOpen0 : closeN (vAB openAQ openBQ 0) (refQ refpotLdaAlphaZ) 10 = true := by decide +kernel
theorem num_vOpen1 : closeN (vAB openAQ openBQ 1) (refQ refpotLdaBetaZ) 10 = true := by decide +kernel
theorem num_eNX : closeN eNX (refQ refenPbeZ) 10 = true := by decide +kernel
theorem num_eN2 : closeN eN2 (refQ refenPbeZ) 10 = true := by decide +kernel
theorem num_vN2 : closeN vN2 (refQ refpotPbeZ) 10 = true := by decide +kernel
theorem num_eClosedX : closeN (eABX closedX) (refQ refenPbeZ) 10 = true := by decide +kernel
theorem num_eClosed2 : closeN (eAB2 closed2) (refQ refenPbeZ) 10 = true := by decide +kernel
theorem num_vClosed20 : closeN (vAB2 closed2 0) (refQ refpotPbeZ) 10 = true := by decide +kernel
theorem num_vClosed21 : closeN (vAB2 closed2 1) (refQ refpotPbeZ) 10 = true := by decide +kernel
theorem num_eOpenX : closeN (eABX openX) (refQ refenPbeOpenZ) 10 = true := by decide +kernel
theorem num_eOpen2 : closeN (eAB2 open2) (eABX openX) 10 = true := by decide +kernel
theorem num_vOpen20 : closeN (vAB2 open2 0) (refQ refpotPbeAlphaZ) 10 = true := by decide +kernel
theorem num_vOpen21 : closeN (vAB2 open2 1) (refQ refpotPbeBetaZ) 10 = true := by decide +kernel

end XCFun
