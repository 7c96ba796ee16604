/-
All functionals with a published formula in the table.
-/
import Verif.Proofs.LitScan
import Verif.Proofs.LitErf
import Verif.Spec.LiteratureTable
import Verif.Spec.Gas
import Verif.Model.Fun.Table

namespace XCFun.Fun
open XCFun Expr Lit

/-- The settings among the density variables. -/
noncomputable def parOf (ρ : Field → ℝ) : Par := ⟨ρ (.param RANGESEP_MU), ρ (.param CAM_ALPHA), ρ (.param CAM_BETA)⟩

theorem energy_published {ρ : Field → ℝ} {g : Gas} (h : IsGas ρ g) (id : ℕ) {F : Formula} (hF : published[id]? = some (some F))
    (hd : F.domain (parOf ρ) g) : ((Fun.energy id).getD 0).evalR ρ = F.energy (parOf ρ) g := by
  match id, hF with
  | 0, hF => cases hF; exact lit_slaterx h
  | 1, hF => cases hF; exact lit_pw86x h
  | 2, hF => cases hF; exact lit_vwn3c h
  | 3, hF => cases hF; exact lit_vwn5c h
  | 4, hF => cases hF; exact lit_pbec h
  | 5, hF => cases hF; exact lit_pbex h
  | 6, hF => cases hF; exact lit_beckex h hd.1 hd.2
  | 7, hF => cases hF; exact lit_beckecorr h hd.1 hd.2
  | 8, hF => cases hF; exact lit_beckesr h hd.1 hd.2
  | 9, hF => cases hF; exact lit_beckecam h hd.1 hd.2
  | 10, hF => exact absurd hF (by simp [published])
  | 11, hF => exact absurd hF (by simp [published])
  | 12, hF => exact absurd hF (by simp [published])
  | 13, hF => cases hF; exact lit_ldaerfx h hd.1 hd.2
  | 14, hF => cases hF; exact lit_ldaerfc h
  | 15, hF => cases hF; exact lit_ldaerfc_jt h
  | 16, hF => cases hF; exact lit_lypc h
  | 17, hF => cases hF; exact lit_optx h
  | 18, hF => cases hF; exact lit_optxcorr h
  | 19, hF => cases hF; exact lit_revpbex h
  | 20, hF => cases hF; exact lit_rpbex h
  | 21, hF => exact absurd hF (by simp [published])
  | 22, hF => cases hF; exact lit_vwn_pbec h
  | 23, hF => cases hF; exact lit_ktx h
  | 24, hF => cases hF; exact lit_tfk h
  | 25, hF => exact absurd hF (by simp [published])
  | 26, hF => cases hF; exact lit_pw91x h hd.1 hd.2
  | 27, hF => cases hF; exact lit_pw91k h hd.1 hd.2
  | 28, hF => cases hF; exact lit_pw92c h
  | 29, hF => cases hF; exact lit_m05x h
  | 30, hF => cases hF; exact lit_m05x2x h
  | 31, hF => cases hF; exact lit_m06x h
  | 32, hF => cases hF; exact lit_m06x2x h
  | 33, hF => cases hF; exact lit_m06lx h
  | 34, hF => cases hF; exact lit_m06hfx h
  | 35, hF => cases hF; exact lit_m05x2c h
  | 36, hF => cases hF; exact lit_m05c h
  | 37, hF => cases hF; exact lit_m06c h
  | 38, hF => cases hF; exact lit_m06hfc h
  | 39, hF => cases hF; exact lit_m06lc h
  | 40, hF => cases hF; exact lit_m06x2c h
  | 41, hF => cases hF; exact lit_tpssc h
  | 42, hF => cases hF; exact lit_tpssx h hd.1.1 hd.1.2
  | 43, hF => exact absurd hF (by simp [published])
  | 44, hF => exact absurd hF (by simp [published])
  | 45, hF => cases hF; exact lit_scanc h hd.1
  | 46, hF => cases hF; exact lit_scanx h hd.1
  | 47, hF => cases hF; exact lit_rscanc h hd.1 hd.2
  | 48, hF => cases hF; exact lit_rscanx h hd.1 hd.2.1 hd.2.2
  | 49, hF => cases hF; exact lit_rppscanc h hd.1 hd.2
  | 50, hF => cases hF; exact lit_rppscanx h hd.1 hd.2.1 hd.2.2
  | 51, hF => cases hF; exact lit_r2scanc h hd.1 hd.2
  | 52, hF => cases hF; exact lit_r2scanx h hd.1 hd.2.1 hd.2.2
  | 53, hF => cases hF; exact lit_r4scanc h hd.1 hd.2
  | 54, hF => cases hF; exact lit_r4scanx h hd.1 hd.2.1 hd.2.2
  | 55, hF => cases hF; exact lit_pz81c h
  | 56, hF => cases hF; exact lit_p86c h
  | 57, hF => cases hF; exact lit_p86corr h
  | 58, hF => cases hF; exact lit_btk h hd.1 hd.2
  | 59, hF => cases hF; exact lit_vwk h
  | 60, hF => cases hF; exact lit_b97x h hd.1 hd.2 b97x_c
  | 61, hF => cases hF; exact lit_b97c h hd.1 hd.2 b97c_c
  | 62, hF => cases hF; exact lit_b97x h hd.1 hd.2 b97_1x_c
  | 63, hF => cases hF; exact lit_b97c h hd.1 hd.2 b97_1c_c
  | 64, hF => cases hF; exact (lit_b97x h hd.1 hd.2 b97_2x_c).trans (by norm_num [b97_2x_c])
  | 65, hF => cases hF; exact lit_b97c h hd.1 hd.2 b97_2c_c
  | 66, hF => exact absurd hF (by simp [published])
  | 67, hF => cases hF; exact lit_apbec h
  | 68, hF => cases hF; exact lit_apbex h
  | 69, hF => cases hF; exact lit_zvpbe h _ _
  | 70, hF => cases hF; exact lit_blocx h hd.1.1 hd.1.2 hd.2.1 hd.2.2
  | 71, hF => cases hF; exact lit_pbeintc h
  | 72, hF => cases hF; exact lit_pbeintx h
  | 73, hF => cases hF; exact lit_pbelocc h
  | 74, hF => cases hF; exact lit_pbesolx h
  | 75, hF => cases hF; exact lit_tpsslocc h
  | 76, hF => cases hF; exact lit_zvpbe h _ _
  | 77, hF => cases hF; exact lit_pw91c h
  | n + 78, hF => exact absurd hF (by simp [published])

end XCFun.Fun
