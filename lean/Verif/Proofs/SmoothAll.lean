/-
Most functionals together: smooth off the surfaces of `SmoothAt`.  (The others are in Proofs/SmoothTies.)
-/
import Verif.Proofs.SmoothScan

namespace XCFun.Fun
open Spec Expr

variable {ρ : Field → ℝ}

theorem S2_eval {n g : Expr Field} (hn : 0 < n.evalR ρ) : (S2 n g).evalR ρ = sSq (n.evalR ρ) (g.evalR ρ) := by
  have hp := Real.pi_pos
  have e : S2const = 1 / (4 * (6 * Real.pi ^ 2) ^ (2 / 3 : ℝ)) := by
    have h6 : (0 : ℝ) < 6 ^ (2 / 3 : ℝ) := by positivity
    have e6 : (6 : ℝ) ^ (2 / 3 : ℝ) * 6 ^ (2 / 3 : ℝ) * 6 ^ (2 / 3 : ℝ) = 36 := by
      rw [← Real.rpow_add (by norm_num), ← Real.rpow_add (by norm_num)]; norm_num
    have ep : (Real.pi ^ 2) ^ (2 / 3 : ℝ) = Real.pi ^ (2 / 3 : ℝ) * Real.pi ^ (2 / 3 : ℝ) := by
      rw [sq, Real.mul_rpow hp.le hp.le]
    have hq : 0 < Real.pi ^ (2 / 3 : ℝ) := by positivity
    rw [S2const, Real.rpow_two, Real.mul_rpow (by norm_num) (by positivity), ep]
    field_simp
    nlinarith
  have hn' : 0 < n.evalR ρ ^ (8 / 3 : ℝ) := by positivity
  have h6 : (0 : ℝ) < (6 * Real.pi ^ 2) ^ (2 / 3 : ℝ) := by positivity
  simp only [S2, evalR_mul, evalR_div, evalR_pow, evalR_lit, e, sSq]
  field_simp

theorem rs_ne_one (h : Sound ρ) (h1 : ρ .n ≠ 3 / (4 * Real.pi)) : ρ .r_s ≠ 1 := by
  have hn := h.n
  have hp := Real.pi_pos
  rw [h.r_s]
  intro e
  apply h1
  have h0 : (0 : ℝ) ≤ 3 / (ρ .n * 4 * Real.pi) := by positivity
  have : 3 / (ρ .n * 4 * Real.pi) = 1 := by
    have e2 := congrArg (fun t : ℝ => t ^ (3 : ℝ)) e
    simp only [← Real.rpow_mul h0, Real.one_rpow] at e2
    norm_num at e2
    exact e2
  rw [div_eq_one_iff_eq (by positivity)] at this
  rw [eq_div_iff (by positivity)]
  linarith

theorem scanX0_reg (h : Sound ρ) (hs : SmoothAt (ρ (.param RANGESEP_MU)) ρ 46) : scanx.Reg ρ := by
  obtain ⟨⟨g1, t1, a1⟩, g2, t2, a2⟩ := hs
  have pa : PosReg ρ (2 * d.a) := pos_mul (pos_ofNat 2) (pos_var h.a)
  have pb : PosReg ρ (2 * d.b) := pos_mul (pos_ofNat 2) (pos_var h.b)
  have ga : PosReg ρ (4 * d.gaa) := pos_mul (pos_ofNat 4) (pos_var (by linarith))
  have gb : PosReg ρ (4 * d.gbb) := pos_mul (pos_ofNat 4) (pos_var (by linarith))
  exact ⟨trivial, ⟨get_SCAN_Fx0_reg pa ga g1 (t := 2 * d.taua) ⟨trivial, trivial⟩ t1 a1 (by decide), fx_unif_reg pa⟩,
    get_SCAN_Fx0_reg pb gb g2 (t := 2 * d.taub) ⟨trivial, trivial⟩ t2 a2 (by decide), fx_unif_reg pb⟩

theorem scanX1_reg (h : Sound ρ) (hs : SmoothAt (ρ (.param RANGESEP_MU)) ρ 48) : rscanx.Reg ρ := by
  obtain ⟨⟨g1, a1, b1⟩, g2, a2, b2⟩ := hs
  have pa : PosReg ρ (2 * d.a) := pos_mul (pos_ofNat 2) (pos_var h.a)
  have pb : PosReg ρ (2 * d.b) := pos_mul (pos_ofNat 2) (pos_var h.b)
  have ga : PosReg ρ (4 * d.gaa) := pos_mul (pos_ofNat 4) (pos_var (by linarith))
  have gb : PosReg ρ (4 * d.gbb) := pos_mul (pos_ofNat 4) (pos_var (by linarith))
  exact ⟨trivial, ⟨get_SCAN_Fx1_reg pa ga g1 (t := 2 * d.taua) ⟨trivial, trivial⟩ rfl a1 b1 (by decide), fx_unif_reg pa⟩,
    get_SCAN_Fx1_reg pb gb g2 (t := 2 * d.taub) ⟨trivial, trivial⟩ rfl a2 b2 (by decide), fx_unif_reg pb⟩

theorem scanX2_reg (h : Sound ρ) (hs : SmoothAt (ρ (.param RANGESEP_MU)) ρ 50) {j : ℕ} (hj : j ≤ 2) : (scanX 2 1 j).Reg ρ := by
  obtain ⟨⟨g1, t1, a1, b1⟩, g2, t2, a2, b2⟩ := hs
  have pa : PosReg ρ (2 * d.a) := pos_mul (pos_ofNat 2) (pos_var h.a)
  have pb : PosReg ρ (2 * d.b) := pos_mul (pos_ofNat 2) (pos_var h.b)
  have ga : PosReg ρ (4 * d.gaa) := pos_mul (pos_ofNat 4) (pos_var (by linarith))
  have gb : PosReg ρ (4 * d.gbb) := pos_mul (pos_ofNat 4) (pos_var (by linarith))
  exact ⟨trivial, ⟨get_SCAN_Fx2_reg pa ga g1 (t := 2 * d.taua) ⟨trivial, trivial⟩ t1 rfl a1 b1 hj, fx_unif_reg pa⟩,
    get_SCAN_Fx2_reg pb gb g2 (t := 2 * d.taub) ⟨trivial, trivial⟩ t2 rfl a2 b2 hj, fx_unif_reg pb⟩

theorem smooth_most (h : Sound ρ) {id : ℕ} (hid : id ∉ [15, 41, 43, 44, 51, 53, 75]) (hs : SmoothAt (ρ (.param RANGESEP_MU)) ρ id) {e : Expr Field} (he : energy id = some e) :
    e.Reg ρ := by
  have hlt : id < 78 := by
    by_contra hge
    have : energies.length = 78 := rfl
    rw [energy, List.getElem?_eq_none (by omega)] at he
    cases he
  have pa : PosReg ρ d.a := pos_var h.a
  have pb : PosReg ρ d.b := pos_var h.b
  have ga : NonnegReg ρ d.gaa := nonneg_var h.gaa
  have gb : NonnegReg ρ d.gbb := nonneg_var h.gbb
  interval_cases id <;> cases he
  · exact slaterx_reg
  · exact pw86x_reg h
  · exact ⟨trivial, vwn3_eps_reg h⟩
  · exact ⟨trivial, vwn5_eps_reg h⟩
  · exact pbec_reg h
  · exact pbex_reg h
  · exact ⟨becke_alpha_reg pa ga hs.1, becke_alpha_reg pb gb hs.2⟩
  · exact ⟨becke_corr_reg pa ga hs.1, becke_corr_reg pb gb hs.2⟩
  · exact ⟨becke_sr_reg trivial hs.2 pa ga hs.1.1, becke_sr_reg trivial hs.2 pb gb hs.1.2⟩
  · exact ⟨becke_cam_reg trivial trivial trivial hs.2 pa ga hs.1.1, becke_cam_reg trivial trivial trivial hs.2 pb gb hs.1.2⟩
  · exact hs.elim
  · exact hs.elim
  · exact hs.elim
  · exact ⟨trivial, esrx_reg pa trivial fun c hc => (hs c hc).1, esrx_reg pb trivial fun c hc => (hs c hc).2⟩
  · exact ldaerfc_reg h hs
  · exact absurd (by decide) hid
  · exact lypc_reg h
  · exact optx_reg h
  · exact optxcorr_reg h
  · exact revpbex_reg h
  · exact rpbex_reg h
  · exact spbec_reg h
  · exact vwn_pbec_reg h
  · exact ktx_reg h
  · exact tfk_reg h
  · exact tw_reg h hs
  · have e1 := S2_eval (g := d.gaa) pa.pos
    have e2 := S2_eval (g := d.gbb) pb.pos
    exact ⟨⟨prefactor_reg pa, pw91_enhancement_reg pw91x_good pa ga (by rw [e1]; exact hs.1)⟩,
      prefactor_reg pb, pw91_enhancement_reg pw91x_good pb gb (by rw [e2]; exact hs.2)⟩
  · have e1 := S2_eval (g := d.gaa) pa.pos
    have e2 := S2_eval (g := d.gbb) pb.pos
    exact ⟨⟨⟨trivial, reg_pow pa⟩, pw91_enhancement_reg pw91k_good pa ga (by rw [e1]; exact hs.1)⟩,
      ⟨trivial, reg_pow pb⟩, pw91_enhancement_reg pw91k_good pb gb (by rw [e2]; exact hs.2)⟩
  · exact pw92c_reg h
  · exact m05LikeX_reg h hs.1 hs.2 _
  · exact m05LikeX_reg h hs.1 hs.2 _
  · exact m06LikeX_reg h hs.1 hs.2 _ _
  · exact m05LikeX_reg h hs.1 hs.2 _
  · exact m06LikeX_reg h hs.1 hs.2 _ _
  · exact m06LikeX_reg h hs.1 hs.2 _ _
  · exact m05LikeC_reg h hs.1 hs.2 _ _
  · exact m05LikeC_reg h hs.1 hs.2 _ _
  · exact m06LikeC_reg h hs.1 hs.2 _ _ _ _
  · exact m06LikeC_reg h hs.1 hs.2 _ _ _ _
  · exact m06LikeC_reg h hs.1 hs.2 _ _ _ _
  · exact m06LikeC_reg h hs.1 hs.2 _ _ _ _
  · exact absurd (by decide) hid
  · exact tpssx_reg h hs.1 hs.2
  · exact absurd (by decide) hid
  · exact absurd (by decide) hid
  · exact scanc_reg h hs.1 hs.2.1 (by rw [h.zeta]; exact hs.2.2)
  · exact scanX0_reg h hs
  · exact rscanc_reg h hs.1 rfl (by rw [h.zeta]; exact hs.2.1) (by rw [h.zeta]; exact hs.2.2)
  · exact scanX1_reg h hs
  · exact rppscanc_reg h hs.1 hs.2.1 rfl (by rw [h.zeta]; exact hs.2.2.1) (by rw [h.zeta]; exact hs.2.2.2)
  · exact scanX2_reg h hs (by decide)
  · exact absurd (by decide) hid
  · exact scanX2_reg h hs (by decide)
  · exact absurd (by decide) hid
  · exact scanX2_reg h hs (by decide)
  · exact pz81c_reg h (rs_ne_one h hs)
  · exact p86c_reg h (rs_ne_one h hs)
  · exact p86c_corr_reg h
  · exact btk_reg h
  · exact vW_reg h
  · exact ⟨b97x_reg _ (pos_var h.a_43_pos) trivial hs.1, b97x_reg _ (pos_var h.b_43_pos) trivial hs.2⟩
  · exact b97c_reg _ h hs.1 hs.2
  · exact ⟨b97x_reg _ (pos_var h.a_43_pos) trivial hs.1, b97x_reg _ (pos_var h.b_43_pos) trivial hs.2⟩
  · exact b97c_reg _ h hs.1 hs.2
  · exact ⟨b97x_reg _ (pos_var h.a_43_pos) trivial hs.1, b97x_reg _ (pos_var h.b_43_pos) trivial hs.2⟩
  · exact b97c_reg _ h hs.1 hs.2
  · exact csc_reg h
  · exact apbec_reg h
  · exact apbex_reg h
  · exact zvpbe_reg (by norm_num) h hs
  · exact blocx_reg h hs.2.1 hs.2.2 hs.1.1 hs.1.2
  · exact pbeintc_reg h
  · exact pbeintx_reg h
  · exact pbelocc_reg h
  · exact pbesolx_reg h
  · exact absurd (by decide) hid
  · exact zvpbe_reg (by norm_num) h hs
  · exact pw91c_reg h ⟨hs.1, hs.2⟩

end XCFun.Fun
