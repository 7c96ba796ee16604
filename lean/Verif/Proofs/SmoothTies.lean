/-
All functionals together: smooth off the surfaces of `SmoothAt`.  TPSS correlation, revTPSS exchange, r²SCAN correlation and LDAERFC_JT.
-/
import Verif.Proofs.LitDiffer
import Verif.Proofs.LitScan
import Verif.Proofs.LitErf
import Mathlib.Analysis.Complex.ExponentialBounds

namespace XCFun.Fun
open XCFun Expr Lit

variable {ρ : Field → ℝ}

/-! ### Density variables as those of a gas -/

/-- Replaces the members that the functionals below do not read. -/
noncomputable def fill (ρ : Field → ℝ) : Field → ℝ
  | .gab => (ρ .gnn - ρ .gaa - ρ .gbb) / 2
  | .gns => ρ .gaa - ρ .gbb
  | .gss => 2 * ρ .gaa + 2 * ρ .gbb - ρ .gnn
  | .taua => ρ .tau
  | .taub => 0
  | f => ρ f

/-- A gas with the same densities and gradients. -/
noncomputable def fillGas (ρ : Field → ℝ) : Gas := ⟨ρ .a, ρ .b, ρ .gaa, (ρ .gnn - ρ .gaa - ρ .gbb) / 2, ρ .gbb, ρ .tau, 0⟩

theorem fill_isGas (h : Spec.Sound ρ) (hc : ρ .a + ρ .b = ρ .n ∧ ρ .a - ρ .b = ρ .s) : IsGas (fill ρ) (fillGas ρ) where
  apos := h.a
  bpos := h.b
  a := rfl
  b := rfl
  n := hc.1.symm
  s := hc.2.symm
  gaa := rfl
  gab := rfl
  gbb := rfl
  gnn := by simp only [fill, fillGas]; ring
  gns := rfl
  gss := by simp only [fill, fillGas]; ring
  taua := rfl
  taub := rfl
  tau := by simp only [fill, fillGas]; ring
  zeta := by simp only [fill, fillGas]; rw [h.zeta, hc.1, hc.2]
  r_s := by simp only [fill, fillGas]; rw [h.r_s, hc.1]
  n_m13 := by simp only [fill, fillGas]; rw [h.n_m13, hc.1]
  a_43 := h.a_43
  b_43 := h.b_43

section
variable (hc : ρ .a + ρ .b = ρ .n ∧ ρ .a - ρ .b = ρ .s)
include hc
theorem fillGas_n : (fillGas ρ).n = ρ .n := hc.1
theorem fillGas_zeta : (fillGas ρ).zeta = ρ .s / ρ .n := by
  rw [← hc.1, ← hc.2]; rfl
end
theorem fillGas_gnn : (fillGas ρ).gnn = ρ .gnn := by simp only [Gas.gnn, fillGas]; ring

/-! ### The larger of two energies -/

theorem reg_max {x y : Expr Field} (hx : x.Reg ρ) (hy : y.Reg ρ) (h : x.evalR ρ ≠ y.evalR ρ) : (Expr.max x y).Reg ρ := by
  refine (Reg_iflt _ _ _ _ _).2 ⟨hy, hx, h.symm, ?_⟩
  split
  · exact hx
  · exact hy

theorem pw92_polarized_reg {a : Expr Field} (ha : PosReg ρ a) : (pw92eps_polarized a).Reg ρ ∧ (pw92eps_polarized a).evalR ρ < 0 := by
  have hp : PosReg ρ (pow (3 / ((4 * Real.pi : ℝ) * a)) (1 / 6)) := by rg
  refine ⟨eopt_reg pw92_1_good hp, ?_⟩
  rw [pw92eps_polarized, eopt_evalR]
  exact eoptR_neg pw92_1_good hp.pos

section
variable {a g : Expr Field} (ha : PosReg ρ a) (hg : NonnegReg ρ g)
include ha hg

theorem pola_d2 {c : Expr Field} (hc : PosReg ρ c) : NonnegReg ρ ((t2const : Expr Field) * g / (c * pow a (7 / 3))) := by
  have := t2const_pos
  rg

theorem pbec_polarized_reg : (pbec_eps_polarized a g).Reg ρ := by
  obtain ⟨e1, e2⟩ := pw92_polarized_reg ha
  exact ⟨e1, pbeLikeH_reg bg_pos e1 e2 (pos_lit (by positivity)) (pola_d2 ha hg (pos_lit (by positivity)))⟩

omit hg in
theorem revtpss_beta_pos : PosReg ρ (revtpss_beta a) := by
  have : (0 : ℝ) < param_beta_pbe_paper := by norm_num [param_beta_pbe_paper]
  have hr : PosReg ρ (cbrt (3 / ((4 * Real.pi : ℝ) * a))) := by rg
  unfold revtpss_beta
  rg

omit hg in
theorem revtpss_bg_pos : PosReg ρ (revtpss_beta a / param_gamma) := pos_div (revtpss_beta_pos ha) (pos_lit param_gamma_pos)

theorem revtpss_polarized_reg : (revtpss_pbec_eps_polarized a g).Reg ρ := by
  obtain ⟨e1, e2⟩ := pw92_polarized_reg ha
  exact ⟨e1, pbeLikeH_reg (revtpss_bg_pos ha) e1 e2 (pos_lit (by positivity)) (pola_d2 ha hg (pos_lit (by positivity)))⟩

theorem pbeloc_polarized_reg : (pbeloc_eps_pola a g).Reg ρ := by
  obtain ⟨e1, e2⟩ := pw92_polarized_reg ha
  have hu : PosReg ρ (((2 : ℝ) ^ (-1 / 3 : ℝ) : ℝ) : Expr Field) := pos_lit (by positivity)
  have hd := pola_d2 ha hg (pos_mul hu hu)
  have hγ := param_gamma_pos
  have hr : PosReg ρ ((((3 / (4 * Real.pi)) ^ (1 / 3 : ℝ) : ℝ) : Expr Field) * pow a (-1 / 3)) := by rg
  have hf : NonnegReg ρ (1 - exp (-((((3 / (4 * Real.pi)) ^ (1 / 3 : ℝ) : ℝ) : Expr Field) * pow a (-1 / 3)) *
      ((((3 / (4 * Real.pi)) ^ (1 / 3 : ℝ) : ℝ) : Expr Field) * pow a (-1 / 3)))) := by
    generalize ((((3 / (4 * Real.pi)) ^ (1 / 3 : ℝ) : ℝ) : Expr Field) * pow a (-1 / 3)) = r at hr
    refine ⟨by rg, ?_⟩
    rw [evalR_sub, evalR_one, sub_nonneg, evalR_exp, Real.exp_le_one_iff, evalR_mul, evalR_neg]
    have := hr.pos
    nlinarith
  refine ⟨e1, pbeLikeH_reg ?_ e1 e2 (pos_pow3 hu) hd⟩
  exact pos_div (pos_add (pos_lit (by norm_num)) (nonneg_mul (nonneg_mul (nonneg_lit (by norm_num)) hd) hf)) (pos_lit hγ)

end

section
variable (h : Spec.Sound ρ)
include h

theorem pbec_eps_reg : pbec_eps.Reg ρ :=
  ⟨pw92eps_reg h, pbeLikeH_reg bg_pos (pw92eps_reg h) (pw92eps_neg h) (u3_pos h) (pbecD2_nonneg h)⟩

theorem revtpss_pbec_eps_reg : revtpss_pbec_eps.Reg ρ :=
  ⟨pw92eps_reg h, pbeLikeH_reg (revtpss_bg_pos (pos_var h.n)) (pw92eps_reg h) (pw92eps_neg h) (u3_pos h) (pbecD2_nonneg h)⟩

/-- `1 + ξ² u/2` -/
theorem tpss_xi_pos (hx : 0 ≤ ρ .n ^ 2 * ρ .gss - 2 * ρ .n * ρ .s * ρ .gns + ρ .s ^ 2 * ρ .gnn) :
    PosReg ρ (1 + 0.5 * tpss_xi2 * ufunc d.zeta (-4 / 3)) := by
  have hu := scan_ufunc h (-4 / 3)
  have hn : PosReg ρ d.n := pos_var h.n
  have hg : NonnegReg ρ (pow2 d.n * d.gss - 2 * d.n * d.s * d.gns + pow2 d.s * d.gnn) := by
    refine ⟨by rg, ?_⟩
    simp only [evalR_add, evalR_sub, evalR_mul, evalR_pow2, evalR_ofNat]
    exact hx
  have hxi : NonnegReg ρ tpss_xi2 := by
    unfold tpss_xi2
    rg
  rg

theorem tpss_t_reg (ht : 0 < ρ .tau) : (d.gnn / (8 * d.n * d.tau)).Reg ρ := by
  signs h
  rg

/-- `C(ζ, ξ)` of all three functionals -/
theorem tpss_C_reg (hx : 0 ≤ ρ .n ^ 2 * ρ .gss - 2 * ρ .n * ρ .s * ρ .gns + ρ .s ^ 2 * ρ .gnn) :
    tpss_C.Reg ρ ∧ revtpss_C.Reg ρ ∧ tpssloc_C.Reg ρ := by
  have hp := tpss_xi_pos h hx
  have hz : (d.zeta : Expr Field).Reg ρ := trivial
  have h4 : (powi (1 + 0.5 * tpss_xi2 * ufunc d.zeta (-4 / 3)) (-4)).Reg ρ := reg_pow hp
  refine ⟨⟨by rg, h4⟩, reg_div (by rg) (pos_npow hp), ⟨by rg, h4⟩⟩

theorem tie_reg {ε : ℝ → ℝ → ℝ → ℝ} (hs : Spec.TpssSmooth ε ρ) {e ea eb : Expr Field} (he : e.Reg ρ) (hea : ea.Reg ρ) (heb : eb.Reg ρ)
    (v : e.evalR ρ = ε (ρ .n) (ρ .s / ρ .n) (ρ .gnn)) (va : ea.evalR ρ = ε (ρ .a) 1 (ρ .gaa)) (vb : eb.evalR ρ = ε (ρ .b) 1 (ρ .gbb)) :
    ((d.a * Expr.max e ea + d.b * Expr.max e eb) / d.n).Reg ρ := by
  obtain ⟨-, -, -, h1, h2⟩ := hs
  exact reg_div ⟨⟨trivial, reg_max he hea (by rw [v, va]; exact h1)⟩, trivial, reg_max he heb (by rw [v, vb]; exact h2)⟩ (pos_var h.n)

theorem tpssc_reg (hs : Spec.TpssSmooth (pbeEps 0.06672455060314922) ρ) : tpssc.Reg ρ := by
  have hg := fill_isGas h hs.1
  have ht := tpss_t_reg h hs.2.1
  have hC := (tpss_C_reg h hs.2.2.1).1
  have he := pbec_eps_reg h
  have hm : tpss_epsc_summax.Reg ρ := tie_reg h hs he (pbec_polarized_reg (pos_var h.a) (nonneg_var h.gaa))
    (pbec_polarized_reg (pos_var h.b) (nonneg_var h.gbb))
    (by have := lit_pbec_eps hg; rw [fillGas_n hs.1, fillGas_zeta hs.1, fillGas_gnn] at this; exact this)
    (lit_pbec_polarized h.a) (lit_pbec_polarized h.b)
  have hk : tpss_epsc_revpkzb.Reg ρ := by
    unfold tpss_epsc_revpkzb
    rg
  unfold tpssc tpssc_eps
  rg

theorem revtpssc_reg (hs : Spec.TpssSmooth (fun n z g => pbeEps (betaRs (Lit.rs n)) n z g) ρ) : revtpssc.Reg ρ := by
  have hg := fill_isGas h hs.1
  have ht := tpss_t_reg h hs.2.1
  have hC := (tpss_C_reg h hs.2.2.1).2.1
  have he := revtpss_pbec_eps_reg h
  have hm : revtpss_epsc_summax.Reg ρ := tie_reg h hs he (revtpss_polarized_reg (pos_var h.a) (nonneg_var h.gaa))
    (revtpss_polarized_reg (pos_var h.b) (nonneg_var h.gbb))
    (by have := lit_revtpss_pbec hg; rw [fillGas_n hs.1, fillGas_zeta hs.1, fillGas_gnn] at this; exact this)
    (lit_revtpss_polarized h.a) (lit_revtpss_polarized h.b)
  have hk : revtpss_epsc_revpkzb.Reg ρ := by
    unfold revtpss_epsc_revpkzb
    rg
  unfold revtpssc revtpssc_eps
  rg

theorem tpsslocc_reg (hs : Spec.TpssSmooth pbelocEps ρ) : tpsslocc.Reg ρ := by
  have hg := fill_isGas h hs.1
  have ht := tpss_t_reg h hs.2.1
  have hC := (tpss_C_reg h hs.2.2.1).2.2
  have he := pbeloc_eps_reg h
  have hm : tpssloc_epsc_summax.Reg ρ := tie_reg h hs he (pbeloc_polarized_reg (pos_var h.a) (nonneg_var h.gaa))
    (pbeloc_polarized_reg (pos_var h.b) (nonneg_var h.gbb))
    (by have := lit_pbeloc_eps hg; rw [fillGas_n hs.1, fillGas_zeta hs.1, fillGas_gnn] at this; exact this)
    (lit_pbeloc_polarized h.a) (lit_pbeloc_polarized h.b)
  have hk : tpssloc_epsc_revpkzb.Reg ρ := by
    unfold tpssloc_epsc_revpkzb
    rg
  unfold tpsslocc
  rg

end

/-! ### revTPSS exchange -/

theorem alpha_quad {α : Expr Field} (ha : α.Reg ρ) : PosReg ρ (1 + Expr.lit 0.40 * α * (α - 1)) := by
  refine ⟨⟨trivial, ⟨trivial, ha⟩, ha, trivial⟩, ?_⟩
  show 0 < 1 + 0.40 * α.evalR ρ * (α.evalR ρ - 1)
  nlinarith [sq_nonneg (α.evalR ρ - 1 / 2)]

theorem revtpssx_x_reg {n g t : Expr Field} (hn : PosReg ρ n) (hg : NonnegReg ρ g) (ht : PosReg ρ t) : (revtpssx_x n g t).Reg ρ := by
  have hk := kF2_pos
  have hgr := hg.reg
  have htr := ht.reg
  have hp : NonnegReg ρ (g / ((4 * kF2 : ℝ) * pow n (8 / 3))) := by rg
  have hpr := hp.reg
  have hz : NonnegReg ρ (g / (8 * n) / t) := by rg
  have hzr := hz.reg
  have ha : ((t - g / (8 * n)) / ((0.3 * kF2 : ℝ) * pow n (5 / 3))).Reg ρ := by rg
  have hroot : PosReg ρ ((0.5 * 0.6 * 0.6 : ℝ) * powi (8 * n * t) (-2) + 0.5 * (g / ((4 * kF2 : ℝ) * pow n (8 / 3))) * (g / ((4 * kF2 : ℝ) * pow n (8 / 3)))) := by
    rg
  have hse : (0 : ℝ) < √2.1677 := Real.sqrt_pos.2 (by norm_num)
  have hz2 : NonnegReg ρ (pow2 (g / (8 * n) / t)) := nonneg_mul hz hz
  have hz1 : PosReg ρ (pow2 (1 + pow2 (g / (8 * n) / t))) := pos_pow2 (pos_add pos_one hz2)
  have hq := alpha_quad ha
  have hqs := pos_sqrt hq
  have hrr := reg_sqrt hroot
  unfold revtpssx_x
  rg

theorem revtpssx_F_reg {n g t : Expr Field} (hn : PosReg ρ n) (hg : NonnegReg ρ g) (ht : PosReg ρ t)
    (h : revtpssArgCode (n.evalR ρ) (g.evalR ρ) (t.evalR ρ) ≠ -0.804) : (revtpssx_F_x n g t).Reg ρ := by
  have hx := revtpssx_x_reg hn hg ht
  have e := revtpss_x (t := t) hn.pos hg.nonneg
  unfold revtpssx_F_x
  refine ⟨⟨trivial, trivial⟩, reg_div_ne trivial ⟨trivial, reg_div hx (pos_lit (by norm_num))⟩ ?_⟩
  rw [evalR_add, evalR_one, evalR_div, evalR_lit, e]
  intro h0
  apply h
  have : revtpssArgCode (n.evalR ρ) (g.evalR ρ) (t.evalR ρ) / 0.804 = -1 := by linarith
  rw [div_eq_iff (by norm_num)] at this
  rw [this]; norm_num

theorem revtpssx_unif_reg {n : Expr Field} (hn : PosReg ρ n) : (revtpss_epsx_unif n).Reg ρ := by
  have : (0 : ℝ) < PI2 := by unfold PI2; positivity
  unfold revtpss_epsx_unif
  rg

theorem revtpssx_reg (h : Spec.Sound ρ) (hs : Spec.SmoothAt (ρ (.param RANGESEP_MU)) ρ 44) : revtpssx.Reg ρ := by
  obtain ⟨⟨ta, tb⟩, h1, h2⟩ := hs
  have pa : PosReg ρ (2 * d.a) := pos_mul (pos_ofNat 2) (pos_var h.a)
  have pb : PosReg ρ (2 * d.b) := pos_mul (pos_ofNat 2) (pos_var h.b)
  have ga : NonnegReg ρ (4 * d.gaa) := nonneg_mul (pos_ofNat 4).weak (nonneg_var h.gaa)
  have gb : NonnegReg ρ (4 * d.gbb) := nonneg_mul (pos_ofNat 4).weak (nonneg_var h.gbb)
  have fa := revtpssx_F_reg pa ga (t := 2 * d.taua) (pos_mul (pos_ofNat 2) (pos_var ta)) h1
  have fb := revtpssx_F_reg pb gb (t := 2 * d.taub) (pos_mul (pos_ofNat 2) (pos_var tb)) h2
  exact ⟨⟨⟨revtpssx_unif_reg pa, fa⟩, trivial⟩, ⟨revtpssx_unif_reg pb, fb⟩, trivial⟩

/-! ### r²SCAN correlation -/

theorem gcorGrs_reg {P : Pw92P} (hP : P.Good) {r x : Expr Field} (hr : r.Reg ρ) (hx : PosReg ρ x) : (gcorGrs P r x).Reg ρ := by
  obtain ⟨h0, h1, h2, h3, h4, h5⟩ := hP
  have hQ : PosReg ρ (gcorQ1 P x) := by unfold gcorQ1; rg
  unfold gcorGrs
  rg

theorem lsda1_drs_reg (h : Spec.Sound ρ) {r : Expr Field} (hr : PosReg ρ r) : (lsda1_drs r (sqrt r) d.zeta).Reg ρ := by
  have hu := (scan_ufunc h (4 / 3)).reg
  have hx := pos_sqrt hr
  have g1 : (gcorGrs p_eu r (sqrt r)).Reg ρ := by rw [p_eu_eq]; exact gcorGrs_reg pw92_0_good hr.reg hx
  have g2 : (gcorGrs p_ep r (sqrt r)).Reg ρ := by rw [p_ep_eq]; exact gcorGrs_reg pw92_1_good hr.reg hx
  have g3 : (gcorGrs p_alfm r (sqrt r)).Reg ρ := by rw [p_alfm_eq]; exact gcorGrs_reg pw92_2_good hr.reg hx
  have k1 : PosReg ρ (scanGAM : Expr Field) := pos_lit (by norm_num [scanGAM])
  have k2 : PosReg ρ (scanFZZ : Expr Field) := pos_lit (by norm_num [scanFZZ, scanGAM])
  have hz : (d.zeta : Expr Field).Reg ρ := trivial
  unfold lsda1_drs
  rg

theorem scanDelY_reg (h : Spec.Sound ρ) {r s u w : Expr Field} (hr : PosReg ρ r) (hs : PosReg ρ s) (hu : PosReg ρ u) (hw : PosReg ρ w) (k : ℕ) :
    (scanDelY k r s d.zeta u w).Reg ρ := by
  unfold scanDelY
  split
  · trivial
  split
  · have hl := lsda1_reg h hr
    have hd := lsda1_drs_reg h hr
    have h0 := (lda_0_reg hr).1
    have hz := (gc_z_pos h).1
    have hu' := scan_ufunc h (5 / 3)
    have hx := pos_sqrt hr
    have hb : PosReg ρ (B1C : Expr Field) := pos_lit (by norm_num [B1C])
    have h361 : PosReg ρ (((0.361 : ℝ) ^ 4 : ℝ) : Expr Field) := pos_lit (by norm_num)
    have hsr := hs.reg
    rg
  · trivial

theorem scan_ec1_reg_of (h : Spec.Sound ρ) {r s : Expr Field} (hr : PosReg ρ r) (hs : PosReg ρ s) (k : ℕ) (hk : k = 1 ∨ k = 2) {t2 : ℝ}
    (ht : Real.pi / 4 * (9 * Real.pi / 4) ^ (1 / 3 : ℝ) * (s.evalR ρ * s.evalR ρ) / (r.evalR ρ * Lit.phi (ρ .zeta) ^ 2) = t2)
    {w y : ℝ} (hw : w = Real.exp (-pw92K scanGAM (r.evalR ρ) (ρ .zeta) / (0.031090690869655 * Lit.phi (ρ .zeta) ^ 3)) - 1)
    (hy : y = betaRs (r.evalR ρ) / (0.031090690869655 * w) * t2 - Δy 0.031090690869655 scanGAM (r.evalR ρ) (s.evalR ρ * s.evalR ρ) (ρ .zeta))
    (h1 : 0 < 1 + 4 * y) (h2 : 0 < 1 + w * (1 - 1 / (1 + 4 * y) ^ (1 / 4 : ℝ))) : (scan_ec1 r s d.zeta k).Reg ρ := by
  have hz : (d.zeta : Expr Field).evalR ρ = ρ .zeta := rfl
  have l1 := lsda1_reg h hr
  have l2 := lsda1_neg h hr.pos
  have hx := pos_sqrt hr
  have hx' : (sqrt r).evalR ρ = √(r.evalR ρ) := evalR_sqrt ..
  have hp : (ufunc d.zeta (2 / 3) / 2).evalR ρ = Lit.phi (ρ .zeta) := by rw [evalR_div, evalR_ufunc, evalR_ofNat, Lit.phi, pol]; rfl
  have hphi : PosReg ρ (ufunc d.zeta (2 / 3) / 2) := pos_div (scan_ufunc h _) (pos_ofNat 2)
  have hphi3 := pos_npow (n := 3) hphi
  have hG : PosReg ρ (Expr.lit (0.031090690869655 : ℝ) * npow (ufunc d.zeta (2 / 3) / 2) 3) := pos_mul (pos_lit (by norm_num)) hphi3
  have hW : PosReg ρ (exp (-lsda1 r (sqrt r) d.zeta / (Expr.lit (0.031090690869655 : ℝ) * npow (ufunc d.zeta (2 / 3) / 2) 3)) - 1) := by
    refine ⟨⟨(Reg_exp _ _).2 (reg_div l1 hG), trivial⟩, ?_⟩
    rw [evalR_sub, evalR_one, evalR_exp, sub_pos, Real.one_lt_exp_iff, evalR_div, evalR_neg]
    exact div_pos (by linarith) hG.pos
  have hWe : (exp (-lsda1 r (sqrt r) d.zeta / (Expr.lit (0.031090690869655 : ℝ) * npow (ufunc d.zeta (2 / 3) / 2) 3)) - 1).evalR ρ = w := by
    generalize ufunc d.zeta (2 / 3) / 2 = P at hp
    simp only [evalR_sub, evalR_exp, evalR_div, evalR_neg, evalR_mul, evalR_lit, evalR_npow, evalR_one, lsda1_eq hr.pos hx' rfl, hw, hz, hp]
  have hD := scanDelY_reg h hr hs hphi3 hW k
  have hDe := delY_eq (ρ := ρ) k hk (s := s) (z := d.zeta) (u := npow (ufunc d.zeta (2 / 3) / 2) 3)
    (w := exp (-lsda1 r (sqrt r) d.zeta / (Expr.lit (0.031090690869655 : ℝ) * npow (ufunc d.zeta (2 / 3) / 2) 3)) - 1) hr.pos rfl rfl
    (by rw [evalR_npow, hp, hz]) (by rw [hWe, hw, hz])
  have ht' : (√(Real.pi / 4) * (9 * Real.pi / 4) ^ (1 / 6 : ℝ) * s.evalR ρ / (√(r.evalR ρ) * Lit.phi (ρ .zeta))) ^ 2 = t2 := by
    have := hr.pos
    rw [← ht, div_pow, mul_pow, mul_pow, mul_pow, Real.sq_sqrt (by positivity), Real.sq_sqrt this.le, ← Real.rpow_natCast ((9 * Real.pi / 4) ^ _),
      ← Real.rpow_mul (by positivity)]
    norm_num [pow_two]
  unfold scan_ec1
  dsimp only
  generalize ufunc d.zeta (2 / 3) / 2 = P at *
  generalize hWx : exp (-lsda1 r (sqrt r) d.zeta / (Expr.lit (0.031090690869655 : ℝ) * npow P 3)) - 1 = W at *
  generalize scanDelY k r s d.zeta (npow P 3) W = D at *
  have hT : (Expr.lit (√(Real.pi / 4) * (9 * Real.pi / 4) ^ (1 / 6 : ℝ)) * s / (sqrt r * P)).Reg ρ := reg_div ⟨trivial, hs.reg⟩ (pos_mul hx hphi)
  have hB : (Expr.lit 0.066725 * (1 + Expr.lit 0.1 * r) / (1 + Expr.lit 0.1778 * r)).Reg ρ := by rg
  have hY : PosReg ρ (1 + 4 * (Expr.lit 0.066725 * (1 + Expr.lit 0.1 * r) / (1 + Expr.lit 0.1778 * r) / (Expr.lit 0.031090690869655 * W) *
      pow2 (Expr.lit (√(Real.pi / 4) * (9 * Real.pi / 4) ^ (1 / 6 : ℝ)) * s / (sqrt r * P)) - D)) := by
    refine ⟨⟨trivial, trivial, ⟨reg_div hB (pos_mul (pos_lit (by norm_num)) hW), (Reg_pow2 _ _).2 hT⟩, hD⟩, ?_⟩
    have : 0 < 1 + 4 * (betaRs (r.evalR ρ) / (0.031090690869655 * w) * t2 - Δy 0.031090690869655 scanGAM (r.evalR ρ) (s.evalR ρ * s.evalR ρ) (ρ .zeta)) := by
      rw [← hy]; exact h1
    simp only [evalR_add, evalR_sub, evalR_mul, evalR_div, evalR_lit, evalR_one, evalR_ofNat, evalR_pow2, hDe, hWe, hp, hx', ht', hz]
    exact this
  have hYe : (1 + 4 * (Expr.lit 0.066725 * (1 + Expr.lit 0.1 * r) / (1 + Expr.lit 0.1778 * r) / (Expr.lit 0.031090690869655 * W) *
      pow2 (Expr.lit (√(Real.pi / 4) * (9 * Real.pi / 4) ^ (1 / 6 : ℝ)) * s / (sqrt r * P)) - D)).evalR ρ = 1 + 4 * y := by
    simp only [evalR_add, evalR_sub, evalR_mul, evalR_div, evalR_lit, evalR_one, evalR_ofNat, evalR_pow2, hDe, hWe, hp, hx', ht', hz]
    rw [hy, betaRs]
  refine ⟨l1, hG.reg, reg_log ⟨⟨trivial, hW.reg, trivial, reg_div trivial (pos_pow hY)⟩, ?_⟩⟩
  rw [evalR_add, evalR_one, evalR_mul, hWe, evalR_sub, evalR_one, evalR_div, evalR_one, evalR_pow, hYe]
  exact h2

theorem r2scanc_reg (h : Spec.Sound ρ) (hs : Spec.SmoothAt (ρ (.param RANGESEP_MU)) ρ 51) (k : ℕ) (hk : k = 1 ∨ k = 2) : (SCAN_C 2 1 k).Reg ρ := by
  obtain ⟨⟨hc, h1, h2⟩, hg, hd, ha1, ha2⟩ := hs
  have gas := fill_isGas h hc
  obtain ⟨hdr, hw⟩ := scan_c_diff h
  obtain ⟨ha, e⟩ := scanAlpha2_reg (tauw := d.gnn / (8 * d.n)) hdr (scan_tueg_pos h).1 hw (by
    simp only [evalR_sub, evalR_div, evalR_mul, evalR_ofNat]; exact hd)
  have e' : (scanAlpha 2 (d.tau - d.gnn / (8 * d.n)) ((3 / 10 * kF2 : ℝ) * pow d.n (5 / 3) * (ufunc d.zeta (5 / 3) / 2)) (d.gnn / (8 * d.n))).evalR ρ =
      (ρ .tau - Spec.tauW (ρ .n) (ρ .gnn)) / (Spec.tauU (ρ .n) * Spec.polT (ρ .s / ρ .n) + 1e-3 * Spec.tauW (ρ .n) (ρ .gnn)) := by
    rw [e]; simp only [evalR_sub, evalR_div, evalR_mul, evalR_lit, evalR_ofNat, evalR_pow, evalR_ufunc, Spec.tauW, Spec.tauU, Spec.polT, ← h.zeta, kF2, PI2]
    norm_num
    rfl
  have hi := ief1_reg (c1 := 0.64) (c2 := 1.5) (cd1 := 0.7) (ie := IEc) ha (ne_of_eq_of_ne e' ha1) (ne_of_eq_of_ne e' ha2)
  have e0 := (scan_ec0_reg h (scan_rs_pos h) (scan_s_pos h hg)).1
  have er := scanRs_eq gas
  have es := scanS_eq gas (by rw [fillGas_gnn]; exact hg.le)
  rw [fillGas_n hc] at er es
  rw [fillGas_gnn] at es
  have er' : (pow ((4 * Real.pi : ℝ) * d.n / 3) (-(1 / 3))).evalR ρ = Lit.rs (ρ .n) := er
  have es' : (sqrt d.gnn / ((2 * (3 * PI2) ^ (1 / 3 : ℝ) : ℝ) * pow d.n (4 / 3))).evalR ρ *
    (sqrt d.gnn / ((2 * (3 * PI2) ^ (1 / 3 : ℝ) : ℝ) * pow d.n (4 / 3))).evalR ρ = Lit.sSq (ρ .n) (ρ .gnn) := es
  have hphi : 0 < Lit.phi (ρ .s / ρ .n) := by have := phi_pos' gas; rwa [fillGas_zeta hc] at this
  have e1 := scan_ec1_reg_of h (scan_rs_pos h) (scan_s_pos h hg) k hk (t2 := tSq (ρ .n) (ρ .s / ρ .n) (ρ .gnn))
    (by rw [er', es', h.zeta]; exact scanT h.n hphi) rfl rfl (by rw [er', es', h.zeta]; exact h1) (by rw [er', es', h.zeta]; exact h2)
  exact ⟨⟨e1, hi, e0, e1⟩, trivial⟩

/-! ### LDAERFC_JT -/

theorem jt_exp_bound : 1179.41 < Real.exp (3.2581 * 2.170829) := by
  have h1 := Real.exp_one_gt_d9
  have h7 : (2.7182818283 : ℝ) ^ 7 < Real.exp 7 := by
    rw [show (7 : ℝ) = (7 : ℕ) * 1 by norm_num, Real.exp_nat_mul]
    exact pow_lt_pow_left₀ h1 (by norm_num) (by norm_num)
  have hs := Real.sum_le_exp_of_nonneg (x := 3.2581 * 2.170829 - 7) (by norm_num) 5
  norm_num [Finset.sum_range_succ, Nat.factorial] at hs
  rw [show (3.2581 : ℝ) * 2.170829 = 7 + (3.2581 * 2.170829 - 7) by ring, Real.exp_add]
  norm_num at h7 ⊢
  nlinarith

/-- The on-top pair density stays below its value at infinite density. -/
theorem jt_g0_lt {r : ℝ} (hr : 0 < r) :
    3.39530545262710070631 * ((4.7125 + r) ^ (3 / 2 : ℝ) + 163.44) * Real.exp (-3.2581 * √(4.7125 + r)) < 1 / 2 := by
  have hs : (4.7125 + r) ^ (3 / 2 : ℝ) = √(4.7125 + r) ^ 3 := by
    rw [Real.sqrt_eq_rpow, ← Real.rpow_natCast, ← Real.rpow_mul (by positivity)]; norm_num
  have ht : 2.170829 < √(4.7125 + r) := Real.lt_sqrt_of_sq_lt (by norm_num; linarith)
  rw [hs]
  generalize √(4.7125 + r) = t at ht
  obtain ⟨u, hu, rfl⟩ : ∃ u, 0 ≤ u ∧ t = 2.170829 + u := ⟨t - 2.170829, by linarith, by ring⟩
  have he := Real.sum_le_exp_of_nonneg (x := 3.2581 * u) (by positivity) 4
  norm_num [Finset.sum_range_succ, Nat.factorial] at he
  have hE := jt_exp_bound
  rw [neg_mul, Real.exp_neg, ← div_eq_mul_inv, div_lt_iff₀ (Real.exp_pos _), mul_add (3.2581 : ℝ), Real.exp_add]
  have h2 : 0 ≤ u ^ 2 := by positivity
  have h3 : 0 ≤ u ^ 3 := by positivity
  have : 1179.41 * (1 + 3.2581 * u + (3.2581 * u) ^ 2 / 2 + (3.2581 * u) ^ 3 / 6) ≤ Real.exp (3.2581 * 2.170829) * Real.exp (3.2581 * u) := by
    refine mul_le_mul hE.le ?_ (by positivity) (by positivity)
    norm_num at he ⊢
    linarith
  norm_num at this ⊢
  nlinarith

theorem ldaerfc_jt_reg (h : Spec.Sound ρ) (hs : Spec.SmoothAt (ρ (.param RANGESEP_MU)) ρ 15) : ldaerfc_jt.Reg ρ := by
  obtain ⟨hc, hd⟩ := hs
  have gas := fill_isGas h hc
  have hv := vwn5_eps_reg h
  have hrp := h.r_s_pos
  have hr : PosReg ρ d.r_s := pos_var hrp
  have hn : PosReg ρ d.n := pos_var h.n
  have en : (d.n : Expr Field).evalR ρ = ρ .n := rfl
  have er : (d.r_s : Expr Field).evalR ρ = Lit.rs (ρ .n) := by have := drs gas; rw [fillGas_n hc] at this; exact this
  have ev : vwn5_eps.evalR ρ = vwn5Eps ⟨ρ .a, ρ .b, 0, 0, 0, 0, 0⟩ 1.92366105093154 := by have := lit_vwn5_eps gas; exact this
  have hg : PosReg ρ (4.7125 + d.r_s) := by rg
  have hC1 : (jtC1 d.r_s).Reg ρ := by unfold jtC1; rg
  have hrs := h.r_s
  have hg0 := jt_g0_lt hrp
  have hg0e : (((3.39530545262710070631 : ℝ) : Expr Field) * (pow (((4.7125 : ℝ) : Expr Field) + d.r_s) 1.5 + ((163.44 : ℝ) : Expr Field)) *
      exp ((-3.2581 : ℝ) * sqrt (((4.7125 : ℝ) : Expr Field) + d.r_s)) - 0.5).evalR ρ ≠ 0 := by
    simp only [evalR_sub, evalR_mul, evalR_add, evalR_pow, evalR_exp, evalR_sqrt, evalR_lit, evalR_ofScientific]
    rw [show (1.5 : ℝ) = 3 / 2 by norm_num, show (d.r_s : Expr Field).evalR ρ = ρ .r_s from rfl]
    have : (0.5 : ℝ) = 1 / 2 := by norm_num
    rw [this]
    linarith
  have hgam : PosReg ρ (((4.7125 : ℝ) : Expr Field) + d.r_s) := pos_add (pos_lit (by norm_num)) hr.weak
  have hg0r : (((3.39530545262710070631 : ℝ) : Expr Field) * (pow (((4.7125 : ℝ) : Expr Field) + d.r_s) 1.5 + ((163.44 : ℝ) : Expr Field)) *
      exp ((-3.2581 : ℝ) * sqrt (((4.7125 : ℝ) : Expr Field) + d.r_s)) - 0.5).Reg ρ := by rg
  have hC2 : jtC2.Reg ρ := by
    unfold jtC2
    refine reg_div_ne ⟨trivial, hv⟩ ⟨⟨trivial, trivial, trivial⟩, hg0r⟩ ?_
    rw [evalR_mul]
    refine mul_ne_zero ?_ hg0e
    simp only [evalR_mul, evalR_lit, en]
    have := h.n
    positivity
  unfold ldaerfc_jt
  refine reg_div_ne ⟨trivial, hv⟩ ⟨⟨trivial, hC1, trivial⟩, ⟨hC2, trivial⟩, trivial⟩ ?_
  have e : (1 + jtC1 d.r_s * getParam RANGESEP_MU + jtC2 * getParam RANGESEP_MU * getParam RANGESEP_MU).evalR ρ =
      Spec.jtDenominator ⟨ρ .a, ρ .b, 0, 0, 0, 0, 0⟩ 3.39530545262710070631 1.92366105093154 (ρ (.param RANGESEP_MU)) := by
    have hn0 := h.n.ne'
    have em : (getParam RANGESEP_MU).evalR ρ = ρ (.param RANGESEP_MU) := rfl
    have egn : (Gas.mk (ρ .a) (ρ .b) 0 0 0 0 0).n = ρ .n := hc.1
    simp only [jtC1, jtC2, evalR_mul, evalR_add, evalR_sub, evalR_div, evalR_exp, evalR_sqrt, evalR_pow, evalR_lit, evalR_one,
      evalR_ofScientific, er, en, ev, em, Spec.jtDenominator, egn]
    rw [show (1.5 : ℝ) = 3 / 2 by norm_num]
    generalize (4.7125 + Lit.rs (ρ .n)) ^ (3 / 2 : ℝ) = X
    generalize Real.exp _ = Y
    generalize vwn5Eps _ _ = W
    have e : ∀ t : ℝ, ρ .n * W / (0.5 * Real.pi * (ρ .n * ρ .n) * (t - 0.5)) = W / (Real.pi / 2 * ρ .n * (t - 1 / 2)) := by
      intro t
      rw [show 0.5 * Real.pi * (ρ .n * ρ .n) * (t - 0.5) = ρ .n * (Real.pi / 2 * ρ .n * (t - 1 / 2)) by ring, mul_div_mul_left _ _ hn0]
    rw [e]
    ring
  rw [e]
  exact hd

open Filter Topology in
theorem vwnF_para_lt {s : ℝ} (hs : 0 < s) : vwnF vwn5_para s < -(3 / (s * s + 4)) := by
  have hd : ∀ s : ℝ, 0 < s → HasDerivAt (fun s => vwnF vwn5_para s + 3 / (s * s + 4)) (2 * vwnD vwn5_para s + (0 * (s * s + 4) - 3 * (1 * s + s * 1)) / (s * s + 4) ^ 2) s :=
    fun s hs => (vwnF_deriv vwn5_para_good hs).add ((hasDerivAt_const s (3 : ℝ)).div (((hasDerivAt_id s).mul (hasDerivAt_id s)).add_const 4) (by positivity))
  have hl : Tendsto (fun s : ℝ => vwnF vwn5_para s + 3 / (s * s + 4)) atTop (𝓝 0) := by
    have h2 : Tendsto (fun s : ℝ => 3 / (s * s + 4)) atTop (𝓝 0) :=
      Tendsto.div_atTop tendsto_const_nhds (tendsto_atTop_add_const_right _ _ (tendsto_id.atTop_mul_atTop₀ tendsto_id))
    simpa using (vwnF_tendsto vwn5_para_good).add h2
  have := neg_of_deriv_pos hd (fun s hs => ?_) hl hs
  · linarith
  · have e : vwnD vwn5_para s = ((12.9352 - 3.72744 * -0.10498) * s - 12.9352 * -0.10498) / (s * (s * s + 3.72744 * s + 12.9352) * (s - -0.10498)) := rfl
    have h1 : 3 * s / (s * s + 4) ^ 2 < vwnD vwn5_para s := by
      rw [e, div_lt_div_iff₀ (by positivity) (by apply mul_pos (by positivity); linarith)]
      have := pow_pos hs 2
      have := pow_pos hs 3
      have := mul_nonneg this.le (sq_nonneg (s - 1))
      have := pow_pos hs 5
      norm_num
      nlinarith
    have : (0 * (s * s + 4) - 3 * (1 * s + s * 1)) / (s * s + 4) ^ 2 = -2 * (3 * s / (s * s + 4) ^ 2) := by ring
    rw [this]
    linarith

/-- No pole for positive range separation. -/
theorem jtDenominator_pos (h : Spec.Sound ρ) (hc : ρ .a + ρ .b = ρ .n ∧ ρ .a - ρ .b = ρ .s) {μ : ℝ} (hμ : 0 ≤ μ) :
    0 < Spec.jtDenominator ⟨ρ .a, ρ .b, 0, 0, 0, 0, 0⟩ 3.39530545262710070631 1.92366105093154 μ := by
  have gas := fill_isGas h hc
  have hrp := h.r_s_pos
  have er : ρ .r_s = Lit.rs (ρ .n) := by have := drs gas; rw [fillGas_n hc] at this; exact this
  have ev : vwn5_eps.evalR ρ = vwn5Eps ⟨ρ .a, ρ .b, 0, 0, 0, 0, 0⟩ 1.92366105093154 := by have := lit_vwn5_eps gas; exact this
  have hW := vwn5_eps_lt h
  have hF := vwnF_para_lt (Real.sqrt_pos.2 hrp)
  rw [Real.mul_self_sqrt hrp.le] at hF
  have hn := h.n
  have hg0 := jt_g0_lt hrp
  have hn3 : ρ .n * (4 * Real.pi / 3 * ρ .r_s ^ 3) = 1 := by
    have : ρ .r_s ^ 3 = 3 / (4 * Real.pi * ρ .n) := by
      rw [er, Lit.rs, ← Real.rpow_natCast, ← Real.rpow_mul (by positivity)]
      norm_num
    rw [this]
    have := Real.pi_pos
    field_simp
  have egn : (Gas.mk (ρ .a) (ρ .b) 0 0 0 0 0).n = ρ .n := hc.1
  simp only [Spec.jtDenominator, egn]
  rw [← er, ← ev]
  rw [ev] at hW ⊢
  generalize ρ .r_s = r at *
  generalize vwn5Eps _ _ = W at *
  generalize ρ .n = n at *
  have hx : 0 < (4.7125 + r) ^ (3 / 2 : ℝ) := by positivity
  have hg0p : 0 < 3.39530545262710070631 * ((4.7125 + r) ^ (3 / 2 : ℝ) + 163.44) * Real.exp (-3.2581 * √(4.7125 + r)) := by positivity
  generalize 3.39530545262710070631 * ((4.7125 + r) ^ (3 / 2 : ℝ) + 163.44) * Real.exp (-3.2581 * √(4.7125 + r)) = G at *
  have hpi := Real.pi_pos
  have hc2 : 16 / 3 * -W * r ^ 3 ≤ W / (Real.pi / 2 * n * (G - 1 / 2)) := by
    have hq : 0 < Real.pi / 2 * n * (1 / 2 - G) := by
      have : 0 < 1 / 2 - G := by linarith
      positivity
    rw [show W / (Real.pi / 2 * n * (G - 1 / 2)) = -W / (Real.pi / 2 * n * (1 / 2 - G)) by
      rw [show Real.pi / 2 * n * (G - 1 / 2) = -(Real.pi / 2 * n * (1 / 2 - G)) by ring, div_neg, neg_div], le_div_iff₀ hq]
    have hWn : 0 < -W := by
      have : 0 < 3 / (r + 4) := by positivity
      linarith
    have : 16 / 3 * -W * r ^ 3 * (Real.pi / 2 * n * (1 / 2 - G)) = -W * (1 - 2 * G) * (n * (4 * Real.pi / 3 * r ^ 3)) := by ring
    rw [this, hn3]
    nlinarith
  have hWl : 0.00621814 * (3 / (r + 4)) < -W := by linarith
  have hc2' : 16 / 3 * (0.00621814 * (3 / (r + 4))) * r ^ 3 < W / (Real.pi / 2 * n * (G - 1 / 2)) :=
    lt_of_lt_of_le (by gcongr) hc2
  generalize W / (Real.pi / 2 * n * (G - 1 / 2)) = c2 at *
  have hc2p : 0 < c2 := lt_trans (by positivity) hc2'
  rcases le_or_gt r 4.46 with hr | hr
  · have : 0 ≤ (1.0270741452992294 * r - 0.230160617208092 * r ^ 2) / (1 + 0.6196884832404359 * r) := by
      apply div_nonneg _ (by positivity)
      nlinarith
    positivity
  · have hden : 0 < 1 + 0.6196884832404359 * r := by positivity
    set c1 := (1.0270741452992294 * r - 0.230160617208092 * r ^ 2) / (1 + 0.6196884832404359 * r) with hc1
    have hlow : -(0.3715 * r) ≤ c1 := by
      rw [hc1, le_div_iff₀ hden]
      nlinarith
    have hq : 0.0497 * r ^ 2 ≤ c2 := by
      refine le_trans ?_ hc2'.le
      rw [show 16 / 3 * (0.00621814 * (3 / (r + 4))) * r ^ 3 = 16 * 0.00621814 * r ^ 3 / (r + 4) by ring, le_div_iff₀ (by positivity)]
      nlinarith [pow_pos hrp 2]
    nlinarith [sq_nonneg (0.3715 * r * μ - 2), mul_le_mul_of_nonneg_right hlow hμ, mul_le_mul_of_nonneg_right hq (sq_nonneg μ)]

theorem smooth_all (h : Spec.Sound ρ) {id : ℕ} (hs : Spec.SmoothAt (ρ (.param RANGESEP_MU)) ρ id) {e : Expr Field} (he : energy id = some e) :
    e.Reg ρ := by
  by_cases hid : id ∈ [15, 41, 43, 44, 51, 53, 75]
  · simp only [List.mem_cons, List.not_mem_nil, or_false] at hid
    rcases hid with rfl | rfl | rfl | rfl | rfl | rfl | rfl <;> cases he
    · exact ldaerfc_jt_reg h hs
    · exact tpssc_reg h hs
    · exact revtpssc_reg h hs
    · exact revtpssx_reg h hs
    · exact r2scanc_reg h hs 1 (.inl rfl)
    · exact r2scanc_reg h hs 2 (.inr rfl)
    · exact tpsslocc_reg h hs
  · exact smooth_most h hid hs he

/-! ### Cases -/

theorem pbeEps_ge {β n z g2 : ℝ} (hβ : 0 < β) (hn : 0 < n) (hz : 0 < Lit.phi z) (hg : 0 ≤ g2) (he : pw92Eps n z < 0) : pw92Eps n z ≤ pbeEps β n z g2 := by
  have hγ : 0 < gammaPBE := gamma_eq ▸ param_gamma_pos
  have hk : 0 < Lit.ks n := by unfold Lit.ks Lit.kF; positivity
  have ht : 0 ≤ tSq n z g2 := by unfold tSq; positivity
  have := (pbeHR_bounds hγ (show 0 < β / gammaPBE by positivity) he (show 0 < Lit.phi z ^ 3 by positivity) ht).1
  rw [pbeEps, pbeH]
  have e : gammaPBE * Lit.phi z ^ 3 * Real.log (1 + β / gammaPBE * tSq n z g2 * ((1 + pbeA β (pw92Eps n z) z * tSq n z g2) /
      (1 + pbeA β (pw92Eps n z) z * tSq n z g2 + pbeA β (pw92Eps n z) z ^ 2 * tSq n z g2 ^ 2))) =
      pbeHR gammaPBE (β / gammaPBE) (pw92Eps n z) (Lit.phi z ^ 3) (tSq n z g2) := by
    rw [pbeHR, pbeA]; congr 3; rw [mul_div_assoc]; ring_nf
  linarith

theorem pw92F_neg {r : ℝ} (hr : 0 < r) : pw92F r < 0 := by
  rw [pw92F, pwG]
  have : 0 < Real.log (1 + 1 / (2 * 0.01554535 * (14.1189 * √r + 6.1977 * r + 3.3662 * r ^ (3 / 2 : ℝ) + 0.62517 * r ^ 2))) := by
    apply Real.log_pos
    have : 0 < 1 / (2 * 0.01554535 * (14.1189 * √r + 6.1977 * r + 3.3662 * r ^ (3 / 2 : ℝ) + 0.62517 * r ^ 2)) := by positivity
    linarith
  nlinarith [mul_pos hr this]

open Filter Topology in
/-- Weak gradients are inside the domain of r²SCAN correlation. -/
theorem r2domain_small (γ k n z : ℝ) : ∃ g, 0 < g ∧ g < 1 ∧ Spec.R2Domain γ k n z g := by
  have hy : ContinuousAt (fun g => Lit.betaRs (Lit.rs n) / (γ * (Real.exp (-Lit.pw92K k (Lit.rs n) z / (γ * Lit.phi z ^ 3)) - 1)) * Lit.tSq n z g -
      Lit.Δy γ k (Lit.rs n) (Lit.sSq n g) z) 0 := by
    unfold Lit.tSq Lit.Δy Lit.sSq
    dsimp only
    fun_prop
  have hy0 : Lit.betaRs (Lit.rs n) / (γ * (Real.exp (-Lit.pw92K k (Lit.rs n) z / (γ * Lit.phi z ^ 3)) - 1)) * Lit.tSq n z 0 -
      Lit.Δy γ k (Lit.rs n) (Lit.sSq n 0) z = 0 := by
    simp [Lit.tSq, Lit.Δy, Lit.sSq]
  have h1 : ContinuousAt (fun g => 1 + 4 * (Lit.betaRs (Lit.rs n) / (γ * (Real.exp (-Lit.pw92K k (Lit.rs n) z / (γ * Lit.phi z ^ 3)) - 1)) * Lit.tSq n z g -
      Lit.Δy γ k (Lit.rs n) (Lit.sSq n g) z)) 0 := hy.const_mul 4 |>.const_add 1
  have h2 : ContinuousAt (fun g => 1 + (Real.exp (-Lit.pw92K k (Lit.rs n) z / (γ * Lit.phi z ^ 3)) - 1) *
      (1 - 1 / (1 + 4 * (Lit.betaRs (Lit.rs n) / (γ * (Real.exp (-Lit.pw92K k (Lit.rs n) z / (γ * Lit.phi z ^ 3)) - 1)) * Lit.tSq n z g -
      Lit.Δy γ k (Lit.rs n) (Lit.sSq n g) z)) ^ (1 / 4 : ℝ))) 0 := by
    refine ((((continuousAt_const (y := (1 : ℝ))).div (h1.rpow_const (p := 1 / 4) (.inl ?_)) ?_).const_sub 1).const_mul _).const_add 1
    · rw [hy0]; norm_num
    · rw [hy0]; norm_num
  have e1 : ∀ᶠ g in 𝓝 (0 : ℝ), _ := h1.eventually (lt_mem_nhds (a := 0) (by dsimp only; rw [hy0]; norm_num))
  have e2 : ∀ᶠ g in 𝓝 (0 : ℝ), _ := h2.eventually (lt_mem_nhds (a := 0) (by dsimp only; rw [hy0]; norm_num))
  obtain ⟨δ, hδ, hB⟩ := Metric.eventually_nhds_iff.1 (e1.and e2)
  have hm : 0 < min (δ / 2) (1 / 2) := by positivity
  refine ⟨min (δ / 2) (1 / 2), hm, lt_of_le_of_lt (min_le_right _ _) (by norm_num), hB ?_⟩
  rw [Real.dist_eq, sub_zero, abs_of_pos hm]
  exact lt_of_le_of_lt (min_le_left _ _) (by linarith)

theorem rs_at_one : Lit.rs (3 / (4 * Real.pi)) = 1 := by
  rw [Lit.rs]; have := Real.pi_pos; field_simp; norm_num

theorem pw92_gap : pw92P 1 < pw92F (Lit.rs (3 / (8 * Real.pi))) := by
  have hr : Lit.rs (3 / (8 * Real.pi)) = 2 ^ (1 / 3 : ℝ) := by
    rw [Lit.rs]; congr 1; have := Real.pi_pos; field_simp; norm_num
  have hc := cbrt_two_bounds
  rw [hr]
  generalize (2 : ℝ) ^ (1 / 3 : ℝ) = r at hc
  have hF : -0.052 < pw92F r := by
    have hs : 1 ≤ √r := Real.one_le_sqrt.2 (by linarith)
    have h3 : 1 ≤ r ^ (3 / 2 : ℝ) := Real.one_le_rpow (by linarith) (by norm_num)
    rw [pw92F, pwG]
    generalize √r = s at *
    generalize r ^ (3 / 2 : ℝ) = t at *
    have hD : 25.5 ≤ 14.1189 * s + 6.1977 * r + 3.3662 * t + 0.62517 * r ^ 2 := by nlinarith
    generalize 14.1189 * s + 6.1977 * r + 3.3662 * t + 0.62517 * r ^ 2 = D at *
    have hl := Real.log_le_sub_one_of_pos (show 0 < 1 + 1 / (2 * 0.01554535 * D) by positivity)
    have : 1 / (2 * 0.01554535 * D) ≤ 1 / (2 * 0.01554535 * 25.5) := by gcongr
    norm_num at hl this ⊢
    nlinarith
  have hP : pw92P 1 < -0.052 := by
    have hl : Real.log 2 ≤ Real.log (1 + 1 / (2 * 0.0310907 * (7.5957 * √1 + 3.5876 * 1 + 1.6382 * 1 ^ (3 / 2 : ℝ) + 0.49294 * 1 ^ 2))) := by
      apply Real.log_le_log (by norm_num)
      simp only [Real.sqrt_one, Real.one_rpow]
      norm_num
    have := Real.log_two_gt_d9
    rw [pw92P, pwG]
    norm_num at hl ⊢
    nlinarith
  linarith

/-- Two opposite spin-density waves of equal densities: no energies tie. -/
theorem noTie_wave {ε : ℝ → ℝ → ℝ → ℝ} {ρ : Field → ℝ} {g : ℝ} (hg : 0 ≤ g)
    (hε : ∃ β : ℝ → ℝ → ℝ → ℝ, (∀ n z g, 0 < n → 0 ≤ g → 0 < β n z g) ∧ ε = fun n z g => pbeEps (β n z g) n z g)
    (hn : ρ .n = 3 / (4 * Real.pi)) (hs : ρ .s = 0) (ha : ρ .a = 3 / (8 * Real.pi)) (hb : ρ .b = 3 / (8 * Real.pi))
    (hnn : ρ .gnn = 0) (haa : ρ .gaa = g) (hbb : ρ .gbb = g) : Spec.NoTie ε ρ := by
  obtain ⟨β, hβ, rfl⟩ := hε
  have hp := Real.pi_pos
  have key : pbeEps (β (3 / (4 * Real.pi)) 0 0) (3 / (4 * Real.pi)) 0 0 <
      pbeEps (β (3 / (8 * Real.pi)) 1 g) (3 / (8 * Real.pi)) 1 g := by
    have h0 : pbeEps (β (3 / (4 * Real.pi)) 0 0) (3 / (4 * Real.pi)) 0 0 = pw92P 1 := by
      have : (1 : ℝ) + 1 - 2 = 0 := by norm_num
      simp [pbeEps, pbeH, tSq, pw92Eps, rs_at_one, fPol, this]
    rw [h0]
    refine lt_of_lt_of_le pw92_gap ?_
    have := pbeEps_ge (hβ (3 / (8 * Real.pi)) 1 g (by positivity) hg) (show 0 < 3 / (8 * Real.pi) by positivity) phi_one_pos hg
      (by rw [pw92_one]; exact pw92F_neg (rs_pos (by positivity)))
    rwa [pw92_one] at this
  unfold Spec.NoTie
  rw [hn, hs, ha, hb, hnn, haa, hbb, zero_div]
  exact ⟨key.ne, key.ne⟩


end XCFun.Fun
