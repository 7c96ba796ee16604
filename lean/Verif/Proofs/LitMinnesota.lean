/-
The Minnesota functionals of the code against the published formulas.
-/
import Verif.Spec.LiteratureMeta
import Verif.Proofs.LitCorr2

namespace XCFun.Fun
open XCFun Expr Lit

variable {ρ : Field → ℝ} {g : Gas}

theorem dtaua (h : IsGas ρ g) : d.taua.evalR ρ = g.taua := h.taua
theorem dtaub (h : IsGas ρ g) : d.taub.evalR ρ = g.taub := h.taub
theorem dtau (h : IsGas ρ g) : d.tau.evalR ρ = g.tau := h.tau

/-- The sum with exponents shifted by `k`. -/
theorem zipIdx_sum (c : List ℝ) (x : ℝ) (k : ℕ) :
    ((c.zipIdx k).map fun p => p.1 * x ^ p.2).sum = x ^ k * ((c.zipIdx 0).map fun p => p.1 * x ^ p.2).sum := by
  induction c generalizing k with
  | nil => simp
  | cons c cs ih =>
    rw [List.zipIdx_cons, List.map_cons, List.sum_cons, ih (k + 1), List.zipIdx_cons, List.map_cons, List.sum_cons, ih (0 + 1)]
    ring

theorem series_cons (c : ℝ) (cs : List ℝ) (x : ℝ) : series (c :: cs) x = c + x * series cs x := by
  unfold series
  rw [List.zipIdx_cons, List.map_cons, List.sum_cons, zipIdx_sum cs x (0 + 1)]
  ring

theorem poly_series (x : Expr Field) : ∀ c : List ℝ, (x.poly c).evalR ρ = series c (x.evalR ρ)
  | [] => by rw [Expr.poly, evalR_zero]; simp [series]
  | [c] => by rw [Expr.poly, series_cons, evalR_lit]; simp [series]
  | c :: e :: cs => by
    rw [Expr.poly, evalR_add, evalR_mul, poly_series x (e :: cs), series_cons c, evalR_lit]
    ring

/-- The six coefficients, zero if not listed. -/
def dOf (l : List ℝ) : ParamD := ⟨l.getD 0 0, l.getD 1 0, l.getD 2 0, l.getD 3 0, l.getD 4 0, l.getD 5 0⟩

section spin
variable {n g' t : Expr Field} (hn : 0 < n.evalR ρ)
include hn

theorem pbe_spin : (energy_pbe_ab R_pbe n g').evalR ρ = pbeSpin (n.evalR ρ) (g'.evalR ρ) := by
  rw [energy_pbe_ab, evalR_mul, prefactor_evalR, enhancement_evalR, S2_eval hn, pbeSpin, exUnif_double _ hn, lit_sSq_double _ _ hn]
  simp only [fPBE, R_pbe, mu_pbe, ← pow_two, mul_assoc]

theorem lsda_spin : (lsda_x n).evalR ρ = exUnif (2 * n.evalR ρ) / 2 := by
  rw [exUnif_double _ hn, ← cX_eq, lsda_x, evalR_mul, evalR_pow, evalR_lit, cX]
  ring

theorem chi_spin : (chi2 n g').evalR ρ = Lit.chiSq (n.evalR ρ) (g'.evalR ρ) := by
  rw [← chiSq_eq hn, chi2, evalR_div, evalR_pow, div_eq_mul_inv, ← Real.rpow_neg hn.le]
  norm_num

omit hn in
theorem fw_spin (c : List ℝ) : (m0fw c n t).evalR ρ = series c (mW (n.evalR ρ) (t.evalR ρ)) := by
  have e : (pw91k_prefactor n).evalR ρ = tauSpin (n.evalR ρ) := by
    have e6 : (6 * Real.pi ^ 2) ^ (2 / 3 : ℝ) = (3 * Real.pi ^ 2) ^ (2 / 3 : ℝ) * 2 ^ (2 / 3 : ℝ) := by
      rw [← Real.mul_rpow (by positivity) (by norm_num)]; congr 1; ring
    rw [pw91k_prefactor, evalR_mul, evalR_lit, evalR_pow, CF_eq, tauSpin, e6]
    ring
  rw [m0fw]
  rw [poly_series]
  simp only [evalR_div, evalR_sub, evalR_add, evalR_one, e, mW]

omit hn in
theorem zet_spin : (zet n t).evalR ρ = mZ (3 / 10 * (3 * Real.pi ^ 2) ^ (2 / 3 : ℝ) * 3.17480210393640) (n.evalR ρ) (t.evalR ρ) := by
  simp only [zet, evalR_sub, evalR_div, evalR_mul, evalR_ofNat, evalR_pow, evalR_lit, mZ, CF_eq, scalefactorTFconst]

omit hn in
theorem h_spin (q : ParamD) (l : List ℝ) (hl : q = dOf l) (α : ℝ) (x z : Expr Field) :
    (m0h q α x z).evalR ρ = vs98 l α (x.evalR ρ) (z.evalR ρ) := by
  subst hl
  simp only [dOf, m0h, m0gamma, evalR_add, evalR_div, evalR_mul, evalR_one, evalR_lit, vs98]
  ring

omit hn in
theorem D_spin : (Dsigma n g' t).evalR ρ = mD (n.evalR ρ) (g'.evalR ρ) (t.evalR ρ) := by
  simp only [Dsigma, evalR_sub, evalR_one, evalR_div, evalR_mul, evalR_ofScientific, mD, tauW]
  rw [div_div, show (0.125 : ℝ) * g'.evalR ρ = g'.evalR ρ / 8 by ring, div_div, mul_assoc]

omit hn in
theorem g_spin (c : List ℝ) (γ : ℝ) (x : Expr Field) : (m0g c (γ * x)).evalR ρ = mG γ c (x.evalR ρ) := by
  rw [m0g]
  rw [poly_series]
  simp only [evalR_div, evalR_add, evalR_one, evalR_mul, evalR_lit, mG]

theorem para_spin : (ueg_c_para n).evalR ρ = stollSame (n.evalR ρ) := by
  rw [ueg_c_para, evalR_mul, pw92_polarized hn, stollSame, mul_comm]

end spin

theorem anti_eq (h : IsGas ρ g) : ueg_c_anti.evalR ρ = stollOpp g := by
  rw [ueg_c_anti, evalR_sub, evalR_sub, evalR_mul, lit_pw92eps h, para_spin (n := d.a) h.physical.a, para_spin (n := d.b) h.physical.b, da h, db h,
    dn h, stollOpp, pw92C, mul_comm]

theorem lit_m05LikeX (h : IsGas ρ g) (c : List ℝ) : (m05LikeX c).evalR ρ = m05X g c := by
  rw [m05LikeX, evalR_add, evalR_mul, evalR_mul, pbe_spin (n := d.a) h.physical.a, pbe_spin (n := d.b) h.physical.b,
    fw_spin, fw_spin, da h, db h, dgaa h, dgbb h, dtaua h, dtaub h, m05X]

/-- `C_F` as the code has it. -/
noncomputable abbrev cfM : ℝ := 3 / 10 * (3 * Real.pi ^ 2) ^ (2 / 3 : ℝ) * 3.17480210393640

theorem lit_m06LikeX (h : IsGas ρ g) (c : List ℝ) (q : ParamD) (l : List ℝ) (hl : q = dOf l) :
    (m06LikeX c q).evalR ρ = m06X g cfM c l := by
  simp only [m06LikeX, evalR_add, evalR_mul, pbe_spin (n := d.a) h.physical.a, pbe_spin (n := d.b) h.physical.b,
    fw_spin, lsda_spin (n := d.a) h.physical.a, lsda_spin (n := d.b) h.physical.b,
    h_spin q l hl, chi_spin (n := d.a) h.physical.a, chi_spin (n := d.b) h.physical.b, zet_spin,
    da h, db h, dgaa h, dgbb h, dtaua h, dtaub h, m06X, m05X, alpha_x]
  ring

theorem lit_m05LikeC (h : IsGas ρ g) (cab css : List ℝ) : (m05LikeC cab css).evalR ρ = m05C g cab css := by
  simp only [m05LikeC, m05_c_anti, m05_c_para, evalR_add, evalR_mul, g_spin, chi_spin (n := d.a) h.physical.a, chi_spin (n := d.b) h.physical.b,
    D_spin, anti_eq h, para_spin (n := d.a) h.physical.a, para_spin (n := d.b) h.physical.b,
    da h, db h, dgaa h, dgbb h, dtaua h, dtaub h, m05C]

theorem lit_m06LikeC (h : IsGas ρ g) (cab css : List ℝ) (q q' : ParamD) (l l' : List ℝ)
    (hl : q = dOf l) (hl' : q' = dOf l') :
    (m06LikeC cab q css q').evalR ρ = m06C g cfM cab l css l' := by
  simp only [m06LikeC, m06_c_anti, m06_c_para, evalR_add, evalR_mul, g_spin, h_spin q l hl, h_spin q' l' hl',
    chi_spin (n := d.a) h.physical.a, chi_spin (n := d.b) h.physical.b, zet_spin,
    D_spin, anti_eq h, para_spin (n := d.a) h.physical.a, para_spin (n := d.b) h.physical.b,
    da h, db h, dgaa h, dgbb h, dtaua h, dtaub h, m06C, alpha_c_parallel, alpha_c_antiparallel]

/-! The tables -/

theorem lit_m05x (h : IsGas ρ g) : m05x.evalR ρ = m05X g m05Xa := by
  rw [m05x, lit_m05LikeX h, show m05x_a = m05Xa by norm_num [m05x_a, m05Xa]]
theorem lit_m05x2x (h : IsGas ρ g) : m05x2x.evalR ρ = m05X g m052Xa := by
  rw [m05x2x, lit_m05LikeX h, show m05x2x_a = m052Xa by norm_num [m05x2x_a, m052Xa]]
theorem lit_m06x2x (h : IsGas ρ g) : m06x2x.evalR ρ = m05X g m062Xa := by
  rw [m06x2x, lit_m05LikeX h, show m06x2x_a = m062Xa by norm_num [m06x2x_a, m062Xa]]
theorem lit_m06x (h : IsGas ρ g) : m06x.evalR ρ = m06X g cfM m06Xa m06Xd := by
  rw [m06x, lit_m06LikeX h _ _ m06Xd (by norm_num [m06x_d, m06Xd, dOf]), show m06x_a = m06Xa by norm_num [m06x_a, m06Xa]]
theorem lit_m06lx (h : IsGas ρ g) : m06lx.evalR ρ = m06X g cfM m06LXa m06LXd := by
  rw [m06lx, lit_m06LikeX h _ _ m06LXd (by norm_num [m06lx_d, m06LXd, dOf]), show m06lx_a = m06LXa by norm_num [m06lx_a, m06LXa]]
theorem lit_m06hfx (h : IsGas ρ g) : m06hfx.evalR ρ = m06X g cfM m06HFXa m06HFXd := by
  rw [m06hfx, lit_m06LikeX h _ _ m06HFXd (by norm_num [m06hfx_d, m06HFXd, dOf]), show m06hfx_a = m06HFXa by norm_num [m06hfx_a, m06HFXa]]
theorem lit_m05c (h : IsGas ρ g) : m05c.evalR ρ = m05C g m05Cc.1 m05Cc.2 := by
  rw [m05c, lit_m05LikeC h, show m05c_anti = m05Cc.1 by norm_num [m05c_anti, m05Cc], show m05c_para = m05Cc.2 by norm_num [m05c_para, m05Cc]]
theorem lit_m05x2c (h : IsGas ρ g) : m05x2c.evalR ρ = m05C g m052Cc.1 m052Cc.2 := by
  rw [m05x2c, lit_m05LikeC h, show m05x2c_anti = m052Cc.1 by norm_num [m05x2c_anti, m052Cc],
    show m05x2c_para = m052Cc.2 by norm_num [m05x2c_para, m052Cc]]
theorem lit_m06c (h : IsGas ρ g) : m06c.evalR ρ = m06C g cfM m06Cc.1.1 m06Cc.1.2 m06Cc.2.1 m06Cc.2.2 := by
  rw [m06c, lit_m06LikeC h _ _ _ _ m06Cc.1.2 m06Cc.2.2 (by norm_num [m06c_danti, m06Cc, dOf]) (by norm_num [m06c_dpara, m06Cc, dOf]),
    show m06c_anti = m06Cc.1.1 by norm_num [m06c_anti, m06Cc], show m06c_para = m06Cc.2.1 by norm_num [m06c_para, m06Cc]]
theorem lit_m06lc (h : IsGas ρ g) : m06lc.evalR ρ = m06C g cfM m06LCc.1.1 m06LCc.1.2 m06LCc.2.1 m06LCc.2.2 := by
  rw [m06lc, lit_m06LikeC h _ _ _ _ m06LCc.1.2 m06LCc.2.2 (by norm_num [m06lc_danti, m06LCc, dOf]) (by norm_num [m06lc_dpara, m06LCc, dOf]),
    show m06lc_anti = m06LCc.1.1 by norm_num [m06lc_anti, m06LCc], show m06lc_para = m06LCc.2.1 by norm_num [m06lc_para, m06LCc]]
theorem lit_m06hfc (h : IsGas ρ g) : m06hfc.evalR ρ = m06C g cfM m06HFCc.1.1 m06HFCc.1.2 m06HFCc.2.1 m06HFCc.2.2 := by
  rw [m06hfc, lit_m06LikeC h _ _ _ _ m06HFCc.1.2 m06HFCc.2.2 (by norm_num [m06hfc_danti, m06HFCc, dOf]) (by norm_num [m06hfc_dpara, m06HFCc, dOf]),
    show m06hfc_anti = m06HFCc.1.1 by norm_num [m06hfc_anti, m06HFCc], show m06hfc_para = m06HFCc.2.1 by norm_num [m06hfc_para, m06HFCc]]
theorem lit_m06x2c (h : IsGas ρ g) : m06x2c.evalR ρ = m06C g cfM m062Cc.1.1 m062Cc.1.2 m062Cc.2.1 m062Cc.2.2 := by
  rw [m06x2c, lit_m06LikeC h _ _ _ _ m062Cc.1.2 m062Cc.2.2 (by norm_num [m06x2c_danti, m062Cc, dOf]) (by norm_num [m06x2c_dpara, m062Cc, dOf]),
    show m06x2c_anti = m062Cc.1.1 by norm_num [m06x2c_anti, m062Cc], show m06x2c_para = m062Cc.2.1 by norm_num [m06x2c_para, m062Cc]]

end XCFun.Fun
