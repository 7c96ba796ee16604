/-
Exchange and kinetic functionals of the code against the published formulas.
-/
import Verif.Spec.Gas
import Verif.Proofs.SmoothAll

namespace XCFun.Fun
open XCFun Expr Lit

variable {ρ : Field → ℝ} {g : Gas}

theorem _root_.XCFun.Lit.IsGas.physical (h : IsGas ρ g) : Spec.Physical ρ where
  a := by rw [h.a]; exact h.apos
  b := by rw [h.b]; exact h.bpos
  n := by rw [h.n]; have := h.apos; have := h.bpos; positivity
  a_43 := by rw [h.a_43, h.a]
  b_43 := by rw [h.b_43, h.b]

theorem exUnif_double (a : ℝ) (ha : 0 < a) : exUnif (2 * a) / 2 = -cx * a ^ (4 / 3 : ℝ) := by
  rw [exUnif, ← pw86Const_eq, Real.mul_rpow (by norm_num) ha.le]
  ring

theorem lit_sSq_double (a gaa : ℝ) (ha : 0 < a) : Lit.sSq (2 * a) (4 * gaa) = Spec.sSq a gaa := by
  have e1 : Lit.kF (2 * a) ^ 2 = (6 * Real.pi ^ 2) ^ (2 / 3 : ℝ) * a ^ (2 / 3 : ℝ) := by
    rw [Lit.kF, show 3 * Real.pi ^ 2 * (2 * a) = 6 * Real.pi ^ 2 * a by ring, ← Real.rpow_natCast, ← Real.rpow_mul (by positivity),
      Real.mul_rpow (by positivity) ha.le]
    norm_num
  have e2 : a ^ (8 / 3 : ℝ) = a ^ (2 / 3 : ℝ) * a ^ 2 := by
    rw [← Real.rpow_natCast a 2, ← Real.rpow_add ha]; norm_num
  rw [Lit.sSq, Spec.sSq, mul_pow, mul_pow, e1, e2]
  have : 0 < a ^ (2 / 3 : ℝ) := by positivity
  have : (0 : ℝ) < (6 * Real.pi ^ 2) ^ (2 / 3 : ℝ) := by positivity
  field_simp
  ring

/-- Exchange of GGA form. -/
theorem exGGA_eq (h : IsGas ρ g) (F : ℝ → ℝ) : exGGA g F =
    -cx * ρ .a ^ (4 / 3 : ℝ) * F ((S2 d.a d.gaa).evalR ρ) + -cx * ρ .b ^ (4 / 3 : ℝ) * F ((S2 d.b d.gbb).evalR ρ) := by
  have ha : 0 < d.a.evalR ρ := h.physical.a
  have hb : 0 < d.b.evalR ρ := h.physical.b
  rw [S2_eval ha, S2_eval hb]
  show _ = -cx * ρ .a ^ (4 / 3 : ℝ) * F (Spec.sSq (ρ .a) (ρ .gaa)) + -cx * ρ .b ^ (4 / 3 : ℝ) * F (Spec.sSq (ρ .b) (ρ .gbb))
  rw [h.a, h.b, h.gaa, h.gbb, ← exUnif_double _ h.apos, ← exUnif_double _ h.bpos, ← lit_sSq_double _ _ h.apos, ← lit_sSq_double _ _ h.bpos]
  simp only [exGGA, spinScaled]
  ring

theorem lit_slaterx (h : IsGas ρ g) : slaterx.evalR ρ = slaterX g := by
  rw [slaterx_evalR h.physical, uniformExchange_eq, h.a, h.b, ← exUnif_double _ h.apos, ← exUnif_double _ h.bpos, slaterX, spinScaled]
  ring

theorem lit_pbex (h : IsGas ρ g) : pbex.evalR ρ = pbeX g := by
  rw [pbex, pbex_evalR, pbeX, exGGA_eq h, enhancement_evalR, enhancement_evalR]
  simp only [fPBE, R_pbe, mu_pbe, ← pow_two, mul_assoc]

theorem lit_revpbex (h : IsGas ρ g) : revpbex.evalR ρ = revpbeX g := by
  rw [revpbex, pbex_evalR, revpbeX, exGGA_eq h, enhancement_evalR, enhancement_evalR]
  simp only [fPBE, R_revpbe, mu_pbe, ← pow_two, mul_assoc]

theorem lit_rpbex (h : IsGas ρ g) : rpbex.evalR ρ = rpbeX g := by
  rw [rpbex_evalR, rpbeX, exGGA_eq h, rpbe_evalR, rpbe_evalR]
  simp only [R_pbe, mu_rpbe, neg_div, neg_mul]
  ring_nf

theorem lit_pbesolx (h : IsGas ρ g) : pbesolx.evalR ρ = pbesolX g 0.123456790123 := by
  rw [pbesolx_evalR, pbesolX, exGGA_eq h]
  simp [pbesol_enhancement, fPBE]

theorem lit_apbex (h : IsGas ρ g) : apbex.evalR ρ = apbeX g := by
  rw [apbex_evalR, apbeX, exGGA_eq h]
  simp [apbe_enhancement, fPBE]

theorem lit_pbeintx (h : IsGas ρ g) : pbeintx.evalR ρ = pbeintX g 0.123456790123 := by
  rw [pbeintx_evalR, pbeintX, exGGA_eq h]
  simp only [pbeint_enhancement, fPBE, evalR_sub, evalR_div, evalR_add, evalR_mul, evalR_lit, evalR_one]
  ring_nf

theorem lit_pw86x (h : IsGas ρ g) : pw86x.evalR ρ = pw86X g := by
  have e : ∀ a gaa : ℝ, 0 < a → pw86F a gaa = (1 + 1.296 * Lit.sSq (2 * a) (4 * gaa) + 14 * Lit.sSq (2 * a) (4 * gaa) ^ 2 +
      0.2 * Lit.sSq (2 * a) (4 * gaa) ^ 3) ^ (1 / 15 : ℝ) := by
    intro a gaa ha
    simp only [pw86F, Lit.sSq, Lit.kF]
    congr 1
    ring
  rw [pw86x_evalR h.physical, e _ _ h.physical.a, e _ _ h.physical.b, h.a, h.b, h.gaa, h.gbb, ← exUnif_double _ h.apos,
    ← exUnif_double _ h.bpos]
  simp only [pw86X, exGGA, spinScaled]
  ring

/-- Above one half, `sqrtx_asinh_sqrtx` is what its name says. -/
theorem sas_large {x : Expr Field} (hx : 0.5 ≤ x.evalR ρ) : x.sqrtxAsinhSqrtx.evalR ρ = √(x.evalR ρ) * Real.arsinh √(x.evalR ρ) := by
  rw [sas_evalR, if_neg (not_lt.2 hx)]

theorem fPW91_eq {n g' : Expr Field} (q : ParamAB) (hp : 0 < q.p1) (h : 0.5 ≤ q.p1 ^ 2 * (S2 n g').evalR ρ) :
    (pw91xk_enhancement q n g').evalR ρ = fPW91 q.p0 q.p1 q.p2 q.p3 q.p4 q.p5 ((S2 n g').evalR ρ) := by
  have hs : √(q.p1 ^ 2 * (S2 n g').evalR ρ) = q.p1 * √((S2 n g').evalR ρ) := by
    rw [Real.sqrt_mul (by positivity), Real.sqrt_sq hp.le]
  rw [pw91_evalR, sas_large (by simpa using h), fPW91]
  simp only [evalR_mul, evalR_lit, hs]
  have : q.p0 * (q.p1 * √((S2 n g').evalR ρ) * Real.arsinh (q.p1 * √((S2 n g').evalR ρ))) / q.p1 =
      q.p0 * √((S2 n g').evalR ρ) * Real.arsinh (q.p1 * √((S2 n g').evalR ρ)) := by
    field_simp
  rw [this]
  ring_nf

theorem lit_pw91x (h : IsGas ρ g) (ha : 0.5 ≤ 7.7956 ^ 2 * Lit.sSq (2 * g.a) (4 * g.gaa))
    (hb : 0.5 ≤ 7.7956 ^ 2 * Lit.sSq (2 * g.b) (4 * g.gbb)) : pw91x.evalR ρ = pw91X g := by
  have pa : 0 < d.a.evalR ρ := h.physical.a
  have pb : 0 < d.b.evalR ρ := h.physical.b
  rw [pw91x_evalR, pw91X, exGGA_eq h, fPW91_eq _ (by norm_num [pw91xParam]), fPW91_eq _ (by norm_num [pw91xParam])]
  · simp only [pw91xParam]
  · rw [S2_eval pb]
    show _ ≤ _ * Spec.sSq (ρ .b) (ρ .gbb)
    rw [h.b, h.gbb, ← lit_sSq_double _ _ h.bpos]; exact hb
  · rw [S2_eval pa]
    show _ ≤ _ * Spec.sSq (ρ .a) (ρ .gaa)
    rw [h.a, h.gaa, ← lit_sSq_double _ _ h.apos]; exact ha

theorem tauTF_double (a : ℝ) (ha : 0 < a) : tauTF (2 * a) / 2 = CF * 2 ^ (2 / 3 : ℝ) * a ^ (5 / 3 : ℝ) := by
  have h2 : (2 : ℝ) ^ (5 / 3 : ℝ) = 2 * 2 ^ (2 / 3 : ℝ) := by
    rw [show (5 / 3 : ℝ) = 1 + 2 / 3 by norm_num, Real.rpow_add (by norm_num), Real.rpow_one]
  rw [tauTF, CF, PI2, Real.mul_rpow (by norm_num) ha.le, h2, ← pow_two]
  norm_num
  ring

theorem lit_pw91k (h : IsGas ρ g) (ha : 0.5 ≤ 76.320 ^ 2 * Lit.sSq (2 * g.a) (4 * g.gaa))
    (hb : 0.5 ≤ 76.320 ^ 2 * Lit.sSq (2 * g.b) (4 * g.gbb)) : pw91k.evalR ρ = pw91K g := by
  have pa : 0 < d.a.evalR ρ := h.physical.a
  have pb : 0 < d.b.evalR ρ := h.physical.b
  have ea : (S2 d.a d.gaa).evalR ρ = Lit.sSq (2 * g.a) (4 * g.gaa) := by
    rw [S2_eval pa, lit_sSq_double _ _ h.apos]
    show Spec.sSq (ρ .a) (ρ .gaa) = _
    rw [h.a, h.gaa]
  have eb : (S2 d.b d.gbb).evalR ρ = Lit.sSq (2 * g.b) (4 * g.gbb) := by
    rw [S2_eval pb, lit_sSq_double _ _ h.bpos]
    show Spec.sSq (ρ .b) (ρ .gbb) = _
    rw [h.b, h.gbb]
  rw [pw91k, evalR_add, evalR_mul, evalR_mul, fPW91_eq _ (by norm_num [pw91kParam]) (by rw [ea]; exact ha),
    fPW91_eq _ (by norm_num [pw91kParam]) (by rw [eb]; exact hb), ea, eb]
  simp only [pw91k_prefactor, evalR_mul, evalR_lit, evalR_pow, pw91K, spinScaled, pw91kParam]
  show CF * 2 ^ (2 / 3 : ℝ) * ρ .a ^ (5 / 3 : ℝ) * _ + CF * 2 ^ (2 / 3 : ℝ) * ρ .b ^ (5 / 3 : ℝ) * _ = _
  rw [h.a, h.b, ← tauTF_double _ h.apos, ← tauTF_double _ h.bpos]
  norm_num
  ring

/-! ### Reduced spin gradients -/

theorem rpow_m83 {a : ℝ} (ha : 0 < a) : a ^ (-8 / 3 : ℝ) = ((a ^ (4 / 3 : ℝ)) ^ 2)⁻¹ := by
  rw [← Real.rpow_natCast, ← Real.rpow_mul ha.le, ← Real.rpow_neg ha.le]; norm_num

theorem chiSq_eq {a gaa : ℝ} (ha : 0 < a) : gaa * a ^ (-8 / 3 : ℝ) = Lit.chiSq a gaa := by
  rw [rpow_m83 ha]; rfl

theorem rpow_83 {a : ℝ} (ha : 0 < a) : a ^ (8 / 3 : ℝ) = (a ^ (4 / 3 : ℝ)) ^ 2 := by
  rw [← Real.rpow_natCast, ← Real.rpow_mul ha.le]; norm_num

theorem cX_eq : cX = cx := by
  have h : (6 / Real.pi : ℝ) = 2 ^ 3 * (3 / (4 * Real.pi)) := by field_simp; norm_num
  rw [cX, cx, h, cube_root_mul (by norm_num) (by positivity)]
  ring

theorem b88_eq {n g' : Expr Field} (hn : 0 < n.evalR ρ) (hx : 0.5 ≤ Lit.chiSq (n.evalR ρ) (g'.evalR ρ)) :
    (becke_corr n g').evalR ρ = b88 (n.evalR ρ) (g'.evalR ρ) := by
  have e : (g' * Expr.pow n (-8 / 3)).evalR ρ = Lit.chiSq (n.evalR ρ) (g'.evalR ρ) := by
    rw [evalR_mul, evalR_pow, chiSq_eq hn]
  simp only [becke_corr, evalR_div, evalR_neg, evalR_mul, evalR_add, evalR_lit, evalR_one, evalR_pow, b88, beckeD]
  rw [sas_large (by rw [e]; exact hx), e, chiSq_eq hn]
  ring_nf

theorem lit_beckecorr (h : IsGas ρ g) (ha : 0.5 ≤ Lit.chiSq g.a g.gaa) (hb : 0.5 ≤ Lit.chiSq g.b g.gbb) :
    beckexcorr.evalR ρ = b88Corr g := by
  have pa : 0 < d.a.evalR ρ := h.physical.a
  have pb : 0 < d.b.evalR ρ := h.physical.b
  have ea : d.a.evalR ρ = g.a := h.a
  have eb : d.b.evalR ρ = g.b := h.b
  have ega : d.gaa.evalR ρ = g.gaa := h.gaa
  have egb : d.gbb.evalR ρ = g.gbb := h.gbb
  rw [beckexcorr, evalR_add, b88_eq pa (by rw [ea, ega]; exact ha), b88_eq pb (by rw [eb, egb]; exact hb), ea, eb, ega, egb, b88Corr]

theorem lit_beckex (h : IsGas ρ g) (ha : 0.5 ≤ Lit.chiSq g.a g.gaa) (hb : 0.5 ≤ Lit.chiSq g.b g.gbb) : beckex.evalR ρ = b88X g := by
  rw [beckex_evalR, ← slaterx_evalR h.physical, lit_slaterx h, lit_beckecorr h ha hb, b88X]

theorem optx_corr_spin {x : Expr Field} {y : ℝ} (hx : x.evalR ρ = 0.006 * y) :
    (npow x 2 * powi (1 + x) (-2)).evalR ρ = uRed 0.006 y ^ 2 := by
  have h2 : (powi (1 + x) (-2)).evalR ρ = ((1 + x.evalR ρ) ^ 2)⁻¹ := by
    refine (evalR_powi_negSucc (ρ := ρ) (1 + x) 1).trans ?_
    simp only [evalR_add, evalR_one, Real.rpow_intCast]
    rfl
  rw [evalR_mul, h2, evalR_npow, hx, uRed, div_pow, div_eq_mul_inv]

theorem lit_optxcorr (h : IsGas ρ g) : optxcorr.evalR ρ = optXCorr g := by
  have ea : ((0.006 : ℝ) * d.gaa * Expr.pow d.a (-8 / 3) : Expr Field).evalR ρ = 0.006 * Lit.chiSq g.a g.gaa := by
    simp only [evalR_mul, evalR_lit, evalR_pow]
    show 0.006 * ρ .gaa * ρ .a ^ (-8 / 3 : ℝ) = _
    rw [mul_assoc, h.a, h.gaa, chiSq_eq h.apos]
  have eb : ((0.006 : ℝ) * d.gbb * Expr.pow d.b (-8 / 3) : Expr Field).evalR ρ = 0.006 * Lit.chiSq g.b g.gbb := by
    simp only [evalR_mul, evalR_lit, evalR_pow]
    show 0.006 * ρ .gbb * ρ .b ^ (-8 / 3 : ℝ) = _
    rw [mul_assoc, h.b, h.gbb, chiSq_eq h.bpos]
  simp only [optxcorr]
  rw [evalR_add, evalR_mul, evalR_mul ρ d.b_43, optx_corr_spin ea, optx_corr_spin eb, optXCorr]
  show ρ .a_43 * _ + ρ .b_43 * _ = _
  rw [h.a_43, h.b_43]

theorem lit_optx (h : IsGas ρ g) : optx.evalR ρ = optX g := by
  rw [optx_evalR h.physical, lit_optxcorr h, uniformExchange_eq, h.a, h.b, optX, optXCorr, cX_eq]
  ring

theorem lit_ktx (h : IsGas ρ g) : ktx.evalR ρ = ktX g := by
  simp only [ktx, evalR_add, evalR_div, evalR_pow, evalR_lit]
  show ρ .gaa / (0.1 + ρ .a ^ (4 / 3 : ℝ)) + ρ .gbb / (0.1 + ρ .b ^ (4 / 3 : ℝ)) = _
  rw [h.a, h.b, h.gaa, h.gbb, ktX, add_comm (0.1 : ℝ), add_comm (0.1 : ℝ)]

/-- The B97 series of one spin. -/
theorem b97_spin {m g' : Expr Field} {a gaa γ : ℝ} (c : ℝ × ℝ × ℝ) (hm : m.evalR ρ = a ^ (4 / 3 : ℝ)) (hg : g'.evalR ρ = gaa)
    (h0 : 0 ≤ gaa) : (b97enhancement γ c (spin_dens_gradient_ab2 g' m)).evalR ρ = b97g γ c.1 c.2.1 c.2.2 (Lit.chiSq a gaa) := by
  have e : (spin_dens_gradient_ab2 g' m).evalR ρ = Lit.chiSq a gaa := by
    simp only [spin_dens_gradient_ab2, evalR_div, evalR_abs, hm, hg, abs_of_nonneg h0, Lit.chiSq]
    rw [div_div, ← pow_two]
  simp only [b97enhancement, ux_ab, evalR_add, evalR_mul, evalR_div, evalR_lit, evalR_one, e, b97g, uRed]
  ring

theorem lit_b97x (h : IsGas ρ g) (ha : 0 ≤ g.gaa) (hb : 0 ≤ g.gbb) (c : ℝ × ℝ × ℝ) :
    (energy_b97x_ab b97x_Gamma c d.a_43 d.gaa + energy_b97x_ab b97x_Gamma c d.b_43 d.gbb).evalR ρ =
      b97X g 0.9305257363491002 c.1 c.2.1 c.2.2 := by
  simp only [energy_b97x_ab, evalR_add, evalR_mul, e_x_LSDA_ab]
  rw [b97_spin (m := d.a_43) (g' := d.gaa) c h.a_43 h.gaa ha, b97_spin (m := d.b_43) (g' := d.gbb) c h.b_43 h.gbb hb]
  simp only [evalR_neg, evalR_ofScientific, b97x_Gamma, b97X]
  show -0.9305257363491002 * ρ .a_43 * _ + -0.9305257363491002 * ρ .b_43 * _ = _
  rw [h.a_43, h.b_43]
  ring

theorem lit_tfk (h : IsGas ρ g) : tfk.evalR ρ = tfK g := by
  simp only [tfk, evalR_mul, evalR_lit, evalR_pow]
  show CF * ρ .n ^ (5 / 3 : ℝ) = _
  rw [h.n, tfK, tauTF, CF, PI2, Gas.n, ← pow_two]
  norm_num

theorem lit_vwk (h : IsGas ρ g) : vW.evalR ρ = vwK g := by
  simp only [vW, vW_alpha, evalR_add, evalR_div, evalR_mul, evalR_ofNat]
  show ρ .gaa / (8 * ρ .a) + ρ .gbb / (8 * ρ .b) = _
  rw [h.a, h.b, h.gaa, h.gbb]; rfl

theorem lit_btk (h : IsGas ρ g) (ha : 0 ≤ g.gaa) (hb : 0 ≤ g.gbb) : btk.evalR ρ = btK g 1e-24 := by
  have e : ∀ n g2 : ℝ, 0 < n → 0 ≤ g2 → 1.990328 * n ^ (5 / 3 : ℝ) * (1e-24 + g2) ^ (0.5 * 0.3434125 : ℝ) / n ^ (4 / 3 * 0.3434125 : ℝ) =
      1.990328 * n ^ (5 / 3 : ℝ) * (√(g2 + 1e-24) / n ^ (4 / 3 : ℝ)) ^ (0.3434125 : ℝ) := by
    intro n g2 hn hg
    have hg' : 0 ≤ g2 + 1e-24 := by norm_num; linarith
    rw [Real.div_rpow (Real.sqrt_nonneg _) (by positivity), Real.sqrt_eq_rpow, ← Real.rpow_mul hg', ← Real.rpow_mul hn.le, add_comm g2]
    norm_num
    ring
  simp only [btk, btk_alpha, evalR_mul, evalR_add, evalR_div, evalR_pow, evalR_lit, evalR_ofNat, evalR_ofScientific]
  show 0.5 * (1.990328 * (2 * ρ .a) ^ (5 / 3 : ℝ) * (1e-24 + 4 * ρ .gaa) ^ (0.5 * 0.3434125 : ℝ) / (2 * ρ .a) ^ (4 / 3 * 0.3434125 : ℝ) +
    1.990328 * (2 * ρ .b) ^ (5 / 3 : ℝ) * (1e-24 + 4 * ρ .gbb) ^ (0.5 * 0.3434125 : ℝ) / (2 * ρ .b) ^ (4 / 3 * 0.3434125 : ℝ)) = _
  have pa := h.apos
  have pb := h.bpos
  rw [h.a, h.b, h.gaa, h.gbb, e _ _ (by positivity) (by positivity), e _ _ (by positivity) (by positivity), btK, spinScaled]
  ring

/-! ### Range separation -/

theorem erf_eq (x : ℝ) : Lit.erf x = XCFun.erf x := rfl

theorem rpow_13_pos {a : ℝ} (ha : 0 < a) : 0 < a ^ (1 / 3 : ℝ) := by positivity

/-- The attenuation in the form of the code. -/
theorem attenuation_eq {A : ℝ} :
    8 / 3 * A * (√Real.pi * XCFun.erf (1 / (2 * A)) + 2 * A * ((Real.exp (-1 / (4 * A * A)) - 1) -
      (2 * A * A * (Real.exp (-1 / (4 * A * A)) - 1) + 0.5))) = attenuation A := by
  rw [attenuation, erf_eq, show 4 * A * A = 4 * A ^ 2 by ring]
  ring

section
variable {n g' : Expr Field} (hn : 0 < n.evalR ρ) (hx : 0.5 ≤ Lit.chiSq (n.evalR ρ) (g'.evalR ρ))
include hn hx

/-- The code's `K`. -/
theorem b88K_eq : (2 * ((cLda : Expr Field) + ((beckeD : Expr Field) * (g' * pow n (-8 / 3))) /
      (1 + (6 * beckeD : ℝ) * sqrtxAsinhSqrtx (g' * pow n (-8 / 3)))) : Expr Field).evalR ρ = b88K (n.evalR ρ) (g'.evalR ρ) := by
  have e : (g' * Expr.pow n (-8 / 3)).evalR ρ = Lit.chiSq (n.evalR ρ) (g'.evalR ρ) := by
    rw [evalR_mul, evalR_pow, chiSq_eq hn]
  rw [evalR_mul, evalR_add, evalR_div, evalR_add, evalR_mul _ (beckeD : Expr Field), evalR_mul _ (6 * beckeD : ℝ), e,
    sas_large (by rw [e]; exact hx), e]
  simp only [evalR_lit, evalR_ofNat, evalR_one, cLda_eq, ← cX_eq, b88K, beckeD]
  ring_nf

theorem b88sr_eq {μ : Expr Field} : (becke_sr μ n g').evalR ρ = b88srSpin (μ.evalR ρ) (n.evalR ρ) (g'.evalR ρ) := by
  have hK := b88K_eq hn hx
  unfold becke_sr
  dsimp only
  generalize (2 * ((cLda : Expr Field) + ((beckeD : Expr Field) * (g' * pow n (-8 / 3))) /
      (1 + (6 * beckeD : ℝ) * sqrtxAsinhSqrtx (g' * pow n (-8 / 3)))) : Expr Field) = K at hK ⊢
  have hA : (μ * sqrt K / ((6 * √Real.pi : ℝ) * pow n (1 / 3))).evalR ρ = b88A (μ.evalR ρ) (n.evalR ρ) (g'.evalR ρ) := by
    simp only [evalR_div, evalR_mul, evalR_sqrt, evalR_lit, evalR_pow, hK, b88A]
  generalize μ * sqrt K / ((6 * √Real.pi : ℝ) * pow n (1 / 3)) = A at hA ⊢
  simp only [evalR_mul, evalR_sub, evalR_add, evalR_div, evalR_neg, evalR_one, evalR_lit, evalR_ofNat, evalR_ofScientific, evalR_erf,
    evalR_expm1, evalR_pow, hK, hA, b88srSpin, ← attenuation_eq]
  norm_num

theorem b88cam_eq {α β μ : Expr Field} :
    (becke_cam α β μ n g').evalR ρ = b88camSpin (α.evalR ρ) (β.evalR ρ) (μ.evalR ρ) (n.evalR ρ) (g'.evalR ρ) := by
  have hK := b88K_eq hn hx
  unfold becke_cam
  dsimp only
  generalize (2 * ((cLda : Expr Field) + ((beckeD : Expr Field) * (g' * pow n (-8 / 3))) /
      (1 + (6 * beckeD : ℝ) * sqrtxAsinhSqrtx (g' * pow n (-8 / 3)))) : Expr Field) = K at hK ⊢
  have hA : (μ * sqrt K / ((6 * √Real.pi : ℝ) * pow n (1 / 3))).evalR ρ = b88A (μ.evalR ρ) (n.evalR ρ) (g'.evalR ρ) := by
    simp only [evalR_div, evalR_mul, evalR_sqrt, evalR_lit, evalR_pow, hK, b88A]
  generalize μ * sqrt K / ((6 * √Real.pi : ℝ) * pow n (1 / 3)) = A at hA ⊢
  simp only [evalR_mul, evalR_sub, evalR_add, evalR_div, evalR_neg, evalR_one, evalR_lit, evalR_ofNat, evalR_ofScientific, evalR_erf,
    evalR_expm1, evalR_pow, hK, hA, b88camSpin, ← attenuation_eq]
  ring_nf

end

theorem lit_beckesr (h : IsGas ρ g) (ha : 0.5 ≤ Lit.chiSq g.a g.gaa) (hb : 0.5 ≤ Lit.chiSq g.b g.gbb) :
    beckesrx.evalR ρ = b88srX g (ρ (.param RANGESEP_MU)) := by
  have pa : 0 < d.a.evalR ρ := h.physical.a
  have pb : 0 < d.b.evalR ρ := h.physical.b
  have ea : d.a.evalR ρ = g.a := h.a
  have eb : d.b.evalR ρ = g.b := h.b
  have ega : d.gaa.evalR ρ = g.gaa := h.gaa
  have egb : d.gbb.evalR ρ = g.gbb := h.gbb
  simp only [beckesrx]
  rw [evalR_add, b88sr_eq pa (by rw [ea, ega]; exact ha), b88sr_eq pb (by rw [eb, egb]; exact hb), ea, eb, ega, egb, b88srX]
  rfl

theorem lit_beckecam (h : IsGas ρ g) (ha : 0.5 ≤ Lit.chiSq g.a g.gaa) (hb : 0.5 ≤ Lit.chiSq g.b g.gbb) :
    beckecamx.evalR ρ = b88camX g (ρ (.param CAM_ALPHA)) (ρ (.param CAM_BETA)) (ρ (.param RANGESEP_MU)) := by
  have pa : 0 < d.a.evalR ρ := h.physical.a
  have pb : 0 < d.b.evalR ρ := h.physical.b
  have ea : d.a.evalR ρ = g.a := h.a
  have eb : d.b.evalR ρ = g.b := h.b
  have ega : d.gaa.evalR ρ = g.gaa := h.gaa
  have egb : d.gbb.evalR ρ = g.gbb := h.gbb
  simp only [beckecamx]
  rw [evalR_add, b88cam_eq pa (by rw [ea, ega]; exact ha), b88cam_eq pb (by rw [eb, egb]; exact hb), ea, eb, ega, egb, b88camX]
  rfl

/-- Local short-range exchange of one spin, in the range of `A` in which the code uses the full formula. -/
theorem ldaerf_spin {n μ : Expr Field} (hn : 0 < n.evalR ρ)
    (h1 : 1e-9 ≤ μ.evalR ρ / (2 * (3.093667726280136 * (2 * n.evalR ρ) ^ (1 / 3 : ℝ))))
    (h2 : μ.evalR ρ / (2 * (3.093667726280136 * (2 * n.evalR ρ) ^ (1 / 3 : ℝ))) < 100) :
    (esrx_ldaerfspin n μ).evalR ρ = exUnif (2 * n.evalR ρ) *
      (1 - attenuation (μ.evalR ρ / (2 * (3.093667726280136 * (2 * n.evalR ρ) ^ (1 / 3 : ℝ))))) := by
  have hA : (μ / (2 * ((3.093667726280136 : ℝ) * pow (2 * n) (1 / 3)))).evalR ρ =
      μ.evalR ρ / (2 * (3.093667726280136 * (2 * n.evalR ρ) ^ (1 / 3 : ℝ))) := by
    simp only [evalR_div, evalR_mul, evalR_lit, evalR_pow, evalR_ofNat]
  rw [← hA] at h1 h2 ⊢
  unfold esrx_ldaerfspin
  dsimp only
  generalize μ / (2 * ((3.093667726280136 : ℝ) * pow (2 * n) (1 / 3))) = A at h1 h2 ⊢
  rw [evalR_iflt, if_neg (by rw [evalR_ofScientific]; exact not_lt.2 h1), evalR_iflt, if_pos (by rw [evalR_ofNat]; exact h2)]
  have hu : exUnif (2 * n.evalR ρ) = -(3 / 8) * (2 * n.evalR ρ * (24 * (2 * n.evalR ρ) / Real.pi) ^ (1 / 3 : ℝ)) := by
    have hr : 0 < 2 * n.evalR ρ := by positivity
    generalize 2 * n.evalR ρ = r at hr
    have e : (24 * r / Real.pi : ℝ) ^ (1 / 3 : ℝ) = 2 * (3 / Real.pi) ^ (1 / 3 : ℝ) * r ^ (1 / 3 : ℝ) := by
      rw [show (24 * r / Real.pi : ℝ) = 2 ^ 3 * (3 / Real.pi * r) by ring, cube_root_mul (by norm_num) (by positivity),
        Real.mul_rpow (by positivity) hr.le]
      ring
    have e2 : r ^ (4 / 3 : ℝ) = r * r ^ (1 / 3 : ℝ) := by
      rw [show (4 / 3 : ℝ) = 1 + 1 / 3 by norm_num, Real.rpow_add hr, Real.rpow_one]
    rw [exUnif, e, e2]; ring
  rw [hu]
  simp only [evalR_mul, evalR_sub, evalR_add, evalR_div, evalR_neg, evalR_lit, evalR_ofNat, evalR_ofScientific, evalR_erf,
    evalR_exp, evalR_pow, attenuation, erf_eq]
  rcases eq_or_ne (A.evalR ρ) 0 with h0 | h0
  · rw [h0] at h1; norm_num at h1
  have e1 : (0.5 : ℝ) / A.evalR ρ = 1 / (2 * A.evalR ρ) := by field_simp; norm_num
  have e2 : (-0.25 : ℝ) / (A.evalR ρ * A.evalR ρ) = -1 / (4 * A.evalR ρ ^ 2) := by field_simp; norm_num
  rw [e1, e2]
  ring

theorem lit_ldaerfx (h : IsGas ρ g)
    (ha : 1e-9 ≤ Spec.erfArg (ρ (.param RANGESEP_MU)) g.a ∧ Spec.erfArg (ρ (.param RANGESEP_MU)) g.a < 100)
    (hb : 1e-9 ≤ Spec.erfArg (ρ (.param RANGESEP_MU)) g.b ∧ Spec.erfArg (ρ (.param RANGESEP_MU)) g.b < 100) :
    lda_erfx.evalR ρ = ldaSrX g 3.093667726280136 (ρ (.param RANGESEP_MU)) := by
  have pa : 0 < d.a.evalR ρ := h.physical.a
  have pb : 0 < d.b.evalR ρ := h.physical.b
  have ea : d.a.evalR ρ = g.a := h.a
  have eb : d.b.evalR ρ = g.b := h.b
  have em : (getParam RANGESEP_MU).evalR ρ = ρ (.param RANGESEP_MU) := rfl
  unfold Spec.erfArg at ha hb
  simp only [lda_erfx]
  rw [evalR_mul, evalR_add, ldaerf_spin pa (by rw [ea, em]; exact ha.1) (by rw [ea, em]; exact ha.2),
    ldaerf_spin pb (by rw [eb, em]; exact hb.1) (by rw [eb, em]; exact hb.2), ea, eb, em, ldaSrX, spinScaled, evalR_ofScientific]
  ring

end XCFun.Fun
