/-
TPSS and related meta-GGAs of the code against the published formulas.
-/
import Verif.Proofs.LitMinnesota

namespace XCFun.Fun
open XCFun Expr Lit

variable {ρ : Field → ℝ} {g : Gas}

/-! ### Exchange -/

theorem kF2_eq : kF2 = (3 * Real.pi ^ 2) ^ (2 / 3 : ℝ) := by rw [kF2, PI2, pow_two]

theorem sSq_kF2 {n g2 : ℝ} (hn : 0 < n) : Lit.sSq n g2 = g2 / (4 * kF2 * n ^ (8 / 3 : ℝ)) := by
  have e1 : Lit.kF n ^ 2 = kF2 * n ^ (2 / 3 : ℝ) := by
    rw [Lit.kF, kF2_eq, ← Real.rpow_natCast, ← Real.rpow_mul (by positivity), Real.mul_rpow (by positivity) hn.le]
    norm_num
  have e2 : n ^ (8 / 3 : ℝ) = n ^ (2 / 3 : ℝ) * n ^ 2 := by
    rw [← Real.rpow_natCast n 2, ← Real.rpow_add hn]; norm_num
  rw [Lit.sSq, mul_pow, mul_pow, e1, e2]
  congr 1; ring

theorem fx_unif_eq (n : Expr Field) : (fx_unif n).evalR ρ = exUnif (n.evalR ρ) := by
  rw [fx_unif, evalR_mul, evalR_lit, evalR_pow, exUnif]; norm_num

/-- The root in the numerator of `x`. -/
theorem tpss_root {n g2 τ p0 : ℝ} (hg : 0 ≤ g2) : g2 * √(0.5 * 0.6 * 0.6 * (8 * n * τ) ^ (-2 : ℤ) + 0.5 * p0 * p0) =
    √((3 / 5 * (tauW n g2 / τ)) ^ 2 / 2 + (g2 * p0) ^ 2 / 2) := by
  nth_rewrite 1 [← Real.sqrt_sq hg]
  rw [← Real.sqrt_mul (by positivity), tauW]
  congr 1
  rw [zpow_neg, div_div, div_eq_mul_inv g2, mul_pow (3 / 5 : ℝ), mul_pow g2, inv_pow]
  norm_cast
  norm_num
  ring

section enh
variable {n g' t : Expr Field} (hn : 0 < n.evalR ρ) (hg : 0 ≤ g'.evalR ρ)
include hn hg

/-- Facts shared by the three exchange functionals. -/
theorem tpss_facts : (g'.evalR ρ * (1 / (4 * kF2 * n.evalR ρ ^ (8 / 3 : ℝ))) = Lit.sSq (n.evalR ρ) (g'.evalR ρ)) ∧
    g'.evalR ρ * √(0.5 * 0.6 * 0.6 * (8 * n.evalR ρ * t.evalR ρ) ^ (-2 : ℤ) +
      0.5 * (1 / (4 * kF2 * n.evalR ρ ^ (8 / 3 : ℝ))) * (1 / (4 * kF2 * n.evalR ρ ^ (8 / 3 : ℝ)))) =
      √((3 / 5 * (tauW (n.evalR ρ) (g'.evalR ρ) / t.evalR ρ)) ^ 2 / 2 + Lit.sSq (n.evalR ρ) (g'.evalR ρ) ^ 2 / 2) ∧
    0.3 * kF2 * n.evalR ρ ^ (5 / 3 : ℝ) = tauTF (n.evalR ρ) ∧
    (∀ x : Expr Field, (powi x (-2)).evalR ρ = x.evalR ρ ^ (-2 : ℤ)) := by
  have hp : g'.evalR ρ * (1 / (4 * kF2 * n.evalR ρ ^ (8 / 3 : ℝ))) = Lit.sSq (n.evalR ρ) (g'.evalR ρ) := by
    rw [sSq_kF2 hn]; ring
  refine ⟨hp, ?_, ?_, ?_⟩
  · rw [tpss_root hg, hp]
  · rw [tauTF, kF2_eq]; norm_num
  · intro x
    refine (evalR_powi_negSucc (ρ := ρ) x 1).trans ?_
    simp only [Real.rpow_intCast]; rfl

theorem tpss_F : (tpssx_F_x n g' t).evalR ρ =
    tpssEnh 0.804 0.21951 0.40 1.59096 1.537 (fun z => z ^ 2) (n.evalR ρ) (g'.evalR ρ) (t.evalR ρ) := by
  obtain ⟨hp, hr, hT, hq⟩ := tpss_facts (t := t) hn hg
  simp only [tpssx_F_x, tpssx_x, evalR_add, evalR_sub, evalR_mul, evalR_div, evalR_lit, evalR_one, evalR_ofNat, evalR_ofScientific, evalR_pow2,
    evalR_pow3, evalR_sqrt, evalR_pow, hq, tpssEnh, hp, hT]
  rw [show g'.evalR ρ / (8 * n.evalR ρ) = tauW (n.evalR ρ) (g'.evalR ρ) from rfl, mul_assoc (73 / 405 * _ : ℝ) (g'.evalR ρ), hr]
  generalize √((3 / 5 * (tauW (n.evalR ρ) (g'.evalR ρ) / t.evalR ρ)) ^ 2 / 2 + Lit.sSq (n.evalR ρ) (g'.evalR ρ) ^ 2 / 2) = R
  congr 4
  ring

theorem bloc_F (hz : 0 < tauW (n.evalR ρ) (g'.evalR ρ) / t.evalR ρ) : (energy_blocx n g' t).evalR ρ = exUnif (n.evalR ρ) *
    tpssEnh 0.804 0.21951 0.40 1.59096 1.537 (fun z => z ^ (4 - 3.3 * z)) (n.evalR ρ) (g'.evalR ρ) (t.evalR ρ) := by
  obtain ⟨hp, hr, hT, hq⟩ := tpss_facts (t := t) hn hg
  have hzf := Real.rpow_def_of_pos hz (4 - 3.3 * (tauW (n.evalR ρ) (g'.evalR ρ) / t.evalR ρ))
  simp only [energy_blocx, evalR_add, evalR_sub, evalR_mul, evalR_div, evalR_lit, evalR_one, evalR_ofNat, evalR_ofScientific, evalR_pow2,
    evalR_pow3, evalR_sqrt, evalR_pow, evalR_exp, evalR_log, fx_unif_eq, hq, tpssEnh, hp, hT]
  rw [show g'.evalR ρ / (8 * n.evalR ρ) = tauW (n.evalR ρ) (g'.evalR ρ) from rfl, mul_assoc (-73 / 405 * _ : ℝ) (g'.evalR ρ), hr, ← hzf]
  generalize √((3 / 5 * (tauW (n.evalR ρ) (g'.evalR ρ) / t.evalR ρ)) ^ 2 / 2 + Lit.sSq (n.evalR ρ) (g'.evalR ρ) ^ 2 / 2) = R
  congr 5
  ring

end enh

section
variable (h : IsGas ρ g)
include h

theorem two_a : (2 * d.a : Expr Field).evalR ρ = 2 * g.a := by rw [evalR_mul, evalR_ofNat, da h]
theorem two_b : (2 * d.b : Expr Field).evalR ρ = 2 * g.b := by rw [evalR_mul, evalR_ofNat, db h]
theorem four_gaa : (4 * d.gaa : Expr Field).evalR ρ = 4 * g.gaa := by rw [evalR_mul, evalR_ofNat, dgaa h]
theorem four_gbb : (4 * d.gbb : Expr Field).evalR ρ = 4 * g.gbb := by rw [evalR_mul, evalR_ofNat, dgbb h]
theorem two_taua : (2 * d.taua : Expr Field).evalR ρ = 2 * g.taua := by rw [evalR_mul, evalR_ofNat, dtaua h]
theorem two_taub : (2 * d.taub : Expr Field).evalR ρ = 2 * g.taub := by rw [evalR_mul, evalR_ofNat, dtaub h]

theorem lit_tpssx (ha : 0 ≤ g.gaa) (hb : 0 ≤ g.gbb) : tpssx.evalR ρ = tpssX g := by
  have pa := h.apos
  have pb := h.bpos
  simp only [tpssx]
  rw [evalR_mul, evalR_add, evalR_mul, evalR_mul, fx_unif_eq, fx_unif_eq, tpss_F (by rw [two_a h]; positivity) (by rw [four_gaa h]; positivity),
    tpss_F (by rw [two_b h]; positivity) (by rw [four_gbb h]; positivity), two_a h, two_b h, four_gaa h, four_gbb h, two_taua h, two_taub h,
    evalR_ofScientific, tpssX, spinScaled]
  ring

theorem lit_blocx (ha : 0 < g.gaa) (hb : 0 < g.gbb) (ta : 0 < g.taua) (tb : 0 < g.taub) : blocx.evalR ρ = blocX g := by
  have pa := h.apos
  have pb := h.bpos
  simp only [blocx]
  rw [evalR_div, evalR_add, bloc_F (by rw [two_a h]; positivity) (by rw [four_gaa h]; positivity) ?_,
    bloc_F (by rw [two_b h]; positivity) (by rw [four_gbb h]; positivity) ?_, two_a h, two_b h, four_gaa h, four_gbb h, two_taua h, two_taub h,
    evalR_ofNat, blocX, spinScaled]
  · rw [two_b h, four_gbb h, two_taub h, tauW]; positivity
  · rw [two_a h, four_gaa h, two_taua h, tauW]; positivity

/-! ### Correlation -/

theorem xi2_eq : tpss_xi2.evalR ρ = xiSq g := by
  have hn := h.npos
  have es : d.s.evalR ρ = g.a - g.b := h.s
  have egns : d.gns.evalR ρ = g.gaa - g.gbb := h.gns
  have egss : d.gss.evalR ρ = g.gaa - 2 * g.gab + g.gbb := h.gss
  have ek : (3 * (Real.pi * Real.pi) * g.n) ^ (2 / 3 : ℝ) = Lit.kF g.n ^ 2 := by
    rw [Lit.kF, ← Real.rpow_natCast, ← Real.rpow_mul (by positivity)]
    norm_num [pow_two]
  simp only [tpss_xi2, evalR_add, evalR_sub, evalR_mul, evalR_div, evalR_lit, evalR_ofNat, evalR_pow2, evalR_npow, evalR_pow, es, egns, egss,
    dn h, dgnn h, ek, xiSq, gradZetaSq]
  rw [show 4 * Lit.kF g.n ^ 2 = (2 * Lit.kF g.n) ^ 2 by ring]
  congr 2
  rw [Gas.n, Gas.gnn]; ring

theorem Cz_eq (c0 c1 c2 c3 : ℝ) : (((c0 : Expr Field) + (c1 : Expr Field) * pow2 d.zeta + (c2 : Expr Field) * npow d.zeta 4 +
      (c3 : Expr Field) * npow d.zeta 6) * powi (1 + 0.5 * tpss_xi2 * ufunc d.zeta (-4 / 3)) (-4)).evalR ρ = tpssCz g c0 c1 c2 c3 := by
  have hq : ∀ x : Expr Field, (powi x (-4)).evalR ρ = (x.evalR ρ ^ 4)⁻¹ := by
    intro x
    refine (evalR_powi_negSucc (ρ := ρ) x 3).trans ?_
    simp only [Real.rpow_intCast]; rfl
  simp only [evalR_add, evalR_mul, evalR_lit, evalR_pow2, evalR_npow, hq, evalR_one, evalR_ufunc, evalR_ofScientific, xi2_eq h, dzeta h, tpssCz,
    pol, div_eq_mul_inv]
  congr 3
  ring

end

theorem phi_one : Lit.phi 1 = 2 ^ (-1 / 3 : ℝ) := by
  have e2 : (2 : ℝ) ^ (2 / 3 : ℝ) / 2 = 2 ^ (-1 / 3 : ℝ) := by
    rw [div_eq_mul_inv, ← Real.rpow_neg_one (2 : ℝ), ← Real.rpow_add (by norm_num)]; norm_num
  rw [Lit.phi, pol, sub_self, Real.zero_rpow (by norm_num), add_zero, show (1 : ℝ) + 1 = 2 by norm_num, e2]

theorem phi_one_pos : 0 < Lit.phi 1 := by rw [phi_one]; positivity

theorem pw92_one (n : ℝ) : pw92Eps n 1 = pw92F (Lit.rs n) := by
  have hf : fPol 1 = 1 := by
    have : (2 : ℝ) < 2 ^ (4 / 3 : ℝ) := by
      nth_rewrite 1 [← Real.rpow_one 2]
      exact Real.rpow_lt_rpow_of_exponent_lt (by norm_num) (by norm_num)
    rw [fPol, sub_self, Real.zero_rpow (by norm_num), add_zero, show (1 : ℝ) + 1 = 2 by norm_num, div_self (by linarith)]
  simp only [pw92Eps, hf]
  ring

theorem d2_polarized {a g' : Expr Field} (ha : 0 < a.evalR ρ) :
    ((t2const : Expr Field) * g' / (((2 : ℝ) ^ (-1 / 3 : ℝ) * (2 : ℝ) ^ (-1 / 3 : ℝ) : ℝ) * pow a (7 / 3))).evalR ρ =
      tSq (a.evalR ρ) 1 (g'.evalR ρ) := by
  rw [← tSq_eq ha phi_one_pos phi_one.symm]
  simp only [evalR_div, evalR_mul, evalR_lit, evalR_pow]

theorem u3_polarized : ((((2 : ℝ) ^ (-1 / 3 : ℝ) * (2 : ℝ) ^ (-1 / 3 : ℝ) * (2 : ℝ) ^ (-1 / 3 : ℝ) : ℝ) : Expr Field)).evalR ρ = Lit.phi 1 ^ 3 := by
  rw [evalR_lit, phi_one]; ring

theorem lit_pbec_polarized {a g' : Expr Field} (ha : 0 < a.evalR ρ) :
    (pbec_eps_polarized a g').evalR ρ = pbeEps 0.06672455060314922 (a.evalR ρ) 1 (g'.evalR ρ) := by
  simp only [pbec_eps_polarized]
  rw [evalR_add, pbecH_like, pbeLikeH_eq (β := 0.06672455060314922) (by rw [evalR_lit, beta_gamma_eq]) u3_polarized, d2_polarized ha,
    pw92_polarized ha, pbeEps, pw92_one]

theorem revtpss_beta_eq {n : Expr Field} (hn : 0 < n.evalR ρ) : (revtpss_beta n).evalR ρ = betaRs (Lit.rs (n.evalR ρ)) := by
  have e : XCFun.cbrt (3 / (4 * Real.pi * n.evalR ρ)) = Lit.rs (n.evalR ρ) := by
    rw [XCFun.cbrt, if_pos (by positivity), Lit.rs]
  simp only [revtpss_beta, evalR_div, evalR_mul, evalR_add, evalR_one, evalR_lit, evalR_ofNat, evalR_ofScientific, evalR_cbrt, e, betaRs,
    param_beta_pbe_paper]

theorem lit_revtpss_pbec (h : IsGas ρ g) : revtpss_pbec_eps.evalR ρ = pbeEps (betaRs (Lit.rs g.n)) g.n g.zeta g.gnn := by
  simp only [revtpss_pbec_eps, revtpssH]
  rw [evalR_add, pbeLikeH_eq (β := betaRs (Lit.rs g.n)) ?_ (pow3_phi h), d2_eq h, lit_pw92eps h, pbeEps]
  rw [evalR_div, revtpss_beta_eq (by rw [dn h]; exact h.npos), evalR_lit, gamma_eq, dn h]

theorem lit_revtpss_polarized {a g' : Expr Field} (ha : 0 < a.evalR ρ) :
    (revtpss_pbec_eps_polarized a g').evalR ρ = pbeEps (betaRs (Lit.rs (a.evalR ρ))) (a.evalR ρ) 1 (g'.evalR ρ) := by
  simp only [revtpss_pbec_eps_polarized, revtpssH]
  rw [evalR_add, pbeLikeH_eq (β := betaRs (Lit.rs (a.evalR ρ))) (by rw [evalR_div, revtpss_beta_eq ha, evalR_lit, gamma_eq]) u3_polarized,
    d2_polarized ha, pw92_polarized ha, pbeEps, pw92_one]

theorem lit_pbeloc_polarized {a g' : Expr Field} (ha : 0 < a.evalR ρ) :
    (pbeloc_eps_pola a g').evalR ρ = pbelocEps (a.evalR ρ) 1 (g'.evalR ρ) := by
  have er : (3 / (4 * Real.pi)) ^ (1 / 3 : ℝ) * a.evalR ρ ^ (-1 / 3 : ℝ) = Lit.rs (a.evalR ρ) := by
    rw [Lit.rs, ← div_div (3 : ℝ) (4 * Real.pi) (a.evalR ρ), Real.div_rpow (by positivity) ha.le, neg_div, Real.rpow_neg ha.le]; rfl
  have ed : ((t2const : Expr Field) * g' / ((((2 : ℝ) ^ (-1 / 3 : ℝ) : ℝ) : Expr Field) * (((2 : ℝ) ^ (-1 / 3 : ℝ) : ℝ) : Expr Field) *
      pow a (7 / 3))).evalR ρ = tSq (a.evalR ρ) 1 (g'.evalR ρ) := by
    rw [← tSq_eq ha phi_one_pos phi_one.symm]
    simp only [evalR_div, evalR_mul, evalR_lit, evalR_pow]
  simp only [pbeloc_eps_pola]
  rw [evalR_add, pbeLikeH_eq (β := 0.0375 + 0.08 * tSq (a.evalR ρ) 1 (g'.evalR ρ) * (1 - Real.exp (-Lit.rs (a.evalR ρ) ^ 2))) (z := 1) ?_ ?_, ed,
    pw92_polarized ha, pbelocEps, pbeEps, pw92_one]
  · rw [evalR_div, evalR_add, evalR_mul, evalR_mul, ed]
    simp only [evalR_lit, evalR_sub, evalR_one, evalR_exp, evalR_mul, evalR_neg, evalR_pow, gamma_eq, er]
    rw [neg_mul, ← pow_two]
  · rw [evalR_pow3, evalR_lit, phi_one]

section
variable (h : IsGas ρ g)
include h

theorem zW_eq : (d.gnn / (8 * d.n * d.tau)).evalR ρ = tauW g.n g.gnn / g.tau := by
  simp only [evalR_div, evalR_mul, evalR_ofNat, dn h, dgnn h, dtau h, tauW]
  rw [div_div]

theorem lit_tpssc : tpssc.evalR ρ = tpssC g := by
  have eC : tpss_C.evalR ρ = tpssCz g 0.53 0.87 0.50 2.26 := by
    rw [← Cz_eq h]; simp only [tpss_C, evalR_mul, evalR_add, evalR_ofScientific, evalR_lit]
  simp only [tpssc, tpssc_eps, tpss_epsc_revpkzb, tpss_epsc_summax]
  simp only [evalR_mul, evalR_add, evalR_sub, evalR_one, evalR_lit, evalR_pow2, evalR_pow3, evalR_max, zW_eq h, eC, lit_pbec_eps h,
    lit_pbec_polarized (a := d.a) h.physical.a, lit_pbec_polarized (a := d.b) h.physical.b, da h, db h, dn h, dgaa h, dgbb h, evalR_div,
    tpssC, tpssLikeC, revPKZB, max_comm]
  ring

theorem lit_revtpssc : revtpssc.evalR ρ = revtpssC g 2 := by
  have eC : revtpss_C.evalR ρ = tpssCz g 0.59 0.9269 0.6225 2.1540 := by
    simp only [revtpss_C, evalR_mul, evalR_add, evalR_sub, evalR_div, evalR_ofScientific, evalR_one, evalR_pow2, evalR_npow, evalR_pow, dzeta h,
      xi2_eq h, tpssCz, pol]
    congr 3
    ring
  simp only [revtpssc, revtpssc_eps, revtpss_epsc_revpkzb, revtpss_epsc_summax]
  simp only [evalR_mul, evalR_add, evalR_sub, evalR_one, evalR_lit, evalR_pow2, evalR_max, zW_eq h, eC, lit_revtpss_pbec h,
    lit_revtpss_polarized (a := d.a) h.physical.a, lit_revtpss_polarized (a := d.b) h.physical.b, da h, db h, dn h, dgaa h, dgbb h, evalR_div,
    revtpssC, tpssLikeC, revPKZB, max_comm]
  ring

theorem lit_tpsslocc : tpsslocc.evalR ρ = tpsslocC g := by
  have eC : tpssloc_C.evalR ρ = tpssCz g 0.35 0.87 0.50 2.26 := by
    rw [← Cz_eq h]; simp only [tpssloc_C, evalR_mul, evalR_add, evalR_ofScientific, evalR_lit]
  simp only [tpsslocc, tpssloc_epsc_revpkzb, tpssloc_epsc_summax]
  simp only [evalR_mul, evalR_add, evalR_sub, evalR_one, evalR_lit, evalR_pow2, evalR_pow3, evalR_max, zW_eq h, eC, lit_pbeloc_eps h,
    lit_pbeloc_polarized (a := d.a) h.physical.a, lit_pbeloc_polarized (a := d.b) h.physical.b, da h, db h, dn h, dgaa h, dgbb h, evalR_div,
    tpsslocC, tpssLikeC, revPKZB, max_comm]
  ring

end
end XCFun.Fun
