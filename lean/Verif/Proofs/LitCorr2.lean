/-
Gradient-corrected correlation (LYP, P86, PW91, B97) of the code against the published formulas.
-/
import Verif.Proofs.LitCorr

namespace XCFun.Fun
open XCFun Expr Lit

variable {ρ : Field → ℝ} {g : Gas}

theorem da (h : IsGas ρ g) : d.a.evalR ρ = g.a := h.a
theorem db (h : IsGas ρ g) : d.b.evalR ρ = g.b := h.b
theorem dgaa (h : IsGas ρ g) : d.gaa.evalR ρ = g.gaa := h.gaa
theorem dgbb (h : IsGas ρ g) : d.gbb.evalR ρ = g.gbb := h.gbb

/-! ### Lee, Yang, Parr -/

theorem CF_eq : CF = 3 / 10 * (3 * Real.pi ^ 2) ^ (2 / 3 : ℝ) := by
  rw [CF]; norm_num [PI2, pow_two]

theorem lit_lypc (h : IsGas ρ g) : lypc.evalR ρ = lypC g := by
  have hn := h.npos
  have hr : 0 < g.n ^ (-1 / 3 : ℝ) := by positivity
  simp only [lypc, evalR_mul, evalR_add, evalR_sub, evalR_div, evalR_pow, evalR_lit, evalR_one, evalR_ofNat, evalR_ofScientific, evalR_exp,
    da h, db h, dn h, dgaa h, dgbb h, dgnn h, lypC, CF_eq]
  generalize g.n ^ (-1 / 3 : ℝ) = r at *
  generalize g.n ^ (-11 / 3 : ℝ) = r11
  generalize Real.exp (-0.2533 * r) = E
  generalize (3 * Real.pi ^ 2) ^ (2 / 3 : ℝ) = K
  generalize (2 : ℝ) ^ (11 / 3 : ℝ) = K2
  generalize g.a ^ (8 / 3 : ℝ) + g.b ^ (8 / 3 : ℝ) = K3
  generalize g.gnn = G
  have hp : 0 < 1 + 0.349 * r := by positivity
  norm_num at hp ⊢
  generalize g.n = n at *
  field_simp
  ring

/-! ### Perdew 1986 -/

theorem Cg_eq (h : IsGas ρ g) : (Cg d.r_s).evalR ρ = p86Coef (Lit.rs g.n) := by
  simp only [Cg, evalR_mul, evalR_add, evalR_div, evalR_lit, evalR_one, evalR_ofScientific, drs h, p86Coef]
  norm_num
  rw [show (1 : ℝ) + Lit.rs g.n * (8723 / 1000 + Lit.rs g.n * (59 / 125 + 7389 / 100000 * Lit.rs g.n)) = 1 + 8723 / 1000 * Lit.rs g.n + 59 / 125 * Lit.rs g.n ^ 2 + 7389 / 100000 * Lit.rs g.n ^ 3 by ring]
  congr 1; ring

theorem p86dz_eq (h : IsGas ρ g) :
    p86dz.evalR ρ = 2 ^ (1 / 3 : ℝ) * √(((1 + g.zeta) / 2) ^ (5 / 3 : ℝ) + ((1 - g.zeta) / 2) ^ (5 / 3 : ℝ)) := by
  have hn := h.npos
  have ha := h.apos
  have hb := h.bpos
  have e1 : (1 + g.zeta) / 2 = g.a / g.n := by rw [one_add_zeta h]; ring
  have e2 : (1 - g.zeta) / 2 = g.b / g.n := by rw [one_sub_zeta h]; ring
  have e3 : √(g.n ^ (5 / 3 : ℝ)) = g.n ^ (5 / 6 : ℝ) := by
    rw [Real.sqrt_eq_rpow, ← Real.rpow_mul hn.le]; norm_num
  rw [e1, e2, Real.div_rpow ha.le hn.le, Real.div_rpow hb.le hn.le, ← add_div, Real.sqrt_div (by positivity), e3]
  have e4 : g.n ^ (-5 / 6 : ℝ) = (g.n ^ (5 / 6 : ℝ))⁻¹ := by
    rw [← Real.rpow_neg hn.le]; norm_num
  simp only [p86dz, evalR_mul, evalR_add, evalR_lit, evalR_sqrt, evalR_pow, da h, db h, dn h, e4, rcbrt]
  ring

theorem Pg_eq (h : IsGas ρ g) : Pg.evalR ρ =
    (9 * Real.pi) ^ (1 / 6 : ℝ) * 0.11 * (0.004235 / p86Coef (Lit.rs g.n)) * (√(g.gnn + 1 / 2 ^ 52) / g.n ^ (7 / 6 : ℝ)) := by
  have e : Pg.evalR ρ = (9 * Real.pi) ^ (1 / 6 : ℝ) * 0.11 * 0.004235 * √(1 / 2 ^ 52 + g.gnn) / (p86Coef (Lit.rs g.n) * g.n ^ (7 / 6 : ℝ)) := by
    simp only [Pg, evalR_mul, evalR_add, evalR_lit, evalR_sqrt, evalR_pow, evalR_div, Cg_eq h, dn h, dgnn h]
  rw [e, add_comm g.gnn, mul_div_assoc', div_eq_mul_inv, mul_inv]
  ring

theorem lit_p86corr (h : IsGas ρ g) : p86c_corr.evalR ρ = p86Corr g (1 / 2 ^ 52) := by
  simp only [p86c_corr, evalR_div, evalR_mul, evalR_exp, evalR_neg, evalR_pow, Pg_eq h, Cg_eq h, p86dz_eq h, dn h, dgnn h, p86Corr]
  rw [mul_comm (g.n ^ (4 / 3 : ℝ))]

theorem lit_p86c (h : IsGas ρ g) : p86c.evalR ρ = p86C g (1 / 2 ^ 52) := by
  have : p86c.evalR ρ = d.n.evalR ρ * pz81eps.evalR ρ + p86c_corr.evalR ρ := by
    simp only [p86c, p86c_corr, evalR_add, evalR_mul]
  rw [this, lit_pz81eps h, lit_p86corr h, dn h, p86C, pz81C]

/-! ### Perdew, Wang 1991 -/

theorem Gc_eq {r : ℝ} {x : Expr Field} (hr : 0 < r) (hx : x.evalR ρ = r) (A a1 b1 b2 b3 b4 : ℝ) :
    (Gc x A a1 b1 b2 b3 b4 1).evalR ρ = pwG A a1 b1 b2 b3 b4 r := by
  have h32 : r ^ (3 / 2 : ℝ) = √r ^ 3 := by
    rw [Real.sqrt_eq_rpow, ← Real.rpow_natCast, ← Real.rpow_mul hr.le]; norm_num
  have hs : √r * √r = r := Real.mul_self_sqrt hr.le
  have h2 : r ^ (1 + 1 : ℝ) = r ^ 2 := by rw [← Real.rpow_natCast]; norm_num
  simp only [Gc, evalR_mul, evalR_add, evalR_div, evalR_log, evalR_lit, evalR_one, evalR_sqrt, evalR_pow, evalR_ofScientific, hx, pwG, h32, h2]
  congr 3
  rw [show (0.5 : ℝ) = 1 / 2 by norm_num, div_div]
  congr 1
  linear_combination (2 * A * b2) * hs

theorem uf_eq (h : IsGas ρ g) (p : ℝ) : (uf p).evalR ρ = 2 * pol p g.zeta := by
  have hn := h.npos
  have ha := h.apos
  have hb := h.bpos
  simp only [uf, evalR_mul, evalR_add, evalR_pow, evalR_div, evalR_ofNat, da h, db h, dn h]
  rw [pol, one_add_zeta h, one_sub_zeta h, add_mul, ← Real.mul_rpow ha.le (by positivity), ← Real.mul_rpow hb.le (by positivity)]
  rw [show g.a * (2 / g.n) = 2 * g.a / g.n by ring, show g.b * (2 / g.n) = 2 * g.b / g.n by ring]
  ring

theorem lit_pw91eps (h : IsGas ρ g) : pw91cEc.evalR ρ = pw91Eps g.n g.zeta := by
  have hr := rs_pos h.npos
  simp only [pw91cEc, evalR_add, evalR_sub, evalR_mul, evalR_div, evalR_npow, evalR_lit, evalR_one, evalR_ofNat, Gc_eq hr (drs h), uf_eq h,
    dzeta h, pw91Eps, fPol, pol, two43]
  ring

theorem lit_pw91c (h : IsGas ρ g) : pw91c.evalR ρ = pw91C g := by
  have hn := h.npos
  have hφ := phi_pos' h
  have hkF : 0 < Lit.kF g.n := by unfold Lit.kF; positivity
  have ek : XCFun.cbrt (3 * Real.pi * Real.pi * g.n) = Lit.kF g.n := by
    rw [XCFun.cbrt, if_pos (by positivity), Lit.kF]
    congr 1; ring
  have hks : √4 * √(Lit.kF g.n / Real.pi) = Lit.ks g.n := by
    rw [Lit.ks, ← Real.sqrt_mul (by norm_num)]; congr 1; ring
  have eg : (0.5 : ℝ) * (2 * pol (2 / 3) g.zeta) = Lit.phi g.zeta := by
    rw [Lit.phi]; ring
  have hν : (16 * rcbrt (3 * Real.pi * Real.pi) / Real.pi : ℝ) = 16 / Real.pi * (3 * Real.pi ^ 2) ^ (1 / 3 : ℝ) := by
    rw [rcbrt, show 3 * Real.pi * Real.pi = 3 * Real.pi ^ 2 by ring]; ring
  have hb : (0 : ℝ) < 16 / Real.pi * (3 * Real.pi ^ 2) ^ (1 / 3 : ℝ) := by positivity
  have hT : 0.25 * g.gnn / (Lit.phi g.zeta * Lit.ks g.n * g.n) ^ 2 = tSq g.n g.zeta g.gnn := by
    rw [tSq, show (2 * Lit.phi g.zeta * Lit.ks g.n * g.n) ^ 2 = 4 * (Lit.phi g.zeta * Lit.ks g.n * g.n) ^ 2 by ring, ← div_div]; congr 1
    ring
  simp only [pw91c, evalR_add, evalR_sub, evalR_mul, evalR_div, evalR_npow, evalR_lit, evalR_one, evalR_ofNat, evalR_ofScientific, evalR_cbrt,
    evalR_sqrt, evalR_log, evalR_exp, evalR_expm1, evalR_neg, lit_pw91eps h, uf_eq h, drs h, dn h, dgnn h, ek, hks, eg, hν, hT, pw91C]
  generalize tSq g.n g.zeta g.gnn = t
  generalize pw91Eps g.n g.zeta = ε
  generalize Lit.phi g.zeta = φ at *
  generalize 16 / Real.pi * (3 * Real.pi ^ 2) ^ (1 / 3 : ℝ) = ν at *
  rw [show -2 * (0.09 * ε) / (φ ^ 3 * (ν * 0.004235) * (ν * 0.004235)) = -2 * 0.09 * ε / (φ ^ 3 * (ν * 0.004235) ^ 2) by ring,
    show -100 * φ ^ 4 * Lit.ks g.n ^ 2 * t / Lit.kF g.n ^ 2 = -100 * φ ^ 4 * (Lit.ks g.n ^ 2 / Lit.kF g.n ^ 2) * t by ring]
  generalize 2 * 0.09 / (ν * 0.004235) / (Real.exp (-2 * 0.09 * ε / (φ ^ 3 * (ν * 0.004235) ^ 2)) - 1) = A
  generalize Real.exp (-100 * φ ^ 4 * (Lit.ks g.n ^ 2 / Lit.kF g.n ^ 2) * t) = X
  rw [show 1 + 2 * (0.09 * (t + A * t * t)) / (ν * 0.004235 * (1 + A * t * (1 + A * t))) =
      1 + 2 * 0.09 / (ν * 0.004235) * ((t + A * t ^ 2) / (1 + A * t + A ^ 2 * t ^ 2)) by
    rw [div_mul_div_comm, show 1 + A * t * (1 + A * t) = 1 + A * t + A ^ 2 * t ^ 2 by ring]; congr 2; ring]
  rw [show (1 : ℝ) + Lit.rs g.n * (8.723 + Lit.rs g.n * (0.472 + Lit.rs g.n * 0.073890)) =
    1 + 8.723 * Lit.rs g.n + 0.472 * Lit.rs g.n ^ 2 + 0.07389 * Lit.rs g.n ^ 3 by norm_num; ring]
  ring

/-! ### Becke 1997 -/

theorem lit_b97c (h : IsGas ρ g) (ha : 0 ≤ g.gaa) (hb : 0 ≤ g.gbb) (c : (ℝ × ℝ × ℝ) × (ℝ × ℝ × ℝ)) :
    (b97cEn c).evalR ρ = b97C g c.2.1 c.2.2.1 c.2.2.2 c.1.1 c.1.2.1 c.1.2.2 := by
  have ea : (b97c_eLSDA d.a).evalR ρ = stollSame g.a := by
    rw [b97c_eLSDA, evalR_mul, pw92_polarized (by rw [da h]; exact h.apos), da h, stollSame, mul_comm]
  have eb : (b97c_eLSDA d.b).evalR ρ = stollSame g.b := by
    rw [b97c_eLSDA, evalR_mul, pw92_polarized (by rw [db h]; exact h.bpos), db h, stollSame, mul_comm]
  have sa : (spin_dens_gradient_ab2 d.gaa d.a_43).evalR ρ = Lit.chiSq g.a g.gaa := by
    have e : d.a_43.evalR ρ = g.a ^ (4 / 3 : ℝ) := h.a_43
    simp only [spin_dens_gradient_ab2, evalR_div, evalR_abs, e, dgaa h, abs_of_nonneg ha, Lit.chiSq]
    rw [div_div, ← pow_two]
  have sb : (spin_dens_gradient_ab2 d.gbb d.b_43).evalR ρ = Lit.chiSq g.b g.gbb := by
    have e : d.b_43.evalR ρ = g.b ^ (4 / 3 : ℝ) := h.b_43
    simp only [spin_dens_gradient_ab2, evalR_div, evalR_abs, e, dgbb h, abs_of_nonneg hb, Lit.chiSq]
    rw [div_div, ← pow_two]
  have en : ∀ (γ : ℝ) (c : ℝ × ℝ × ℝ) (x : Expr Field), (b97enhancement γ c x).evalR ρ = b97g γ c.1 c.2.1 c.2.2 (x.evalR ρ) := by
    intro γ c x
    simp only [b97enhancement, ux_ab, evalR_add, evalR_mul, evalR_div, evalR_lit, evalR_one, b97g, uRed]
    ring
  simp only [b97cEn, energy_b97c_par, energy_b97c_antipar, evalR_add, evalR_mul, evalR_sub, en, ea, eb, sa, sb, lit_pw92eps h, dn h,
    evalR_ofScientific, b97C, stollOpp, pw92C]
  rw [show (0.5 : ℝ) * (Lit.chiSq g.a g.gaa + Lit.chiSq g.b g.gbb) = (Lit.chiSq g.a g.gaa + Lit.chiSq g.b g.gbb) / 2 by ring]
  ring

end XCFun.Fun
