/-
Correlation functionals of the code against the published formulas.
-/
import Verif.Proofs.LitExchange

namespace XCFun.Fun
open XCFun Expr Lit

variable {ρ : Field → ℝ} {g : Gas}

theorem _root_.XCFun.Lit.IsGas.npos (h : IsGas ρ g) : 0 < g.n := by
  have := h.apos; have := h.bpos; unfold Gas.n; positivity

theorem dn (h : IsGas ρ g) : d.n.evalR ρ = g.n := h.n
theorem dgnn (h : IsGas ρ g) : d.gnn.evalR ρ = g.gnn := h.gnn
theorem dzeta (h : IsGas ρ g) : d.zeta.evalR ρ = g.zeta := h.zeta
theorem drs (h : IsGas ρ g) : d.r_s.evalR ρ = Lit.rs g.n := by
  refine h.r_s.trans ?_
  rw [Lit.rs, Gas.n]; congr 2; ring

theorem rs_pos {n : ℝ} (hn : 0 < n) : 0 < Lit.rs n := by unfold Lit.rs; positivity

theorem one_add_zeta (h : IsGas ρ g) : 1 + g.zeta = 2 * g.a / g.n := by
  have := h.npos; rw [Gas.zeta]; field_simp; rw [Gas.n]; ring
theorem one_sub_zeta (h : IsGas ρ g) : 1 - g.zeta = 2 * g.b / g.n := by
  have := h.npos; rw [Gas.zeta]; field_simp; rw [Gas.n]; ring

theorem two43 : (2 : ℝ) ^ (4 / 3 : ℝ) = 2 * 2 ^ (1 / 3 : ℝ) := by
  rw [show (4 / 3 : ℝ) = 1 + 1 / 3 by norm_num, Real.rpow_add (by norm_num), Real.rpow_one]

/-! ### Vosko, Wilk, Nusair -/

theorem vwn_eq {p : VwnP} {q : Vwn} {x : Expr Field} (hx : 0 < x.evalR ρ) (hA : 0.5 * p.p1 = q.A) (h0 : p.p0 = q.x0) (hb : p.p2 = q.b)
    (hc : p.p3 = q.c) (hneg : q.x0 < 0) (hdisc : 0 < 4 * q.c - q.b ^ 2) (hX : q.x0 ^ 2 + q.b * q.x0 + q.c ≠ 0) (_hb0 : q.b + 2 * q.x0 ≠ 0) :
    (vwn_f x p).evalR ρ = vwn q (x.evalR ρ) := by
  have hXpos : ∀ t : ℝ, 0 < t ^ 2 + q.b * t + q.c := fun t => by nlinarith [sq_nonneg (t + q.b / 2)]
  have hQ : 0 < √(4 * q.c - q.b ^ 2) := Real.sqrt_pos.2 hdisc
  simp only [vwn_f, vwn_x, vwn_y, vwn_z, vwn_a, vwn_b, vwn_c, evalR_mul, evalR_add, evalR_sub, evalR_log, evalR_atan, evalR_div, evalR_lit,
    evalR_ofNat, hA, h0, hb, hc, vwn, ← pow_two]
  generalize x.evalR ρ = y at hx
  have hy : 0 < y - q.x0 := by linarith
  rw [Real.log_div (by positivity) (hXpos y).ne', Real.log_div (by positivity) (hXpos y).ne', Real.log_pow, Real.log_pow]
  have hX0 : q.x0 ^ 2 + q.x0 * q.b + q.c = q.x0 ^ 2 + q.b * q.x0 + q.c := by ring
  rw [hX0]
  generalize √(4 * q.c - q.b ^ 2) = Q at hQ
  generalize Real.arctan (Q / (2 * y + q.b)) = T
  generalize Real.log (y ^ 2 + q.b * y + q.c) = L
  generalize q.x0 ^ 2 + q.b * q.x0 + q.c = X0 at hX
  field_simp
  push_cast
  ring

theorem vwn5P_eq {x : Expr Field} (hx : 0 < x.evalR ρ) : (vwn_f x vwn5_para).evalR ρ = vwn vwn5P (x.evalR ρ) :=
  vwn_eq hx (by norm_num [vwn5_para, vwn5P]) rfl rfl rfl (by norm_num [vwn5P]) (by norm_num [vwn5P]) (by norm_num [vwn5P]) (by norm_num [vwn5P])
theorem vwn5F_eq {x : Expr Field} (hx : 0 < x.evalR ρ) : (vwn_f x vwn5_ferro).evalR ρ = vwn vwn5F (x.evalR ρ) :=
  vwn_eq hx (by norm_num [vwn5_ferro, vwn5F]) rfl rfl rfl (by norm_num [vwn5F]) (by norm_num [vwn5F]) (by norm_num [vwn5F]) (by norm_num [vwn5F])
theorem vwn5S_eq {x : Expr Field} (hx : 0 < x.evalR ρ) : (vwn_f x vwn5_inter).evalR ρ = vwn vwn5S (x.evalR ρ) :=
  vwn_eq hx (by
      simp only [vwn5_inter, vwn5S, Real.rpow_neg_one]
      have := Real.pi_pos
      field_simp; norm_num) rfl rfl rfl (by norm_num [vwn5S]) (by norm_num [vwn5S]) (by norm_num [vwn5S]) (by norm_num [vwn5S])
theorem vwn3P_eq {x : Expr Field} (hx : 0 < x.evalR ρ) : (vwn_f x vwn3_para).evalR ρ = vwn vwn3P (x.evalR ρ) :=
  vwn_eq hx (by norm_num [vwn3_para, vwn3P]) (by norm_num [vwn3_para, vwn3P]) rfl rfl (by norm_num [vwn3P]) (by norm_num [vwn3P]) (by norm_num [vwn3P]) (by norm_num [vwn3P])
theorem vwn3F_eq {x : Expr Field} (hx : 0 < x.evalR ρ) : (vwn_f x vwn3_ferro).evalR ρ = vwn vwn3F (x.evalR ρ) :=
  vwn_eq hx (by norm_num [vwn3_ferro, vwn3F]) (by norm_num [vwn3_ferro, vwn3F]) rfl rfl (by norm_num [vwn3F]) (by norm_num [vwn3F]) (by norm_num [vwn3F]) (by norm_num [vwn3F])

theorem lit_vwn5_eps (h : IsGas ρ g) : vwn5_eps.evalR ρ = vwn5Eps g 1.92366105093154 := by
  have hs : 0 < (sqrt d.r_s).evalR ρ := by
    rw [evalR_sqrt, drs h]; exact Real.sqrt_pos.2 (rs_pos h.npos)
  have es : (sqrt d.r_s).evalR ρ = √(Lit.rs g.n) := by rw [evalR_sqrt, drs h]
  have hk : (9 / 4 * ((2 : ℝ) ^ (1 / 3 : ℝ) - 1) : ℝ) = 1 / fPol2 := by
    rw [fPol2, one_div_div]; ring
  simp only [vwn5_eps, evalR_add, evalR_mul, evalR_sub, evalR_npow, evalR_ufunc, evalR_lit, evalR_one, evalR_ofNat, evalR_ofScientific,
    vwn5P_eq hs, vwn5F_eq hs, vwn5S_eq hs, es, dzeta h, hk, vwn5Eps]
  ring

theorem lit_vwn5c (h : IsGas ρ g) : vwn5c.evalR ρ = vwn5C g 1.92366105093154 := by
  rw [vwn5c, evalR_mul, lit_vwn5_eps h, dn h, vwn5C]

theorem lit_vwn3c (h : IsGas ρ g) : vwn3c.evalR ρ = vwn3C g 1.92366105093154 := by
  have hs : 0 < (sqrt d.r_s).evalR ρ := by
    rw [evalR_sqrt, drs h]; exact Real.sqrt_pos.2 (rs_pos h.npos)
  have es : (sqrt d.r_s).evalR ρ = √(Lit.rs g.n) := by rw [evalR_sqrt, drs h]
  simp only [vwn3c, vwn3_eps, evalR_add, evalR_mul, evalR_sub, evalR_ufunc, evalR_ofNat, evalR_ofScientific,
    vwn3P_eq hs, vwn3F_eq hs, es, dzeta h, dn h, vwn3C]
  ring

/-! ### Perdew, Wang 1992 -/

theorem eopt_eq {x : Expr Field} {r : ℝ} (hr : 0 < r) (hx : x.evalR ρ = √r) (t : Pw92P) :
    (eopt x t).evalR ρ = pwG t.t0 t.t1 t.t2 t.t3 t.t4 t.t5 r := by
  have h32 : r ^ (3 / 2 : ℝ) = √r ^ 3 := by
    rw [Real.sqrt_eq_rpow, ← Real.rpow_natCast, ← Real.rpow_mul hr.le]; norm_num
  have hs : √r * √r = r := Real.mul_self_sqrt hr.le
  have h2 : r ^ 2 = √r ^ 4 := by nth_rewrite 1 [← hs]; ring
  simp only [eopt, evalR_mul, evalR_add, evalR_div, evalR_log, evalR_lit, evalR_one, evalR_ofScientific, hx, pwG, h32, h2]
  rw [mul_assoc t.t1, hs]
  congr 3
  rw [show (0.5 : ℝ) = 1 / 2 by norm_num, div_div]
  congr 1
  linear_combination (2 * t.t0 * t.t3) * hs

theorem omega_eq (z : Expr Field) : (omega z).evalR ρ = fPol (z.evalR ρ) := by
  simp only [omega, evalR_div, evalR_sub, evalR_ufunc, evalR_ofNat, evalR_lit, fPol, two43]

theorem lit_pw92eps (h : IsGas ρ g) : pw92eps.evalR ρ = pw92Eps g.n g.zeta := by
  have hr := rs_pos h.npos
  have es : (sqrt d.r_s).evalR ρ = √(Lit.rs g.n) := by rw [evalR_sqrt, drs h]
  have hc : (8 / (9 * (2 * (2 : ℝ) ^ (1 / 3 : ℝ) - 2)) : ℝ) = fPol2 := by
    rw [fPol2, show (9 * (2 * (2 : ℝ) ^ (1 / 3 : ℝ) - 2) : ℝ) = 2 * (9 * (2 ^ (1 / 3 : ℝ) - 1)) by ring, show (8 : ℝ) = 2 * 4 by norm_num,
      mul_div_mul_left _ _ (by norm_num)]
  simp only [pw92eps, evalR_add, evalR_sub, evalR_mul, evalR_div, evalR_npow, evalR_lit, evalR_one, eopt_eq hr es, omega_eq, dzeta h, hc,
    pw92Eps, pw92_0, pw92_1, pw92_2, pw92P, pw92F, pw92S]
  norm_num
  ring

theorem lit_pw92c (h : IsGas ρ g) : pw92c.evalR ρ = pw92C g := by
  rw [pw92c, evalR_mul, lit_pw92eps h, dn h, pw92C, mul_comm]

theorem rs_sixth {a : ℝ} (ha : 0 < a) : (3 / (4 * Real.pi * a)) ^ (1 / 6 : ℝ) = √(Lit.rs a) := by
  rw [Lit.rs, Real.sqrt_eq_rpow, ← Real.rpow_mul (by positivity)]; norm_num

theorem pw92_polarized {x : Expr Field} (hx : 0 < x.evalR ρ) : (pw92eps_polarized x).evalR ρ = pw92F (Lit.rs (x.evalR ρ)) := by
  have e : (pow (3 / ((4 * Real.pi : ℝ) * x)) (1 / 6)).evalR ρ = √(Lit.rs (x.evalR ρ)) := by
    rw [← rs_sixth hx]
    simp only [evalR_pow, evalR_div, evalR_mul, evalR_lit, evalR_ofNat]
  rw [pw92eps_polarized, eopt_eq (rs_pos hx) e, pw92F, pw92_1]
  norm_num

/-! ### Perdew, Zunger 1981 -/

theorem pz81fz_eq (h : IsGas ρ g) : pz81fz.evalR ρ = fPol g.zeta := by
  have hn := h.npos
  have e : pz81fz.evalR ρ = (2 ^ (4 / 3 : ℝ) * (ρ .a_43 + ρ .b_43) * ρ .n_m13 / ρ .n - 2) / (2 * 2 ^ (1 / 3 : ℝ) - 2) := by
    simp only [pz81fz, evalR_div, evalR_sub, evalR_mul, evalR_add, evalR_lit, evalR_ofNat]; rfl
  have e13 : g.n ^ (-1 / 3 : ℝ) / g.n = (g.n ^ (4 / 3 : ℝ))⁻¹ := by
    rw [← Real.rpow_neg hn.le, div_eq_mul_inv, ← Real.rpow_neg_one g.n, ← Real.rpow_add hn]; norm_num
  have hn' : ρ .n_m13 = g.n ^ (-1 / 3 : ℝ) := h.n_m13
  have hn2 : ρ .n = g.n := h.n
  rw [e, fPol, one_add_zeta h, one_sub_zeta h, Real.div_rpow (by have := h.apos; positivity) hn.le,
    Real.div_rpow (by have := h.bpos; positivity) hn.le, Real.mul_rpow (by norm_num) h.apos.le, Real.mul_rpow (by norm_num) h.bpos.le, h.a_43,
    h.b_43, hn', hn2, mul_div_assoc, e13, two43]
  ring

theorem lit_pz81eps (h : IsGas ρ g) : pz81eps.evalR ρ = pz81Eps g.n g.zeta := by
  unfold pz81eps
  rw [evalR_iflt]
  simp only [drs h, evalR_one]
  rcases lt_or_ge (Lit.rs g.n) 1 with hr | hr
  · rw [if_pos hr]
    simp only [Ehd, evalR_add, evalR_mul, evalR_sub, evalR_lit, evalR_log, drs h, pz81fz_eq h, pz81Eps, pz, if_neg (not_le.2 hr)]
    norm_num
    ring
  · rw [if_neg (not_lt.2 hr)]
    simp only [Eld, evalR_add, evalR_mul, evalR_sub, evalR_div, evalR_one, evalR_lit, evalR_sqrt, drs h, pz81fz_eq h, pz81Eps, pz, if_pos hr]

theorem lit_pz81c (h : IsGas ρ g) : pz81c.evalR ρ = pz81C g := by
  rw [pz81c, evalR_mul, lit_pz81eps h, dn h, pz81C, mul_comm]

/-! ### Perdew, Burke, Ernzerhof and relatives -/

theorem sqrt_43 {a : ℝ} (ha : 0 < a) : √(a ^ (4 / 3 : ℝ)) = a ^ (2 / 3 : ℝ) := by
  rw [Real.sqrt_eq_rpow, ← Real.rpow_mul ha.le]; norm_num

theorem lit_phi (h : IsGas ρ g) : Fun.phi.evalR ρ = Lit.phi g.zeta := by
  have hn := h.npos
  have e : Fun.phi.evalR ρ = 2 ^ (-1 / 3 : ℝ) * ρ .n_m13 * ρ .n_m13 * (√(ρ .a_43) + √(ρ .b_43)) := by
    simp only [Fun.phi, evalR_mul, evalR_add, evalR_lit, evalR_sqrt]; rfl
  have e2 : (2 : ℝ) ^ (2 / 3 : ℝ) / 2 = 2 ^ (-1 / 3 : ℝ) := by
    rw [div_eq_mul_inv, ← Real.rpow_neg_one (2 : ℝ), ← Real.rpow_add (by norm_num)]; norm_num
  have e3 : g.n ^ (-1 / 3 : ℝ) * g.n ^ (-1 / 3 : ℝ) = (g.n ^ (2 / 3 : ℝ))⁻¹ := by
    rw [← Real.rpow_neg hn.le, ← Real.rpow_add hn]; norm_num
  have hn' : ρ .n_m13 = g.n ^ (-1 / 3 : ℝ) := h.n_m13
  rw [e, h.a_43, h.b_43, sqrt_43 h.apos, sqrt_43 h.bpos, hn', mul_assoc (2 ^ (-1 / 3 : ℝ) : ℝ), e3, ← e2, Lit.phi, pol, one_add_zeta h,
    one_sub_zeta h, Real.div_rpow (by have := h.apos; positivity) hn.le,
    Real.div_rpow (by have := h.bpos; positivity) hn.le, Real.mul_rpow (by norm_num) h.apos.le, Real.mul_rpow (by norm_num) h.bpos.le]
  ring

theorem phi_pos' (h : IsGas ρ g) : 0 < Lit.phi g.zeta := by
  have := h.apos; have := h.bpos; have := h.npos
  rw [Lit.phi, pol, one_add_zeta h, one_sub_zeta h]; positivity

theorem t2const_eq : t2const = Real.pi ^ (1 / 3 : ℝ) / (16 * 3 ^ (1 / 3 : ℝ)) := by
  have h3 : (3 : ℝ) ^ (5 / 6 : ℝ) ^ (2 : ℝ) = 3 ^ (25 / 36 : ℝ) := by norm_num
  have a : ((3 : ℝ) ^ (5 / 6 : ℝ)) ^ (2 : ℝ) * 3 ^ (1 / 3 : ℝ) = 9 := by
    rw [← Real.rpow_mul (by norm_num), ← Real.rpow_add (by norm_num)]; norm_num
  have b : (Real.pi ^ (-1 / 6 : ℝ)) ^ (2 : ℝ) * Real.pi ^ (1 / 3 : ℝ) = 1 := by
    rw [← Real.rpow_mul Real.pi_pos.le, ← Real.rpow_add Real.pi_pos]; norm_num
  rw [t2const, Real.div_rpow (by positivity) (by positivity), Real.mul_rpow (by norm_num) (by positivity),
    div_eq_div_iff (by positivity) (by positivity)]
  have c : (1 / 12 : ℝ) ^ (2 : ℝ) = 1 / 144 := by norm_num
  rw [c]
  linear_combination (1 / 9 : ℝ) * a - b

theorem tSq_eq {n z g2 u : ℝ} (hn : 0 < n) (hz : 0 < Lit.phi z) (hu : u = Lit.phi z) :
    t2const * g2 / (u * u * n ^ (7 / 3 : ℝ)) = tSq n z g2 := by
  have hk : ks n ^ 2 = 4 * (3 * Real.pi ^ 2) ^ (1 / 3 : ℝ) * n ^ (1 / 3 : ℝ) / Real.pi := by
    rw [ks, Real.sq_sqrt (by unfold kF; positivity), kF, Real.mul_rpow (by positivity) hn.le]; ring
  have hp : (3 * Real.pi ^ 2) ^ (1 / 3 : ℝ) * Real.pi ^ (1 / 3 : ℝ) = 3 ^ (1 / 3 : ℝ) * Real.pi := by
    rw [← Real.mul_rpow (by positivity) (by positivity), show 3 * Real.pi ^ 2 * Real.pi = Real.pi ^ 3 * 3 by ring,
      cube_root_mul Real.pi_pos.le (by norm_num), mul_comm]
  have hn7 : n ^ (7 / 3 : ℝ) = n ^ 2 * n ^ (1 / 3 : ℝ) := by
    rw [← Real.rpow_natCast, ← Real.rpow_add hn]; norm_num
  rw [hu, tSq, mul_pow, mul_pow, mul_pow, hk, t2const_eq, hn7]
  have p1 : (0 : ℝ) < (3 * Real.pi ^ 2) ^ (1 / 3 : ℝ) := by positivity
  have p2 : (0 : ℝ) < 3 ^ (1 / 3 : ℝ) := by positivity
  have p3 : (0 : ℝ) < n ^ (1 / 3 : ℝ) := by positivity
  have p4 := Real.pi_pos
  generalize (3 * Real.pi ^ 2) ^ (1 / 3 : ℝ) = A at *
  generalize (3 : ℝ) ^ (1 / 3 : ℝ) = B at *
  generalize Real.pi ^ (1 / 3 : ℝ) = C at *
  field_simp
  linear_combination g2 * 16 * hp

theorem d2_eq (h : IsGas ρ g) : (pbecD2 Fun.phi).evalR ρ = tSq g.n g.zeta g.gnn := by
  rw [← tSq_eq h.npos (phi_pos' h) rfl]
  simp only [pbecD2, evalR_div, evalR_mul, evalR_lit, evalR_pow, lit_phi h, dn h, dgnn h]

theorem gamma_eq : param_gamma = gammaPBE := by rw [param_gamma, gammaPBE, PI2, pow_two]

theorem pbeLikeH_eq {bg eps u3 d2 : Expr Field} {β z : ℝ} (hbg : bg.evalR ρ = β / gammaPBE) (hu : u3.evalR ρ = Lit.phi z ^ 3) :
    (pbeLikeH bg eps u3 d2).evalR ρ = pbeH β (eps.evalR ρ) z (d2.evalR ρ) := by
  simp only [pbeLikeH, evalR_mul, evalR_log, evalR_add, evalR_div, evalR_neg, evalR_expm1, evalR_one, evalR_lit, hbg, hu, gamma_eq, pbeH, pbeA]
  congr 2
  rw [mul_div_assoc]
  congr 2
  congr 1 <;> ring

theorem pbecH_like (d2 eps u3 : Expr Field) : (pbecH d2 eps u3).evalR ρ = (pbeLikeH (param_beta_gamma : ℝ) eps u3 d2).evalR ρ := by
  simp only [pbecH, pbecA, pbeLikeH]

theorem beta_gamma_eq : param_beta_gamma = 0.06672455060314922 / gammaPBE := by rw [param_beta_gamma, gamma_eq, param_beta_accurate]

theorem pow3_phi (h : IsGas ρ g) : (pow3 Fun.phi).evalR ρ = Lit.phi g.zeta ^ 3 := by rw [evalR_pow3, lit_phi h]

theorem lit_pbec_eps (h : IsGas ρ g) : pbec_eps.evalR ρ = pbeEps 0.06672455060314922 g.n g.zeta g.gnn := by
  simp only [pbec_eps]
  rw [evalR_add, pbecH_like, pbeLikeH_eq (β := 0.06672455060314922) (by rw [evalR_lit, beta_gamma_eq]) (pow3_phi h), d2_eq h, lit_pw92eps h, pbeEps]

theorem lit_pbec (h : IsGas ρ g) : pbec.evalR ρ = pbeC g := by
  simp only [pbec]
  rw [evalR_mul, evalR_add, pbecH_like, pbeLikeH_eq (β := 0.06672455060314922) (by rw [evalR_lit, beta_gamma_eq]) (pow3_phi h), d2_eq h, lit_pw92eps h, dn h, pbeC, pbeEps]

theorem lit_vwn_pbec (h : IsGas ρ g) : vwn_pbec.evalR ρ = vwnPbeC g 1.92366105093154 := by
  simp only [vwn_pbec]
  rw [evalR_mul, evalR_add, pbecH_like, pbeLikeH_eq (β := 0.06672455060314922) (by rw [evalR_lit, beta_gamma_eq]) (pow3_phi h), d2_eq h, lit_vwn5_eps h, dn h, vwnPbeC]

theorem lit_apbec (h : IsGas ρ g) : apbec.evalR ρ = apbeC g := by
  simp only [apbec]
  rw [evalR_mul, evalR_add, pbeLikeH_eq (β := 0.079030523241) (by rw [evalR_lit, gamma_eq]) (pow3_phi h), d2_eq h, lit_pw92eps h, dn h, apbeC, pbeEps]

theorem lit_pbeintc (h : IsGas ρ g) : pbeintc.evalR ρ = pbeintC g := by
  simp only [pbeintc]
  rw [evalR_mul, evalR_add, pbeLikeH_eq (β := 0.052) (by rw [evalR_lit, gamma_eq]) (pow3_phi h), d2_eq h, lit_pw92eps h, dn h, pbeintC, pbeEps]

theorem lit_pbeloc_eps (h : IsGas ρ g) : pbeloc_eps.evalR ρ = pbelocEps g.n g.zeta g.gnn := by
  simp only [pbeloc_eps]
  rw [evalR_add, pbeLikeH_eq (β := 0.0375 + 0.08 * tSq g.n g.zeta g.gnn * (1 - Real.exp (-Lit.rs g.n ^ 2))) ?_ (pow3_phi h), d2_eq h,
    lit_pw92eps h, pbelocEps, pbeEps]
  rw [evalR_div, evalR_add, evalR_mul, evalR_mul, d2_eq h]
  simp only [evalR_lit, evalR_sub, evalR_one, evalR_exp, evalR_mul, evalR_neg, drs h, gamma_eq]
  rw [neg_mul, ← pow_two]

theorem lit_pbelocc (h : IsGas ρ g) : pbelocc.evalR ρ = pbelocC g := by
  rw [pbelocc, evalR_mul, lit_pbeloc_eps h, dn h, pbelocC]

theorem lit_zvpbe (h : IsGas ρ g) (β α : ℝ) : (zvpbe β α).evalR ρ = zvPbeC g β α := by
  have hr := rs_pos h.npos
  have e6 : (Lit.rs g.n / 3) ^ (-1 / 6 : ℝ) = (3 / Lit.rs g.n) ^ (1 / 6 : ℝ) := by
    rw [← inv_div, Real.inv_rpow (by positivity), ← Real.rpow_neg (by positivity)]; norm_num
  have ew : zvFit.evalR ρ = g.zeta ^ 4 * (0.462757 + 1.30129 * g.zeta ^ 2 - 1.59546 * g.zeta ^ 4 + 1.19635 * g.zeta ^ 6 - 0.36519 * g.zeta ^ 8) := by
    simp only [zvFit, evalR_mul, evalR_add, evalR_sub, evalR_ofScientific, dzeta h]
    ring
  simp only [zvpbe]
  rw [evalR_mul, evalR_add, evalR_mul, pbeLikeH_eq (β := β) (by rw [evalR_lit, gamma_eq]) (pow3_phi h), d2_eq h, lit_pw92eps h, dn h, evalR_exp,
    evalR_mul, evalR_mul, evalR_pow3, evalR_mul, evalR_mul, evalR_pow, evalR_pow, d2_eq h, evalR_div, drs h, evalR_ofNat, e6, lit_phi h, ew,
    evalR_lit, zvPbeC, Real.sqrt_eq_rpow]
  norm_num

end XCFun.Fun
