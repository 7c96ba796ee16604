/-
The range-separated local correlation of the code against the published formula.
-/
import Verif.Proofs.LitTpss

namespace XCFun.Fun
open XCFun Expr Lit

variable {ρ : Field → ℝ} {g : Gas}

theorem Qrpa_eq (x : Expr Field) : (Qrpa x).evalR ρ = qErf (x.evalR ρ) := by
  have hl : Real.log 2 - 1 ≠ 0 := by
    have := Real.log_lt_sub_one_of_pos (show (0 : ℝ) < 2 by norm_num) (by norm_num); linarith
  have hp := Real.pi_pos.ne'
  have e : 3 / (2 * Real.pi * Acoul) * (4 / (9 * Real.pi)) ^ (1 / 3 : ℝ) = 3 * Real.pi * αrs / (4 * Real.log 2 - 4) := by
    rw [Acoul, αrs, show 4 * Real.log 2 - 4 = 4 * (Real.log 2 - 1) by ring]
    generalize (4 / (9 * Real.pi)) ^ (1 / 3 : ℝ) = A
    generalize Real.log 2 - 1 = L at *
    field_simp
    ring
  simp only [Qrpa, evalR_mul, evalR_add, evalR_div, evalR_log, evalR_lit, evalR_one, e, qErf]
  rw [Acoul, ← pow_two]
  congr 3 <;> ring

theorem cf_eq : (9 * Real.pi / 4) ^ (1 / 3 : ℝ) = 1 / αrs := by
  rw [αrs, one_div ((4 / (9 * Real.pi)) ^ (1 / 3 : ℝ)), ← Real.inv_rpow (by positivity), inv_div]

theorem dpol_eq (x : Expr Field) : (dpol x).evalR ρ = g2Par (x.evalR ρ) := by
  simp only [dpol, evalR_mul, evalR_add, evalR_div, evalR_lit, evalR_one, cf_eq, g2Par]
  rw [← pow_two, show (2 : ℝ) ^ (5 / 3 : ℝ) / 5 * (1 / αrs) ^ 2 / x.evalR ρ ^ 2 = 2 ^ (5 / 3 : ℝ) / (5 * αrs ^ 2 * x.evalR ρ ^ 2) by
    rw [div_pow, one_pow, div_mul_div_comm, mul_one, div_div]]
  norm_num [sub_eq_add_neg]

theorem g0f_eq (x : Expr Field) : (g0f x).evalR ρ = g0Erf (x.evalR ρ) := by
  simp only [g0f, evalR_mul, evalR_add, evalR_div, evalR_exp, evalR_lit, evalR_one, evalR_ofNat, g0Erf]
  norm_num
  ring

theorem lit_ecorrlr (h : IsGas ρ g) (mu ec : Expr Field) :
    (ecorrlr mu ec).evalR ρ = ecLong (mu.evalR ρ) (Lit.rs g.n) g.zeta (ec.evalR ρ) := by
  have hr := rs_pos h.npos
  have hc : (1 / (4 / 9 / Real.pi) ^ (1 / 3 : ℝ)) ^ 2 / 10 = 1 / (5 * αrs ^ 2) / 2 := by
    rw [αrs, div_div, div_pow, one_pow, div_div, div_div]; congr 1; ring
  have hphi : ((1 + g.zeta) ^ (2 / 3 : ℝ) + (1 - g.zeta) ^ (2 / 3 : ℝ)) / 2 = Lit.phi g.zeta := rfl
  simp only [ecorrlr, evalR_mul, evalR_add, evalR_sub, evalR_neg, evalR_div, evalR_exp, evalR_sqrt, evalR_pow, evalR_npow, evalR_lit, evalR_one,
    evalR_ofNat, evalR_ofScientific, Qrpa_eq, dpol_eq, g0f_eq, drs h, dzeta h, hc, hphi, ecLong, pol]
  generalize g2Par (Lit.rs g.n * (2 / (1 + g.zeta)) ^ (1 / 3 : ℝ)) = X
  generalize g2Par (Lit.rs g.n * (2 / (1 - g.zeta)) ^ (1 / 3 : ℝ)) = Y
  generalize qErf _ = Q
  generalize g0Erf _ = G
  generalize √(2 * Real.pi) = S
  generalize αrs = A
  generalize Lit.rs g.n = r at *
  norm_num
  ring

theorem lit_ldaerfc (h : IsGas ρ g) : ldaerfc.evalR ρ = ldaErfC g ((getParam RANGESEP_MU).evalR ρ) := by
  simp only [ldaerfc]
  rw [evalR_mul, evalR_sub, lit_ecorrlr h, lit_pw92eps h, dn h, ldaErfC]

theorem lit_ldaerfc_jt (h : IsGas ρ g) :
    ldaerfc_jt.evalR ρ = ldaErfJT g 3.39530545262710070631 1.92366105093154 ((getParam RANGESEP_MU).evalR ρ) := by
  have hn := h.npos
  simp only [ldaerfc_jt, jtC1, jtC2, evalR_mul, evalR_add, evalR_sub, evalR_div, evalR_exp, evalR_sqrt, evalR_pow, evalR_lit, evalR_one,
    evalR_ofScientific, drs h, dn h, lit_vwn5_eps h, ldaErfJT]
  rw [show (1.5 : ℝ) = 3 / 2 by norm_num]
  generalize (4.7125 + Lit.rs g.n) ^ (3 / 2 : ℝ) = X
  generalize Real.exp _ = Y
  have e : ∀ t : ℝ, g.n * vwn5Eps g 1.92366105093154 / (0.5 * Real.pi * (g.n * g.n) * (t - 0.5)) =
      vwn5Eps g 1.92366105093154 / (Real.pi / 2 * g.n * (t - 1 / 2)) := by
    intro t
    rw [show 0.5 * Real.pi * (g.n * g.n) * (t - 0.5) = g.n * (Real.pi / 2 * g.n * (t - 1 / 2)) by ring, mul_div_mul_left _ _ hn.ne']
  rw [e]
  congr 1
  ring

end XCFun.Fun
