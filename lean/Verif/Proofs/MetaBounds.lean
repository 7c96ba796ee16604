/-
Bounds of meta-GGA exchange energies by the exchange energy of the uniform gas.
-/
import Verif.Proofs.SmoothAll
import Verif.Proofs.Limits

namespace XCFun.Fun
open Spec Expr

variable {ρ : Field → ℝ}

theorem half_fx_unif {n : Expr Field} (hn : 0 < n.evalR ρ) :
    0.5 * (fx_unif (2 * n)).evalR ρ = -(3 / 4) * (6 / Real.pi) ^ (1 / 3 : ℝ) * n.evalR ρ ^ (4 / 3 : ℝ) := by
  simp only [fx_unif, evalR_mul, evalR_lit, evalR_pow, evalR_ofNat]
  have hpi := Real.pi_pos
  have h6 : (6 / Real.pi) ^ (1 / 3 : ℝ) = 2 ^ (1 / 3 : ℝ) * (3 / Real.pi) ^ (1 / 3 : ℝ) := by
    rw [← Real.mul_rpow (by norm_num) (by positivity)]; congr 1; ring
  have h43 : (2 : ℝ) ^ (4 / 3 : ℝ) = 2 * 2 ^ (1 / 3 : ℝ) := by
    rw [show (4 / 3 : ℝ) = 1 + 1 / 3 by norm_num, Real.rpow_add (by norm_num), Real.rpow_one]
  rw [Real.mul_rpow (by norm_num) hn.le, h6, h43]
  ring

/-- Two spins, each the uniform gas times a factor. -/
theorem spin_factors (h : Physical ρ) {e Fa Fb : ℝ} (he : e = 0.5 * (fx_unif (2 * d.a)).evalR ρ * Fa + 0.5 * (fx_unif (2 * d.b)).evalR ρ * Fb) :
    e = -(3 / 4) * (6 / Real.pi) ^ (1 / 3 : ℝ) * (ρ .a ^ (4 / 3 : ℝ) * Fa + ρ .b ^ (4 / 3 : ℝ) * Fb) := by
  have ha : 0 < d.a.evalR ρ := h.a
  have hb : 0 < d.b.evalR ρ := h.b
  rw [he, half_fx_unif ha, half_fx_unif hb]
  show -(3 / 4) * (6 / Real.pi) ^ (1 / 3 : ℝ) * ρ .a ^ (4 / 3 : ℝ) * Fa + -(3 / 4) * (6 / Real.pi) ^ (1 / 3 : ℝ) * ρ .b ^ (4 / 3 : ℝ) * Fb = _
  ring

theorem spin_bounds (h : Physical ρ) {e Fa Fb l u : ℝ}
    (he : e = 0.5 * (fx_unif (2 * d.a)).evalR ρ * Fa + 0.5 * (fx_unif (2 * d.b)).evalR ρ * Fb)
    (h1 : l ≤ Fa ∧ Fa ≤ u) (h2 : l ≤ Fb ∧ Fb ≤ u) : u * uniformExchange (ρ .a) (ρ .b) ≤ e ∧ e ≤ l * uniformExchange (ρ .a) (ρ .b) := by
  rw [spin_factors h he, uniformExchange]
  have hpi := Real.pi_pos
  have hc : 0 < (3 / 4) * (6 / Real.pi) ^ (1 / 3 : ℝ) := by positivity
  have pa : 0 < ρ .a ^ (4 / 3 : ℝ) := Real.rpow_pos_of_pos h.a _
  have pb : 0 < ρ .b ^ (4 / 3 : ℝ) := Real.rpow_pos_of_pos h.b _
  have a1 := mul_le_mul_of_nonneg_left h1.1 pa.le
  have a2 := mul_le_mul_of_nonneg_left h1.2 pa.le
  have b1 := mul_le_mul_of_nonneg_left h2.1 pb.le
  have b2 := mul_le_mul_of_nonneg_left h2.2 pb.le
  constructor
  · have := mul_le_mul_of_nonneg_left (add_le_add a2 b2) hc.le
    linarith
  · have := mul_le_mul_of_nonneg_left (add_le_add a1 b1) hc.le
    linarith

theorem tpssx_bounds (h : Physical ρ) (ga : 0 ≤ ρ .gaa) (gb : 0 ≤ ρ .gbb) (ta : 0 < ρ .taua) (tb : 0 < ρ .taub) :
    1.804 * uniformExchange (ρ .a) (ρ .b) ≤ tpssx.evalR ρ ∧ tpssx.evalR ρ ≤ 1 * uniformExchange (ρ .a) (ρ .b) := by
  have b1 := tpssx_F_x_bounds (pos_mul (pos_ofNat 2) (pos_var h.a) : PosReg ρ (2 * d.a))
    (nonneg_mul (pos_ofNat 4).weak (nonneg_var ga) : NonnegReg ρ (4 * d.gaa)) (pos_mul (pos_ofNat 2) (pos_var ta) : PosReg ρ (2 * d.taua))
  have b2 := tpssx_F_x_bounds (pos_mul (pos_ofNat 2) (pos_var h.b) : PosReg ρ (2 * d.b))
    (nonneg_mul (pos_ofNat 4).weak (nonneg_var gb) : NonnegReg ρ (4 * d.gbb)) (pos_mul (pos_ofNat 2) (pos_var tb) : PosReg ρ (2 * d.taub))
  refine spin_bounds h ?_ b1 b2
  simp only [tpssx, evalR_mul, evalR_add]
  norm_num
  ring

theorem blocx_bounds (h : Physical ρ) (ga : 0 < ρ .gaa) (gb : 0 < ρ .gbb) (ta : 0 < ρ .taua) (tb : 0 < ρ .taub) :
    1.804 * uniformExchange (ρ .a) (ρ .b) ≤ blocx.evalR ρ ∧ blocx.evalR ρ ≤ 1 * uniformExchange (ρ .a) (ρ .b) := by
  obtain ⟨-, F1, l1, u1, e1⟩ := energy_blocx_form (ρ := ρ) (pos_mul (pos_ofNat 2) (pos_var h.a) : PosReg ρ (2 * d.a))
      (nonneg_mul (pos_ofNat 4).weak (nonneg_var ga.le) : NonnegReg ρ (4 * d.gaa)) (pos_mul (pos_ofNat 2) (pos_var ta) : PosReg ρ (2 * d.taua))
      (mul_pos (by norm_num) ga)
  obtain ⟨-, F2, l2, u2, e2⟩ := energy_blocx_form (ρ := ρ) (pos_mul (pos_ofNat 2) (pos_var h.b) : PosReg ρ (2 * d.b))
      (nonneg_mul (pos_ofNat 4).weak (nonneg_var gb.le) : NonnegReg ρ (4 * d.gbb)) (pos_mul (pos_ofNat 2) (pos_var tb) : PosReg ρ (2 * d.taub))
      (mul_pos (by norm_num) gb)
  refine spin_bounds h (Fa := F1) (Fb := F2) ?_ ⟨l1, u1⟩ ⟨l2, u2⟩
  simp only [blocx, evalR_add, evalR_div, evalR_ofNat, e1, e2]
  ring

/-- SCAN exchange of one spin. -/
theorem get_SCAN_Fx_bounds {n g t : Expr Field} (hn : 0 < n.evalR ρ) (hg : 0 ≤ g.evalR ρ)
    (hw : tauW (n.evalR ρ) (g.evalR ρ) ≤ t.evalR ρ) (h1 : t.evalR ρ - tauW (n.evalR ρ) (g.evalR ρ) ≠ tauU (n.evalR ρ)) :
    0 < (get_SCAN_Fx n g t 0 0 0).evalR ρ ∧ (get_SCAN_Fx n g t 0 0 0).evalR ρ < 1.174 := by
  have hk := kF2_pos
  have h53 := Real.rpow_pos_of_pos hn (5 / 3)
  have h83 := Real.rpow_pos_of_pos hn (8 / 3)
  have hU : 0 < tauU (n.evalR ρ) := by unfold tauU; positivity
  have et : (t - g / (8 * n)).evalR ρ = t.evalR ρ - tauW (n.evalR ρ) (g.evalR ρ) := by
    simp only [evalR_sub, evalR_div, evalR_mul, evalR_ofNat]; rfl
  have eU : ((0.3 * kF2 : ℝ) * pow n (5 / 3) : Expr Field).evalR ρ = tauU (n.evalR ρ) := by
    simp only [evalR_mul, evalR_lit, evalR_pow]
    simp only [tauU, kF2, PI2]
  refine scanFx_bounds ?_ ?_ ?_
  · simp only [evalR_iflt]
    split
    · next hlt =>
      rw [evalR_abs, abs_of_nonneg hg] at hlt
      simp only [evalR_div, evalR_mul, evalR_lit, evalR_pow]
      have : 0 < g.evalR ρ := lt_trans (by norm_num) hlt
      positivity
    · simp only [evalR_div, evalR_mul, evalR_lit, evalR_pow]
      norm_num
      positivity
  · show 0 ≤ (scanAlpha 0 (t - g / (8 * n)) ((0.3 * kF2 : ℝ) * pow n (5 / 3)) (g / (8 * n))).evalR ρ
    simp only [scanAlpha, if_true, evalR_iflt]
    split
    · rw [evalR_div, et, eU]; exact div_nonneg (by linarith) hU.le
    · rw [evalR_zero]
  · show (scanAlpha 0 (t - g / (8 * n)) ((0.3 * kF2 : ℝ) * pow n (5 / 3)) (g / (8 * n))).evalR ρ ≠ 1
    simp only [scanAlpha, if_true, evalR_iflt]
    split
    · rw [evalR_div, et, eU, Ne, div_eq_one_iff_eq hU.ne']; exact h1
    · rw [evalR_zero]; norm_num

theorem scanx_bounds (h : Physical ρ) (ga : 0 ≤ ρ .gaa) (gb : 0 ≤ ρ .gbb)
    (ta : tauW (2 * ρ .a) (4 * ρ .gaa) ≤ 2 * ρ .taua) (tb : tauW (2 * ρ .b) (4 * ρ .gbb) ≤ 2 * ρ .taub)
    (na : 2 * ρ .taua - tauW (2 * ρ .a) (4 * ρ .gaa) ≠ tauU (2 * ρ .a)) (nb : 2 * ρ .taub - tauW (2 * ρ .b) (4 * ρ .gbb) ≠ tauU (2 * ρ .b)) :
    1.174 * uniformExchange (ρ .a) (ρ .b) < scanx.evalR ρ ∧ scanx.evalR ρ < 0 := by
  have pa := h.a
  have pb := h.b
  obtain ⟨l1, u1⟩ := get_SCAN_Fx_bounds (ρ := ρ) (n := 2 * d.a) (g := 4 * d.gaa) (t := 2 * d.taua) (mul_pos (by norm_num) pa)
    (mul_nonneg (by norm_num) ga) ta na
  obtain ⟨l2, u2⟩ := get_SCAN_Fx_bounds (ρ := ρ) (n := 2 * d.b) (g := 4 * d.gbb) (t := 2 * d.taub) (mul_pos (by norm_num) pb)
    (mul_nonneg (by norm_num) gb) tb nb
  rw [spin_factors h (e := scanx.evalR ρ) (Fa := (get_SCAN_Fx (2 * d.a) (4 * d.gaa) (2 * d.taua) 0 0 0).evalR ρ)
    (Fb := (get_SCAN_Fx (2 * d.b) (4 * d.gbb) (2 * d.taub) 0 0 0).evalR ρ) (by
      simp only [scanx, scanX, evalR_mul, evalR_add]; norm_num; ring), uniformExchange]
  have hpi := Real.pi_pos
  have hc : 0 < (3 / 4) * (6 / Real.pi) ^ (1 / 3 : ℝ) := by positivity
  have qa : 0 < ρ .a ^ (4 / 3 : ℝ) := Real.rpow_pos_of_pos h.a _
  have qb : 0 < ρ .b ^ (4 / 3 : ℝ) := Real.rpow_pos_of_pos h.b _
  have a1 := mul_pos qa l1
  have b1 := mul_pos qb l2
  have a2 := mul_lt_mul_of_pos_left u1 qa
  have b2 := mul_lt_mul_of_pos_left u2 qb
  constructor
  · have := mul_lt_mul_of_pos_left (add_lt_add a2 b2) hc
    linarith
  · have := mul_pos hc (add_pos a1 b1)
    linarith

/-! ### REVTPSSX above the bound -/

theorem revtpss_epsx_unif_eq {n : Expr Field} (hn : 0 < n.evalR ρ) :
    (revtpss_epsx_unif (2 * n)).evalR ρ * n.evalR ρ = -(3 / 4) * (6 / Real.pi) ^ (1 / 3 : ℝ) * n.evalR ρ ^ (4 / 3 : ℝ) := by
  have hpi := Real.pi_pos
  have e : (revtpss_epsx_unif (2 * n)).evalR ρ = -3 * (3 * PI2 * (2 * n.evalR ρ)) ^ (1 / 3 : ℝ) / (4 * Real.pi) := by
    simp only [revtpss_epsx_unif, evalR_div, evalR_mul, evalR_neg, evalR_cbrt, evalR_lit, evalR_ofNat]
    rw [XCFun.cbrt, if_pos (by unfold PI2; positivity)]
  set N := n.evalR ρ
  have h1 : (3 * PI2 * (2 * N)) ^ (1 / 3 : ℝ) = (6 / Real.pi) ^ (1 / 3 : ℝ) * Real.pi * N ^ (1 / 3 : ℝ) := by
    have : 3 * PI2 * (2 * N) = 6 / Real.pi * Real.pi ^ 3 * N := by simp only [PI2]; field_simp; ring
    rw [this, Real.mul_rpow (by positivity) hn.le, Real.mul_rpow (by positivity) (by positivity), ← Real.rpow_natCast, ← Real.rpow_mul hpi.le]
    norm_num
  have h2 : N ^ (4 / 3 : ℝ) = N ^ (1 / 3 : ℝ) * N := by
    rw [show (4 / 3 : ℝ) = 1 / 3 + 1 by norm_num, Real.rpow_add hn, Real.rpow_one]
  rw [e, h1, h2]
  field_simp

/-- A density with `k_F = 10`, reduced gradient 1 and the kinetic energy density of one orbital. -/
theorem revtpssx_F_large {n g t : Expr Field} {N : ℝ} (hN : N = 1000 / (3 * (Real.pi * Real.pi))) (hn : n.evalR ρ = N)
    (hg : g.evalR ρ = 400 * N ^ 2) (ht : t.evalR ρ = 50 * N) : 1.804 < (revtpssx_F_x n g t).evalR ρ := by
  have hpi := Real.pi_pos
  have hpi4 := Real.pi_lt_four
  have hN0 : 0 < N := by rw [hN]; positivity
  have hN20 : 20 ≤ N := by
    rw [hN, le_div_iff₀ (by positivity)]; nlinarith
  have h23 : kF2 * N ^ (2 / 3 : ℝ) = 100 := by
    rw [kF2, PI2, ← Real.mul_rpow (by positivity) hN0.le, hN, mul_div_cancel₀ _ (by positivity), show (1000 : ℝ) = 10 ^ (3 : ℕ) by norm_num,
      ← Real.rpow_natCast, ← Real.rpow_mul (by norm_num)]
    norm_num
  have h83 : kF2 * N ^ (8 / 3 : ℝ) = 100 * N ^ 2 := by
    rw [show (8 / 3 : ℝ) = 2 / 3 + (2 : ℕ) by norm_num, Real.rpow_add hN0, Real.rpow_natCast, ← mul_assoc, h23]
  have h53 : kF2 * N ^ (5 / 3 : ℝ) = 100 * N := by
    rw [show (5 / 3 : ℝ) = 2 / 3 + 1 by norm_num, Real.rpow_add hN0, Real.rpow_one, ← mul_assoc, h23]
  have hp : 400 * N ^ 2 / (4 * kF2 * N ^ (8 / 3 : ℝ)) = 1 := by rw [mul_assoc, h83]; field_simp; norm_num
  have hw : 400 * N ^ 2 / (8 * N) = 50 * N := by field_simp; norm_num
  have hz : 50 * N / (50 * N) = 1 := div_self (by positivity)
  have ha : (50 * N - 50 * N) / (0.3 * kF2 * N ^ (5 / 3 : ℝ)) = 0 := by rw [sub_self, zero_div]
  have hpow : (powi (8 * n * t) (-2)).evalR ρ = (8 * N * (50 * N)) ^ (-2 : ℤ) := by
    refine (evalR_powi_negSucc (ρ := ρ) (8 * n * t) 1).trans ?_
    simp only [evalR_mul, evalR_ofNat, hn, ht, Real.rpow_intCast]
    rfl
  have hqb : 9 * (0 - 1) / (20 * √(1 + 0.40 * 0 * (0 - 1))) + 2 * 1 / 3 = (13 / 60 : ℝ) := by norm_num
  set q : ℝ := √2.1677 with hq
  have hq0 : 0 ≤ q := Real.sqrt_nonneg _
  have hq2 : q ≤ 2 := by rw [hq, Real.sqrt_le_left (by norm_num)]; norm_num
  set w : ℝ := √(0.5 * 0.6 * 0.6 * (8 * N * (50 * N)) ^ (-2 : ℤ) + 0.5 * 1 * 1) with hwdef
  have hw7 : 0.7 ≤ w := by
    rw [hwdef]
    refine Real.le_sqrt_of_sq_le ?_
    have : 0 ≤ (8 * N * (50 * N)) ^ (-2 : ℤ) := by positivity
    generalize (8 * N * (50 * N)) ^ (-2 : ℤ) = y at this
    norm_num
    linarith
  have e : (revtpssx_x n g t).evalR ρ = (1 * (10 / 81 + 2.35204 * 1 ^ 2 * 1 / (1 + 1 ^ 2) ^ 2) + 146 * (13 / 60) ^ 2 / 2025 -
      73 / 405 * (13 / 60) * (400 * N ^ 2) * w + (10 * 1 / 81) ^ 2 / 0.804 +
      (q * 0.6 * 0.6 * 1 ^ 2 * 20 / 81 + 2.1677 * 0.14 * 1 ^ 3)) / (1 + q * 1) := by
    unfold revtpssx_x
    simp only [evalR_add, evalR_sub, evalR_mul, evalR_div, evalR_pow, evalR_lit, evalR_one, evalR_ofNat, evalR_sqrt,
      evalR_pow2, evalR_pow3, evalR_ofScientific, hn, hg, ht, hp, hw, hz, ha]
    rw [hpow, hqb]
  have hx : (revtpssx_x n g t).evalR ρ < -0.804 := by
    rw [e, div_lt_iff₀ (by linarith)]
    have hN2 : 400 ≤ N ^ 2 := by nlinarith
    have : 280 ≤ N ^ 2 * w := by nlinarith
    nlinarith
  have eF : (revtpssx_F_x n g t).evalR ρ = 1 + 0.804 - 0.804 / (1 + (revtpssx_x n g t).evalR ρ / 0.804) := by
    simp only [revtpssx_F_x, evalR_sub, evalR_add, evalR_div, evalR_lit, evalR_one]
  rw [eF]
  have : 1 + (revtpssx_x n g t).evalR ρ / 0.804 < 0 := by
    have := div_lt_div_of_pos_right hx (show (0 : ℝ) < 0.804 by norm_num)
    norm_num at this ⊢
    linarith
  have := div_neg_of_pos_of_neg (show (0 : ℝ) < 0.804 by norm_num) this
  linarith

theorem revtpssx_large (h : Physical ρ) {N : ℝ} (hN : N = 1000 / (3 * (Real.pi * Real.pi))) (ea : ρ .a = N / 2) (eb : ρ .b = N / 2)
    (ga : ρ .gaa = 100 * N ^ 2) (gb : ρ .gbb = 100 * N ^ 2) (ta : ρ .taua = 25 * N) (tb : ρ .taub = 25 * N) :
    revtpssx.evalR ρ < 1.804 * uniformExchange (ρ .a) (ρ .b) := by
  have va : d.a.evalR ρ = N / 2 := ea
  have vb : d.b.evalR ρ = N / 2 := eb
  have vga : d.gaa.evalR ρ = 100 * N ^ 2 := ga
  have vgb : d.gbb.evalR ρ = 100 * N ^ 2 := gb
  have vta : d.taua.evalR ρ = 25 * N := ta
  have vtb : d.taub.evalR ρ = 25 * N := tb
  have Fa := revtpssx_F_large (ρ := ρ) (n := 2 * d.a) (g := 4 * d.gaa) (t := 2 * d.taua) hN (by rw [evalR_mul, evalR_ofNat, va]; ring)
    (by rw [evalR_mul, evalR_ofNat, vga]; ring) (by rw [evalR_mul, evalR_ofNat, vta]; ring)
  have Fb := revtpssx_F_large (ρ := ρ) (n := 2 * d.b) (g := 4 * d.gbb) (t := 2 * d.taub) hN (by rw [evalR_mul, evalR_ofNat, vb]; ring)
    (by rw [evalR_mul, evalR_ofNat, vgb]; ring) (by rw [evalR_mul, evalR_ofNat, vtb]; ring)
  have ua := revtpss_epsx_unif_eq (ρ := ρ) (n := d.a) h.a
  have ub := revtpss_epsx_unif_eq (ρ := ρ) (n := d.b) h.b
  have e : revtpssx.evalR ρ = (revtpss_epsx_unif (2 * d.a)).evalR ρ * d.a.evalR ρ * (revtpssx_F_x (2 * d.a) (4 * d.gaa) (2 * d.taua)).evalR ρ +
      (revtpss_epsx_unif (2 * d.b)).evalR ρ * d.b.evalR ρ * (revtpssx_F_x (2 * d.b) (4 * d.gbb) (2 * d.taub)).evalR ρ := by
    simp only [revtpssx, evalR_add, evalR_mul]; ring
  rw [e, ua, ub, uniformExchange]
  show -(3 / 4) * (6 / Real.pi) ^ (1 / 3 : ℝ) * ρ .a ^ (4 / 3 : ℝ) * _ + -(3 / 4) * (6 / Real.pi) ^ (1 / 3 : ℝ) * ρ .b ^ (4 / 3 : ℝ) * _ < _
  have hpi := Real.pi_pos
  have hc : 0 < (3 / 4) * (6 / Real.pi) ^ (1 / 3 : ℝ) := by positivity
  have pa : 0 < ρ .a ^ (4 / 3 : ℝ) := Real.rpow_pos_of_pos h.a _
  have pb : 0 < ρ .b ^ (4 / 3 : ℝ) := Real.rpow_pos_of_pos h.b _
  have a1 := mul_lt_mul_of_pos_left Fa (mul_pos hc pa)
  have b1 := mul_lt_mul_of_pos_left Fb (mul_pos hc pb)
  linarith

end XCFun.Fun
