/-
Functionals whose code departs from the published formula.
-/
import Verif.Spec.LiteratureDiffer
import Verif.Proofs.LitTpss
import Verif.Proofs.CorrNeg

namespace XCFun.Fun
open XCFun Expr Lit

variable {ρ : Field → ℝ} {g : Gas}

theorem _root_.XCFun.Lit.IsGas.sound (h : IsGas ρ g) (ha : 0 ≤ g.gaa) (hb : 0 ≤ g.gbb) (hn : 0 ≤ g.gnn) : Spec.Sound ρ where
  toPhysical := h.physical
  s_lt := by rw [h.s, h.n]; have := h.bpos; linarith
  lt_s := by rw [h.s, h.n]; have := h.apos; linarith
  zeta := by rw [h.zeta, h.s, h.n]
  r_s := by rw [h.r_s, h.n]
  n_m13 := by rw [h.n_m13, h.n]
  gaa := by rw [h.gaa]; exact ha
  gbb := by rw [h.gbb]; exact hb
  gnn := by rw [h.gnn]; exact hn

/-! ### TW -/

theorem lit_tw (h : IsGas ρ g) : tw.evalR ρ = twKCode g := by
  simp only [tw, evalR_mul, evalR_div, evalR_lit, evalR_pow, evalR_add, dgaa h, dgbb h, dn h, twKCode]
  rw [show (2 : ℝ) = ((2 : ℕ) : ℝ) by norm_num, Real.rpow_natCast, div_mul_eq_div_div]
  ring

theorem tw_iff (h : IsGas ρ g) : tw.evalR ρ = twK g ↔ (g.gaa + g.gbb) ^ 2 = g.gnn := by
  have hn := h.npos
  rw [lit_tw h, twKCode, twK, tauW, div_left_inj' (by positivity)]

/-! ### SPBEC -/

theorem lit_spbec (h : IsGas ρ g) : spbec.evalR ρ = spbeC g 0.031091 0.066725 (0.031091 / 0.066725) 1.92366105093154 := by
  have hn := h.npos
  have et : ((rcbrt (Real.pi / 3) / 16 : ℝ) * d.gnn * d.n_m13 / pow2 (Fun.phi * d.n) : Expr Field).evalR ρ = tSq g.n g.zeta g.gnn := by
    rw [← d2_eq h]
    simp only [pbecD2, evalR_div, evalR_mul, evalR_lit, evalR_pow2, evalR_pow, lit_phi h, dn h, dgnn h]
    rw [show (d.n_m13 : Expr Field).evalR ρ = g.n ^ (-1 / 3 : ℝ) from h.n_m13, t2const_eq,
      show g.n ^ (7 / 3 : ℝ) = g.n ^ 2 * g.n ^ (1 / 3 : ℝ) by
        rw [← Real.rpow_natCast g.n 2, ← Real.rpow_add hn]; norm_num,
      show (-1 / 3 : ℝ) = -(1 / 3) by norm_num, Real.rpow_neg hn.le,
      show rcbrt (Real.pi / 3) = Real.pi ^ (1 / 3 : ℝ) / 3 ^ (1 / 3 : ℝ) by
        rw [← Real.div_rpow Real.pi_pos.le (by norm_num)]; simp [rcbrt]]
    have := phi_pos' h
    have : 0 < g.n ^ (1 / 3 : ℝ) := by positivity
    field_simp
  simp only [spbec, H_spbe, spbecG]
  rw [evalR_mul, evalR_add, lit_vwn5_eps h, dn h, spbeC, spbeH]
  simp only [evalR_mul, evalR_log, evalR_add, evalR_one, evalR_div, evalR_lit, et, pow3_phi h, evalR_expm1, evalR_neg, lit_vwn5_eps h,
    spbecGamm, spbecBetaGamma]
  ring_nf

/-- For small reduced gradients the published gradient correction exceeds that of the code. -/
theorem spbec_lt (h : IsGas ρ g) (ha : 0 ≤ g.gaa) (hb : 0 ≤ g.gbb) (hg : 0 < g.gnn)
    (hs : (0.066725 / 0.031091 / (Real.exp (-vwn5Eps g 1.92366105093154 / (0.031091 * Lit.phi g.zeta ^ 3)) - 1) + 0.066725 / 0.031091) *
      tSq g.n g.zeta g.gnn ≤ 1) :
    spbec.evalR ρ < spbeC g 0.066725 0.031091 0.031091 1.92366105093154 := by
  have he := vwn5_eps_neg (h.sound ha hb hg.le)
  rw [lit_vwn5_eps h] at he
  rw [lit_spbec h, spbeC, spbeC]
  have hn := h.npos
  have hp := phi_pos' h
  have hk : 0 < Lit.ks g.n := by unfold Lit.ks Lit.kF; positivity
  have ht : 0 < tSq g.n g.zeta g.gnn := by unfold tSq; positivity
  apply mul_lt_mul_of_pos_left _ hn
  rw [add_lt_add_iff_left, spbeH, spbeH]
  set e := vwn5Eps g 1.92366105093154
  set t := tSq g.n g.zeta g.gnn
  set u := Lit.phi g.zeta ^ 3
  have hu : 0 < u := by positivity
  have h1 : 0 < Real.exp (-e / (0.031091 / 0.066725 * u)) - 1 := by
    have : 1 < Real.exp (-e / (0.031091 / 0.066725 * u)) := by
      rw [Real.one_lt_exp_iff]; apply div_pos <;> [linarith; positivity]
    linarith
  have h2 : 0 < Real.exp (-e / (0.031091 * u)) - 1 := by
    have : 1 < Real.exp (-e / (0.031091 * u)) := by
      rw [Real.one_lt_exp_iff]; apply div_pos <;> [linarith; positivity]
    linarith
  set X := Real.exp (-e / (0.031091 / 0.066725 * u)) - 1
  set Y := Real.exp (-e / (0.031091 * u)) - 1
  have hA : 0 < (0.066725 : ℝ) / 0.031091 / Y := by positivity
  have b1 : Real.log (1 + 0.031091 / 0.066725 * t / (1 + 0.031091 / 0.066725 / X * t)) ≤ 0.031091 / 0.066725 * t := by
    have q : 0 < 1 + 0.031091 / 0.066725 / X * t := by positivity
    have r1 := Real.log_le_sub_one_of_pos (x := 1 + 0.031091 / 0.066725 * t / (1 + 0.031091 / 0.066725 / X * t)) (by positivity)
    have r2 : 0.031091 / 0.066725 * t / (1 + 0.031091 / 0.066725 / X * t) ≤ 0.031091 / 0.066725 * t := by
      apply div_le_self (by positivity)
      have : 0 < (0.031091 : ℝ) / 0.066725 / X * t := by positivity
      linarith
    linarith
  have b2 : 0.066725 / 0.031091 * t / 2 ≤ Real.log (1 + 0.066725 / 0.031091 * t / (1 + 0.066725 / 0.031091 / Y * t)) := by
    set A : ℝ := 0.066725 / 0.031091 / Y
    have q : 0 < 1 + A * t := by positivity
    have r1 := Real.one_sub_inv_le_log_of_pos (x := 1 + 0.066725 / 0.031091 * t / (1 + A * t)) (by positivity)
    refine le_trans ?_ r1
    have e1 : 1 - (1 + 0.066725 / 0.031091 * t / (1 + A * t))⁻¹ = 0.066725 / 0.031091 * t / (1 + (A + 0.066725 / 0.031091) * t) := by
      have q' : 0 < 1 + (A + 0.066725 / 0.031091) * t := by positivity
      have q2 : 0 < 1 + A * t + 0.066725 / 0.031091 * t := by positivity
      rw [show 1 + 0.066725 / 0.031091 * t / (1 + A * t) = (1 + A * t + 0.066725 / 0.031091 * t) / (1 + A * t) by field_simp, inv_div,
        show 1 + (A + 0.066725 / 0.031091) * t = 1 + A * t + 0.066725 / 0.031091 * t by ring, one_sub_div q2.ne']
      congr 1; ring
    rw [e1]
    apply div_le_div_of_nonneg_left (by positivity) (by positivity) (by linarith)
  have c1 := mul_le_mul_of_nonneg_left b1 (show 0 ≤ 0.066725 * u by positivity)
  have c2 := mul_le_mul_of_nonneg_left b2 (show 0 ≤ 0.031091 * u by positivity)
  have hut : 0 < u * t := by positivity
  norm_num at c1 c2 ⊢
  nlinarith

/-! ### REVTPSSC -/

theorem pbeEps_neg {β n z g2 : ℝ} (hβ : 0 < β) (hn : 0 < n) (hz : 0 < Lit.phi z) (hg : 0 ≤ g2) (he : pw92Eps n z < 0) : pbeEps β n z g2 < 0 := by
  have hγ : 0 < gammaPBE := gamma_eq ▸ param_gamma_pos
  have hk : 0 < Lit.ks n := by unfold Lit.ks Lit.kF; positivity
  have ht : 0 ≤ tSq n z g2 := by unfold tSq; positivity
  have := (pbeHR_bounds hγ (show 0 < β / gammaPBE by positivity) he (show 0 < Lit.phi z ^ 3 by positivity) ht).2
  rw [pbeEps, pbeH]
  have e : gammaPBE * Lit.phi z ^ 3 * Real.log (1 + β / gammaPBE * tSq n z g2 * ((1 + pbeA β (pw92Eps n z) z * tSq n z g2) /
      (1 + pbeA β (pw92Eps n z) z * tSq n z g2 + pbeA β (pw92Eps n z) z ^ 2 * tSq n z g2 ^ 2))) =
      pbeHR gammaPBE (β / gammaPBE) (pw92Eps n z) (Lit.phi z ^ 3) (tSq n z g2) := by
    rw [pbeHR, pbeA]; congr 3; rw [mul_div_assoc]; ring_nf
  linarith

theorem betaRs_pos {n : ℝ} (hn : 0 < n) : 0 < betaRs (Lit.rs n) := by
  have := rs_pos hn
  unfold betaRs; positivity

/-- The revised PKZB energy is at most the fraction `1 - z²` of the gradient-corrected energy. -/
theorem revPKZB_le {ε : ℝ → ℝ → ℝ → ℝ} {C : ℝ} (h : IsGas ρ g) (hC : -1 ≤ C) :
    revPKZB g ε C ≤ ε g.n g.zeta g.gnn * (1 - (tauW g.n g.gnn / g.tau) ^ 2) := by
  have pa := h.apos
  have pb := h.bpos
  have hn := h.npos
  rw [revPKZB]
  set e := ε g.n g.zeta g.gnn
  set z := tauW g.n g.gnn / g.tau
  have hs : e ≤ g.a / g.n * Max.max (ε g.a 1 g.gaa) e + g.b / g.n * Max.max (ε g.b 1 g.gbb) e := by
    have h1 := mul_le_mul_of_nonneg_left (le_max_right (ε g.a 1 g.gaa) e) (show 0 ≤ g.a / g.n by positivity)
    have h2 := mul_le_mul_of_nonneg_left (le_max_right (ε g.b 1 g.gbb) e) (show 0 ≤ g.b / g.n by positivity)
    have h3 : g.a / g.n * e + g.b / g.n * e = e := by
      rw [← add_mul, ← add_div, show g.a + g.b = g.n from rfl, div_self hn.ne', one_mul]
    linarith
  have := mul_le_mul_of_nonneg_left hs (show 0 ≤ (1 + C) * z ^ 2 from mul_nonneg (by linarith) (sq_nonneg _))
  linarith

theorem tpssCz_nonneg {c0 c1 c2 c3 : ℝ} (h0 : 0 ≤ c0) (h1 : 0 ≤ c1) (h2 : 0 ≤ c2) (h3 : 0 ≤ c3) : 0 ≤ tpssCz g c0 c1 c2 c3 := by
  unfold tpssCz
  apply div_nonneg
  · have := sq_nonneg g.zeta
    have : 0 ≤ g.zeta ^ 4 := by positivity
    have : 0 ≤ g.zeta ^ 6 := by positivity
    positivity
  · positivity

/-- The published energy is below that of the code wherever `0 < τ_W < τ`. -/
theorem revtpssc_lt (h : IsGas ρ g) (ha : 0 ≤ g.gaa) (hb : 0 ≤ g.gbb) (hg : 0 < g.gnn) (hτ : tauW g.n g.gnn < g.tau) :
    revtpssC g 3 < revtpssc.evalR ρ := by
  have hn := h.npos
  have he : pw92Eps g.n g.zeta < 0 := by rw [← lit_pw92eps h]; exact pw92eps_neg (h.sound ha hb hg.le)
  have hE := pbeEps_neg (betaRs_pos hn) hn (phi_pos' h) hg.le he
  have hC : -1 ≤ tpssCz g 0.59 0.9269 0.6225 2.1540 := by
    have := tpssCz_nonneg (g := g) (c0 := 0.59) (c1 := 0.9269) (c2 := 0.6225) (c3 := 2.1540) (by norm_num) (by norm_num) (by norm_num) (by norm_num)
    linarith
  have hR := revPKZB_le (ε := fun n z g2 => pbeEps (betaRs (Lit.rs n)) n z g2) h hC
  have hw : 0 < tauW g.n g.gnn := by unfold tauW; positivity
  have hz0 : 0 < tauW g.n g.gnn / g.tau := div_pos hw (by linarith)
  have hz1 : tauW g.n g.gnn / g.tau < 1 := by rw [div_lt_one (by linarith)]; exact hτ
  rw [lit_revtpssc h, revtpssC, revtpssC, tpssLikeC, tpssLikeC]
  set R := revPKZB g (fun n z g2 => pbeEps (betaRs (Lit.rs n)) n z g2) (tpssCz g 0.59 0.9269 0.6225 2.1540)
  set z := tauW g.n g.gnn / g.tau
  have hR0 : R < 0 := lt_of_le_of_lt hR (mul_neg_of_neg_of_pos hE (by nlinarith))
  apply mul_lt_mul_of_pos_left _ hn
  have : 0 < R ^ 2 * z ^ 2 * (1 - z) := mul_pos (mul_pos (sq_pos_of_neg hR0) (by positivity)) (by linarith)
  nlinarith

/-! ### REVTPSSX -/

theorem revtpss_x {n g' t : Expr Field} (hn : 0 < n.evalR ρ) (hg : 0 ≤ g'.evalR ρ) : (revtpssx_x n g' t).evalR ρ =
    revtpssArgCode (n.evalR ρ) (g'.evalR ρ) (t.evalR ρ) := by
  obtain ⟨hp, -, hT, hq⟩ := tpss_facts (t := t) hn hg
  have hr := tpss_root (n := n.evalR ρ) (τ := t.evalR ρ) (p0 := Lit.sSq (n.evalR ρ) (g'.evalR ρ)) hg
  have hp' : g'.evalR ρ / (4 * kF2 * n.evalR ρ ^ (8 / 3 : ℝ)) = Lit.sSq (n.evalR ρ) (g'.evalR ρ) := (sSq_kF2 hn).symm
  simp only [revtpssx_x, evalR_add, evalR_sub, evalR_mul, evalR_div, evalR_lit, evalR_one, evalR_ofNat, evalR_ofScientific, evalR_pow2,
    evalR_pow3, evalR_sqrt, evalR_pow, hq, revtpssArgCode, hp', hT]
  rw [show g'.evalR ρ / (8 * n.evalR ρ) = tauW (n.evalR ρ) (g'.evalR ρ) from rfl, mul_assoc (73 / 405 * _ : ℝ) (g'.evalR ρ), hr]
  generalize √((3 / 5 * (tauW (n.evalR ρ) (g'.evalR ρ) / t.evalR ρ)) ^ 2 / 2 + (g'.evalR ρ * Lit.sSq (n.evalR ρ) (g'.evalR ρ)) ^ 2 / 2) = R
  congr 1
  ring

theorem revtpss_F {n g' t : Expr Field} (hn : 0 < n.evalR ρ) (hg : 0 ≤ g'.evalR ρ) : (revtpssx_F_x n g' t).evalR ρ =
    revtpssEnhCode (n.evalR ρ) (g'.evalR ρ) (t.evalR ρ) := by
  simp only [revtpssx_F_x, evalR_add, evalR_sub, evalR_div, evalR_lit, evalR_one, revtpss_x hn hg, revtpssEnhCode]

theorem revtpss_unif {n : Expr Field} (hn : 0 < n.evalR ρ) : (revtpss_epsx_unif n).evalR ρ * n.evalR ρ = exUnif (n.evalR ρ) := by
  simp only [revtpss_epsx_unif, evalR_div, evalR_mul, evalR_neg, evalR_ofNat, evalR_lit, evalR_cbrt, exUnif]
  have hx : 0 ≤ 3 * PI2 * n.evalR ρ := by unfold PI2; positivity
  have e1 : n.evalR ρ ^ (4 / 3 : ℝ) = n.evalR ρ ^ (1 / 3 : ℝ) * n.evalR ρ := by
    nth_rewrite 3 [← Real.rpow_one (n.evalR ρ)]
    rw [← Real.rpow_add hn]; norm_num
  have e2 : XCFun.cbrt (3 * PI2 * n.evalR ρ) = (3 / Real.pi) ^ (1 / 3 : ℝ) * Real.pi * n.evalR ρ ^ (1 / 3 : ℝ) := by
    rw [show XCFun.cbrt (3 * PI2 * n.evalR ρ) = (3 * PI2 * n.evalR ρ) ^ (1 / 3 : ℝ) by simp [XCFun.cbrt, hx],
      show 3 * PI2 * n.evalR ρ = 3 / Real.pi * Real.pi ^ 3 * n.evalR ρ by unfold PI2; field_simp,
      Real.mul_rpow (by positivity) hn.le, Real.mul_rpow (by positivity) (by positivity), ← Real.rpow_natCast Real.pi 3,
      ← Real.rpow_mul Real.pi_pos.le]
    norm_num
  rw [e1, e2]
  field_simp

theorem lit_revtpssx (h : IsGas ρ g) (ha : 0 ≤ g.gaa) (hb : 0 ≤ g.gbb) : revtpssx.evalR ρ = revtpssXCode g := by
  have pa := h.apos
  have pb := h.bpos
  have ua := revtpss_unif (n := 2 * d.a) (ρ := ρ) (by rw [two_a h]; positivity)
  have ub := revtpss_unif (n := 2 * d.b) (ρ := ρ) (by rw [two_b h]; positivity)
  simp only [revtpssx]
  rw [evalR_add, evalR_mul, evalR_mul, evalR_mul, evalR_mul, revtpss_F (by rw [two_a h]; positivity) (by rw [four_gaa h]; positivity),
    revtpss_F (by rw [two_b h]; positivity) (by rw [four_gbb h]; positivity), four_gaa h, four_gbb h, two_taua h, two_taub h, revtpssXCode,
    spinScaled, two_a h, two_b h, da h, db h]
  rw [two_a h] at ua
  rw [two_b h] at ub
  rw [← ua, ← ub]
  ring

/-- Without gradients nothing is left of the difference. -/
theorem revtpssx_zero (h : IsGas ρ g) (ha : g.gaa = 0) (hb : g.gbb = 0) : revtpssx.evalR ρ = revtpssX g := by
  rw [lit_revtpssx h ha.ge hb.ge, revtpssXCode, revtpssX, spinScaled, spinScaled, ha, hb]
  simp [revtpssEnhCode, revtpssArgCode, tpssEnh, Lit.sSq, tauW]

/-- At unit density and unit gradient with `α = 1` the code has the larger enhancement. -/
theorem revtpss_enh_lt : tpssEnh 0.804 0.14 0.40 2.35204 2.1677 (fun z => z ^ 3) 1 1 (1 / 8 + tauTF 1) < revtpssEnhCode 1 1 (1 / 8 + tauTF 1) := by
  have hT : 0 < tauTF 1 := by unfold tauTF; positivity
  have hw : tauW 1 1 = 1 / 8 := by norm_num [tauW]
  have hα : (1 / 8 + tauTF 1 - 1 / 8) / tauTF 1 = 1 := by rw [add_sub_cancel_left, div_self hT.ne']
  have hz0 : 0 < 1 / 8 / (1 / 8 + tauTF 1) := by positivity
  have hz1 : 1 / 8 / (1 / 8 + tauTF 1) < 1 := by rw [div_lt_one (by positivity)]; linarith
  have hk : 1 < kF2 := by
    rw [kF2_eq]
    apply Real.one_lt_rpow _ (by norm_num)
    nlinarith [Real.pi_gt_three]
  have hp : Lit.sSq 1 1 = 1 / (4 * kF2) := by rw [sSq_kF2 one_pos]; simp
  have hp0 : 0 < Lit.sSq 1 1 := by rw [hp]; positivity
  have hp1 : Lit.sSq 1 1 < 1 := by rw [hp, div_lt_one (by positivity)]; linarith
  simp only [tpssEnh, revtpssEnhCode, revtpssArgCode, hw, hα]
  set z := 1 / 8 / (1 / 8 + tauTF 1)
  set p := Lit.sSq 1 1
  have hroot : √((3 / 5 * z) ^ 2 / 2 + p ^ 2 / 2) ≤ 1 := by
    rw [Real.sqrt_le_one]; nlinarith
  have hr0 := Real.sqrt_nonneg ((3 / 5 * z) ^ 2 / 2 + p ^ 2 / 2)
  rw [one_mul p]
  set R := √((3 / 5 * z) ^ 2 / 2 + p ^ 2 / 2)
  have hsq : 0 < √(2.1677 : ℝ) := Real.sqrt_pos.2 (by norm_num)
  set S := √(2.1677 : ℝ)
  have hq : 9 / 20 * (1 - 1 : ℝ) / √(1 + 0.40 * 1 * (1 - 1)) + 2 * p / 3 = 2 * p / 3 := by simp
  rw [hq]
  set N := (10 / 81 + 2.35204 * z ^ 3 / (1 + z ^ 2) ^ 2) * p + 146 / 2025 * (2 * p / 3) ^ 2 - 73 / 405 * (2 * p / 3) * R + (10 / 81 * p) ^ 2 / 0.804 +
    2 * S * (10 / 81) * (3 / 5 * z) ^ 2 + 2.1677 * 0.14 * p ^ 3 with hN
  have hN0 : 0 < N := by
    have q1 : 0 ≤ 2.35204 * z ^ 3 / (1 + z ^ 2) ^ 2 * p := by positivity
    have q2 : 0 ≤ (10 / 81 * p) ^ 2 / 0.804 := by positivity
    have q3 : 0 ≤ 2 * S * (10 / 81) * (3 / 5 * z) ^ 2 := by positivity
    have q4 : 0 ≤ 2.1677 * 0.14 * p ^ 3 := by positivity
    have q5 : p * R ≤ p := by nlinarith
    rw [hN]
    nlinarith
  have hd : 1 < 1 + S * p := by have := mul_pos hsq hp0; linarith
  have hlt : N / (1 + S * p) ^ 2 < N / (1 + S * p) := by
    apply div_lt_div_of_pos_left hN0 (by positivity)
    nlinarith
  have h0 : 0 < N / (1 + S * p) ^ 2 := by positivity
  have : 0.804 / (1 + N / (1 + S * p) / 0.804) < 0.804 / (1 + N / (1 + S * p) ^ 2 / 0.804) := by
    apply div_lt_div_of_pos_left (by norm_num) (by positivity)
    have := div_lt_div_of_pos_right hlt (show (0 : ℝ) < 0.804 by norm_num)
    linarith
  linarith

/-- Two half-filled spin densities with gradient: the energies differ. -/
theorem revtpssx_lt (h : IsGas ρ g) (ha : g.a = 1 / 2) (hb : g.b = 1 / 2) (hga : g.gaa = 1 / 4) (hgb : g.gbb = 1 / 4)
    (hta : g.taua = (1 / 8 + tauTF 1) / 2) (htb : g.taub = (1 / 8 + tauTF 1) / 2) : revtpssx.evalR ρ < revtpssX g := by
  have := revtpss_enh_lt
  have hx : exUnif 1 < 0 := by
    have : 0 < (3 / Real.pi) ^ (1 / 3 : ℝ) * 1 ^ (4 / 3 : ℝ) := by positivity
    unfold exUnif; nlinarith
  rw [lit_revtpssx h (by rw [hga]; norm_num) (by rw [hgb]; norm_num), revtpssXCode, revtpssX, spinScaled, spinScaled, ha, hb, hga, hgb, hta, htb]
  rw [show (2 * (1 / 2) : ℝ) = 1 by norm_num, show (4 * (1 / 4) : ℝ) = 1 by norm_num, show 2 * ((1 / 8 + tauTF 1) / 2) = 1 / 8 + tauTF 1 by ring]
  have := mul_lt_mul_of_neg_left this hx
  linarith

end XCFun.Fun
