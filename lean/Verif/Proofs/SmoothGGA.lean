/-
Smoothness of the remaining local and gradient-corrected functionals, and signs of the simplified PBE and of the PZ81 correlation.
-/
import Verif.Proofs.CorrNeg

namespace XCFun.Fun
open Spec Expr

variable {ρ : Field → ℝ}

/-! ### Simplified PBE -/

theorem spbeHR_bounds {G bg e u t : ℝ} (hb : 0 < bg) (hGb : G ≤ bg) (he : e < 0) (hu : 0 < u) (ht : 0 ≤ t) :
    G * u * Real.log (1 + bg * t / (1 + t * (bg / (Real.exp (-e / (bg * u)) - 1)))) < -e := by
  have hE : 1 < Real.exp (-e / (bg * u)) := by
    rw [Real.one_lt_exp_iff]; apply div_pos <;> [linarith; positivity]
  have hx : 0 < Real.exp (-e / (bg * u)) - 1 := by linarith
  set X := Real.exp (-e / (bg * u)) - 1 with hX
  have hden : 0 < 1 + t * (bg / X) := by positivity
  have hq : 0 ≤ bg * t / (1 + t * (bg / X)) := by positivity
  have hlt : bg * t / (1 + t * (bg / X)) < X := by
    rw [div_lt_iff₀ hden]
    have : X * (t * (bg / X)) = bg * t := by field_simp
    nlinarith
  have hl : Real.log (1 + bg * t / (1 + t * (bg / X))) < -e / (bg * u) := by
    rw [Real.log_lt_iff_lt_exp (by linarith)]
    linarith
  rw [lt_div_iff₀ (by positivity)] at hl
  have hl0 : 0 ≤ Real.log (1 + bg * t / (1 + t * (bg / X))) := Real.log_nonneg (by linarith)
  have : G * u * Real.log (1 + bg * t / (1 + t * (bg / X))) ≤ bg * u * Real.log (1 + bg * t / (1 + t * (bg / X))) := by gcongr
  linarith

theorem spbec_t2_nonneg (h : Sound ρ) : NonnegReg ρ ((rcbrt (Real.pi / 3) / 16 : ℝ) * d.gnn * d.n_m13 / pow2 (phi * d.n)) := by
  signs h
  have := phi_pos h
  have : 0 < rcbrt (Real.pi / 3) := by unfold rcbrt; positivity
  rg

theorem spbec_reg (h : Sound ρ) : spbec.Reg ρ := by
  have hb : 0 < spbecBetaGamma := by norm_num [spbecBetaGamma, spbecGamm]
  have ht := spbec_t2_nonneg h
  have hu := u3_pos h
  have he := vwn5_eps_reg h
  have hn := vwn5_eps_neg h
  have hX : PosReg ρ (expm1 (-vwn5_eps / ((spbecBetaGamma : Expr Field) * pow3 phi))) := by
    refine ⟨by rg, ?_⟩
    rw [evalR_expm1, sub_pos, Real.one_lt_exp_iff, evalR_div, evalR_neg, evalR_mul, evalR_lit]
    exact div_pos (by linarith) (mul_pos hb hu.pos)
  unfold spbec H_spbe spbecG
  rg

theorem spbec_neg (h : Sound ρ) : spbec.evalR ρ < 0 := by
  have hb : 0 < spbecBetaGamma := by norm_num [spbecBetaGamma, spbecGamm]
  have := spbeHR_bounds (G := spbecGamm) hb (by norm_num [spbecBetaGamma, spbecGamm]) (vwn5_eps_neg h)
    (u3_pos h).pos (spbec_t2_nonneg h).nonneg
  apply mul_neg_of_pos_of_neg h.n
  have e : (H_spbe ((rcbrt (Real.pi / 3) / 16 : ℝ) * d.gnn * d.n_m13 / pow2 (phi * d.n)) vwn5_eps (pow3 phi)).evalR ρ < -vwn5_eps.evalR ρ := by
    simp only [H_spbe, spbecG, evalR_mul, evalR_lit, evalR_log, evalR_add, evalR_one, evalR_div, evalR_expm1, evalR_neg]
    simp only [evalR_mul, evalR_lit, evalR_div] at this
    exact this
  change vwn5_eps.evalR ρ + (H_spbe _ vwn5_eps (pow3 phi)).evalR ρ < 0
  linarith

/-! ### Functionals that use the spin densities and the total density together -/

section
variable (h : Sound ρ) (hc : Consistent ρ)
include h hc

theorem two_a_div : 2 * ρ .a / ρ .n = 1 + ρ .zeta := by
  have := h.n
  rw [h.zeta]; field_simp; have := hc.sum; have := hc.diff; linarith

theorem two_b_div : 2 * ρ .b / ρ .n = 1 - ρ .zeta := by
  have := h.n
  rw [h.zeta]; field_simp; have := hc.sum; have := hc.diff; linarith

theorem uf_eval (p : ℝ) : (uf p).evalR ρ = (1 + ρ .zeta) ^ p + (1 - ρ .zeta) ^ p := by
  have ha := h.a
  have hb := h.b
  have hn := h.n
  have e : (uf p).evalR ρ = (ρ .a ^ p + ρ .b ^ p) * (2 / ρ .n) ^ p := by
    simp only [uf, evalR_mul, evalR_add, evalR_pow, evalR_div, evalR_ofNat]; rfl
  rw [e, ← two_a_div h hc, ← two_b_div h hc, add_mul, ← Real.mul_rpow ha.le (by positivity), ← Real.mul_rpow hb.le (by positivity)]
  congr 2 <;> ring

end

theorem Gc_evalR {r : Expr Field} (hr : 0 < r.evalR ρ) (A a1 b1 b2 b3 b4 : ℝ) :
    (Gc r A a1 b1 b2 b3 b4 1).evalR ρ = eoptR ⟨A, a1, b1, b2, b3, b4⟩ √(r.evalR ρ) := by
  have e : r.evalR ρ ^ (1 + 1 : ℝ) = √(r.evalR ρ) ^ 4 := by
    rw [show (1 + 1 : ℝ) = (2 : ℕ) by norm_num, Real.rpow_natCast, show 4 = 2 * 2 by rfl, pow_mul, Real.sq_sqrt hr.le]
  have e2 : √(r.evalR ρ) * √(r.evalR ρ) = r.evalR ρ := Real.mul_self_sqrt hr.le
  simp only [Gc, eoptR, evalR_mul, evalR_add, evalR_lit, evalR_one, evalR_log, evalR_div, evalR_ofScientific, evalR_sqrt, evalR_pow]
  rw [e, mul_assoc a1, e2]
  congr 4
  ring

theorem uf_pos (h : Sound ρ) (p : ℝ) : PosReg ρ (uf p) := by
  signs h
  unfold uf; rg

theorem Gc_reg {r : Expr Field} (hr : PosReg ρ r) {A a1 b1 b2 b3 b4 p : ℝ} (hA : 0 < A) (h1 : 0 < b1) (h2 : 0 < b2) (h3 : 0 < b3)
    (h4 : 0 < b4) : (Gc r A a1 b1 b2 b3 b4 p).Reg ρ := by
  unfold Gc; rg

theorem two_cbrt_pos : (0 : ℝ) < 2 * (2 : ℝ) ^ (1 / 3 : ℝ) - 2 := by have := cbrt_two_bounds; linarith

theorem pw91cEc_reg (h : Sound ρ) : pw91cEc.Reg ρ := by
  signs h
  have pr : PosReg ρ d.r_s := by rg
  have hc' : PosReg ρ (Expr.lit (2 * 2 ^ (1 / 3 : ℝ) - 2)) := pos_lit two_cbrt_pos
  have hu := uf_pos h (4 / 3)
  have g1 := Gc_reg (p := 1) (a1 := 0.11125) pr (A := 0.016887) (b1 := 10.357) (b2 := 3.6231) (b3 := 0.88026) (b4 := 0.49671)
    (by norm_num) (by norm_num) (by norm_num) (by norm_num) (by norm_num)
  have g2 := Gc_reg (p := 1) (a1 := 0.21370) pr (A := 0.031091) (b1 := 7.5957) (b2 := 3.5876) (b3 := 1.6382) (b4 := 0.49294)
    (by norm_num) (by norm_num) (by norm_num) (by norm_num) (by norm_num)
  have g3 := Gc_reg (p := 1) (a1 := 0.20548) pr (A := 0.015545) (b1 := 14.1189) (b2 := 6.1977) (b3 := 3.3662) (b4 := 0.62517)
    (by norm_num) (by norm_num) (by norm_num) (by norm_num) (by norm_num)
  unfold pw91cEc
  rg

theorem pw91cEc_neg (h : Sound ρ) (hc : Consistent ρ) : pw91cEc.evalR ρ < 0 := by
  have hs : 0 < √(ρ .r_s) := Real.sqrt_pos.2 h.r_s_pos
  have hr : 0 < d.r_s.evalR ρ := h.r_s_pos
  let q0 : Pw92P := ⟨0.031091, 0.21370, 7.5957, 3.5876, 1.6382, 0.49294⟩
  let q1 : Pw92P := ⟨0.015545, 0.20548, 14.1189, 6.1977, 3.3662, 0.62517⟩
  let q2 : Pw92P := ⟨0.016887, 0.11125, 10.357, 3.6231, 0.88026, 0.49671⟩
  have g0 : q0.Good := by constructor <;> norm_num [q0]
  have g1 : q1.Good := by constructor <;> norm_num [q1]
  have g2 : q2.Good := by constructor <;> norm_num [q2]
  have r2 : -eoptR q2 √(ρ .r_s) ≤ 2 * -eoptR q0 √(ρ .r_s) := by
    refine eoptR_le (m := 3.5) g0 g2 ?_ hs ?_ ?_ ?_ ?_ ?_ ?_ <;> norm_num [q0, q2]
  have r1 : -eoptR q0 √(ρ .r_s) ≤ 2.2 * -eoptR q1 √(ρ .r_s) := by
    refine eoptR_le (m := 1.03) g1 g0 ?_ hs ?_ ?_ ?_ ?_ ?_ ?_ <;> norm_num [q0, q1]
  have n0 := eoptR_neg g0 hs
  have n2 := eoptR_neg g2 hs
  have hz := abs_lt.1 h.abs_zeta
  have hb := spinf_bounds hz.1 hz.2
  have hp := two_cbrt_pos
  have e : pw91cEc.evalR ρ = eoptR q0 √(ρ .r_s) - eoptR q2 √(ρ .r_s) *
      (((1 + ρ .zeta) ^ (4 / 3 : ℝ) + (1 - ρ .zeta) ^ (4 / 3 : ℝ) - 2) / (2 * 2 ^ (1 / 3 : ℝ) - 2)) * (1 - ρ .zeta ^ 4) / 1.709921 +
      (eoptR q1 √(ρ .r_s) - eoptR q0 √(ρ .r_s)) *
      (((1 + ρ .zeta) ^ (4 / 3 : ℝ) + (1 - ρ .zeta) ^ (4 / 3 : ℝ) - 2) / (2 * 2 ^ (1 / 3 : ℝ) - 2)) * ρ .zeta ^ 4 := by
    simp only [pw91cEc, evalR_add, evalR_sub, evalR_mul, evalR_div, evalR_one, evalR_npow, evalR_lit, Gc_evalR hr, uf_eval h hc, evalR_ofNat]
    rfl
  rw [e]
  have := abs_nonneg (ρ .zeta)
  have hw := (div_le_iff₀ hp).2 hb.2
  exact interpolation_neg n0 (by linarith) (by linarith) r2 (div_nonneg hb.1 hp.le) h.abs_zeta (by linarith) (by norm_num)

theorem pw91c_reg (h : Sound ρ) (hc : Consistent ρ) : pw91c.Reg ρ := by
  signs h
  have hE := pw91cEc_reg h
  have hneg := pw91cEc_neg h hc
  have hu := uf_pos h (2 / 3)
  have hnu : 0 < 16 * rcbrt (3 * Real.pi * Real.pi) / Real.pi := by unfold rcbrt; positivity
  have hβ : 0 < 16 * rcbrt (3 * Real.pi * Real.pi) / Real.pi * 0.004235 := by positivity
  have h4 : (0 : ℝ) < √4 := by positivity
  have hgs : PosReg ρ (0.5 * uf (2 / 3)) := by rg
  have hg3 : PosReg ρ (npow (0.5 * uf (2 / 3)) 3) := by rg
  have hX : PosReg ρ (expm1 ((-2) * ((0.09 : ℝ) * pw91cEc) / (npow (0.5 * uf (2 / 3)) 3 *
      (16 * rcbrt (3 * Real.pi * Real.pi) / Real.pi * 0.004235 : ℝ) * (16 * rcbrt (3 * Real.pi * Real.pi) / Real.pi * 0.004235 : ℝ)))) := by
    refine ⟨by rg, ?_⟩
    rw [evalR_expm1, sub_pos, Real.one_lt_exp_iff, evalR_div, evalR_mul, evalR_mul, evalR_mul, evalR_mul, evalR_lit, evalR_lit]
    apply div_pos
    · rw [evalR_neg, evalR_ofNat]; linarith
    · have := hg3.pos; positivity
  unfold pw91c
  rg

/-! ### PZ81 -/

theorem pz81fz_evalR (h : Sound ρ) (hc : Consistent ρ) : pz81fz.evalR ρ =
    ((1 + ρ .zeta) ^ (4 / 3 : ℝ) + (1 - ρ .zeta) ^ (4 / 3 : ℝ) - 2) / (2 * 2 ^ (1 / 3 : ℝ) - 2) := by
  have ha := h.a
  have hb := h.b
  have hn := h.n
  have e : pz81fz.evalR ρ = (2 ^ (4 / 3 : ℝ) * (ρ .a_43 + ρ .b_43) * ρ .n_m13 / ρ .n - 2) / (2 * 2 ^ (1 / 3 : ℝ) - 2) := by
    simp only [pz81fz, evalR_div, evalR_sub, evalR_mul, evalR_add, evalR_lit, evalR_ofNat]; rfl
  have en : ρ .n_m13 / ρ .n = (1 / ρ .n) ^ (4 / 3 : ℝ) := by
    rw [h.n_m13, one_div, Real.inv_rpow hn.le, ← Real.rpow_neg hn.le, show (-(4 / 3) : ℝ) = -1 / 3 - 1 by norm_num, Real.rpow_sub hn, Real.rpow_one]
  rw [e, mul_div_assoc, en, ← two_a_div h hc, ← two_b_div h hc, h.a_43, h.b_43, mul_add, add_mul, ← Real.mul_rpow (by norm_num) ha.le,
    ← Real.mul_rpow (by norm_num) hb.le, ← Real.mul_rpow (by positivity) (by positivity), ← Real.mul_rpow (by positivity) (by positivity),
    mul_one_div, mul_one_div]

theorem pz81eps_neg (h : Sound ρ) (hc : Consistent ρ) : pz81eps.evalR ρ < 0 := by
  have hz := abs_lt.1 h.abs_zeta
  have hb := spinf_bounds hz.1 hz.2
  have hp := two_cbrt_pos
  have hr := h.r_s_pos
  have f0 : 0 ≤ pz81fz.evalR ρ := by rw [pz81fz_evalR h hc]; exact div_nonneg hb.1 hp.le
  have f1 : pz81fz.evalR ρ ≤ 1 := by
    rw [pz81fz_evalR h hc, div_le_one hp]
    have := h.abs_zeta
    nlinarith
  have mix : ∀ x y : ℝ, x < 0 → y < 0 → x + (y - x) * pz81fz.evalR ρ < 0 := by
    intro x y hx hy
    have : x + (y - x) * pz81fz.evalR ρ = x * (1 - pz81fz.evalR ρ) + y * pz81fz.evalR ρ := by ring
    rw [this]
    rcases f0.lt_or_eq with hf | hf
    · have := mul_neg_of_neg_of_pos hy hf
      have := mul_nonpos_of_nonpos_of_nonneg hx.le (sub_nonneg.2 f1)
      linarith
    · rw [← hf]; linarith
  unfold pz81eps
  rw [evalR_iflt]
  have e1 : d.r_s.evalR ρ = ρ .r_s := rfl
  split
  · next hlt =>
    have hlt : ρ .r_s < 1 := hlt
    have hl := Real.log_neg hr hlt
    refine mix _ _ ?_ ?_ <;>
    · simp only [Ehd, evalR_add, evalR_mul, evalR_lit, evalR_log, e1]
      nlinarith
  · refine mix _ _ ?_ ?_ <;>
    · simp only [Eld, evalR_div, evalR_add, evalR_mul, evalR_lit, evalR_one, evalR_sqrt, e1]
      apply div_neg_of_neg_of_pos (by norm_num)
      positivity

theorem pz81c_neg (h : Sound ρ) (hc : Consistent ρ) : pz81c.evalR ρ < 0 := mul_neg_of_neg_of_pos (pz81eps_neg h hc) h.n

/-! ### Becke and PW91 exchange -/

theorem chi2_sas {n g : Expr Field} (hn : PosReg ρ n) (hg : NonnegReg ρ g) (h0 : g.evalR ρ * n.evalR ρ ^ (-8 / 3 : ℝ) ≠ 0.5) :
    NonnegReg ρ (Expr.sqrtxAsinhSqrtx (g * Expr.pow n (-8 / 3))) := by
  have hc : NonnegReg ρ (g * Expr.pow n (-8 / 3)) := by rg
  exact ⟨(Reg_sqrtxAsinhSqrtx _ _).2 ⟨hc.reg, by have := hc.nonneg; linarith, h0⟩, sas_nonneg hc.nonneg⟩

theorem cLda_pos : 0 < cLda := by rw [cLda_eq]; exact cx_pos
theorem beckeD_pos : 0 < beckeD := by norm_num [beckeD]

theorem becke_alpha_reg {n g : Expr Field} (hn : PosReg ρ n) (hg : NonnegReg ρ g)
    (h0 : g.evalR ρ * n.evalR ρ ^ (-8 / 3 : ℝ) ≠ 0.5) : (becke_alpha n g).Reg ρ :=
  ⟨⟨trivial, reg_pow hn⟩, becke_corr_reg hn hg h0⟩

theorem reg_div_ne {x y : Expr Field} (hx : x.Reg ρ) (hy : y.Reg ρ) (h0 : y.evalR ρ ≠ 0) : (x / y).Reg ρ := by
  rw [Reg_div]; exact ⟨hx, hy, h0⟩

/-- The parts of the range-separated Becke exchange. -/
theorem becke_sr_parts {m n g : Expr Field} (hm : m.Reg ρ) (hm0 : m.evalR ρ ≠ 0) (hn : PosReg ρ n) (hg : NonnegReg ρ g)
    (h0 : g.evalR ρ * n.evalR ρ ^ (-8 / 3 : ℝ) ≠ 0.5) :
    let chi2 := g * Expr.pow n (-8 / 3)
    let K := 2 * ((cLda : Expr Field) + ((beckeD : Expr Field) * chi2) / (1 + (6 * beckeD : ℝ) * Expr.sqrtxAsinhSqrtx chi2))
    let a := m * Expr.sqrt K / ((6 * √Real.pi : ℝ) * Expr.pow n (1 / 3))
    PosReg ρ K ∧ a.Reg ρ ∧ (Expr.erf (1 / (2 * a))).Reg ρ ∧ (Expr.expm1 ((-1) / (4 * a * a))).Reg ρ := by
  intro chi2 K a
  have hs := chi2_sas hn hg h0
  have hc := cLda_pos
  have hD := beckeD_pos
  have hpi := Real.pi_pos
  have hpi' : 0 < √Real.pi := Real.sqrt_pos.2 hpi
  have hK : PosReg ρ K := by rg
  have hs2 : PosReg ρ (Expr.sqrt K / ((6 * √Real.pi : ℝ) * Expr.pow n (1 / 3))) := by rg
  have ha : a.Reg ρ := by rg
  have ha0 : a.evalR ρ ≠ 0 := by
    simp only [a, evalR_div, evalR_mul]
    have := hs2.pos
    rw [evalR_div, evalR_mul] at this
    rw [mul_div_assoc]
    exact mul_ne_zero hm0 this.ne'
  refine ⟨hK, ha, (Reg_erf _ _).2 (reg_div_ne trivial ⟨trivial, ha⟩ ?_), (Reg_expm1 _ _).2 (reg_div_ne trivial ⟨⟨trivial, ha⟩, ha⟩ ?_)⟩
  · rw [evalR_mul, evalR_ofNat]; exact mul_ne_zero two_ne_zero ha0
  · rw [evalR_mul, evalR_mul, evalR_ofNat]; exact mul_ne_zero (mul_ne_zero (by norm_num) ha0) ha0

theorem becke_sr_reg {m n g : Expr Field} (hm : m.Reg ρ) (hm0 : m.evalR ρ ≠ 0) (hn : PosReg ρ n) (hg : NonnegReg ρ g)
    (h0 : g.evalR ρ * n.evalR ρ ^ (-8 / 3 : ℝ) ≠ 0.5) : (becke_sr m n g).Reg ρ := by
  obtain ⟨hK, ha, he, hb⟩ := becke_sr_parts hm hm0 hn hg h0
  unfold becke_sr
  refine ⟨⟨⟨trivial, reg_pow hn⟩, hK.reg⟩, ⟨trivial, ⟨⟨trivial, ha⟩, ⟨⟨trivial, he⟩, ⟨⟨trivial, ha⟩, hb, ⟨⟨⟨trivial, ha⟩, ha⟩, hb⟩, trivial⟩⟩⟩⟩⟩

theorem becke_cam_reg {al be m n g : Expr Field} (hal : al.Reg ρ) (hbe : be.Reg ρ) (hm : m.Reg ρ) (hm0 : m.evalR ρ ≠ 0) (hn : PosReg ρ n)
    (hg : NonnegReg ρ g) (h0 : g.evalR ρ * n.evalR ρ ^ (-8 / 3 : ℝ) ≠ 0.5) : (becke_cam al be m n g).Reg ρ := by
  obtain ⟨hK, ha, he, hb⟩ := becke_sr_parts hm hm0 hn hg h0
  have h8 : (be * 8 / 3 : Expr Field).Reg ρ := reg_div ⟨hbe, trivial⟩ (pos_ofNat 3)
  unfold becke_cam
  refine ⟨⟨⟨trivial, reg_pow hn⟩, hK.reg⟩, ⟨⟨trivial, hal⟩, ⟨⟨h8, ha⟩, ⟨⟨trivial, he⟩, ⟨⟨trivial, ha⟩, hb, ⟨⟨⟨trivial, ha⟩, ha⟩, hb⟩, trivial⟩⟩⟩⟩⟩

theorem pw91_enhancement_reg {q : ParamAB} (hq : q.Good) {n g : Expr Field} (hn : PosReg ρ n) (hg : NonnegReg ρ g)
    (h0 : q.p1 ^ 2 * (S2 n g).evalR ρ ≠ 0.5) : (pw91xk_enhancement q n g).Reg ρ := by
  obtain ⟨g0, g1, g2, g3, g4, g5⟩ := hq
  have hS := S2_reg hn hg
  have hx : NonnegReg ρ (((q.p1 ^ 2 : ℝ) : Expr Field) * S2 n g) := by
    refine ⟨⟨trivial, hS.reg⟩, mul_nonneg (by rw [evalR_lit]; positivity) hS.nonneg⟩
  have hs : NonnegReg ρ (Expr.sqrtxAsinhSqrtx (((q.p1 ^ 2 : ℝ) : Expr Field) * S2 n g)) :=
    ⟨(Reg_sqrtxAsinhSqrtx _ _).2 ⟨hx.reg, by have := hx.nonneg; linarith, h0⟩, sas_nonneg hx.nonneg⟩
  unfold pw91xk_enhancement
  rg

/-! ### Range-separated local functionals -/

theorem esrx_reg {n m : Expr Field} (hn : PosReg ρ n) (hm : m.Reg ρ)
    (h0 : ∀ c ∈ [1e-9, 100, 1e9], m.evalR ρ / (2 * (3.093667726280136 * (2 * n.evalR ρ) ^ (1 / 3 : ℝ))) ≠ c) :
    (esrx_ldaerfspin n m).Reg ρ := by
  have hpi := Real.pi_pos
  have ha : (m / (2 * (Expr.lit 3.093667726280136 * Expr.pow (2 * n) (1 / 3)))).Reg ρ := by rg
  have hcube : (Expr.pow (24 * (2 * n) / Expr.lit Real.pi) (1 / 3)).Reg ρ := by rg
  have e : (m / (2 * (Expr.lit 3.093667726280136 * Expr.pow (2 * n) (1 / 3)))).evalR ρ =
      m.evalR ρ / (2 * (3.093667726280136 * (2 * n.evalR ρ) ^ (1 / 3 : ℝ))) := by
    simp only [evalR_div, evalR_mul, evalR_ofNat, evalR_lit, evalR_pow]
  have hr : n.Reg ρ := hn.reg
  unfold esrx_ldaerfspin
  set A := m / (2 * (Expr.lit 3.093667726280136 * Expr.pow (2 * n) (1 / 3))) with hA
  refine (Reg_iflt _ _ _ _ _).2 ⟨ha, trivial, by rw [e]; exact h0 _ (by simp), ?_⟩
  split
  · rg
  · next hge =>
    have hpos : PosReg ρ A := by
      refine ⟨ha, lt_of_lt_of_le ?_ (not_lt.1 hge)⟩
      rw [evalR_ofScientific]; norm_num
    refine (Reg_iflt _ _ _ _ _).2 ⟨ha, trivial, by rw [e]; exact h0 _ (by simp), ?_⟩
    split
    · rg
    · refine (Reg_iflt _ _ _ _ _).2 ⟨ha, trivial, by rw [e]; exact h0 _ (by simp), ?_⟩
      split
      · rg
      · trivial

theorem Acoul_neg : Acoul < 0 := by
  have : Real.log 2 < 1 := by have := Real.log_lt_sub_one_of_pos (x := 2) (by norm_num) (by norm_num); linarith
  have := Real.pi_pos
  unfold Acoul
  exact div_neg_of_neg_of_pos (by linarith) (by positivity)

theorem Qrpa_reg {x : Expr Field} (hx : NonnegReg ρ x) : (Qrpa x).Reg ρ := by
  have hb : 0 < 3.44851 - 3 / (2 * Real.pi * Acoul) * (4 / (9 * Real.pi)) ^ (1 / 3 : ℝ) := by
    have hA := Acoul_neg
    have hpi := Real.pi_pos
    have : 3 / (2 * Real.pi * Acoul) < 0 := div_neg_of_pos_of_neg (by norm_num) (mul_neg_of_pos_of_neg (by positivity) hA)
    have := mul_neg_of_neg_of_pos this (show 0 < (4 / (9 * Real.pi)) ^ (1 / 3 : ℝ) by positivity)
    linarith
  unfold Qrpa
  rg

theorem dpol_reg {x : Expr Field} (hx : PosReg ρ x) : (dpol x).Reg ρ := by
  unfold dpol
  rg

theorem ldaerfc_reg (h : Sound ρ) (hmu : 0 ≤ ρ (.param RANGESEP_MU)) : ldaerfc.Reg ρ := by
  signs h
  have p1 : PosReg ρ (1 + d.zeta) := ⟨⟨trivial, trivial⟩, by assumption⟩
  have p2 : PosReg ρ (1 - d.zeta) := ⟨⟨trivial, trivial⟩, by assumption⟩
  have hm : NonnegReg ρ (getParam RANGESEP_MU) := ⟨trivial, hmu⟩
  have hphi : PosReg ρ ((pow (1 + d.zeta) (2 / 3) + pow (1 - d.zeta) (2 / 3)) / 2) := by rg
  have hQ : (Qrpa (getParam RANGESEP_MU * sqrt d.r_s / ((pow (1 + d.zeta) (2 / 3) + pow (1 - d.zeta) (2 / 3)) / 2))).Reg ρ := by
    apply Qrpa_reg; rg
  have d1 : (dpol (d.r_s * pow (2 / (1 + d.zeta)) (1 / 3))).Reg ρ := by apply dpol_reg; rg
  have d2 : (dpol (d.r_s * pow (2 / (1 - d.zeta)) (1 / 3))).Reg ρ := by apply dpol_reg; rg
  have hg : (g0f d.r_s).Reg ρ := by unfold g0f; rg
  have he := pw92eps_reg h
  have hs : (0 : ℝ) < √(2 * Real.pi) := by positivity
  unfold ldaerfc ecorrlr
  rg

end XCFun.Fun
