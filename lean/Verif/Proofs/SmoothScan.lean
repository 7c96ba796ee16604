/-
Smoothness of the SCAN family, and bounds of SCAN exchange.
-/
import Verif.Proofs.SmoothMeta

noncomputable section

namespace XCFun.Fun
open Spec Expr

variable {ρ : Field → ℝ}

theorem kF2_pos : 0 < kF2 := by unfold kF2 PI2; positivity

theorem ETA_pos : 0 < ETA := by norm_num [ETA]

/-! ### Interpolation -/

theorem reg_abs {x : Expr Field} (hx : x.Reg ρ) (h0 : x.evalR ρ ≠ 0) : (Expr.abs x).Reg ρ := by
  unfold Expr.abs
  refine (Reg_iflt _ _ _ _ _).2 ⟨hx, trivial, h0, ?_⟩
  split
  · exact hx
  · exact hx

theorem scanAlpha0_reg {diff unif tauw : Expr Field} (hd : diff.Reg ρ) (hu : PosReg ρ unif) (h : 1e-14 < |diff.evalR ρ|) :
    (scanAlpha 0 diff unif tauw).Reg ρ ∧ (scanAlpha 0 diff unif tauw).evalR ρ = diff.evalR ρ / unif.evalR ρ := by
  have h0 : diff.evalR ρ ≠ 0 := by rintro e; rw [e, abs_zero] at h; norm_num at h
  have e : (1.0e-14 : Expr Field).evalR ρ = 1e-14 := by rw [evalR_ofScientific]; norm_num
  have hlt : (1.0e-14 : Expr Field).evalR ρ < (Expr.abs diff).evalR ρ := by rw [e, evalR_abs]; exact h
  constructor
  · refine (Reg_iflt _ _ _ _ _).2 ⟨trivial, reg_abs hd h0, hlt.ne, ?_⟩
    rw [if_pos hlt]
    exact reg_div hd hu
  · show Expr.evalR ρ (Expr.iflt _ _ _ _) = _
    rw [evalR_iflt, if_pos hlt, evalR_div]

theorem scanAlpha2_reg {diff unif tauw : Expr Field} (hd : diff.Reg ρ) (hu : PosReg ρ unif) (hw : NonnegReg ρ tauw) (h : 1e-14 < |diff.evalR ρ|) :
    (scanAlpha 2 diff unif tauw).Reg ρ ∧
    (scanAlpha 2 diff unif tauw).evalR ρ = diff.evalR ρ / (unif.evalR ρ + 1e-3 * tauw.evalR ρ) := by
  have h0 : diff.evalR ρ ≠ 0 := by rintro e; rw [e, abs_zero] at h; norm_num at h
  have e : (1.0e-14 : Expr Field).evalR ρ = 1e-14 := by rw [evalR_ofScientific]; norm_num
  have hlt : (1.0e-14 : Expr Field).evalR ρ < (Expr.abs diff).evalR ρ := by rw [e, evalR_abs]; exact h
  have := ETA_pos
  constructor
  · refine (Reg_iflt _ _ _ _ _).2 ⟨trivial, reg_abs hd h0, hlt.ne, ?_⟩
    rw [if_pos hlt]
    refine reg_div hd ?_
    rg
  · show Expr.evalR ρ (Expr.iflt _ _ _ _) = _
    rw [evalR_iflt, if_pos hlt, evalR_div, evalR_add, evalR_mul, evalR_lit]
    norm_num [ETA]

theorem scanAlpha1_reg {diff unif tauw : Expr Field} (hd : diff.Reg ρ) (hu : PosReg ρ unif) :
    (scanAlpha 1 diff unif tauw).Reg ρ ∧ (scanAlpha 1 diff unif tauw).evalR ρ =
      (diff.evalR ρ / unif.evalR ρ) ^ 3 / ((diff.evalR ρ / unif.evalR ρ) ^ 2 + 1e-3) := by
  have hq : (diff / unif).Reg ρ := reg_div hd hu
  constructor
  · refine reg_div (reg_npow hq) ⟨⟨(Reg_pow2 _ _).2 hq, trivial⟩, ?_⟩
    rw [evalR_add, evalR_pow2, evalR_lit]
    have : 0 < A_REG := by norm_num [A_REG]
    positivity
  · show Expr.evalR ρ (npow (diff / unif) 3 / (pow2 (diff / unif) + A_REG)) = _
    rw [evalR_div, evalR_npow, evalR_add, evalR_pow2, evalR_lit, evalR_div]
    norm_num [A_REG]

section
variable {c1 c2 cd1 : ℝ} {ie : List ℝ} {α : Expr Field} (hα : α.Reg ρ)
include hα

theorem ief_parts (h1 : α.evalR ρ ≠ 1) : (exp ((-c1 : ℝ) * α / (1 - α))).Reg ρ ∧ (((-cd1 : ℝ) : Expr Field) * exp (c2 / (1 - α))).Reg ρ := by
  have h0 : (1 - α : Expr Field).evalR ρ ≠ 0 := by
    rw [evalR_sub, evalR_one, sub_ne_zero]; exact h1.symm
  have ho : (1 - α : Expr Field).Reg ρ := ⟨trivial, hα⟩
  exact ⟨(Reg_exp _ _).2 (reg_div_ne ⟨trivial, hα⟩ ho h0), trivial, (Reg_exp _ _).2 (reg_div_ne trivial ho h0)⟩

theorem ief0_reg (h1 : α.evalR ρ ≠ 1) : (scanIef 0 c1 c2 cd1 ie α).Reg ρ := by
  obtain ⟨a, b⟩ := ief_parts (c1 := c1) (c2 := c2) (cd1 := cd1) hα h1
  refine (Reg_iflt _ _ _ _ _).2 ⟨hα, trivial, h1, ?_⟩
  split
  · exact a
  · exact b

theorem ieSum_reg : (ieSum ie α).Reg ρ := by
  unfold ieSum
  suffices h : ∀ (l : List (ℝ × ℕ)) (acc : Expr Field), acc.Reg ρ → (l.foldl (fun acc p => acc + p.1 * npow α p.2) acc).Reg ρ from
    h _ _ trivial
  intro l
  induction l with
  | nil => exact fun acc h => h
  | cons p l ih => exact fun acc h => ih _ ⟨h, trivial, reg_npow hα⟩

theorem ief1_reg (h1 : α.evalR ρ ≠ 1e-13) (h2 : α.evalR ρ ≠ 2.5) : (scanIef 1 c1 c2 cd1 ie α).Reg ρ := by
  have e1 : (1.0e-13 : Expr Field).evalR ρ = 1e-13 := by rw [evalR_ofScientific]; norm_num
  have e2 : (2.5 : Expr Field).evalR ρ = 2.5 := by rw [evalR_ofScientific]
  refine (Reg_iflt _ _ _ _ _).2 ⟨hα, trivial, by rw [e1]; exact h1, ?_⟩
  rw [e1]
  split
  case isTrue h =>
    exact (ief_parts (c1 := c1) (c2 := c2) (cd1 := cd1) hα (by intro e; rw [e] at h; norm_num at h)).1
  case isFalse h =>
    refine (Reg_iflt _ _ _ _ _).2 ⟨hα, trivial, by rw [e2]; exact h2, ?_⟩
    rw [e2]
    split
    case isTrue => exact ieSum_reg hα
    case isFalse h' =>
      exact (ief_parts (c1 := c1) (c2 := c2) (cd1 := cd1) hα (by intro e; rw [e] at h'; norm_num at h')).2

end

/-! ### Exchange -/

theorem scanC2_eval : (scanC2).evalR ρ = 0.174 * delF2 IEx := by
  simp only [scanC2, evalR_mul, evalR_neg, evalR_lit, evalR_sub, evalR_one, scanK0]; ring

theorem delF2_IEx : -0.936 < delF2 IEx ∧ delF2 IEx < -0.935 := by
  constructor <;> norm_num [delF2, IEx, List.zipIdx]

theorem scanH1x_reg {p o : Expr Field} (hp : PosReg ρ p) (ho : o.Reg ρ) (i : ℕ) (hi : i ≤ 2) : (scanH1x i p o).Reg ρ := by
  have hpr := hp.reg
  have hmu : 0 < scanMU := by norm_num [scanMU]
  have hk : 0 < scanK1 := by norm_num [scanK1]
  have h12 : ((1 + scanK1 : ℝ) - scanK1 / (1 + p * (scanMU + ALPHA_GE * scanC2 * exp (-pow2 p / ((0.361 : ℝ) ^ 4 : ℝ))) / scanK1) : Expr Field).Reg ρ := by
    have hd : (exp (-pow2 p / ((0.361 : ℝ) ^ 4 : ℝ)) : Expr Field).evalR ρ ≤ 1 := by
      rw [evalR_exp, Real.exp_le_one_iff, evalR_div, evalR_neg, evalR_pow2, evalR_lit]
      apply div_nonpos_of_nonpos_of_nonneg <;> [(have := sq_nonneg (p.evalR ρ); linarith); positivity]
    have hd0 : 0 < (exp (-pow2 p / ((0.361 : ℝ) ^ 4 : ℝ)) : Expr Field).evalR ρ := by rw [evalR_exp]; exact Real.exp_pos _
    have hdr : (exp (-pow2 p / ((0.361 : ℝ) ^ 4 : ℝ)) : Expr Field).Reg ρ :=
      (Reg_exp _ _).2 (reg_div ((Reg_pow2 _ _).2 hpr) (pos_lit (by positivity)))
    have hc : scanC2.Reg ρ := ⟨trivial, trivial, trivial⟩
    have : PosReg ρ ((scanMU : Expr Field) + ALPHA_GE * scanC2 * exp (-pow2 p / ((0.361 : ℝ) ^ 4 : ℝ))) := by
      refine ⟨⟨trivial, ⟨trivial, hc⟩, hdr⟩, ?_⟩
      rw [evalR_add, evalR_lit, evalR_mul, evalR_mul, evalR_lit, scanC2_eval]
      have := delF2_IEx
      have ha : 0 < ALPHA_GE ∧ ALPHA_GE < 0.7425 := by norm_num [ALPHA_GE, ETA]
      have : -0.123 < ALPHA_GE * (0.174 * delF2 IEx) := by nlinarith
      have hneg : ALPHA_GE * (0.174 * delF2 IEx) ≤ 0 := by nlinarith
      have : 0.1234 < scanMU := by norm_num [scanMU]
      nlinarith
    rg
  interval_cases i
  · show Expr.Reg ρ (((1 + scanK1 : ℝ) : Expr Field) - scanK1 / (1 + ((scanMU : Expr Field) * p + ((scanMU * scanMU / scanK1 - 0.112654 : ℝ) : Expr Field) * pow2 p *
        exp ((-(scanMU * scanMU / scanK1 - 0.112654) : ℝ) * p / scanMU) + pow2 ((0.156632 : ℝ) * p + (0.12083 : ℝ) * o * exp ((-0.5 : ℝ) * pow2 o))) / scanK1))
    have hb : 0 < scanMU * scanMU / scanK1 - 0.112654 := by norm_num [scanMU, scanK1]
    have hv : NonnegReg ρ (pow2 ((0.156632 : ℝ) * p + (0.12083 : ℝ) * o * exp ((-0.5 : ℝ) * pow2 o))) := by
      refine ⟨(Reg_pow2 _ _).2 ⟨⟨trivial, hpr⟩, ⟨trivial, ho⟩, (Reg_exp _ _).2 ⟨trivial, (Reg_pow2 _ _).2 ho⟩⟩, ?_⟩
      rw [evalR_pow2]; positivity
    have he : PosReg ρ (exp ((-(scanMU * scanMU / scanK1 - 0.112654) : ℝ) * p / scanMU)) := pos_exp (by rg)
    rg
  · exact h12
  · exact h12

theorem scanDelFx_reg {p α : Expr Field} (hp : p.Reg ρ) (hα : α.Reg ρ) (i : ℕ) : (scanDelFx i p α (1 - α)).Reg ρ := by
  unfold scanDelFx
  split
  · have ho : (1 - α : Expr Field).Reg ρ := ⟨trivial, hα⟩
    have hc : scanC2.Reg ρ := ⟨trivial, trivial, trivial⟩
    have hk : PosReg ρ (scanK1 : Expr Field) := pos_lit (by norm_num [scanK1])
    have h4 : PosReg ρ (1 + npow α 4 : Expr Field) := by
      refine ⟨⟨trivial, reg_npow hα⟩, ?_⟩
      rw [evalR_add, evalR_one, evalR_npow]; positivity
    have k1 : PosReg ρ (((0.232 : ℝ) * 0.232 : ℝ) : Expr Field) := pos_lit (by norm_num)
    have k2 : PosReg ρ (((0.232 : ℝ) ^ 4 : ℝ) : Expr Field) := pos_lit (by norm_num)
    rg
  · trivial

theorem scan_gx_reg {p : Expr Field} (hp : PosReg ρ p) : (1 - exp ((-4.9479 : ℝ) / pow p (1 / 4)) : Expr Field).Reg ρ :=
  ⟨trivial, (Reg_exp _ _).2 (reg_div trivial (pos_pow hp))⟩

theorem SCAN_X_Fx_reg {p α : Expr Field} (hp : PosReg ρ p) (hα : α.Reg ρ) {i j : ℕ} (hj : j ≤ 2)
    (hi : (scanIef i 0.667 0.8 1.24 IEx α).Reg ρ) : (SCAN_X_Fx p α i j).Reg ρ := by
  have hh := scanH1x_reg hp (o := 1 - α) ⟨trivial, hα⟩ j hj
  exact ⟨⟨⟨hh, hi, trivial, hh⟩, scanDelFx_reg hp.reg hα j⟩, scan_gx_reg hp⟩

section
variable {n g t : Expr Field} (hn : PosReg ρ n) (hg : PosReg ρ g) (hg' : 1e-16 < g.evalR ρ) (ht : t.Reg ρ)
include hn hg hg'

theorem scan_p_reg : PosReg ρ (iflt 1.0e-16 (Expr.abs g) (g / ((4 * kF2 : ℝ) * pow n (8 / 3))) (1e-16 / ((4 * kF2 : ℝ) * pow n (8 / 3)))) := by
  have hk := kF2_pos
  have e : (1.0e-16 : Expr Field).evalR ρ = 1e-16 := by rw [evalR_ofScientific]; norm_num
  have hlt : (1.0e-16 : Expr Field).evalR ρ < (Expr.abs g).evalR ρ := by rw [e, evalR_abs, abs_of_pos hg.pos]; exact hg'
  have hq : PosReg ρ (g / ((4 * kF2 : ℝ) * pow n (8 / 3))) := by rg
  constructor
  · refine (Reg_iflt _ _ _ _ _).2 ⟨trivial, reg_abs hg.reg hg.pos.ne', hlt.ne, ?_⟩
    rw [if_pos hlt]
    exact hq.reg
  · rw [evalR_iflt, if_pos hlt]; exact hq.pos

include ht

omit hg' in
theorem scan_diff_reg : (t - g / (8 * n)).Reg ρ ∧ NonnegReg ρ (g / (8 * n)) := by
  have : NonnegReg ρ (g / (8 * n)) := by rg
  exact ⟨⟨ht, this.reg⟩, this⟩

omit hg hg' ht in
theorem tauUnif_pos : PosReg ρ ((0.3 * kF2 : ℝ) * pow n (5 / 3)) ∧ PosReg ρ ((3 / 10 * kF2 : ℝ) * pow n (5 / 3) + TAU_R) := by
  have hk := kF2_pos
  have : 0 < TAU_R := by norm_num [TAU_R]
  constructor <;> rg

theorem get_SCAN_Fx0_reg (h : 1e-14 < |t.evalR ρ - g.evalR ρ / (8 * n.evalR ρ)|)
    (h1 : (t.evalR ρ - g.evalR ρ / (8 * n.evalR ρ)) / (0.3 * kF2 * n.evalR ρ ^ (5 / 3 : ℝ)) ≠ 1) {j : ℕ} (hj : j ≤ 2) :
    (get_SCAN_Fx n g t 0 0 j).Reg ρ := by
  obtain ⟨hd, hw⟩ := scan_diff_reg hn hg ht
  obtain ⟨ha, e⟩ := scanAlpha0_reg (tauw := g / (8 * n)) hd (tauUnif_pos hn).1 (by simpa using h)
  refine SCAN_X_Fx_reg (scan_p_reg hn hg hg') ha hj (ief0_reg ha ?_)
  rw [e]; simpa using h1

theorem get_SCAN_Fx1_reg {a : ℝ} (hq : a = (t.evalR ρ - g.evalR ρ / (8 * n.evalR ρ)) / (0.3 * kF2 * n.evalR ρ ^ (5 / 3 : ℝ) + 1e-4))
    (h1 : a ^ 3 / (a ^ 2 + 1e-3) ≠ 1e-13) (h2 : a ^ 3 / (a ^ 2 + 1e-3) ≠ 2.5) {j : ℕ} (hj : j ≤ 2) : (get_SCAN_Fx n g t 1 1 j).Reg ρ := by
  obtain ⟨hd, hw⟩ := scan_diff_reg hn hg ht
  obtain ⟨ha, e⟩ := scanAlpha1_reg (tauw := g / (8 * n)) hd (tauUnif_pos hn).2
  have hq' : (t - g / (8 * n)).evalR ρ / ((3 / 10 * kF2 : ℝ) * pow n (5 / 3) + TAU_R : Expr Field).evalR ρ = a := by
    rw [hq]; simp only [evalR_sub, evalR_div, evalR_mul, evalR_add, evalR_lit, evalR_ofNat, evalR_pow, TAU_R]; norm_num
  rw [hq'] at e
  exact SCAN_X_Fx_reg (scan_p_reg hn hg hg') ha hj (ief1_reg ha (by rw [e]; exact h1) (by rw [e]; exact h2))

theorem get_SCAN_Fx2_reg (h : 1e-14 < |t.evalR ρ - g.evalR ρ / (8 * n.evalR ρ)|) {a : ℝ}
    (hq : a = (t.evalR ρ - g.evalR ρ / (8 * n.evalR ρ)) / (0.3 * kF2 * n.evalR ρ ^ (5 / 3 : ℝ) + 1e-3 * (g.evalR ρ / (8 * n.evalR ρ))))
    (h1 : a ≠ 1e-13) (h2 : a ≠ 2.5) {j : ℕ} (hj : j ≤ 2) : (get_SCAN_Fx n g t 2 1 j).Reg ρ := by
  obtain ⟨hd, hw⟩ := scan_diff_reg hn hg ht
  obtain ⟨ha, e⟩ := scanAlpha2_reg (tauw := g / (8 * n)) hd (tauUnif_pos hn).1 hw (by simpa using h)
  have e' : (scanAlpha 2 (t - g / (8 * n)) ((0.3 * kF2 : ℝ) * pow n (5 / 3)) (g / (8 * n))).evalR ρ = a := by
    rw [e, hq]; simp only [evalR_sub, evalR_div, evalR_mul, evalR_lit, evalR_ofNat, evalR_pow]
  exact SCAN_X_Fx_reg (scan_p_reg hn hg hg') ha hj (ief1_reg ha (by rw [e']; exact h1) (by rw [e']; exact h2))

end

/-! ### Bounds of SCAN exchange -/

theorem scan_ief_bounds {a c1 c2 cd : ℝ} (hc1 : 0 ≤ c1) (hc2 : 0 ≤ c2) (hcd : 0 ≤ cd) (ha : 0 ≤ a) (h1 : a ≠ 1) :
    (if a < 1 then Real.exp (-c1 * a / (1 - a)) else -cd * Real.exp (c2 / (1 - a))) ≤ 1 ∧
    -cd ≤ (if a < 1 then Real.exp (-c1 * a / (1 - a)) else -cd * Real.exp (c2 / (1 - a))) := by
  split
  case isTrue h =>
    have : 0 < 1 - a := by linarith
    refine ⟨?_, ?_⟩
    · rw [Real.exp_le_one_iff]
      apply div_nonpos_of_nonpos_of_nonneg _ this.le
      have := mul_nonneg hc1 ha
      linarith
    · have := Real.exp_pos (-c1 * a / (1 - a)); linarith
  case isFalse h =>
    have : 1 - a < 0 := by
      have := lt_of_le_of_ne (not_lt.1 h) h1.symm
      linarith
    have he : Real.exp (c2 / (1 - a)) ≤ 1 := by
      rw [Real.exp_le_one_iff]; exact div_nonpos_of_nonneg_of_nonpos hc2 this.le
    have := Real.exp_pos (c2 / (1 - a))
    constructor <;> nlinarith

theorem scanH1x0_bounds {p o : Expr Field} (hp : 0 < p.evalR ρ) : 1 ≤ (scanH1x 0 p o).evalR ρ ∧ (scanH1x 0 p o).evalR ρ ≤ 1.065 := by
  have hb : 0 < scanMU * scanMU / scanK1 - 0.112654 := by norm_num [scanMU, scanK1]
  have hmu : 0 < scanMU := by norm_num [scanMU]
  obtain ⟨y, hy, e⟩ : ∃ y : ℝ, 0 ≤ y ∧ (scanH1x 0 p o).evalR ρ = 1 + 0.065 - 0.065 / (1 + y / 0.065) := by
    refine ⟨scanMU * p.evalR ρ + (scanMU * scanMU / scanK1 - 0.112654) * p.evalR ρ ^ 2 *
      Real.exp (-(scanMU * scanMU / scanK1 - 0.112654) * p.evalR ρ / scanMU) +
      (0.156632 * p.evalR ρ + 0.12083 * o.evalR ρ * Real.exp (-0.5 * o.evalR ρ ^ 2)) ^ 2, by positivity, ?_⟩
    simp only [scanH1x, if_true, evalR_sub, evalR_add, evalR_mul, evalR_div, evalR_lit, evalR_one, evalR_pow2, evalR_exp]
    norm_num [scanK1]
  rw [e]
  have := pbe_form (κ := 0.065) (by norm_num) hy
  exact ⟨this.1, this.2.trans (by norm_num)⟩

theorem scanFx_bounds {p α : Expr Field} (hp : 0 < p.evalR ρ) (ha : 0 ≤ α.evalR ρ) (h1 : α.evalR ρ ≠ 1) :
    0 < (SCAN_X_Fx p α 0 0).evalR ρ ∧ (SCAN_X_Fx p α 0 0).evalR ρ < 1.174 := by
  have hh := scanH1x0_bounds (o := 1 - α) hp
  have e : (SCAN_X_Fx p α 0 0).evalR ρ = ((scanH1x 0 p (1 - α)).evalR ρ + (scanIef 0 0.667 0.8 1.24 IEx α).evalR ρ *
      (1.174 - (scanH1x 0 p (1 - α)).evalR ρ)) * (1 - Real.exp (-4.9479 / p.evalR ρ ^ (1 / 4 : ℝ))) := by
    simp only [SCAN_X_Fx, scanDelFx, evalR_add, evalR_sub, evalR_mul, evalR_lit, evalR_one, evalR_exp, evalR_div, evalR_pow]
    norm_num [scanK0]
  have ei : (scanIef 0 0.667 0.8 1.24 IEx α).evalR ρ =
      if α.evalR ρ < 1 then Real.exp (-0.667 * α.evalR ρ / (1 - α.evalR ρ)) else -1.24 * Real.exp (0.8 / (1 - α.evalR ρ)) := by
    simp only [scanIef, if_true, evalR_iflt, evalR_one, evalR_exp, evalR_div, evalR_mul, evalR_lit, evalR_sub]
  have hi := scan_ief_bounds (c1 := 0.667) (c2 := 0.8) (cd := 1.24) (by norm_num) (by norm_num) (by norm_num) ha h1
  rw [← ei] at hi
  have hx : 0 < p.evalR ρ ^ (1 / 4 : ℝ) := by positivity
  have he : Real.exp (-4.9479 / p.evalR ρ ^ (1 / 4 : ℝ)) < 1 := by
    rw [Real.exp_lt_one_iff]; exact div_neg_of_neg_of_pos (by norm_num) hx
  have he0 := Real.exp_pos (-4.9479 / p.evalR ρ ^ (1 / 4 : ℝ))
  rw [e]
  set h := (scanH1x 0 p (1 - α)).evalR ρ
  set i := (scanIef 0 0.667 0.8 1.24 IEx α).evalR ρ
  set ex := Real.exp (-4.9479 / p.evalR ρ ^ (1 / 4 : ℝ))
  have b1 : 0 < h + i * (1.174 - h) := by nlinarith [mul_nonneg (show 0 ≤ i + 1.24 by linarith [hi.2]) (show 0 ≤ 1.174 - h by linarith [hh.2])]
  have b2 : h + i * (1.174 - h) ≤ 1.174 := by nlinarith [mul_nonneg (show 0 ≤ 1 - i by linarith [hi.1]) (show 0 ≤ 1.174 - h by linarith [hh.2])]
  constructor
  · exact mul_pos b1 (by linarith)
  · nlinarith

/-! ### Correlation -/

theorem p_eu_eq : p_eu = pw92_0 := by simp only [p_eu, pw92_0, Pw92P.mk.injEq]; norm_num
theorem p_ep_eq : p_ep = pw92_1 := by simp only [p_ep, pw92_1, Pw92P.mk.injEq]; norm_num
theorem p_alfm_eq : p_alfm = pw92_2 := by simp only [p_alfm, pw92_2, Pw92P.mk.injEq]; norm_num

theorem gcorG_evalR {P : Pw92P} (hP : P.Good) {r : Expr Field} (hr : 0 < r.evalR ρ) :
    (gcorG P r (sqrt r)).evalR ρ = eoptR P √(r.evalR ρ) := by
  obtain ⟨h0, h1, h2, h3, h4, h5⟩ := hP
  have hs : 0 < √(r.evalR ρ) := Real.sqrt_pos.2 hr
  have e2 : √(r.evalR ρ) * √(r.evalR ρ) = r.evalR ρ := Real.mul_self_sqrt hr.le
  simp only [gcorG, gcorQ1, eoptR, evalR_mul, evalR_add, evalR_lit, evalR_one, evalR_log, evalR_div, evalR_sqrt]
  rw [mul_assoc P.t1, e2]
  congr 3
  have : (0.5 : ℝ) = 1 / 2 := by norm_num
  rw [this]
  generalize √(r.evalR ρ) = x at hs
  field_simp

theorem gcorG_reg {P : Pw92P} (hP : P.Good) {r x : Expr Field} (hr : r.Reg ρ) (hx : PosReg ρ x) : (gcorG P r x).Reg ρ := by
  obtain ⟨h0, h1, h2, h3, h4, h5⟩ := hP
  unfold gcorG gcorQ1
  rg

section
variable (h : Sound ρ)
include h

/-- the Wigner-Seitz radius of SCAN_like_eps.hpp:279 -/
theorem scan_rs_pos : PosReg ρ (pow ((4 * Real.pi : ℝ) * d.n / 3) (-(1 / 3))) := by
  signs h
  rg

theorem scan_ufunc (p : ℝ) : PosReg ρ (ufunc d.zeta p) := by
  signs h
  have p1 : PosReg ρ (1 + d.zeta) := ⟨⟨trivial, trivial⟩, by assumption⟩
  have p2 : PosReg ρ (1 - d.zeta) := ⟨⟨trivial, trivial⟩, by assumption⟩
  exact pos_add (pos_pow p1) (pos_pow p2).weak

theorem lsda1_reg {r : Expr Field} (hr : PosReg ρ r) : (lsda1 r (sqrt r) d.zeta).Reg ρ := by
  have hu := (scan_ufunc h (4 / 3)).reg
  have hx := pos_sqrt hr
  have g1 : (gcorG p_eu r (sqrt r)).Reg ρ := by rw [p_eu_eq]; exact gcorG_reg pw92_0_good hr.reg hx
  have g2 : (gcorG p_ep r (sqrt r)).Reg ρ := by rw [p_ep_eq]; exact gcorG_reg pw92_1_good hr.reg hx
  have g3 : (gcorG p_alfm r (sqrt r)).Reg ρ := by rw [p_alfm_eq]; exact gcorG_reg pw92_2_good hr.reg hx
  have k1 : PosReg ρ (scanGAM : Expr Field) := pos_lit (by norm_num [scanGAM])
  have k2 : PosReg ρ (scanFZZ : Expr Field) := pos_lit (by norm_num [scanFZZ, scanGAM])
  have hz : (d.zeta : Expr Field).Reg ρ := trivial
  unfold lsda1
  rg

theorem lsda1_neg {r : Expr Field} (hr : 0 < r.evalR ρ) : (lsda1 r (sqrt r) d.zeta).evalR ρ < 0 := by
  have hs : 0 < √(r.evalR ρ) := Real.sqrt_pos.2 hr
  have hq := pw92_ratios hs
  have hz := abs_lt.1 h.abs_zeta
  have hb := spinf_bounds hz.1 hz.2
  have hc := cbrt_two_bounds
  have hg : (0 : ℝ) < scanGAM := by norm_num [scanGAM]
  have ha := abs_nonneg (ρ .zeta)
  set w := ((1 + ρ .zeta) ^ (4 / 3 : ℝ) + (1 - ρ .zeta) ^ (4 / 3 : ℝ) - 2) / scanGAM with hw
  have hw0 : 0 ≤ w := div_nonneg hb.1 hg.le
  have hw1 : w ≤ 1.0005 * |ρ .zeta| := by
    rw [hw, div_le_iff₀ hg]
    refine hb.2.trans ?_
    have : 2 * 2 ^ (1 / 3 : ℝ) - 2 ≤ 1.0005 * scanGAM := by
      have : (0.5199 : ℝ) < 1.0005 * scanGAM := by norm_num [scanGAM]
      have e : (1.25995 ^ 3 : ℝ) ^ (1 / 3 : ℝ) = 1.25995 := by
        rw [← Real.rpow_natCast, ← Real.rpow_mul (by norm_num)]; norm_num
      have : (2 : ℝ) ^ (1 / 3 : ℝ) < 1.25995 := by
        rw [← e]; exact Real.rpow_lt_rpow (by norm_num) (by norm_num) (by norm_num)
      linarith
    nlinarith
  have e : (lsda1 r (sqrt r) d.zeta).evalR ρ = eoptR pw92_0 √(r.evalR ρ) - eoptR pw92_2 √(r.evalR ρ) * w * (1 - ρ .zeta ^ 4) / scanFZZ +
      (eoptR pw92_1 √(r.evalR ρ) - eoptR pw92_0 √(r.evalR ρ)) * w * ρ .zeta ^ 4 := by
    have g1 : (gcorG p_eu r (sqrt r)).evalR ρ = eoptR pw92_0 √(r.evalR ρ) := by
      rw [p_eu_eq]; exact gcorG_evalR pw92_0_good hr
    have g2 : (gcorG p_ep r (sqrt r)).evalR ρ = eoptR pw92_1 √(r.evalR ρ) := by
      rw [p_ep_eq]; exact gcorG_evalR pw92_1_good hr
    have g3 : (gcorG p_alfm r (sqrt r)).evalR ρ = eoptR pw92_2 √(r.evalR ρ) := by
      rw [p_alfm_eq]; exact gcorG_evalR pw92_2_good hr
    have hz' : (d.zeta : Expr Field).evalR ρ = ρ .zeta := rfl
    simp only [lsda1, evalR_add, evalR_sub, evalR_mul, evalR_div, evalR_one, evalR_npow, evalR_lit, evalR_ufunc, evalR_ofNat, g1, g2, g3, hz']
    rw [hw]
    ring
  rw [e]
  exact interpolation_neg (eoptR_neg pw92_0_good hs) hq.2 (by have := eoptR_neg pw92_2_good hs; linarith) hq.1 hw0 h.abs_zeta hw1
    (by norm_num [scanFZZ, scanGAM])

end

/-- One minus an inverse fourth root. -/
theorem inv_root_le {y : ℝ} (hy : 0 ≤ y) : 0 < 1 / (1 + y) ^ (1 / 4 : ℝ) ∧ 1 / (1 + y) ^ (1 / 4 : ℝ) ≤ 1 := by
  have : 1 ≤ (1 + y) ^ (1 / 4 : ℝ) := Real.one_le_rpow (by linarith) (by norm_num)
  refine ⟨by positivity, ?_⟩
  rw [div_le_one (by linarith)]; exact this

/-- The gradient correction keeps a negative energy negative. -/
theorem scanH_bounds {c e w g : ℝ} (hc : 0 < c) (hw : w = Real.exp (-e / c) - 1) (he : e < 0) (hg : 0 < g) (hg1 : g ≤ 1) :
    0 < 1 + w * (1 - g) ∧ 0 ≤ c * Real.log (1 + w * (1 - g)) ∧ e + c * Real.log (1 + w * (1 - g)) < 0 := by
  have hE : 1 < Real.exp (-e / c) := by rw [Real.one_lt_exp_iff]; apply div_pos <;> linarith
  have hw0 : 0 < w := by rw [hw]; linarith
  have hle : 1 ≤ 1 + w * (1 - g) := by nlinarith
  have hlt : 1 + w * (1 - g) < Real.exp (-e / c) := by nlinarith
  refine ⟨by linarith, mul_nonneg hc.le (Real.log_nonneg hle), ?_⟩
  have : Real.log (1 + w * (1 - g)) < -e / c := by
    rw [Real.log_lt_iff_lt_exp (by linarith)]; exact hlt
  rw [lt_div_iff₀ hc] at this
  linarith

theorem lda_0_reg {r : Expr Field} (hr : PosReg ρ r) : (lda_0 r).Reg ρ ∧ (lda_0 r).evalR ρ < 0 := by
  have h2 : (0 : ℝ) < B2C := by norm_num [B2C]
  have h3 : (0 : ℝ) < B3C := by norm_num [B3C]
  have hd : PosReg ρ (1 + B2C * sqrt r + B3C * r : Expr Field) := by rg
  refine ⟨reg_div trivial hd, ?_⟩
  unfold lda_0
  rw [evalR_div]
  exact div_neg_of_neg_of_pos (by norm_num [B1C]) hd.pos

theorem gc_z_pos (h : Sound ρ) : (gc_z d.zeta).Reg ρ ∧ 0 < (gc_z d.zeta).evalR ρ := by
  have hu := (scan_ufunc h (4 / 3)).reg
  have hz := abs_lt.1 h.abs_zeta
  have hb := spinf_bounds hz.1 hz.2
  have hc := cbrt_two_bounds
  have ha := h.abs_zeta
  have ha0 := abs_nonneg (ρ .zeta)
  have hz' : (d.zeta : Expr Field).Reg ρ := trivial
  constructor
  · unfold gc_z
    rg
  · have e : (gc_z d.zeta).evalR ρ = (1 - 2.363 * (((1 + ρ .zeta) ^ (4 / 3 : ℝ) + (1 - ρ .zeta) ^ (4 / 3 : ℝ)) / 2 - 1)) * (1 - ρ .zeta ^ 12) := by
      have hz' : (d.zeta : Expr Field).evalR ρ = ρ .zeta := rfl
      simp only [gc_z, evalR_sub, evalR_mul, evalR_div, evalR_one, evalR_npow, evalR_ufunc, evalR_ofNat, evalR_ofScientific, hz']
    rw [e]
    apply mul_pos
    · nlinarith
    · have : ρ .zeta ^ 12 < 1 := by
        rw [← Even.pow_abs (by decide)]; exact pow_lt_one₀ ha0 ha (by norm_num)
      linarith

theorem scan_ec0_reg (h : Sound ρ) {r s : Expr Field} (hr : PosReg ρ r) (hs : PosReg ρ s) :
    (scan_ec0 r s d.zeta).Reg ρ ∧ (scan_ec0 r s d.zeta).evalR ρ < 0 := by
  obtain ⟨l1, l2⟩ := lda_0_reg hr
  obtain ⟨z1, z2⟩ := gc_z_pos h
  have hb : PosReg ρ (B1C : Expr Field) := pos_lit (by norm_num [B1C])
  have hq : PosReg ρ (1 + (4 * 0.12802585262625815 : ℝ) * s * s : Expr Field) := by rg
  have hy : 0 ≤ (4 * 0.12802585262625815 : ℝ) * s.evalR ρ * s.evalR ρ := by have := hs.pos; positivity
  obtain ⟨g0, g1⟩ := inv_root_le hy
  obtain ⟨k1, -, k3⟩ := scanH_bounds (c := B1C) (by norm_num [B1C]) rfl l2 g0 g1
  have hw : (exp (-lda_0 r / B1C) - 1 : Expr Field).Reg ρ := ⟨(Reg_exp _ _).2 (reg_div l1 hb), trivial⟩
  have hlog : PosReg ρ (1 + (exp (-lda_0 r / B1C) - 1) * (1 - 1 / pow (1 + (4 * 0.12802585262625815 : ℝ) * s * s) (1 / 4)) : Expr Field) := by
    refine ⟨⟨trivial, hw, trivial, reg_div trivial (pos_pow hq)⟩, ?_⟩
    simp only [evalR_add, evalR_one, evalR_mul, evalR_sub, evalR_exp, evalR_div, evalR_neg, evalR_lit, evalR_pow]
    exact k1
  constructor
  · exact ⟨⟨l1, trivial, reg_log hlog⟩, z1⟩
  · show Expr.evalR ρ ((lda_0 r + B1C * log (1 + (exp (-lda_0 r / B1C) - 1) * (1 - 1 / pow (1 + (4 * 0.12802585262625815 : ℝ) * s * s) (1 / 4)))) * gc_z d.zeta) < 0
    rw [evalR_mul]
    refine mul_neg_of_neg_of_pos ?_ z2
    simp only [evalR_add, evalR_one, evalR_mul, evalR_sub, evalR_exp, evalR_div, evalR_neg, evalR_lit, evalR_pow, evalR_log]
    exact k3

theorem scan_ec1_reg (h : Sound ρ) {r s : Expr Field} (hr : PosReg ρ r) (hs : PosReg ρ s) :
    (scan_ec1 r s d.zeta 0).Reg ρ ∧ (scan_ec1 r s d.zeta 0).evalR ρ < 0 := by
  have l1 := lsda1_reg h hr
  have l2 := lsda1_neg h hr.pos
  have hx := pos_sqrt hr
  have hphi : PosReg ρ (ufunc d.zeta (2 / 3) / 2) := pos_div (scan_ufunc h _) (pos_ofNat 2)
  have hphi3 := pos_npow (n := 3) hphi
  have hA : (0 : ℝ) < √(Real.pi / 4) * (9 * Real.pi / 4) ^ (1 / 6 : ℝ) := by
    have := Real.pi_pos
    have : 0 < √(Real.pi / 4) := Real.sqrt_pos.2 (by positivity)
    positivity
  have ht : PosReg ρ (Expr.lit (√(Real.pi / 4) * (9 * Real.pi / 4) ^ (1 / 6 : ℝ)) * s / (sqrt r * (ufunc d.zeta (2 / 3) / 2))) :=
    pos_div (pos_mul (pos_lit hA) hs) (pos_mul hx hphi)
  have hG : PosReg ρ (Expr.lit (0.031090690869655 : ℝ) * npow (ufunc d.zeta (2 / 3) / 2) 3) := pos_mul (pos_lit (by norm_num)) hphi3
  have hw : PosReg ρ (exp (-lsda1 r (sqrt r) d.zeta / (Expr.lit (0.031090690869655 : ℝ) * npow (ufunc d.zeta (2 / 3) / 2) 3)) - 1) := by
    refine ⟨⟨(Reg_exp _ _).2 (reg_div l1 hG), trivial⟩, ?_⟩
    rw [evalR_sub, evalR_one, evalR_exp, sub_pos, Real.one_lt_exp_iff, evalR_div, evalR_neg]
    exact div_pos (by linarith) hG.pos
  have hbeta : PosReg ρ (Expr.lit 0.066725 * (1 + Expr.lit 0.1 * r) / (1 + Expr.lit 0.1778 * r)) := by rg
  have key : ∃ y : Expr Field, NonnegReg ρ y ∧ scan_ec1 r s d.zeta 0 = lsda1 r (sqrt r) d.zeta + Expr.lit 0.031090690869655 *
      npow (ufunc d.zeta (2 / 3) / 2) 3 * log (1 + (exp (-lsda1 r (sqrt r) d.zeta / (Expr.lit (0.031090690869655 : ℝ) *
      npow (ufunc d.zeta (2 / 3) / 2) 3)) - 1) * (1 - 1 / pow (1 + 4 * (y - 0)) (1 / 4))) := by
    refine ⟨Expr.lit 0.066725 * (1 + Expr.lit 0.1 * r) / (1 + Expr.lit 0.1778 * r) / (Expr.lit 0.031090690869655 *
      (exp (-lsda1 r (sqrt r) d.zeta / (Expr.lit (0.031090690869655 : ℝ) * npow (ufunc d.zeta (2 / 3) / 2) 3)) - 1)) *
      pow2 (Expr.lit (√(Real.pi / 4) * (9 * Real.pi / 4) ^ (1 / 6 : ℝ)) * s / (sqrt r * (ufunc d.zeta (2 / 3) / 2))), ?_, rfl⟩
    exact nonneg_mul (pos_div hbeta (pos_mul (pos_lit (by norm_num)) hw)).weak (pos_pow2 ht).weak
  obtain ⟨y, hy, e⟩ := key
  have hyr := hy.reg
  have hq : PosReg ρ (1 + 4 * (y - 0) : Expr Field) := by
    refine ⟨⟨trivial, trivial, hyr, trivial⟩, ?_⟩
    simp only [evalR_add, evalR_one, evalR_mul, evalR_sub, evalR_zero, evalR_ofNat]
    have := hy.nonneg
    linarith
  obtain ⟨g0, g1⟩ := inv_root_le (y := 4 * (y.evalR ρ - 0)) (by have := hy.nonneg; linarith)
  obtain ⟨k1, -, k3⟩ := scanH_bounds hG.pos rfl l2 g0 g1
  have hlog : PosReg ρ (1 + (exp (-lsda1 r (sqrt r) d.zeta / (Expr.lit (0.031090690869655 : ℝ) *
      npow (ufunc d.zeta (2 / 3) / 2) 3)) - 1) * (1 - 1 / pow (1 + 4 * (y - 0)) (1 / 4))) := by
    refine ⟨⟨trivial, hw.reg, trivial, reg_div trivial (pos_pow hq)⟩, ?_⟩
    simp only [evalR_add, evalR_one, evalR_mul, evalR_sub, evalR_exp, evalR_div, evalR_neg, evalR_lit, evalR_pow, evalR_ofNat, evalR_zero] at k1 ⊢
    exact k1
  rw [e]
  constructor
  · exact ⟨l1, hG.reg, reg_log hlog⟩
  · simp only [evalR_add, evalR_one, evalR_mul, evalR_sub, evalR_exp, evalR_div, evalR_neg, evalR_lit, evalR_pow, evalR_ofNat, evalR_zero, evalR_log] at k3 ⊢
    exact k3

section
variable (h : Sound ρ) (hg : 0 < ρ .gnn)
include h

/-- the reduced gradient of SCAN_like_eps.hpp:286-288 -/
theorem scan_s_pos (hg : 0 < ρ .gnn) : PosReg ρ (sqrt d.gnn / ((2 * (3 * PI2) ^ (1 / 3 : ℝ) : ℝ) * pow d.n (4 / 3))) := by
  signs h
  have : (0 : ℝ) < 2 * (3 * PI2) ^ (1 / 3 : ℝ) := by unfold PI2; positivity
  rg

theorem scan_tueg_pos : PosReg ρ ((3 / 10 * kF2 : ℝ) * pow d.n (5 / 3) * (ufunc d.zeta (5 / 3) / 2)) ∧
    PosReg ρ (((3 / 10 * kF2 : ℝ) * pow d.n (5 / 3) + TAU_R) * (ufunc d.zeta (5 / 3) / 2)) := by
  signs h
  have hk := kF2_pos
  have hu := scan_ufunc h (5 / 3)
  have : 0 < TAU_R := by norm_num [TAU_R]
  constructor <;> rg

include hg
theorem SCAN_C_reg {i j : ℕ} {α : Expr Field}
    (hα : α = scanAlpha i (d.tau - d.gnn / (8 * d.n)) (if i = 1 then ((3 / 10 * kF2 : ℝ) * pow d.n (5 / 3) + TAU_R) * (ufunc d.zeta (5 / 3) / 2)
      else (3 / 10 * kF2 : ℝ) * pow d.n (5 / 3) * (ufunc d.zeta (5 / 3) / 2)) (d.gnn / (8 * d.n)))
    (hi : (scanIef j 0.64 1.5 0.7 IEc α).Reg ρ) : (SCAN_C i j 0).Reg ρ := by
  subst hα
  have e0 := (scan_ec0_reg h (scan_rs_pos h) (scan_s_pos h hg)).1
  have e1 := (scan_ec1_reg h (scan_rs_pos h) (scan_s_pos h hg)).1
  exact ⟨⟨e1, hi, e0, e1⟩, trivial⟩

omit hg in
theorem scan_c_diff : (d.tau - d.gnn / (8 * d.n)).Reg ρ ∧ NonnegReg ρ (d.gnn / (8 * d.n)) := by
  signs h
  have : NonnegReg ρ (d.gnn / (8 * d.n)) := by rg
  exact ⟨⟨trivial, this.reg⟩, this⟩

theorem scanc_reg (h0 : 1e-14 < |ρ .tau - ρ .gnn / (8 * ρ .n)|)
    (h1 : (ρ .tau - ρ .gnn / (8 * ρ .n)) / (0.3 * kF2 * ρ .n ^ (5 / 3 : ℝ) * (((1 + ρ .zeta) ^ (5 / 3 : ℝ) + (1 - ρ .zeta) ^ (5 / 3 : ℝ)) / 2)) ≠ 1) :
    scanc.Reg ρ := by
  obtain ⟨hd, hw⟩ := scan_c_diff h
  obtain ⟨ha, e⟩ := scanAlpha0_reg (tauw := d.gnn / (8 * d.n)) hd (scan_tueg_pos h).1 (by
    simp only [evalR_sub, evalR_div, evalR_mul, evalR_ofNat]; exact h0)
  refine SCAN_C_reg h hg rfl (ief0_reg ha ?_)
  refine ne_of_eq_of_ne e ?_
  simp only [evalR_sub, evalR_div, evalR_mul, evalR_ofNat, evalR_lit, evalR_pow, evalR_ufunc]
  rw [show (0.3 : ℝ) = 3 / 10 by norm_num] at h1
  exact h1

theorem rscanc_reg {a : ℝ} (hq : a = (ρ .tau - ρ .gnn / (8 * ρ .n)) / ((0.3 * kF2 * ρ .n ^ (5 / 3 : ℝ) + 1e-4) *
      (((1 + ρ .zeta) ^ (5 / 3 : ℝ) + (1 - ρ .zeta) ^ (5 / 3 : ℝ)) / 2)))
    (h1 : a ^ 3 / (a ^ 2 + 1e-3) ≠ 1e-13) (h2 : a ^ 3 / (a ^ 2 + 1e-3) ≠ 2.5) : rscanc.Reg ρ := by
  obtain ⟨hd, hw⟩ := scan_c_diff h
  obtain ⟨ha, e⟩ := scanAlpha1_reg (tauw := d.gnn / (8 * d.n)) hd (scan_tueg_pos h).2
  have hq' : (d.tau - d.gnn / (8 * d.n)).evalR ρ / (((3 / 10 * kF2 : ℝ) * pow d.n (5 / 3) + TAU_R) * (ufunc d.zeta (5 / 3) / 2) : Expr Field).evalR ρ = a := by
    rw [hq]; simp only [evalR_sub, evalR_div, evalR_mul, evalR_add, evalR_lit, evalR_ofNat, evalR_pow, evalR_ufunc, TAU_R]
    norm_num
    rfl
  rw [hq'] at e
  exact SCAN_C_reg h hg rfl (ief1_reg ha (ne_of_eq_of_ne e h1) (ne_of_eq_of_ne e h2))

theorem rppscanc_reg (h0 : 1e-14 < |ρ .tau - ρ .gnn / (8 * ρ .n)|) {a : ℝ}
    (hq : a = (ρ .tau - ρ .gnn / (8 * ρ .n)) / (0.3 * kF2 * ρ .n ^ (5 / 3 : ℝ) *
      (((1 + ρ .zeta) ^ (5 / 3 : ℝ) + (1 - ρ .zeta) ^ (5 / 3 : ℝ)) / 2) + 1e-3 * (ρ .gnn / (8 * ρ .n))))
    (h1 : a ≠ 1e-13) (h2 : a ≠ 2.5) : rppscanc.Reg ρ := by
  obtain ⟨hd, hw⟩ := scan_c_diff h
  obtain ⟨ha, e⟩ := scanAlpha2_reg (tauw := d.gnn / (8 * d.n)) hd (scan_tueg_pos h).1 hw (by
    simp only [evalR_sub, evalR_div, evalR_mul, evalR_ofNat]; exact h0)
  have e' : (scanAlpha 2 (d.tau - d.gnn / (8 * d.n)) ((3 / 10 * kF2 : ℝ) * pow d.n (5 / 3) * (ufunc d.zeta (5 / 3) / 2)) (d.gnn / (8 * d.n))).evalR ρ = a := by
    rw [e, hq]; simp only [evalR_sub, evalR_div, evalR_mul, evalR_lit, evalR_ofNat, evalR_pow, evalR_ufunc]
    norm_num
    rfl
  exact SCAN_C_reg h hg rfl (ief1_reg ha (ne_of_eq_of_ne e' h1) (ne_of_eq_of_ne e' h2))

end

end XCFun.Fun
