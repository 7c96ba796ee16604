/-
The SCAN family of the code against the published formulas.
-/
import Verif.Proofs.LitTpss
import Mathlib.Analysis.SpecialFunctions.Log.Deriv
import Mathlib.Analysis.SpecialFunctions.Sqrt

namespace XCFun.Fun
open XCFun Expr Lit

variable {ρ : Field → ℝ} {g : Gas}

/-! ### Interpolation and indicators -/

theorem ieSum_eq (x : Expr Field) (c0 c1 c2 c3 c4 c5 c6 c7 : ℝ) :
    (ieSum [c0, c1, c2, c3, c4, c5, c6, c7] x).evalR ρ = series [c0, c1, c2, c3, c4, c5, c6, c7] (x.evalR ρ) := by
  simp only [ieSum, series, List.zipIdx_cons, List.zipIdx_nil, List.foldl_cons, List.foldl_nil, List.map_cons, List.map_nil, List.sum_cons,
    List.sum_nil, evalR_add, evalR_mul, evalR_npow, evalR_lit, evalR_zero]
  ring

theorem ief0_eq (x : Expr Field) (c1 c2 cd : ℝ) (l : List ℝ) : (scanIef 0 c1 c2 cd l x).evalR ρ = fScan c1 c2 cd (x.evalR ρ) := by
  simp only [scanIef, if_pos, evalR_iflt, evalR_one, evalR_exp, evalR_div, evalR_mul, evalR_sub, evalR_lit, fScan]

theorem ief1_eq (x : Expr Field) (c1 c2 cd : ℝ) (l l' : List ℝ) (h0 : x.evalR ρ ≤ 0 ∨ 1e-13 ≤ x.evalR ρ)
    (hl : ∀ x : Expr Field, (ieSum l x).evalR ρ = series l' (x.evalR ρ)) (h1 : l'.headD 0 = 1) :
    (scanIef 1 c1 c2 cd l x).evalR ρ = fR c1 c2 cd l' (x.evalR ρ) := by
  have hz : series l' 0 = 1 := by
    cases l' with
    | nil => simp at h1
    | cons c cs => rw [series_cons]; simpa using h1
  simp only [scanIef, one_ne_zero, if_false, if_true, evalR_iflt, evalR_one, evalR_exp, evalR_div, evalR_mul, evalR_sub, evalR_lit,
    evalR_ofScientific, hl, fR]
  rcases h0 with h0 | h0
  · rw [if_pos (by norm_num; linarith)]
    rcases h0.lt_or_eq with h | h
    · rw [if_pos h]
    · rw [if_neg (by rw [h]; exact lt_irrefl _), if_pos (by rw [h]; norm_num), h, hz]; norm_num
  · have h1 : ¬ x.evalR ρ < 10e-14 := by norm_num at h0 ⊢; linarith
    have h2 : ¬ x.evalR ρ < 0 := by norm_num at h0 ⊢; linarith
    rw [if_neg h1, if_neg h2]

theorem IEx_eq (x : Expr Field) : (ieSum IEx x).evalR ρ = series cfx (x.evalR ρ) := by
  rw [IEx, ieSum_eq, cfx]; norm_num
theorem IEc_eq (x : Expr Field) : (ieSum IEc x).evalR ρ = series cfc (x.evalR ρ) := by
  rw [IEc, ieSum_eq, cfc]; norm_num

theorem delF2x : delF2 IEx = dSeries cfx := by
  simp [delF2, dSeries, IEx, cfx, List.zipIdx_cons]; norm_num
theorem delF2c : delF2 IEc = dSeries cfc := by
  simp [delF2, dSeries, IEc, cfc, List.zipIdx_cons]; norm_num
theorem delF4x : delF4 IEx = ddSeries cfx := by
  simp [delF4, ddSeries, IEx, cfx, List.zipIdx_cons]; norm_num

/-! ### Exchange -/

theorem h1x0_eq (p oma : Expr Field) {α : ℝ} (ho : oma.evalR ρ = 1 - α) : (scanH1x 0 p oma).evalR ρ = h1xScan (p.evalR ρ) α := by
  have hb : |(10 / 81 : ℝ) ^ 2 / 0.065 - 0.112654| = (10 / 81 : ℝ) ^ 2 / 0.065 - 0.112654 := abs_of_nonneg (by norm_num)
  simp only [scanH1x, if_pos, evalR_sub, evalR_div, evalR_add, evalR_mul, evalR_lit, evalR_one, evalR_pow2, evalR_exp, ho, h1xScan, hb,
    scanK1, scanMU]
  rw [show ((10 / 81 * (10 / 81) / 0.065 - 0.112654 : ℝ)) = (10 / 81) ^ 2 / 0.065 - 0.112654 by ring]
  generalize ((10 / 81) ^ 2 / 0.065 - 0.112654 : ℝ) = b
  congr 4
  ring

theorem h1x1_eq (k : ℕ) (hk : k = 1 ∨ k = 2) (p oma : Expr Field) : (scanH1x k p oma).evalR ρ = h1xR2 (p.evalR ρ) := by
  have e2 : scanC2.evalR ρ = c2x := by
    simp only [scanC2, evalR_mul, evalR_neg, evalR_lit, evalR_sub, evalR_one, delF2x, c2x, h0x, scanK0]; norm_num
  have e3 : ALPHA_GE = cη := by rw [ALPHA_GE, cη, ETA, η]; norm_num
  have h0 : k ≠ 0 := by omega
  simp only [scanH1x, if_neg h0, if_pos hk, evalR_sub, evalR_div, evalR_add, evalR_mul, evalR_lit, evalR_one, evalR_pow2, evalR_exp, evalR_neg,
    h1xR2, e2, e3, scanK1, scanMU]
  congr 4
  ring

theorem delFx_eq (p al oma : Expr Field) {α : ℝ} (ha : al.evalR ρ = α) (ho : oma.evalR ρ = 1 - α) :
    (scanDelFx 2 p al oma).evalR ρ = ΔF4 0.232 0.232 (p.evalR ρ) α := by
  have e2 : scanC2.evalR ρ = c2x := by
    simp only [scanC2, evalR_mul, evalR_neg, evalR_lit, evalR_sub, evalR_one, delF2x, c2x, h0x, scanK0]; norm_num
  have e3 : ALPHA_GE = cη := by rw [ALPHA_GE, cη, ETA, η]; norm_num
  have e4 : ETA = η := by rw [ETA, η]; norm_num
  simp only [scanDelFx, if_true, evalR_sub, evalR_div, evalR_add, evalR_mul, evalR_lit, evalR_one, evalR_ofNat, evalR_ofScientific, evalR_pow2,
    evalR_npow, evalR_exp, evalR_neg, ΔF4, e2, e3, e4, delF2x, delF4x, scanK1, scanMU, scanK0, h0x, ha, ho]
  rw [show (0.232 : ℝ) * 0.232 = 0.232 ^ 2 by norm_num]
  generalize Real.exp (-(1 - α) ^ 2 / 0.232 ^ 2 - p.evalR ρ ^ 2 / 0.232 ^ 4) = X
  generalize dSeries cfx = f2
  generalize ddSeries cfx = f4
  norm_num
  ring

theorem gx_eq {p : ℝ} (hp : 0 ≤ p) : p ^ (1 / 4 : ℝ) = √√p := by
  rw [Real.sqrt_eq_rpow, Real.sqrt_eq_rpow, ← Real.rpow_mul hp]; norm_num

theorem Fx_eq (p al : Expr Field) (hp : 0 ≤ p.evalR ρ) (i k : ℕ) (h1 f Δ : ℝ)
    (eh : (scanH1x k p (1 - al)).evalR ρ = h1) (ef : (scanIef i 0.667 0.8 1.24 IEx al).evalR ρ = f)
    (eΔ : (scanDelFx k p al (1 - al)).evalR ρ = Δ) : (SCAN_X_Fx p al i k).evalR ρ = fxScan h1 f Δ (p.evalR ρ) := by
  simp only [SCAN_X_Fx, evalR_mul, evalR_add, evalR_sub, evalR_one, evalR_lit, evalR_exp, evalR_div, evalR_pow, eh, ef, eΔ, fxScan, gxScan, gx_eq hp,
    scanK0, h0x]
  norm_num


/-! ### The indicator -/

theorem alpha0_eq (x u w : Expr Field) (hx : ScanTau (x.evalR ρ)) : (scanAlpha 0 x u w).evalR ρ = x.evalR ρ / u.evalR ρ := by
  simp only [scanAlpha, if_true, evalR_iflt, evalR_abs, evalR_div, evalR_zero, evalR_ofScientific]
  rcases hx with hx | hx
  · rw [hx]; norm_num
  · rw [if_pos (by norm_num at hx ⊢; exact hx)]

theorem alpha2_eq (x u w : Expr Field) (hx : ScanTau (x.evalR ρ)) :
    (scanAlpha 2 x u w).evalR ρ = x.evalR ρ / (u.evalR ρ + η * w.evalR ρ) := by
  rw [scanAlpha, if_neg (by norm_num), if_neg (by norm_num), if_pos rfl]
  simp only [evalR_iflt, evalR_abs, evalR_div, evalR_zero, evalR_ofScientific, evalR_add, evalR_mul, evalR_lit,
    show ETA = η by rw [ETA, η]; norm_num]
  rcases hx with hx | hx
  · rw [hx]; norm_num
  · rw [if_pos (by norm_num at hx ⊢; exact hx)]

theorem alpha1_eq (x u w : Expr Field) : (scanAlpha 1 x u w).evalR ρ = alphaR (x.evalR ρ / u.evalR ρ) := by
  simp only [scanAlpha, one_ne_zero, if_false, if_true, evalR_div, evalR_npow, evalR_add, evalR_pow2, evalR_lit, alphaR, A_REG]
  norm_num

/-! ### Exchange enhancement -/

section enh
variable {n g' t : Expr Field} (hn : 0 < n.evalR ρ) (hg : 1e-16 < g'.evalR ρ)
include hn hg

theorem scanP_eq : (iflt 1.0e-16 (abs g') (g' / ((4 * kF2 : ℝ) * pow n (8 / 3))) (1e-16 / ((4 * kF2 : ℝ) * pow n (8 / 3)))).evalR ρ =
    Lit.sSq (n.evalR ρ) (g'.evalR ρ) := by
  have h0 : (0 : ℝ) < g'.evalR ρ := by norm_num at hg; linarith
  rw [evalR_iflt, evalR_abs, abs_of_pos h0, evalR_ofScientific, if_pos (by norm_num at hg ⊢; exact hg), sSq_kF2 hn]
  simp only [evalR_div, evalR_mul, evalR_lit, evalR_pow]

omit hn in
theorem sSq_nonneg' : 0 ≤ Lit.sSq (n.evalR ρ) (g'.evalR ρ) := by
  have h0 : (0 : ℝ) < g'.evalR ρ := by norm_num at hg; linarith
  rw [Lit.sSq]; positivity

theorem scan_F (ht : ScanTau (t.evalR ρ - tauW (n.evalR ρ) (g'.evalR ρ))) : (get_SCAN_Fx n g' t 0 0 0).evalR ρ =
    (let α := alphaScan (t.evalR ρ) (tauW (n.evalR ρ) (g'.evalR ρ)) (tauTF (n.evalR ρ))
     fxScan (h1xScan (Lit.sSq (n.evalR ρ) (g'.evalR ρ)) α) (fScan 0.667 0.8 1.24 α) 0 (Lit.sSq (n.evalR ρ) (g'.evalR ρ))) := by
  simp only [get_SCAN_Fx]
  have hp := scanP_eq hn hg
  have hp0 := sSq_nonneg' (n := n) hg
  generalize hP : (iflt 1.0e-16 (abs g') (g' / ((4 * kF2 : ℝ) * pow n (8 / 3))) (1e-16 / ((4 * kF2 : ℝ) * pow n (8 / 3)))) = P at *
  generalize hA : scanAlpha _ _ _ _ = A
  have hα : A.evalR ρ = alphaScan (t.evalR ρ) (tauW (n.evalR ρ) (g'.evalR ρ)) (tauTF (n.evalR ρ)) := by
    rw [← hA, alpha0_eq _ _ _ (by simpa [evalR_sub, evalR_div, evalR_mul, tauW] using ht)]
    simp only [zero_ne_one, if_false, evalR_sub, evalR_div, evalR_mul, evalR_lit, evalR_ofNat, evalR_pow, alphaScan, tauW, tauTF, kF2_eq]
    norm_num
  rw [Fx_eq P A (by rw [hp]; exact hp0) 0 0 _ _ 0 (h1x0_eq P _ (by rw [evalR_sub, evalR_one])) (ief0_eq A _ _ _ _) (by simp [scanDelFx]), hp, hα]

theorem rscan_F
    (hα0 : (fun α => α ≤ 0 ∨ 1e-13 ≤ α) (alphaR (alphaScan (t.evalR ρ) (tauW (n.evalR ρ) (g'.evalR ρ)) (tauTF (n.evalR ρ) + 0.0001)))) : (get_SCAN_Fx n g' t 1 1 0).evalR ρ =
    (let α := alphaR (alphaScan (t.evalR ρ) (tauW (n.evalR ρ) (g'.evalR ρ)) (tauTF (n.evalR ρ) + 0.0001))
     fxScan (h1xScan (Lit.sSq (n.evalR ρ) (g'.evalR ρ)) α) (fR 0.667 0.8 1.24 cfx α) 0 (Lit.sSq (n.evalR ρ) (g'.evalR ρ))) := by
  simp only [get_SCAN_Fx]
  have hp := scanP_eq hn hg
  have hp0 := sSq_nonneg' (n := n) hg
  generalize hP : (iflt 1.0e-16 (abs g') (g' / ((4 * kF2 : ℝ) * pow n (8 / 3))) (1e-16 / ((4 * kF2 : ℝ) * pow n (8 / 3)))) = P at *
  generalize hA : scanAlpha _ _ _ _ = A
  have hα : A.evalR ρ = alphaR (alphaScan (t.evalR ρ) (tauW (n.evalR ρ) (g'.evalR ρ)) (tauTF (n.evalR ρ) + 0.0001)) := by
    rw [← hA, alpha1_eq]
    simp only [if_true, evalR_sub, evalR_div, evalR_mul, evalR_add, evalR_lit, evalR_ofNat, evalR_pow, alphaScan, tauW, tauTF, kF2_eq, TAU_R]
    norm_num
  rw [Fx_eq P A (by rw [hp]; exact hp0) 1 0 _ _ 0 (h1x0_eq P _ (by rw [evalR_sub, evalR_one])) (ief1_eq A _ _ _ _ cfx (by rw [hα]; exact hα0) IEx_eq rfl) (by simp [scanDelFx]), hp, hα]

theorem rppscan_F (ht : ScanTau (t.evalR ρ - tauW (n.evalR ρ) (g'.evalR ρ)))
    (hα0 : (fun α => α ≤ 0 ∨ 1e-13 ≤ α) (alphaBar (t.evalR ρ) (tauW (n.evalR ρ) (g'.evalR ρ)) (tauTF (n.evalR ρ)))) : (get_SCAN_Fx n g' t 2 1 0).evalR ρ =
    (let α := alphaBar (t.evalR ρ) (tauW (n.evalR ρ) (g'.evalR ρ)) (tauTF (n.evalR ρ))
     fxScan (h1xScan (Lit.sSq (n.evalR ρ) (g'.evalR ρ)) α) (fR 0.667 0.8 1.24 cfx α) 0 (Lit.sSq (n.evalR ρ) (g'.evalR ρ))) := by
  simp only [get_SCAN_Fx]
  have hp := scanP_eq hn hg
  have hp0 := sSq_nonneg' (n := n) hg
  generalize hP : (iflt 1.0e-16 (abs g') (g' / ((4 * kF2 : ℝ) * pow n (8 / 3))) (1e-16 / ((4 * kF2 : ℝ) * pow n (8 / 3)))) = P at *
  generalize hA : scanAlpha _ _ _ _ = A
  have hα : A.evalR ρ = alphaBar (t.evalR ρ) (tauW (n.evalR ρ) (g'.evalR ρ)) (tauTF (n.evalR ρ)) := by
    rw [← hA, alpha2_eq _ _ _ (by simpa [evalR_sub, evalR_div, evalR_mul, tauW] using ht)]
    simp only [if_neg (show ¬ (2 : ℕ) = 1 by norm_num), evalR_sub, evalR_div, evalR_mul, evalR_lit, evalR_ofNat, evalR_pow, alphaBar, tauW, tauTF, kF2_eq]
    norm_num
  rw [Fx_eq P A (by rw [hp]; exact hp0) 1 0 _ _ 0 (h1x0_eq P _ (by rw [evalR_sub, evalR_one])) (ief1_eq A _ _ _ _ cfx (by rw [hα]; exact hα0) IEx_eq rfl) (by simp [scanDelFx]), hp, hα]

theorem r2scan_F (ht : ScanTau (t.evalR ρ - tauW (n.evalR ρ) (g'.evalR ρ)))
    (hα0 : (fun α => α ≤ 0 ∨ 1e-13 ≤ α) (alphaBar (t.evalR ρ) (tauW (n.evalR ρ) (g'.evalR ρ)) (tauTF (n.evalR ρ)))) : (get_SCAN_Fx n g' t 2 1 1).evalR ρ =
    (let α := alphaBar (t.evalR ρ) (tauW (n.evalR ρ) (g'.evalR ρ)) (tauTF (n.evalR ρ))
     fxScan (h1xR2 (Lit.sSq (n.evalR ρ) (g'.evalR ρ))) (fR 0.667 0.8 1.24 cfx α) 0 (Lit.sSq (n.evalR ρ) (g'.evalR ρ))) := by
  simp only [get_SCAN_Fx]
  have hp := scanP_eq hn hg
  have hp0 := sSq_nonneg' (n := n) hg
  generalize hP : (iflt 1.0e-16 (abs g') (g' / ((4 * kF2 : ℝ) * pow n (8 / 3))) (1e-16 / ((4 * kF2 : ℝ) * pow n (8 / 3)))) = P at *
  generalize hA : scanAlpha _ _ _ _ = A
  have hα : A.evalR ρ = alphaBar (t.evalR ρ) (tauW (n.evalR ρ) (g'.evalR ρ)) (tauTF (n.evalR ρ)) := by
    rw [← hA, alpha2_eq _ _ _ (by simpa [evalR_sub, evalR_div, evalR_mul, tauW] using ht)]
    simp only [if_neg (show ¬ (2 : ℕ) = 1 by norm_num), evalR_sub, evalR_div, evalR_mul, evalR_lit, evalR_ofNat, evalR_pow, alphaBar, tauW, tauTF, kF2_eq]
    norm_num
  rw [Fx_eq P A (by rw [hp]; exact hp0) 1 1 _ _ 0 (h1x1_eq 1 (Or.inl rfl) P _) (ief1_eq A _ _ _ _ cfx (by rw [hα]; exact hα0) IEx_eq rfl) (by simp [scanDelFx]), hp, hα]

theorem r4scan_F (ht : ScanTau (t.evalR ρ - tauW (n.evalR ρ) (g'.evalR ρ)))
    (hα0 : (fun α => α ≤ 0 ∨ 1e-13 ≤ α) (alphaBar (t.evalR ρ) (tauW (n.evalR ρ) (g'.evalR ρ)) (tauTF (n.evalR ρ)))) : (get_SCAN_Fx n g' t 2 1 2).evalR ρ =
    (let α := alphaBar (t.evalR ρ) (tauW (n.evalR ρ) (g'.evalR ρ)) (tauTF (n.evalR ρ))
     fxScan (h1xR2 (Lit.sSq (n.evalR ρ) (g'.evalR ρ))) (fR 0.667 0.8 1.24 cfx α) (ΔF4 0.232 0.232 (Lit.sSq (n.evalR ρ) (g'.evalR ρ)) α) (Lit.sSq (n.evalR ρ) (g'.evalR ρ))) := by
  simp only [get_SCAN_Fx]
  have hp := scanP_eq hn hg
  have hp0 := sSq_nonneg' (n := n) hg
  generalize hP : (iflt 1.0e-16 (abs g') (g' / ((4 * kF2 : ℝ) * pow n (8 / 3))) (1e-16 / ((4 * kF2 : ℝ) * pow n (8 / 3)))) = P at *
  generalize hA : scanAlpha _ _ _ _ = A
  have hα : A.evalR ρ = alphaBar (t.evalR ρ) (tauW (n.evalR ρ) (g'.evalR ρ)) (tauTF (n.evalR ρ)) := by
    rw [← hA, alpha2_eq _ _ _ (by simpa [evalR_sub, evalR_div, evalR_mul, tauW] using ht)]
    simp only [if_neg (show ¬ (2 : ℕ) = 1 by norm_num), evalR_sub, evalR_div, evalR_mul, evalR_lit, evalR_ofNat, evalR_pow, alphaBar, tauW, tauTF, kF2_eq]
    norm_num
  rw [Fx_eq P A (by rw [hp]; exact hp0) 1 2 _ _ _ (h1x1_eq 2 (Or.inr rfl) P _) (ief1_eq A _ _ _ _ cfx (by rw [hα]; exact hα0) IEx_eq rfl) (delFx_eq P A _ rfl (by rw [evalR_sub, evalR_one])), hp, hα]

end enh

section
variable (h : IsGas ρ g)
include h

theorem lit_scanx (hs : ScanX g) : scanx.evalR ρ = Lit.scanX g := by
  have pa := h.apos
  have pb := h.bpos
  simp only [scanx, Fun.scanX]
  rw [evalR_mul, evalR_add, evalR_mul, evalR_mul, fx_unif_eq, fx_unif_eq, scan_F (by rw [two_a h]; positivity) (by rw [four_gaa h]; exact hs.gaa) (by rw [two_a h, four_gaa h, two_taua h]; exact hs.ta),
    scan_F (by rw [two_b h]; positivity) (by rw [four_gbb h]; exact hs.gbb) (by rw [two_b h, four_gbb h, two_taub h]; exact hs.tb), two_a h, two_b h, four_gaa h, four_gbb h, two_taua h, two_taub h,
    evalR_ofScientific, Lit.scanX, spinScaled]
  dsimp only
  ring

theorem lit_rscanx (hs : ScanX g)
    (ha : OutsideGap (alphaR (alphaScan (2 * g.taua) (tauW (2 * g.a) (4 * g.gaa)) (tauTF (2 * g.a) + 0.0001)))) (hb : OutsideGap (alphaR (alphaScan (2 * g.taub) (tauW (2 * g.b) (4 * g.gbb)) (tauTF (2 * g.b) + 0.0001)))) : rscanx.evalR ρ = rscanX g := by
  have pa := h.apos
  have pb := h.bpos
  simp only [rscanx, Fun.scanX]
  rw [evalR_mul, evalR_add, evalR_mul, evalR_mul, fx_unif_eq, fx_unif_eq, rscan_F (by rw [two_a h]; positivity) (by rw [four_gaa h]; exact hs.gaa) (by rw [two_a h, four_gaa h, two_taua h]; exact ha),
    rscan_F (by rw [two_b h]; positivity) (by rw [four_gbb h]; exact hs.gbb) (by rw [two_b h, four_gbb h, two_taub h]; exact hb), two_a h, two_b h, four_gaa h, four_gbb h, two_taua h, two_taub h,
    evalR_ofScientific, Lit.rscanX, spinScaled]
  dsimp only
  ring

theorem lit_rppscanx (hs : ScanX g)
    (ha : OutsideGap (alphaBar (2 * g.taua) (tauW (2 * g.a) (4 * g.gaa)) (tauTF (2 * g.a)))) (hb : OutsideGap (alphaBar (2 * g.taub) (tauW (2 * g.b) (4 * g.gbb)) (tauTF (2 * g.b)))) : rppscanx.evalR ρ = rppscanX g := by
  have pa := h.apos
  have pb := h.bpos
  simp only [rppscanx, Fun.scanX]
  rw [evalR_mul, evalR_add, evalR_mul, evalR_mul, fx_unif_eq, fx_unif_eq, rppscan_F (by rw [two_a h]; positivity) (by rw [four_gaa h]; exact hs.gaa) (by rw [two_a h, four_gaa h, two_taua h]; exact hs.ta) (by rw [two_a h, four_gaa h, two_taua h]; exact ha),
    rppscan_F (by rw [two_b h]; positivity) (by rw [four_gbb h]; exact hs.gbb) (by rw [two_b h, four_gbb h, two_taub h]; exact hs.tb) (by rw [two_b h, four_gbb h, two_taub h]; exact hb), two_a h, two_b h, four_gaa h, four_gbb h, two_taua h, two_taub h,
    evalR_ofScientific, Lit.rppscanX, spinScaled]
  dsimp only
  ring

theorem lit_r2scanx (hs : ScanX g)
    (ha : OutsideGap (alphaBar (2 * g.taua) (tauW (2 * g.a) (4 * g.gaa)) (tauTF (2 * g.a)))) (hb : OutsideGap (alphaBar (2 * g.taub) (tauW (2 * g.b) (4 * g.gbb)) (tauTF (2 * g.b)))) : r2scanx.evalR ρ = r2scanX g := by
  have pa := h.apos
  have pb := h.bpos
  simp only [r2scanx, Fun.scanX]
  rw [evalR_mul, evalR_add, evalR_mul, evalR_mul, fx_unif_eq, fx_unif_eq, r2scan_F (by rw [two_a h]; positivity) (by rw [four_gaa h]; exact hs.gaa) (by rw [two_a h, four_gaa h, two_taua h]; exact hs.ta) (by rw [two_a h, four_gaa h, two_taua h]; exact ha),
    r2scan_F (by rw [two_b h]; positivity) (by rw [four_gbb h]; exact hs.gbb) (by rw [two_b h, four_gbb h, two_taub h]; exact hs.tb) (by rw [two_b h, four_gbb h, two_taub h]; exact hb), two_a h, two_b h, four_gaa h, four_gbb h, two_taua h, two_taub h,
    evalR_ofScientific, Lit.r2scanX, spinScaled]
  dsimp only
  ring

theorem lit_r4scanx (hs : ScanX g)
    (ha : OutsideGap (alphaBar (2 * g.taua) (tauW (2 * g.a) (4 * g.gaa)) (tauTF (2 * g.a)))) (hb : OutsideGap (alphaBar (2 * g.taub) (tauW (2 * g.b) (4 * g.gbb)) (tauTF (2 * g.b)))) : r4scanx.evalR ρ = r4scanX g 0.232 0.232 := by
  have pa := h.apos
  have pb := h.bpos
  simp only [r4scanx, Fun.scanX]
  rw [evalR_mul, evalR_add, evalR_mul, evalR_mul, fx_unif_eq, fx_unif_eq, r4scan_F (by rw [two_a h]; positivity) (by rw [four_gaa h]; exact hs.gaa) (by rw [two_a h, four_gaa h, two_taua h]; exact hs.ta) (by rw [two_a h, four_gaa h, two_taua h]; exact ha),
    r4scan_F (by rw [two_b h]; positivity) (by rw [four_gbb h]; exact hs.gbb) (by rw [two_b h, four_gbb h, two_taub h]; exact hs.tb) (by rw [two_b h, four_gbb h, two_taub h]; exact hb), two_a h, two_b h, four_gaa h, four_gbb h, two_taua h, two_taub h,
    evalR_ofScientific, Lit.r4scanX, spinScaled]
  dsimp only
  ring

end

/-! ### Correlation: ingredients -/

section corr
/-- `Q₁` of the code as a function of `r_s`. -/
theorem gcorQ1_eq {x : Expr Field} {r : ℝ} (hr : 0 < r) (hx : x.evalR ρ = √r) (P : Pw92P) :
    (gcorQ1 P x).evalR ρ = 2 * P.t0 * (P.t2 * √r + P.t3 * r + P.t4 * r ^ (3 / 2 : ℝ) + P.t5 * r ^ 2) := by
  have h32 : r ^ (3 / 2 : ℝ) = √r ^ 3 := by
    rw [Real.sqrt_eq_rpow, ← Real.rpow_natCast, ← Real.rpow_mul hr.le]; norm_num
  have hs : √r * √r = r := Real.mul_self_sqrt hr.le
  have h2 : r ^ 2 = √r ^ 4 := by nth_rewrite 1 [← hs]; ring
  simp only [gcorQ1, evalR_mul, evalR_add, evalR_lit, hx, h32, h2]
  linear_combination (2 * P.t0 * P.t3) * hs

theorem gcorG_eq {x y : Expr Field} {r : ℝ} (hr : 0 < r) (hx : x.evalR ρ = √r) (hy : y.evalR ρ = r) (P : Pw92P) :
    (gcorG P y x).evalR ρ = pwG P.t0 P.t1 P.t2 P.t3 P.t4 P.t5 r := by
  simp only [gcorG, evalR_mul, evalR_add, evalR_div, evalR_log, evalR_lit, evalR_one, gcorQ1_eq hr hx, hy, pwG]

theorem gcorGrs_eq {x y : Expr Field} {r : ℝ} (hr : 0 < r) (hx : x.evalR ρ = √r) (hy : y.evalR ρ = r) (P : Pw92P)
    (h0 : 0 < P.t0) (h2 : 0 < P.t2) (h3 : 0 < P.t3) (h4 : 0 < P.t4) (h5 : 0 < P.t5) :
    HasDerivAt (fun r => pwG P.t0 P.t1 P.t2 P.t3 P.t4 P.t5 r) ((gcorGrs P y x).evalR ρ) r := by
  have hs := Real.sqrt_pos.2 hr
  have e32 : ∀ r : ℝ, 0 < r → r ^ (3 / 2 : ℝ) = r * √r := by
    intro r hr
    rw [Real.sqrt_eq_rpow]; nth_rewrite 2 [← Real.rpow_one r]; rw [← Real.rpow_add hr]; norm_num
  have ds : HasDerivAt (fun r : ℝ => √r) (1 / (2 * √r)) r := Real.hasDerivAt_sqrt hr.ne'
  have d32 : HasDerivAt (fun r : ℝ => r ^ (3 / 2 : ℝ)) (3 / 2 * √r) r := by
    have := Real.hasDerivAt_rpow_const (x := r) (p := 3 / 2) (Or.inl hr.ne')
    rwa [show (3 / 2 - 1 : ℝ) = 1 / 2 by norm_num, ← Real.sqrt_eq_rpow] at this
  have dq : HasDerivAt (fun r => 2 * P.t0 * (P.t2 * √r + P.t3 * r + P.t4 * r ^ (3 / 2 : ℝ) + P.t5 * r ^ 2))
      (P.t0 * (2 * P.t3 + P.t2 / √r + 3 * P.t4 * √r + 4 * P.t5 * r)) r := by
    refine (((((ds.const_mul P.t2).add ((hasDerivAt_id r).const_mul P.t3)).add (d32.const_mul P.t4)).add
      ((hasDerivAt_pow 2 r).const_mul P.t5)).const_mul (2 * P.t0)).congr_deriv ?_
    have : P.t2 / √r = 2 * (P.t2 * (1 / (2 * √r))) := by field_simp
    rw [this]
    push_cast
    ring
  have hq : 0 < 2 * P.t0 * (P.t2 * √r + P.t3 * r + P.t4 * r ^ (3 / 2 : ℝ) + P.t5 * r ^ 2) := by positivity
  have dl := ((dq.fun_inv hq.ne').const_add 1).log (by positivity)
  have da : HasDerivAt (fun r => -2 * P.t0 * (1 + P.t1 * r)) (-2 * P.t0 * P.t1) r := by
    have := (((hasDerivAt_id r).const_mul P.t1).const_add 1).const_mul (-2 * P.t0)
    simpa using this
  have := da.fun_mul dl
  refine (this.congr_of_eventuallyEq (Filter.Eventually.of_forall fun r => ?_)).congr_deriv ?_
  · simp only [pwG, one_div]
  · simp only [gcorGrs, evalR_add, evalR_mul, evalR_div, evalR_neg, evalR_log, evalR_lit, evalR_one, evalR_pow2, gcorQ1_eq hr hx, hx, hy]
    clear dl this dq
    generalize 2 * P.t0 * (P.t2 * √r + P.t3 * r + P.t4 * r ^ (3 / 2 : ℝ) + P.t5 * r ^ 2) = q at *
    generalize P.t0 * (2 * P.t3 + P.t2 / √r + 3 * P.t4 * √r + 4 * P.t5 * r) = q'
    rw [one_div, div_div, mul_comm (q ^ 2)]
    ring

theorem lsda1_eq {x y z : Expr Field} {r : ℝ} (hr : 0 < r) (hx : x.evalR ρ = √r) (hy : y.evalR ρ = r) :
    (lsda1 y x z).evalR ρ = pw92K scanGAM r (z.evalR ρ) := by
  simp only [lsda1, evalR_add, evalR_sub, evalR_mul, evalR_div, evalR_lit, evalR_one, evalR_ofNat, evalR_ufunc, evalR_npow, gcorG_eq hr hx hy, pw92K,
    p_eu, p_ep, p_alfm, scanFZZ]
  rw [show (0.03109070 : ℝ) = 0.0310907 by norm_num, show (0.213700 : ℝ) = 0.21370 by norm_num, show (7.59570 : ℝ) = 7.5957 by norm_num,
    show (3.58760 : ℝ) = 3.5876 by norm_num, show (1.63820 : ℝ) = 1.6382 by norm_num, show (0.492940 : ℝ) = 0.49294 by norm_num,
    show (0.015545350 : ℝ) = 0.01554535 by norm_num, show (0.205480 : ℝ) = 0.20548 by norm_num, show (14.11890 : ℝ) = 14.1189 by norm_num,
    show (6.19770 : ℝ) = 6.1977 by norm_num, show (3.36620 : ℝ) = 3.3662 by norm_num, show (0.625170 : ℝ) = 0.62517 by norm_num,
    show (0.01688690 : ℝ) = 0.0168869 by norm_num, show (0.111250 : ℝ) = 0.11125 by norm_num, show (10.3570 : ℝ) = 10.357 by norm_num,
    show (3.62310 : ℝ) = 3.6231 by norm_num, show (0.880260 : ℝ) = 0.88026 by norm_num, show (0.496710 : ℝ) = 0.49671 by norm_num]
  ring

theorem lsda1_drs_eq {x y z : Expr Field} {r : ℝ} (hr : 0 < r) (hx : x.evalR ρ = √r) (hy : y.evalR ρ = r) :
    (lsda1_drs y x z).evalR ρ = deriv (fun r => pw92K scanGAM r (z.evalR ρ)) r := by
  have a := gcorGrs_eq hr hx hy p_eu (by norm_num [p_eu]) (by norm_num [p_eu]) (by norm_num [p_eu]) (by norm_num [p_eu]) (by norm_num [p_eu])
  have b := gcorGrs_eq hr hx hy p_ep (by norm_num [p_ep]) (by norm_num [p_ep]) (by norm_num [p_ep]) (by norm_num [p_ep]) (by norm_num [p_ep])
  have c := gcorGrs_eq hr hx hy p_alfm (by norm_num [p_alfm]) (by norm_num [p_alfm]) (by norm_num [p_alfm]) (by norm_num [p_alfm])
    (by norm_num [p_alfm])
  set f : ℝ := ((1 + z.evalR ρ) ^ (4 / 3 : ℝ) + (1 - z.evalR ρ) ^ (4 / 3 : ℝ) - 2) / scanGAM with hf
  have := (a.sub ((c.mul_const f).div_const (8 / (9 * scanGAM)) |>.mul_const (1 - z.evalR ρ ^ 4))).add (((b.sub a).mul_const f).mul_const (z.evalR ρ ^ 4))
  refine (HasDerivAt.deriv ((this.congr_of_eventuallyEq (Filter.Eventually.of_forall fun r => ?_)).congr_deriv ?_)).symm
  · simp only [pw92K, p_eu, p_ep, p_alfm, Pi.add_apply, Pi.sub_apply]
    norm_num [hf]
  · simp only [lsda1_drs, evalR_add, evalR_sub, evalR_mul, evalR_div, evalR_lit, evalR_one, evalR_ofNat, evalR_ufunc, evalR_npow, ← hf, scanFZZ]
    ring

theorem lda0_eq {y : Expr Field} {r : ℝ} (hy : y.evalR ρ = r) : (lda_0 y).evalR ρ = ecLda0 r := by
  simp only [lda_0, evalR_div, evalR_add, evalR_mul, evalR_lit, evalR_one, evalR_sqrt, hy, ecLda0, B1C, B2C, B3C]

theorem lda0_drs {r : ℝ} (hr : 0 < r) (G : ℝ) :
    deriv (fun r => ecLda0 r * G) r = G * (0.125541 + 0.0889 / (2 * √r)) * ecLda0 r ^ 2 / 0.0285764 := by
  have hs := Real.sqrt_pos.2 hr
  have ds : HasDerivAt (fun r : ℝ => √r) (1 / (2 * √r)) r := Real.hasDerivAt_sqrt hr.ne'
  have dq : HasDerivAt (fun r : ℝ => 1 + 0.0889 * √r + 0.125541 * r) (0.0889 * (1 / (2 * √r)) + 0.125541) r := by
    simpa using ((ds.const_mul (0.0889 : ℝ)).const_add 1).fun_add ((hasDerivAt_id r).const_mul (0.125541 : ℝ))
  have hq : 0 < 1 + 0.0889 * √r + 0.125541 * r := by positivity
  have := ((dq.fun_inv hq.ne').const_mul (-0.0285764 : ℝ)).mul_const G
  refine HasDerivAt.deriv ((this.congr_of_eventuallyEq (Filter.Eventually.of_forall fun r => ?_)).congr_deriv ?_)
  · simp only [ecLda0, div_eq_mul_inv]
  · rw [ecLda0]
    generalize 1 + 0.0889 * √r + 0.125541 * r = q at *
    rw [show (0.0889 / (2 * √r) : ℝ) = 0.0889 * (1 / (2 * √r)) by ring]
    field_simp
    ring

theorem gc_eq (z : Expr Field) : (gc_z z).evalR ρ = gcScan (z.evalR ρ) := by
  simp only [gc_z, evalR_mul, evalR_sub, evalR_div, evalR_one, evalR_ofNat, evalR_ofScientific, evalR_ufunc, evalR_npow, gcScan, pol]

theorem ec0_eq {y s z : Expr Field} {r p : ℝ} (hy : y.evalR ρ = r) (hs : s.evalR ρ * s.evalR ρ = p) :
    (scan_ec0 y s z).evalR ρ = ec0Scan r p (z.evalR ρ) := by
  simp only [scan_ec0, evalR_mul, evalR_add, evalR_sub, evalR_div, evalR_neg, evalR_one, evalR_lit, evalR_exp, evalR_log, evalR_pow, lda0_eq hy, gc_eq,
    ec0Scan, B1C, ← hs]
  norm_num [mul_assoc]

theorem delY0 (y s z u w : Expr Field) : (scanDelY 0 y s z u w).evalR ρ = 0 := by simp [scanDelY]

theorem delY_eq (k : ℕ) (hk : k = 1 ∨ k = 2) {y s z u w : Expr Field} {r p : ℝ} (hr : 0 < r) (hy : y.evalR ρ = r) (hs : s.evalR ρ * s.evalR ρ = p)
    (hu : u.evalR ρ = Lit.phi (z.evalR ρ) ^ 3)
    (hw : w.evalR ρ = Real.exp (-pw92K scanGAM r (z.evalR ρ) / (0.031090690869655 * Lit.phi (z.evalR ρ) ^ 3)) - 1) :
    (scanDelY k y s z u w).evalR ρ = Δy 0.031090690869655 scanGAM r p (z.evalR ρ) := by
  have h0 : k ≠ 0 := by omega
  have hx : (sqrt y).evalR ρ = √r := by rw [evalR_sqrt, hy]
  have e4 : ETA = η := by rw [ETA, η]; norm_num
  rw [scanDelY, if_neg h0, if_pos hk]
  simp only [evalR_mul, evalR_add, evalR_sub, evalR_div, evalR_neg, evalR_ofNat, evalR_lit, evalR_exp, evalR_pow2, evalR_ufunc, evalR_sqrt,
    lda0_eq hy, gc_eq, lsda1_eq hr hx hy, lsda1_drs_eq hr hx hy, hu, hw, hs, hy, Δy, lda0_drs hr, delF2c, e4, pol, B1C, B2C, B3C]

theorem ec1_eq (k : ℕ) {y s z : Expr Field} {r p t2 Δ : ℝ} (hr : 0 < r) (hy : y.evalR ρ = r) (hs : s.evalR ρ * s.evalR ρ = p)
    (ht : Real.pi / 4 * (9 * Real.pi / 4) ^ (1 / 3 : ℝ) * p / (r * Lit.phi (z.evalR ρ) ^ 2) = t2)
    (hΔ : ∀ u w : Expr Field, u.evalR ρ = Lit.phi (z.evalR ρ) ^ 3 →
      w.evalR ρ = Real.exp (-pw92K scanGAM r (z.evalR ρ) / (0.031090690869655 * Lit.phi (z.evalR ρ) ^ 3)) - 1 → (scanDelY k y s z u w).evalR ρ = Δ) :
    (scan_ec1 y s z k).evalR ρ = ec1Scan 0.031090690869655 scanGAM r t2 (z.evalR ρ) Δ := by
  have hx : (sqrt y).evalR ρ = √r := by rw [evalR_sqrt, hy]
  have hp : (ufunc z (2 / 3) / 2).evalR ρ = Lit.phi (z.evalR ρ) := by rw [evalR_div, evalR_ufunc, evalR_ofNat, Lit.phi, pol]
  have ht' : (√(Real.pi / 4) * (9 * Real.pi / 4) ^ (1 / 6 : ℝ) * s.evalR ρ / (√r * Lit.phi (z.evalR ρ))) ^ 2 = t2 := by
    rw [← ht, ← hs, div_pow, mul_pow, mul_pow, mul_pow, Real.sq_sqrt (by positivity), Real.sq_sqrt hr.le, ← Real.rpow_natCast ((9 * Real.pi / 4) ^ _),
      ← Real.rpow_mul (by positivity)]
    norm_num [pow_two]
  simp only [scan_ec1]
  generalize hP : ufunc z (2 / 3) / 2 = P at *
  rw [evalR_add, lsda1_eq hr hx hy, ec1Scan]
  have hd := hΔ (npow P 3) (exp (-lsda1 y (sqrt y) z / (((0.031090690869655 : ℝ) : Expr Field) * npow P 3)) - 1) (by rw [evalR_npow, hp])
    (by simp only [evalR_sub, evalR_exp, evalR_div, evalR_neg, evalR_mul, evalR_lit, evalR_npow, evalR_one, hp, lsda1_eq hr hx hy])
  simp only [evalR_sub, evalR_exp, evalR_div, evalR_neg, evalR_mul, evalR_add, evalR_lit, evalR_npow, evalR_pow2, evalR_one, evalR_ofNat, evalR_log, evalR_pow, hd, hp, hx, hy, ht',
    lsda1_eq hr hx hy, betaRs]

/-! ### Correlation -/

theorem scanRs_eq (h : IsGas ρ g) : (pow ((4 * Real.pi : ℝ) * d.n / 3) (-(1 / 3))).evalR ρ = Lit.rs g.n := by
  have hn := h.npos
  rw [evalR_pow, evalR_div, evalR_mul, evalR_lit, evalR_ofNat, dn h, Lit.rs, Real.rpow_neg (by positivity), ← Real.inv_rpow (by positivity), inv_div]

theorem scanS_eq (h : IsGas ρ g) (hg : 0 ≤ g.gnn) : (sqrt d.gnn / ((2 * (3 * PI2) ^ (1 / 3 : ℝ) : ℝ) * pow d.n (4 / 3))).evalR ρ *
    (sqrt d.gnn / ((2 * (3 * PI2) ^ (1 / 3 : ℝ) : ℝ) * pow d.n (4 / 3))).evalR ρ = Lit.sSq g.n g.gnn := by
  have hn := h.npos
  have e2 : g.n ^ (4 / 3 : ℝ) = g.n ^ (1 / 3 : ℝ) * g.n := by
    nth_rewrite 3 [← Real.rpow_one g.n]; rw [← Real.rpow_add hn]; norm_num
  rw [evalR_div, evalR_sqrt, evalR_mul, evalR_lit, evalR_pow, dgnn h, dn h, div_mul_div_comm, Real.mul_self_sqrt hg, Lit.sSq, kF,
    Real.mul_rpow (by positivity) hn.le, PI2, ← pow_two Real.pi, e2]
  congr 1
  ring

theorem scanT {n z g2 : ℝ} (hn : 0 < n) (hz : 0 < Lit.phi z) :
    Real.pi / 4 * (9 * Real.pi / 4) ^ (1 / 3 : ℝ) * Lit.sSq n g2 / (Lit.rs n * Lit.phi z ^ 2) = tSq n z g2 := by
  have hk : kF n * Lit.rs n = (9 * Real.pi / 4) ^ (1 / 3 : ℝ) := by
    rw [kF, Lit.rs, ← Real.mul_rpow (by positivity) (by positivity)]
    congr 1
    have := Real.pi_pos
    field_simp; norm_num
  have hks : ks n ^ 2 = 4 * kF n / Real.pi := by
    rw [ks, Real.sq_sqrt (by unfold kF; positivity)]
  have h1 := rs_pos hn
  have h2 : 0 < kF n := by unfold kF; positivity
  have h3 := Real.pi_pos
  rw [← hk, tSq, mul_pow, mul_pow, mul_pow, hks, Lit.sSq]
  field_simp

theorem scanC_of (h : IsGas ρ g) (hs : 0 ≤ g.gnn) (i j k : ℕ) {al Δ : ℝ} {F : ℝ → ℝ}
    (hα : (scanAlpha i (d.tau - d.gnn / (8 * d.n))
      (if i = 1 then (((3 / 10 * kF2 : ℝ) : Expr Field) * pow d.n (5 / 3) + TAU_R) * (ufunc d.zeta (5 / 3) / 2)
        else ((3 / 10 * kF2 : ℝ) : Expr Field) * pow d.n (5 / 3) * (ufunc d.zeta (5 / 3) / 2)) (d.gnn / (8 * d.n))).evalR ρ = al)
    (hF : ∀ x : Expr Field, x.evalR ρ = al → (scanIef j 0.64 1.5 0.7 IEc x).evalR ρ = F al)
    (hΔ : ∀ y s z u w : Expr Field, y.evalR ρ = Lit.rs g.n → s.evalR ρ * s.evalR ρ = Lit.sSq g.n g.gnn → z.evalR ρ = g.zeta →
      u.evalR ρ = Lit.phi g.zeta ^ 3 → w.evalR ρ = Real.exp (-pw92K scanGAM (Lit.rs g.n) g.zeta / (0.031090690869655 * Lit.phi g.zeta ^ 3)) - 1 →
      (scanDelY k y s z u w).evalR ρ = Δ) :
    (SCAN_C i j k).evalR ρ = scanCof g.n (F al) (ec0Scan (Lit.rs g.n) (Lit.sSq g.n g.gnn) g.zeta)
      (ec1Scan 0.031090690869655 scanGAM (Lit.rs g.n) (tSq g.n g.zeta g.gnn) g.zeta Δ) := by
  have hz := dzeta h
  simp only [SCAN_C]
  rw [evalR_mul, evalR_add, evalR_mul, evalR_sub, hF _ hα, ec0_eq (scanRs_eq h) (scanS_eq h hs), dn h, scanCof, hz,
    ec1_eq k (t2 := tSq g.n g.zeta g.gnn) (rs_pos h.npos) (scanRs_eq h) (scanS_eq h hs) (by rw [hz]; exact scanT h.npos (phi_pos' h))
      (fun u w hu hw => hΔ _ _ _ u w (scanRs_eq h) (scanS_eq h hs) hz (by rw [hu, hz]) (by rw [hw, hz])), hz]
  ring

theorem lit_scanc (h : IsGas ρ g) (hs : ScanC g) : scanc.evalR ρ = Lit.scanC g 0.031090690869655 scanGAM := by
  rw [scanc, scanC_of h hs.gnn 0 0 0 (al := alphaScan g.tau (tauW g.n g.gnn) (tauTF g.n * pol (5 / 3) g.zeta)) (Δ := 0) (F := fScan 0.64 1.5 0.7)
    ?_ (fun x hx => by rw [ief0_eq, hx]) (fun y s z u w _ _ _ _ _ => delY0 y s z u w), Lit.scanC]
  rw [alpha0_eq _ _ _ (by simpa [evalR_sub, evalR_div, evalR_mul, tauW, dn h, dgnn h, dtau h] using hs.tau)]
  simp only [zero_ne_one, if_false, evalR_sub, evalR_div, evalR_mul, evalR_lit, evalR_ofNat, evalR_pow, evalR_ufunc, dn h, dgnn h, dtau h, dzeta h,
    alphaScan, tauW, tauTF, pol, kF2_eq]

theorem lit_rscanc (h : IsGas ρ g) (hs : 0 ≤ g.gnn)
    (hα : OutsideGap (alphaR (alphaScan g.tau (tauW g.n g.gnn) ((tauTF g.n + 0.0001) * pol (5 / 3) g.zeta)))) :
    rscanc.evalR ρ = rscanC g 0.031090690869655 scanGAM := by
  rw [rscanc, scanC_of h hs 1 1 0 (al := alphaR (alphaScan g.tau (tauW g.n g.gnn) ((tauTF g.n + 0.0001) * pol (5 / 3) g.zeta))) (Δ := 0)
    (F := fR 0.64 1.5 0.7 cfc) ?_ (fun x hx => by rw [ief1_eq x _ _ _ _ cfc (by rw [hx]; exact hα) IEc_eq rfl, hx])
    (fun y s z u w _ _ _ _ _ => delY0 y s z u w), Lit.rscanC]
  rw [alpha1_eq]
  simp only [if_true, evalR_add, evalR_sub, evalR_div, evalR_mul, evalR_lit, evalR_ofNat, evalR_pow, evalR_ufunc, dn h, dgnn h, dtau h, dzeta h,
    alphaScan, tauW, tauTF, pol, kF2_eq, TAU_R]
  norm_num

/-- The indicator of the last three functionals. -/
theorem alphaBar_eq (h : IsGas ρ g) (hs : ScanC g) : (scanAlpha 2 (d.tau - d.gnn / (8 * d.n))
      (if 2 = 1 then (((3 / 10 * kF2 : ℝ) : Expr Field) * pow d.n (5 / 3) + TAU_R) * (ufunc d.zeta (5 / 3) / 2)
        else ((3 / 10 * kF2 : ℝ) : Expr Field) * pow d.n (5 / 3) * (ufunc d.zeta (5 / 3) / 2)) (d.gnn / (8 * d.n))).evalR ρ =
    alphaBar g.tau (tauW g.n g.gnn) (tauTF g.n * pol (5 / 3) g.zeta) := by
  rw [alpha2_eq _ _ _ (by simpa [evalR_sub, evalR_div, evalR_mul, tauW, dn h, dgnn h, dtau h] using hs.tau)]
  simp only [if_neg (show ¬ (2 : ℕ) = 1 by norm_num), evalR_sub, evalR_div, evalR_mul, evalR_lit, evalR_ofNat, evalR_pow, evalR_ufunc, dn h, dgnn h,
    dtau h, dzeta h, alphaBar, tauW, tauTF, pol, kF2_eq]

theorem lit_rppscanc (h : IsGas ρ g) (hs : ScanC g) (hα : OutsideGap (alphaBar g.tau (tauW g.n g.gnn) (tauTF g.n * pol (5 / 3) g.zeta))) :
    rppscanc.evalR ρ = rppscanC g 0.031090690869655 scanGAM := by
  rw [rppscanc, scanC_of h hs.gnn 2 1 0 (Δ := 0) (F := fR 0.64 1.5 0.7 cfc) (alphaBar_eq h hs)
    (fun x hx => by rw [ief1_eq x _ _ _ _ cfc (by rw [hx]; exact hα) IEc_eq rfl, hx]) (fun y s z u w _ _ _ _ _ => delY0 y s z u w), Lit.rppscanC]

theorem r2c_of (h : IsGas ρ g) (hs : ScanC g) (hα : OutsideGap (alphaBar g.tau (tauW g.n g.gnn) (tauTF g.n * pol (5 / 3) g.zeta))) (k : ℕ)
    (hk : k = 1 ∨ k = 2) : (SCAN_C 2 1 k).evalR ρ = r2scanC g 0.031090690869655 scanGAM := by
  rw [scanC_of h hs.gnn 2 1 k (F := fR 0.64 1.5 0.7 cfc) (Δ := Δy 0.031090690869655 scanGAM (Lit.rs g.n) (Lit.sSq g.n g.gnn) g.zeta) (alphaBar_eq h hs)
    (fun x hx => by rw [ief1_eq x _ _ _ _ cfc (by rw [hx]; exact hα) IEc_eq rfl, hx])
    (fun y s z u w hy hp hz hu hw => by rw [delY_eq k hk (rs_pos h.npos) hy hp (by rw [hu, hz]) (by rw [hw, hz]), hz]), Lit.r2scanC]

theorem lit_r2scanc (h : IsGas ρ g) (hs : ScanC g) (hα : OutsideGap (alphaBar g.tau (tauW g.n g.gnn) (tauTF g.n * pol (5 / 3) g.zeta))) :
    r2scanc.evalR ρ = r2scanC g 0.031090690869655 scanGAM := r2c_of h hs hα 1 (Or.inl rfl)

theorem lit_r4scanc (h : IsGas ρ g) (hs : ScanC g) (hα : OutsideGap (alphaBar g.tau (tauW g.n g.gnn) (tauTF g.n * pol (5 / 3) g.zeta))) :
    r4scanc.evalR ρ = r2scanC g 0.031090690869655 scanGAM := r2c_of h hs hα 2 (Or.inr rfl)

end corr

end XCFun.Fun
