/-
Functionals that use the rational approximation to `√x arsinh √x`, compared with the published formulas for small gradients as well.
-/
import Verif.Proofs.Pade
import Verif.Proofs.LitTable

namespace XCFun.Fun
open XCFun Expr Lit

variable {ρ : Field → ℝ} {g : Gas}

/-- The function of the code against `√x arsinh √x`: equal from 1/2 on, close below. -/
theorem sas_close {x : Expr Field} (h0 : 0 ≤ x.evalR ρ) :
    |x.sqrtxAsinhSqrtx.evalR ρ - √(x.evalR ρ) * Real.arsinh √(x.evalR ρ)| ≤ 6e-15 * min (x.evalR ρ) (1 / 2) := by
  rcases lt_or_ge (x.evalR ρ) 0.5 with h | h
  · have := Pade.approx_bound h0 (by norm_num at h ⊢; linarith)
    rw [sas_evalR, if_pos h, if_pos (by norm_num; linarith), mul_one_div, min_eq_left (by norm_num at h ⊢; linarith)]
    exact this
  · rw [sas_large h, sub_self, abs_zero]
    have : (0 : ℝ) ≤ min (x.evalR ρ) (1 / 2) := le_min h0 (by norm_num)
    positivity

/-- Relative change of a quotient `(T + u)/(T + w)` when `T` changes. -/
theorem quotient_close {T T' u w : ℝ} (hT : 1 ≤ T) (hT' : 1 ≤ T') (hu : 0 ≤ u) (hw : 0 ≤ w) :
    |(T' + u) / (T' + w) - (T + u) / (T + w)| ≤ |T' - T| * ((T + u) / (T + w)) := by
  have e : (T' + u) / (T' + w) - (T + u) / (T + w) = (T' - T) * ((w - u) / ((T' + w) * (T + w))) := by
    have : T' + w ≠ 0 := by linarith
    have : T + w ≠ 0 := by linarith
    field_simp; ring
  rw [e, abs_mul]
  refine mul_le_mul_of_nonneg_left ?_ (abs_nonneg _)
  have h1 : 0 < T' + w := by linarith
  have h2 : 0 < T + w := by linarith
  rw [abs_div, abs_of_pos (mul_pos h1 h2), div_le_div_iff₀ (mul_pos h1 h2) h2]
  have h3 : |w - u| ≤ (T' + w) * (T + u) := by
    rw [abs_le]; constructor <;> nlinarith
  calc |w - u| * (T + w) ≤ (T' + w) * (T + u) * (T + w) := mul_le_mul_of_nonneg_right h3 h2.le
    _ = (T + u) * ((T' + w) * (T + w)) := by ring

/-- Relative change of a quotient `c/T`. -/
theorem inverse_close {T T' c : ℝ} (hT : 1 ≤ T) (hT' : 1 ≤ T') : |c / T' - c / T| ≤ |T' - T| * |c / T| := by
  have e : c / T' - c / T = -((T' - T) * (c / T)) * (1 / T') := by
    have : T' ≠ 0 := by linarith
    have : T ≠ 0 := by linarith
    field_simp; ring
  have h1 : |1 / T'| ≤ 1 := by
    rw [abs_of_pos (by positivity), div_le_one (by linarith)]; exact hT'
  rw [e, abs_mul, abs_neg, abs_mul]
  exact mul_le_of_le_one_right (by positivity) h1

theorem exact_nonneg (x : ℝ) : 0 ≤ √x * Real.arsinh √x := mul_nonneg (Real.sqrt_nonneg _) (Real.arsinh_nonneg_iff.2 (Real.sqrt_nonneg _))

/-! ### Becke 1988 -/

theorem b88_nonpos {a gaa : ℝ} (ha : 0 < a) (hg : 0 ≤ gaa) : b88 a gaa ≤ 0 := by
  have h1 : 0 ≤ Lit.chiSq a gaa := by unfold Lit.chiSq; positivity
  have h2 := exact_nonneg (Lit.chiSq a gaa)
  have h3 : 0 < a ^ (4 / 3 : ℝ) := by positivity
  unfold b88
  refine div_nonpos_of_nonpos_of_nonneg ?_ (by nlinarith)
  have := mul_nonneg h3.le h1
  nlinarith

theorem b88_close {n g' : Expr Field} (hn : 0 < n.evalR ρ) (hg : 0 ≤ g'.evalR ρ) :
    |(becke_corr n g').evalR ρ - b88 (n.evalR ρ) (g'.evalR ρ)| ≤ 1e-16 * |b88 (n.evalR ρ) (g'.evalR ρ)| := by
  have e : (g' * Expr.pow n (-8 / 3)).evalR ρ = Lit.chiSq (n.evalR ρ) (g'.evalR ρ) := by
    rw [evalR_mul, evalR_pow, chiSq_eq hn]
  have h0 : 0 ≤ (g' * Expr.pow n (-8 / 3)).evalR ρ := by rw [evalR_mul, evalR_pow]; positivity
  have hs := sas_nonneg h0
  have hc := sas_close h0
  have hx := exact_nonneg (Lit.chiSq (n.evalR ρ) (g'.evalR ρ))
  rw [e] at hc h0
  set A := (Expr.sqrtxAsinhSqrtx (g' * Expr.pow n (-8 / 3))).evalR ρ with hA
  set E := √(Lit.chiSq (n.evalR ρ) (g'.evalR ρ)) * Real.arsinh √(Lit.chiSq (n.evalR ρ) (g'.evalR ρ)) with hE
  have e1 : (becke_corr n g').evalR ρ = -0.0042 * n.evalR ρ ^ (4 / 3 : ℝ) * Lit.chiSq (n.evalR ρ) (g'.evalR ρ) / (1 + 6 * 0.0042 * A) := by
    simp only [becke_corr, evalR_div, evalR_neg, evalR_mul, evalR_add, evalR_lit, evalR_one, evalR_pow, beckeD]
    rw [← hA, chiSq_eq hn]
    ring_nf
  have e2 : b88 (n.evalR ρ) (g'.evalR ρ) = -0.0042 * n.evalR ρ ^ (4 / 3 : ℝ) * Lit.chiSq (n.evalR ρ) (g'.evalR ρ) / (1 + 6 * 0.0042 * E) := by
    rw [b88, hE]; ring_nf
  rw [e1, e2]
  refine (inverse_close (T := 1 + 6 * 0.0042 * E) (T' := 1 + 6 * 0.0042 * A) (by linarith) (by linarith)).trans ?_
  refine mul_le_mul_of_nonneg_right ?_ (abs_nonneg _)
  rw [show 1 + 6 * 0.0042 * A - (1 + 6 * 0.0042 * E) = (6 * 0.0042) * (A - E) by ring, abs_mul, abs_of_pos (by norm_num)]
  have : |A - E| ≤ 6e-15 * (1 / 2) := hc.trans (mul_le_mul_of_nonneg_left (min_le_right _ _) (by norm_num))
  refine (mul_le_mul_of_nonneg_left this (by norm_num)).trans ?_
  norm_num

theorem close_beckecorr (h : IsGas ρ g) (ha : 0 ≤ g.gaa) (hb : 0 ≤ g.gbb) : |beckexcorr.evalR ρ - b88Corr g| ≤ 1e-16 * |b88Corr g| := by
  have pa : 0 < d.a.evalR ρ := h.physical.a
  have pb : 0 < d.b.evalR ρ := h.physical.b
  have ea : d.a.evalR ρ = g.a := h.a
  have eb : d.b.evalR ρ = g.b := h.b
  have ega : d.gaa.evalR ρ = g.gaa := h.gaa
  have egb : d.gbb.evalR ρ = g.gbb := h.gbb
  have ca := b88_close pa (by rw [ega]; exact ha)
  have cb := b88_close pb (by rw [egb]; exact hb)
  rw [ea, ega] at ca
  rw [eb, egb] at cb
  have na := b88_nonpos h.apos ha
  have nb := b88_nonpos h.bpos hb
  rw [beckexcorr, evalR_add, b88Corr, abs_of_nonpos (add_nonpos na nb)]
  rw [abs_of_nonpos na] at ca
  rw [abs_of_nonpos nb] at cb
  refine (le_of_eq_of_le (congrArg _ (by ring)) (abs_add_le ((becke_corr d.a d.gaa).evalR ρ - b88 g.a g.gaa)
    ((becke_corr d.b d.gbb).evalR ρ - b88 g.b g.gbb))).trans ?_
  linarith

theorem close_beckex (h : IsGas ρ g) (ha : 0 ≤ g.gaa) (hb : 0 ≤ g.gbb) : |beckex.evalR ρ - b88X g| ≤ 1e-16 * |b88X g| := by
  have hs : slaterX g ≤ 0 := by
    have h1 : ∀ n : ℝ, 0 < n → exUnif n ≤ 0 := by
      intro n hn
      have h3 : 0 < n ^ (4 / 3 : ℝ) := by positivity
      have h4 : 0 < (3 / Real.pi) ^ (1 / 3 : ℝ) := by have := Real.pi_pos; positivity
      have := mul_pos h4 h3
      unfold exUnif; linarith
    have := h1 _ (mul_pos two_pos h.apos)
    have := h1 _ (mul_pos two_pos h.bpos)
    simp only [slaterX, spinScaled]
    linarith
  have nc : b88Corr g ≤ 0 := add_nonpos (b88_nonpos h.apos ha) (b88_nonpos h.bpos hb)
  have hc := close_beckecorr h ha hb
  have e : beckex.evalR ρ - b88X g = beckexcorr.evalR ρ - b88Corr g := by
    rw [beckex_evalR, ← slaterx_evalR h.physical, lit_slaterx h, b88X]; ring
  rw [e]
  refine hc.trans ?_
  rw [b88X, abs_of_nonpos nc, abs_of_nonpos (add_nonpos hs nc)]
  linarith

/-! ### Perdew and Wang 1991 -/

theorem fPW91_pos {q : ParamAB} (hq : q.Good) {s : ℝ} (hs : 0 ≤ s) : 0 < fPW91 q.p0 q.p1 q.p2 q.p3 q.p4 q.p5 s := by
  have h2 : Real.exp (-q.p4 * s) ≤ 1 := by
    rw [Real.exp_le_one_iff]
    nlinarith [mul_nonneg hq.p4 hs]
  have h3 : 0 ≤ q.p2 - q.p3 * Real.exp (-q.p4 * s) := by
    have := mul_le_mul_of_nonneg_left h2 hq.p3
    linarith [hq.p23]
  have h4 : 0 ≤ q.p0 * √s * Real.arsinh (q.p1 * √s) :=
    mul_nonneg (mul_nonneg hq.p0 (Real.sqrt_nonneg _)) (Real.arsinh_nonneg_iff.2 (mul_nonneg hq.p1.le (Real.sqrt_nonneg _)))
  have h5 := mul_nonneg h3 hs
  have h6 : 0 ≤ q.p5 * s ^ 2 := mul_nonneg hq.p5 (sq_nonneg _)
  unfold fPW91
  exact div_pos (by linarith) (by linarith)

theorem fPW91_close {n g' : Expr Field} {q : ParamAB} (hq : q.Good) (hr : q.p0 / q.p1 ≤ 1 / 30) (hn : 0 < n.evalR ρ) (hg : 0 ≤ g'.evalR ρ) :
    |(pw91xk_enhancement q n g').evalR ρ - fPW91 q.p0 q.p1 q.p2 q.p3 q.p4 q.p5 ((S2 n g').evalR ρ)| ≤
      1e-16 * fPW91 q.p0 q.p1 q.p2 q.p3 q.p4 q.p5 ((S2 n g').evalR ρ) := by
  have hs := S2_nonneg hn hg
  have hp1 := hq.p1
  have ex : (((q.p1 ^ 2 : ℝ) : Expr Field) * S2 n g').evalR ρ = q.p1 ^ 2 * (S2 n g').evalR ρ := by rw [evalR_mul, evalR_lit]
  have h0 : 0 ≤ (((q.p1 ^ 2 : ℝ) : Expr Field) * S2 n g').evalR ρ := by rw [ex]; positivity
  have hsq : √(q.p1 ^ 2 * (S2 n g').evalR ρ) = q.p1 * √((S2 n g').evalR ρ) := by
    rw [Real.sqrt_mul (by positivity), Real.sqrt_sq hp1.le]
  have hA := sas_nonneg h0
  have hc := (sas_close h0).trans (mul_le_mul_of_nonneg_left (min_le_right _ _) (by norm_num))
  rw [ex, hsq] at hc
  rw [pw91_evalR]
  set s := (S2 n g').evalR ρ
  set A := (Expr.sqrtxAsinhSqrtx (((q.p1 ^ 2 : ℝ) : Expr Field) * S2 n g')).evalR ρ
  have h2 : Real.exp (-q.p4 * s) ≤ 1 := by
    rw [Real.exp_le_one_iff]
    nlinarith [mul_nonneg hq.p4 hs]
  have h3 : 0 ≤ s * (q.p2 - q.p3 * Real.exp (-q.p4 * s)) := by
    have := mul_le_mul_of_nonneg_left h2 hq.p3
    exact mul_nonneg hs (by linarith [hq.p23])
  have h4 : 0 ≤ q.p0 * √s * Real.arsinh (q.p1 * √s) :=
    mul_nonneg (mul_nonneg hq.p0 (Real.sqrt_nonneg _)) (Real.arsinh_nonneg_iff.2 (mul_nonneg hp1.le (Real.sqrt_nonneg _)))
  have h5 : 0 ≤ q.p0 * A / q.p1 := div_nonneg (mul_nonneg hq.p0 hA) hp1.le
  have h6 : 0 ≤ q.p5 * s * s := mul_nonneg (mul_nonneg hq.p5 hs) hs
  have e2 : fPW91 q.p0 q.p1 q.p2 q.p3 q.p4 q.p5 s = ((1 + q.p0 * √s * Real.arsinh (q.p1 * √s)) + s * (q.p2 - q.p3 * Real.exp (-q.p4 * s))) /
      ((1 + q.p0 * √s * Real.arsinh (q.p1 * √s)) + q.p5 * s * s) := by
    unfold fPW91; ring_nf
  have pos := fPW91_pos hq hs
  have key := quotient_close (T := 1 + q.p0 * √s * Real.arsinh (q.p1 * √s)) (T' := 1 + q.p0 * A / q.p1) (by linarith) (by linarith) h3 h6
  rw [← e2] at key
  refine key.trans (mul_le_mul_of_nonneg_right ?_ pos.le)
  have e3 : 1 + q.p0 * A / q.p1 - (1 + q.p0 * √s * Real.arsinh (q.p1 * √s)) = q.p0 / q.p1 * (A - q.p1 * √s * Real.arsinh (q.p1 * √s)) := by
    field_simp; ring
  have h7 : 0 ≤ q.p0 / q.p1 := div_nonneg hq.p0 hp1.le
  rw [e3, abs_mul, abs_of_nonneg h7]
  refine (mul_le_mul hr hc (abs_nonneg _) (by norm_num)).trans ?_
  norm_num

/-- Two terms, each close to a positive one. -/
theorem sum_close {ε c A A' B B' a b : ℝ} (hA : |A' - A| ≤ ε * A) (hB : |B' - B| ≤ ε * B) (ha : 0 ≤ a) (hb : 0 ≤ b) (pA : 0 ≤ A) (pB : 0 ≤ B) :
    |(c * a * A' + c * b * B') - (c * a * A + c * b * B)| ≤ ε * |c * a * A + c * b * B| := by
  have e : (c * a * A' + c * b * B') - (c * a * A + c * b * B) = c * (a * (A' - A) + b * (B' - B)) := by ring
  have e' : c * a * A + c * b * B = c * (a * A + b * B) := by ring
  have hn : 0 ≤ a * A + b * B := by positivity
  rw [e, e', abs_mul, abs_mul, abs_of_nonneg hn, mul_left_comm]
  refine mul_le_mul_of_nonneg_left ?_ (abs_nonneg _)
  refine (abs_add_le _ _).trans ?_
  rw [abs_mul, abs_mul, abs_of_nonneg ha, abs_of_nonneg hb]
  have := mul_le_mul_of_nonneg_left hA ha
  have := mul_le_mul_of_nonneg_left hB hb
  linarith

theorem close_pw91x (h : IsGas ρ g) (ha : 0 ≤ g.gaa) (hb : 0 ≤ g.gbb) : |pw91x.evalR ρ - pw91X g| ≤ 1e-16 * |pw91X g| := by
  have pa : 0 < d.a.evalR ρ := h.physical.a
  have pb : 0 < d.b.evalR ρ := h.physical.b
  have ga : 0 ≤ d.gaa.evalR ρ := by rw [show d.gaa.evalR ρ = g.gaa from h.gaa]; exact ha
  have gb : 0 ≤ d.gbb.evalR ρ := by rw [show d.gbb.evalR ρ = g.gbb from h.gbb]; exact hb
  have pa' : 0 < ρ .a := pa
  have pb' : 0 < ρ .b := pb
  rw [pw91x_evalR, pw91X, exGGA_eq h]
  exact sum_close (fPW91_close pw91x_good (by norm_num [pw91xParam]) pa ga) (fPW91_close pw91x_good (by norm_num [pw91xParam]) pb gb)
    (by positivity) (by positivity) (fPW91_pos pw91x_good (S2_nonneg pa ga)).le (fPW91_pos pw91x_good (S2_nonneg pb gb)).le

theorem close_pw91k (h : IsGas ρ g) (ha : 0 ≤ g.gaa) (hb : 0 ≤ g.gbb) : |pw91k.evalR ρ - pw91K g| ≤ 1e-16 * |pw91K g| := by
  have pa : 0 < d.a.evalR ρ := h.physical.a
  have pb : 0 < d.b.evalR ρ := h.physical.b
  have ga : 0 ≤ d.gaa.evalR ρ := by rw [show d.gaa.evalR ρ = g.gaa from h.gaa]; exact ha
  have gb : 0 ≤ d.gbb.evalR ρ := by rw [show d.gbb.evalR ρ = g.gbb from h.gbb]; exact hb
  have pa' : 0 < ρ .a := pa
  have pb' : 0 < ρ .b := pb
  have ea : (S2 d.a d.gaa).evalR ρ = Lit.sSq (2 * g.a) (4 * g.gaa) := by
    rw [S2_eval pa, lit_sSq_double _ _ h.apos]
    show Spec.sSq (ρ .a) (ρ .gaa) = _
    rw [h.a, h.gaa]
  have eb : (S2 d.b d.gbb).evalR ρ = Lit.sSq (2 * g.b) (4 * g.gbb) := by
    rw [S2_eval pb, lit_sSq_double _ _ h.bpos]
    show Spec.sSq (ρ .b) (ρ .gbb) = _
    rw [h.b, h.gbb]
  have e2 : pw91K g = CF * 2 ^ (2 / 3 : ℝ) * ρ .a ^ (5 / 3 : ℝ) *
        fPW91 pw91kParam.p0 pw91kParam.p1 pw91kParam.p2 pw91kParam.p3 pw91kParam.p4 pw91kParam.p5 ((S2 d.a d.gaa).evalR ρ) +
      CF * 2 ^ (2 / 3 : ℝ) * ρ .b ^ (5 / 3 : ℝ) *
        fPW91 pw91kParam.p0 pw91kParam.p1 pw91kParam.p2 pw91kParam.p3 pw91kParam.p4 pw91kParam.p5 ((S2 d.b d.gbb).evalR ρ) := by
    rw [ea, eb, pw91K, spinScaled, h.a, h.b, ← tauTF_double _ h.apos, ← tauTF_double _ h.bpos]
    simp only [pw91kParam]
    norm_num
    ring
  have e1 : pw91k.evalR ρ = CF * 2 ^ (2 / 3 : ℝ) * ρ .a ^ (5 / 3 : ℝ) * (pw91xk_enhancement pw91kParam d.a d.gaa).evalR ρ +
      CF * 2 ^ (2 / 3 : ℝ) * ρ .b ^ (5 / 3 : ℝ) * (pw91xk_enhancement pw91kParam d.b d.gbb).evalR ρ := by
    rw [pw91k, evalR_add, evalR_mul, evalR_mul]
    simp only [pw91k_prefactor, evalR_mul, evalR_lit, evalR_pow]
    rfl
  rw [e1, e2]
  exact sum_close (fPW91_close pw91k_good (by norm_num [pw91kParam]) pa ga) (fPW91_close pw91k_good (by norm_num [pw91kParam]) pb gb)
    (by positivity) (by positivity) (fPW91_pos pw91k_good (S2_nonneg pa ga)).le (fPW91_pos pw91k_good (S2_nonneg pb gb)).le

end XCFun.Fun
