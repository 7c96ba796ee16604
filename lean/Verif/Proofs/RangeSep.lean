/-
Range-separated exchange: Becke 1988 short range and CAM, local short range.
-/
import Verif.Proofs.Attenuation
import Verif.Proofs.PadeFun

namespace XCFun.Fun
open XCFun Expr Lit Atten

variable {ρ : Field → ℝ} {g : Gas}

/-! ### Becke 1988 -/

section
variable (n g' : Expr Field) (ρ)

/-- `K` as computed by the code, with the value of `√x arsinh √x` it uses. -/
noncomputable def codeK : ℝ := (2 * ((cLda : Expr Field) + ((beckeD : Expr Field) * (g' * pow n (-8 / 3))) /
      (1 + (6 * beckeD : ℝ) * sqrtxAsinhSqrtx (g' * pow n (-8 / 3)))) : Expr Field).evalR ρ

/-- The argument of the attenuation. -/
noncomputable def codeA (μ : ℝ) : ℝ := μ * √(codeK ρ n g') / (6 * √Real.pi * (n.evalR ρ) ^ (1 / 3 : ℝ))

theorem sr_eval (μ : Expr Field) : (becke_sr μ n g').evalR ρ =
    -(1 / 2) * n.evalR ρ ^ (4 / 3 : ℝ) * codeK ρ n g' * (1 - attenuation (codeA ρ n g' (μ.evalR ρ))) := by
  have hK : (2 * ((cLda : Expr Field) + ((beckeD : Expr Field) * (g' * pow n (-8 / 3))) /
      (1 + (6 * beckeD : ℝ) * sqrtxAsinhSqrtx (g' * pow n (-8 / 3)))) : Expr Field).evalR ρ = codeK ρ n g' := rfl
  unfold becke_sr codeA
  dsimp only
  generalize (2 * ((cLda : Expr Field) + ((beckeD : Expr Field) * (g' * pow n (-8 / 3))) /
      (1 + (6 * beckeD : ℝ) * sqrtxAsinhSqrtx (g' * pow n (-8 / 3)))) : Expr Field) = K at hK ⊢
  have hA : (μ * sqrt K / ((6 * √Real.pi : ℝ) * pow n (1 / 3))).evalR ρ =
      μ.evalR ρ * √(codeK ρ n g') / (6 * √Real.pi * (n.evalR ρ) ^ (1 / 3 : ℝ)) := by
    simp only [evalR_div, evalR_mul, evalR_sqrt, evalR_lit, evalR_pow, hK]
  generalize μ * sqrt K / ((6 * √Real.pi : ℝ) * pow n (1 / 3)) = A at hA ⊢
  simp only [evalR_mul, evalR_sub, evalR_add, evalR_div, evalR_neg, evalR_one, evalR_lit, evalR_ofNat, evalR_ofScientific, evalR_erf,
    evalR_expm1, evalR_pow, hK, ← hA, ← attenuation_eq]
  norm_num

theorem cam_eval (α β μ : Expr Field) : (becke_cam α β μ n g').evalR ρ =
    -(1 / 2) * n.evalR ρ ^ (4 / 3 : ℝ) * codeK ρ n g' * (1 - α.evalR ρ - β.evalR ρ * attenuation (codeA ρ n g' (μ.evalR ρ))) := by
  have hK : (2 * ((cLda : Expr Field) + ((beckeD : Expr Field) * (g' * pow n (-8 / 3))) /
      (1 + (6 * beckeD : ℝ) * sqrtxAsinhSqrtx (g' * pow n (-8 / 3)))) : Expr Field).evalR ρ = codeK ρ n g' := rfl
  unfold becke_cam codeA
  dsimp only
  generalize (2 * ((cLda : Expr Field) + ((beckeD : Expr Field) * (g' * pow n (-8 / 3))) /
      (1 + (6 * beckeD : ℝ) * sqrtxAsinhSqrtx (g' * pow n (-8 / 3)))) : Expr Field) = K at hK ⊢
  have hA : (μ * sqrt K / ((6 * √Real.pi : ℝ) * pow n (1 / 3))).evalR ρ =
      μ.evalR ρ * √(codeK ρ n g') / (6 * √Real.pi * (n.evalR ρ) ^ (1 / 3 : ℝ)) := by
    simp only [evalR_div, evalR_mul, evalR_sqrt, evalR_lit, evalR_pow, hK]
  generalize μ * sqrt K / ((6 * √Real.pi : ℝ) * pow n (1 / 3)) = A at hA ⊢
  simp only [evalR_mul, evalR_sub, evalR_add, evalR_div, evalR_neg, evalR_one, evalR_lit, evalR_ofNat, evalR_ofScientific, evalR_erf,
    evalR_expm1, evalR_pow, hK, ← hA, ← attenuation_eq]
  ring_nf

theorem alpha_eval : (becke_alpha n g').evalR ρ = -(1 / 2) * n.evalR ρ ^ (4 / 3 : ℝ) * codeK ρ n g' := by
  simp only [becke_alpha, codeK, evalR_div, evalR_neg, evalR_mul, evalR_add, evalR_lit, evalR_one, evalR_pow, evalR_ofNat]
  ring

variable {n g'}

theorem codeK_pos (hn : 0 < n.evalR ρ) (hg : 0 ≤ g'.evalR ρ) : 0 < codeK ρ n g' := by
  have h0 : 0 ≤ (g' * Expr.pow n (-8 / 3)).evalR ρ := by rw [evalR_mul, evalR_pow]; positivity
  have hs := sas_nonneg h0
  have hc : 0 < cLda := by rw [cLda_eq, ← cX_eq]; have := Real.pi_pos; unfold cX; positivity
  simp only [codeK, evalR_mul, evalR_add, evalR_div, evalR_one, evalR_lit, evalR_ofNat, beckeD] at *
  positivity

theorem codeA_pos (hn : 0 < n.evalR ρ) (hg : 0 ≤ g'.evalR ρ) {μ : ℝ} (hμ : 0 < μ) : 0 < codeA ρ n g' μ := by
  have := codeK_pos ρ hn hg
  have := Real.pi_pos
  unfold codeA
  positivity

theorem codeA_mono (hn : 0 < n.evalR ρ) (hg : 0 ≤ g'.evalR ρ) {μ ν : ℝ} (h : μ ≤ ν) : codeA ρ n g' μ ≤ codeA ρ n g' ν := by
  have := codeK_pos ρ hn hg
  have := Real.pi_pos
  unfold codeA
  gcongr

theorem alpha_neg (hn : 0 < n.evalR ρ) (hg : 0 ≤ g'.evalR ρ) : (becke_alpha n g').evalR ρ < 0 := by
  have h1 := codeK_pos ρ hn hg
  have h2 : 0 < n.evalR ρ ^ (4 / 3 : ℝ) := by positivity
  rw [alpha_eval]
  nlinarith [mul_pos h2 h1]

end

/-! ### Distance from the published formulas -/

theorem b88K_pos {a gaa : ℝ} (ha : 0 < a) (hg : 0 ≤ gaa) : 0 < b88K a gaa := by
  have h1 : 0 ≤ Lit.chiSq a gaa := by unfold Lit.chiSq; positivity
  have h2 := exact_nonneg (Lit.chiSq a gaa)
  have h3 : 0 < cX := by have := Real.pi_pos; unfold cX; positivity
  have h4 : 0 ≤ 0.0042 * Lit.chiSq a gaa / (1 + 6 * 0.0042 * √(Lit.chiSq a gaa) * Real.arsinh √(Lit.chiSq a gaa)) :=
    div_nonneg (by positivity) (by nlinarith)
  unfold b88K
  linarith

theorem codeK_close {n g' : Expr Field} (hn : 0 < n.evalR ρ) (hg : 0 ≤ g'.evalR ρ) :
    |codeK ρ n g' - b88K (n.evalR ρ) (g'.evalR ρ)| ≤ 1e-16 * b88K (n.evalR ρ) (g'.evalR ρ) := by
  have hc := b88_close hn hg
  have hneg := b88_nonpos hn hg
  have h3 : 0 < n.evalR ρ ^ (4 / 3 : ℝ) := by positivity
  have hX : 0 < cX := by have := Real.pi_pos; unfold cX; positivity
  have e1 : (becke_corr n g').evalR ρ = -(n.evalR ρ ^ (4 / 3 : ℝ)) * (codeK ρ n g' / 2 - cX) := by
    simp only [becke_corr, codeK, evalR_div, evalR_neg, evalR_mul, evalR_add, evalR_lit, evalR_one, evalR_pow, evalR_ofNat, cLda_eq, ← cX_eq]
    ring
  have e2 : b88 (n.evalR ρ) (g'.evalR ρ) = -(n.evalR ρ ^ (4 / 3 : ℝ)) * (b88K (n.evalR ρ) (g'.evalR ρ) / 2 - cX) := by
    rw [b88, b88K]; ring
  rw [abs_of_nonpos hneg, e1, e2, ← mul_sub, abs_mul, abs_neg, abs_of_pos h3,
    show (1e-16 : ℝ) * -(-(n.evalR ρ ^ (4 / 3 : ℝ)) * (b88K (n.evalR ρ) (g'.evalR ρ) / 2 - cX)) =
      n.evalR ρ ^ (4 / 3 : ℝ) * (1e-16 * (b88K (n.evalR ρ) (g'.evalR ρ) / 2 - cX)) by ring] at hc
  have := le_of_mul_le_mul_left hc h3
  rw [show codeK ρ n g' / 2 - cX - (b88K (n.evalR ρ) (g'.evalR ρ) / 2 - cX) = (codeK ρ n g' - b88K (n.evalR ρ) (g'.evalR ρ)) / 2 by ring,
    abs_div, abs_of_pos (two_pos (α := ℝ))] at this
  have h5 : (0 : ℝ) ≤ 1e-16 * cX := by positivity
  linarith

/-- The attenuation changes little with `K`. -/
theorem attenuation_close {K K' c : ℝ} (hK : 0 < K) (hK' : 0 < K') (hc : 0 < c) (h : |K' - K| ≤ 1e-16 * K) :
    |attenuation (c * √K') - attenuation (c * √K)| ≤ 3e-16 := by
  obtain ⟨l, u⟩ := abs_le.1 h
  have hA : 0 < c * √K := by positivity
  have hA' : 0 < c * √K' := by positivity
  have e4 : ∀ {k : ℝ}, 0 < k → (c * √k) ^ 4 = c ^ 4 * k ^ 2 := by
    intro k hk
    rw [mul_pow, show √k ^ 4 = (√k ^ 2) ^ 2 by ring, Real.sq_sqrt hk.le]
  have a1 := attenuation_le_one hA
  have a0 := attenuation_nonneg hA
  have a0' := attenuation_nonneg hA'
  rcases le_total K K' with hle | hle
  · have hm : c * √K ≤ c * √K' := by gcongr
    have m := attenuation_mono hA hm
    have gr := attenuation_growth hA hm
    rw [e4 hK, e4 hK'] at gr
    have gr' : attenuation (c * √K') * K ^ 2 ≤ attenuation (c * √K) * K' ^ 2 := by
      have hc4 : 0 < c ^ 4 := by positivity
      refine le_of_mul_le_mul_left ?_ hc4
      linarith
    have h2 : K' ^ 2 ≤ (1 + 3e-16) * K ^ 2 := by
      have : K' ≤ (1 + 1e-16) * K := by linarith
      have := pow_le_pow_left₀ hK'.le this 2
      rw [mul_pow] at this
      refine this.trans (mul_le_mul_of_nonneg_right (by norm_num) (sq_nonneg _))
    have h3 : attenuation (c * √K') * K ^ 2 ≤ (attenuation (c * √K) * (1 + 3e-16)) * K ^ 2 := by
      refine gr'.trans ?_
      rw [mul_assoc]
      exact mul_le_mul_of_nonneg_left h2 a0
    have h4 := le_of_mul_le_mul_right h3 (by positivity)
    rw [abs_of_nonneg (by linarith)]
    nlinarith
  · have hm : c * √K' ≤ c * √K := by gcongr
    have m := attenuation_mono hA' hm
    have gr := attenuation_growth hA' hm
    rw [e4 hK, e4 hK'] at gr
    have gr' : attenuation (c * √K) * K' ^ 2 ≤ attenuation (c * √K') * K ^ 2 := by
      have hc4 : 0 < c ^ 4 := by positivity
      refine le_of_mul_le_mul_left ?_ hc4
      linarith
    have h2 : (1 - 3e-16) * K ^ 2 ≤ K' ^ 2 := by
      have : (1 - 1e-16) * K ≤ K' := by linarith
      have := pow_le_pow_left₀ (by norm_num; positivity) this 2
      rw [mul_pow] at this
      refine (mul_le_mul_of_nonneg_right (by norm_num) (sq_nonneg _)).trans this
    have h3 : attenuation (c * √K) * (1 - 3e-16) * K ^ 2 ≤ attenuation (c * √K') * K ^ 2 := by
      refine le_trans ?_ gr'
      rw [mul_assoc]
      exact mul_le_mul_of_nonneg_left h2 a0
    have h4 := le_of_mul_le_mul_right h3 (by positivity)
    rw [abs_of_nonpos (by linarith)]
    nlinarith

/-- One spin of attenuated exchange with weights `α`, `β`: short range for `(0, 1)`. -/
theorem spin_close {n g' : Expr Field} (hn : 0 < n.evalR ρ) (hg : 0 ≤ g'.evalR ρ) (α β : ℝ) {μ : ℝ} (hμ : 0 < μ) :
    |-(1 / 2) * n.evalR ρ ^ (4 / 3 : ℝ) * codeK ρ n g' * (1 - α - β * attenuation (codeA ρ n g' μ)) -
        b88camSpin α β μ (n.evalR ρ) (g'.evalR ρ)| ≤
      4e-16 * (1 + |α| + |β|) * (1 / 2 * n.evalR ρ ^ (4 / 3 : ℝ) * b88K (n.evalR ρ) (g'.evalR ρ)) := by
  have hK' := codeK_pos ρ hn hg
  have hK := b88K_pos hn hg
  have hk := codeK_close hn hg
  have h3 : 0 < n.evalR ρ ^ (4 / 3 : ℝ) := by positivity
  have hpi := Real.pi_pos
  have hA' : codeA ρ n g' μ = μ / (6 * √Real.pi * (n.evalR ρ) ^ (1 / 3 : ℝ)) * √(codeK ρ n g') := by rw [codeA]; ring
  have hA : b88A μ (n.evalR ρ) (g'.evalR ρ) = μ / (6 * √Real.pi * (n.evalR ρ) ^ (1 / 3 : ℝ)) * √(b88K (n.evalR ρ) (g'.evalR ρ)) := by
    rw [b88A]; ring
  have hc : 0 < μ / (6 * √Real.pi * (n.evalR ρ) ^ (1 / 3 : ℝ)) := by positivity
  have ha := attenuation_close hK hK' hc hk
  have a0' := attenuation_nonneg (codeA_pos ρ hn hg hμ)
  have a1' := attenuation_le_one (codeA_pos ρ hn hg hμ)
  rw [← hA, ← hA'] at ha
  unfold b88camSpin
  generalize attenuation (codeA ρ n g' μ) = t' at *
  generalize attenuation (b88A μ (n.evalR ρ) (g'.evalR ρ)) = t at *
  generalize codeK ρ n g' = K' at *
  generalize b88K (n.evalR ρ) (g'.evalR ρ) = K at *
  have e : -(1 / 2) * n.evalR ρ ^ (4 / 3 : ℝ) * K' * (1 - α - β * t') - -(1 / 2) * n.evalR ρ ^ (4 / 3 : ℝ) * K * (1 - α - β * t) =
      -(1 / 2 * n.evalR ρ ^ (4 / 3 : ℝ)) * ((K' - K) * (1 - α - β * t') - K * β * (t' - t)) := by ring
  have b1 : |1 - α - β * t'| ≤ 1 + |α| + |β| := by
    refine (abs_sub _ _).trans ?_
    have h1 : |1 - α| ≤ 1 + |α| := (abs_sub _ _).trans (by simp)
    have h2 : |β * t'| ≤ |β| := by
      rw [abs_mul, abs_of_nonneg a0']; exact mul_le_of_le_one_right (abs_nonneg _) a1'
    linarith
  have b2 : |(K' - K) * (1 - α - β * t') - K * β * (t' - t)| ≤ 1e-16 * K * (1 + |α| + |β|) + K * |β| * 3e-16 := by
    refine (abs_sub _ _).trans (add_le_add ?_ ?_)
    · rw [abs_mul]
      exact mul_le_mul hk b1 (abs_nonneg _) (by positivity)
    · rw [abs_mul, abs_mul, abs_of_pos hK]
      exact mul_le_mul_of_nonneg_left ha (by positivity)
  rw [e, abs_mul, abs_neg, abs_of_pos (by positivity)]
  refine (mul_le_mul_of_nonneg_left b2 (by positivity)).trans ?_
  have h6 : 1e-16 * K * (1 + |α| + |β|) + K * |β| * 3e-16 ≤ 4e-16 * (1 + |α| + |β|) * K := by
    have := mul_nonneg hK.le (abs_nonneg α)
    have := mul_nonneg hK.le (abs_nonneg β)
    norm_num
    nlinarith
  calc _ ≤ 1 / 2 * n.evalR ρ ^ (4 / 3 : ℝ) * (4e-16 * (1 + |α| + |β|) * K) := mul_le_mul_of_nonneg_left h6 (by positivity)
    _ = _ := by ring

theorem b88X_eq (ha : 0 < g.a) (hb : 0 < g.b) :
    b88X g = -(1 / 2 * g.a ^ (4 / 3 : ℝ) * b88K g.a g.gaa + 1 / 2 * g.b ^ (4 / 3 : ℝ) * b88K g.b g.gbb) := by
  have e : ∀ n : ℝ, 0 < n → exUnif (2 * n) = -(2 * cX * n ^ (4 / 3 : ℝ)) := by
    intro n hn
    have := exUnif_double _ hn
    rw [← cX_eq] at this
    linarith
  simp only [b88X, b88Corr, slaterX, spinScaled, e _ ha, e _ hb, b88K, b88]
  ring

theorem b88X_abs (h : IsGas ρ g) (ha : 0 ≤ g.gaa) (hb : 0 ≤ g.gbb) :
    |b88X g| = 1 / 2 * g.a ^ (4 / 3 : ℝ) * b88K g.a g.gaa + 1 / 2 * g.b ^ (4 / 3 : ℝ) * b88K g.b g.gbb := by
  have k1 := b88K_pos h.apos ha
  have k2 := b88K_pos h.bpos hb
  have p1 := h.apos
  have p2 := h.bpos
  rw [b88X_eq p1 p2, abs_neg, abs_of_pos (by positivity)]

theorem close_beckecam (h : IsGas ρ g) (ha : 0 ≤ g.gaa) (hb : 0 ≤ g.gbb) (hμ : 0 < ρ (.param RANGESEP_MU)) :
    |beckecamx.evalR ρ - b88camX g (ρ (.param CAM_ALPHA)) (ρ (.param CAM_BETA)) (ρ (.param RANGESEP_MU))| ≤
      4e-16 * (1 + |ρ (.param CAM_ALPHA)| + |ρ (.param CAM_BETA)|) * |b88X g| := by
  have pa : 0 < d.a.evalR ρ := h.physical.a
  have pb : 0 < d.b.evalR ρ := h.physical.b
  have ea : d.a.evalR ρ = g.a := h.a
  have eb : d.b.evalR ρ = g.b := h.b
  have ega : d.gaa.evalR ρ = g.gaa := h.gaa
  have egb : d.gbb.evalR ρ = g.gbb := h.gbb
  have ca := spin_close (n := d.a) (g' := d.gaa) pa (by rw [ega]; exact ha) (ρ (.param CAM_ALPHA)) (ρ (.param CAM_BETA)) hμ
  have cb := spin_close (n := d.b) (g' := d.gbb) pb (by rw [egb]; exact hb) (ρ (.param CAM_ALPHA)) (ρ (.param CAM_BETA)) hμ
  have em : (getParam RANGESEP_MU).evalR ρ = ρ (.param RANGESEP_MU) := rfl
  have eα : (getParam CAM_ALPHA).evalR ρ = ρ (.param CAM_ALPHA) := rfl
  have eβ : (getParam CAM_BETA).evalR ρ = ρ (.param CAM_BETA) := rfl
  rw [ea, ega] at ca
  rw [eb, egb] at cb
  have hX := b88X_abs h ha hb
  simp only [beckecamx]
  rw [evalR_add, cam_eval, cam_eval, em, eα, eβ, ea, eb, b88camX, hX, mul_add, add_sub_add_comm]
  exact (abs_add_le _ _).trans (add_le_add ca cb)

theorem close_beckesr (h : IsGas ρ g) (ha : 0 ≤ g.gaa) (hb : 0 ≤ g.gbb) (hμ : 0 < ρ (.param RANGESEP_MU)) :
    |beckesrx.evalR ρ - b88srX g (ρ (.param RANGESEP_MU))| ≤ 8e-16 * |b88X g| := by
  have pa : 0 < d.a.evalR ρ := h.physical.a
  have pb : 0 < d.b.evalR ρ := h.physical.b
  have ea : d.a.evalR ρ = g.a := h.a
  have eb : d.b.evalR ρ = g.b := h.b
  have ega : d.gaa.evalR ρ = g.gaa := h.gaa
  have egb : d.gbb.evalR ρ = g.gbb := h.gbb
  have ca := spin_close (n := d.a) (g' := d.gaa) pa (by rw [ega]; exact ha) 0 1 hμ
  have cb := spin_close (n := d.b) (g' := d.gbb) pb (by rw [egb]; exact hb) 0 1 hμ
  have em : (getParam RANGESEP_MU).evalR ρ = ρ (.param RANGESEP_MU) := rfl
  have es : ∀ a gaa, b88camSpin 0 1 (ρ (.param RANGESEP_MU)) a gaa = b88srSpin (ρ (.param RANGESEP_MU)) a gaa := by
    intro a gaa; simp [b88camSpin, b88srSpin]
  rw [ea, ega, es, sub_zero, one_mul] at ca
  rw [eb, egb, es, sub_zero, one_mul] at cb
  have hX := b88X_abs h ha hb
  simp only [beckesrx]
  rw [evalR_add, sr_eval, sr_eval, em, ea, eb, b88srX, hX, mul_add, add_sub_add_comm]
  refine (abs_add_le _ _).trans (add_le_add (ca.trans (le_of_eq ?_)) (cb.trans (le_of_eq ?_))) <;> norm_num

/-! ### The local functional -/

/-- Code, with its branches: the full exchange of one spin times a factor. -/
noncomputable def ldaFactor (A : ℝ) : ℝ :=
  if A < 1e-9 then 1 else if A < 100 then 1 - attenuation A else if A < 1e9 then 1 / (36 * A ^ 2) else 0

theorem exUnif_cube {r : ℝ} (hr : 0 < r) : exUnif r = -(3 / 8) * (r * (24 * r / Real.pi) ^ (1 / 3 : ℝ)) := by
  have e : (24 * r / Real.pi : ℝ) ^ (1 / 3 : ℝ) = 2 * (3 / Real.pi) ^ (1 / 3 : ℝ) * r ^ (1 / 3 : ℝ) := by
    rw [show (24 * r / Real.pi : ℝ) = 2 ^ 3 * (3 / Real.pi * r) by ring, cube_root_mul (by norm_num) (by have := Real.pi_pos; positivity),
      Real.mul_rpow (by have := Real.pi_pos; positivity) hr.le]
    ring
  have e2 : r ^ (4 / 3 : ℝ) = r * r ^ (1 / 3 : ℝ) := by
    rw [show (4 / 3 : ℝ) = 1 + 1 / 3 by norm_num, Real.rpow_add hr, Real.rpow_one]
  rw [exUnif, e, e2]; ring

theorem ldaerf_all {n μ : Expr Field} (hn : 0 < n.evalR ρ) :
    (esrx_ldaerfspin n μ).evalR ρ = exUnif (2 * n.evalR ρ) * ldaFactor (Spec.erfArg (μ.evalR ρ) (n.evalR ρ)) := by
  have hA : (μ / (2 * ((3.093667726280136 : ℝ) * pow (2 * n) (1 / 3)))).evalR ρ = Spec.erfArg (μ.evalR ρ) (n.evalR ρ) := by
    simp only [evalR_div, evalR_mul, evalR_lit, evalR_pow, evalR_ofNat, Spec.erfArg]
  rcases lt_or_ge (Spec.erfArg (μ.evalR ρ) (n.evalR ρ)) 1e-9 with h1 | h1
  · rw [ldaFactor, if_pos h1, exUnif_cube (by positivity)]
    unfold esrx_ldaerfspin
    dsimp only
    rw [evalR_iflt, hA, if_pos (by rw [evalR_ofScientific]; exact h1)]
    simp only [evalR_mul, evalR_div, evalR_lit, evalR_ofNat, evalR_pow]
    ring
  rcases lt_or_ge (Spec.erfArg (μ.evalR ρ) (n.evalR ρ)) 100 with h2 | h2
  · rw [ldaerf_spin hn h1 h2, ldaFactor, if_neg (not_lt.2 h1), if_pos h2]
    rfl
  rw [ldaFactor, if_neg (not_lt.2 h1), if_neg (not_lt.2 h2), exUnif_cube (by positivity)]
  unfold esrx_ldaerfspin
  dsimp only
  rw [evalR_iflt, hA, if_neg (by rw [evalR_ofScientific]; exact not_lt.2 h1), evalR_iflt, hA, if_neg (by rw [evalR_ofNat]; exact not_lt.2 h2),
    evalR_iflt, hA]
  rcases lt_or_ge (Spec.erfArg (μ.evalR ρ) (n.evalR ρ)) 1e9 with h3 | h3
  · rw [if_pos h3, if_pos (by rw [evalR_ofScientific]; exact h3)]
    simp only [evalR_mul, evalR_neg, evalR_div, evalR_lit, evalR_ofNat, evalR_pow] at hA ⊢
    rw [hA]
    have : Spec.erfArg (μ.evalR ρ) (n.evalR ρ) ≠ 0 := by linarith
    field_simp
    ring
  · rw [if_neg (not_lt.2 h3), if_neg (by rw [evalR_ofScientific]; exact not_lt.2 h3)]
    simp

theorem ldaFactor_bounds {A : ℝ} (hA : 0 < A) : 0 ≤ ldaFactor A ∧ ldaFactor A ≤ 1 := by
  unfold ldaFactor
  split
  · norm_num
  split
  · exact ⟨by linarith [attenuation_le_one hA], by linarith [attenuation_nonneg hA]⟩
  split
  · refine ⟨by positivity, ?_⟩
    rw [div_le_one (by positivity)]
    nlinarith
  · norm_num

theorem ldaFactor_close {A : ℝ} (hA : 0 < A) : |ldaFactor A - (1 - attenuation A)| ≤ 5e-9 := by
  have h0 := attenuation_nonneg hA
  have h1 := attenuation_le_one hA
  have hpi : √Real.pi ≤ 1.8 := by
    rw [Real.sqrt_le_left (by norm_num)]
    have := Real.pi_lt_d2
    norm_num at this ⊢
    linarith
  unfold ldaFactor
  split
  case isTrue h =>
    have := attenuation_small hA
    rw [show 1 - (1 - attenuation A) = attenuation A by ring, abs_of_nonneg h0]
    have : 8 / 3 * √Real.pi * A ≤ 8 / 3 * 1.8 * 1e-9 := by gcongr
    norm_num at this ⊢
    linarith
  split
  case isTrue => rw [sub_self, abs_zero]; norm_num
  case isFalse h hb =>
    have hb : 100 ≤ A := not_lt.1 hb
    obtain ⟨l, u⟩ := attenuation_large hA
    have b2 : 1 / (36 * A ^ 2) ≤ 1 / (36 * 100 ^ 2) := by gcongr
    have b4 : 1 / (960 * A ^ 4) ≤ 1 / (960 * 100 ^ 4) := by gcongr
    have b6 : 1 / (26880 * A ^ 6) ≤ 1 / (26880 * 100 ^ 6) := by gcongr
    have p4 : 0 ≤ 1 / (960 * A ^ 4) := by positivity
    have p6 : 0 ≤ 1 / (26880 * A ^ 6) := by positivity
    have hx2 : 1e9 ≤ A → 1 / (36 * A ^ 2) ≤ 1 / (36 * 1e9 ^ 2) := fun h => by gcongr
    generalize 1 / (36 * A ^ 2) = x2 at *
    generalize 1 / (960 * A ^ 4) = x4 at *
    generalize 1 / (26880 * A ^ 6) = x6 at *
    split
    case isTrue => rw [abs_le]; constructor <;> norm_num at * <;> linarith
    case isFalse h9 =>
      have h9 : 1e9 ≤ A := not_lt.1 h9
      have b2 := hx2 h9
      rw [abs_le]
      constructor <;> norm_num at * <;> linarith

theorem ldaerfx_eval (h : IsGas ρ g) : lda_erfx.evalR ρ = (exUnif (2 * g.a) * ldaFactor (Spec.erfArg (ρ (.param RANGESEP_MU)) g.a) +
    exUnif (2 * g.b) * ldaFactor (Spec.erfArg (ρ (.param RANGESEP_MU)) g.b)) / 2 := by
  have pa : 0 < d.a.evalR ρ := h.physical.a
  have pb : 0 < d.b.evalR ρ := h.physical.b
  have ea : d.a.evalR ρ = g.a := h.a
  have eb : d.b.evalR ρ = g.b := h.b
  have em : (getParam RANGESEP_MU).evalR ρ = ρ (.param RANGESEP_MU) := rfl
  simp only [lda_erfx]
  rw [evalR_mul, evalR_add, ldaerf_all pa, ldaerf_all pb, ea, eb, em, evalR_ofScientific]
  norm_num
  ring

theorem close_ldaerfx (h : IsGas ρ g) (hμ : 0 < ρ (.param RANGESEP_MU)) :
    |lda_erfx.evalR ρ - ldaSrX g 3.093667726280136 (ρ (.param RANGESEP_MU))| ≤ 5e-9 * |slaterX g| := by
  have hpos : ∀ {n : ℝ}, 0 < n → 0 < Spec.erfArg (ρ (.param RANGESEP_MU)) n := by
    intro n hn; unfold Spec.erfArg; positivity
  have hneg : ∀ {n : ℝ}, 0 < n → exUnif (2 * n) ≤ 0 := by
    intro n hn
    have e := exUnif_double _ hn
    have := cx_pos
    have h4 : 0 < n ^ (4 / 3 : ℝ) := by positivity
    nlinarith [mul_pos this h4]
  have ca := ldaFactor_close (hpos h.apos)
  have cb := ldaFactor_close (hpos h.bpos)
  have na := hneg h.apos
  have nb := hneg h.bpos
  have e : ldaSrX g 3.093667726280136 (ρ (.param RANGESEP_MU)) =
      (exUnif (2 * g.a) * (1 - attenuation (Spec.erfArg (ρ (.param RANGESEP_MU)) g.a)) +
        exUnif (2 * g.b) * (1 - attenuation (Spec.erfArg (ρ (.param RANGESEP_MU)) g.b))) / 2 := rfl
  rw [ldaerfx_eval h, e]
  simp only [slaterX, spinScaled]
  generalize exUnif (2 * g.a) = x at *
  generalize exUnif (2 * g.b) = y at *
  rw [abs_le] at ca cb
  rw [abs_of_nonpos (show (x + y) / 2 ≤ 0 by linarith), abs_le]
  constructor <;> nlinarith [mul_nonneg (neg_nonneg.2 na) (sub_nonneg.2 ca.1), mul_nonneg (neg_nonneg.2 na) (sub_nonneg.2 ca.2),
    mul_nonneg (neg_nonneg.2 nb) (sub_nonneg.2 cb.1), mul_nonneg (neg_nonneg.2 nb) (sub_nonneg.2 cb.2)]

end XCFun.Fun
