/-
The gradient correction of the PBE family of correlation functionals as a function of the gradient: monotone, its slope at zero, its limit.
-/
import Mathlib.Analysis.Calculus.Deriv.MeanValue
import Verif.Proofs.SmoothGGA
import Verif.Spec.PbeLimits

namespace XCFun.Fun
open Spec Expr Filter Topology

/-- `log (1 + X (1 - 1/(1 + y + y²)))`. -/
noncomputable def shape (X y : ℝ) : ℝ := Real.log (1 + X * (1 - 1 / (1 + y + y ^ 2)))

theorem shape_zero (X : ℝ) : shape X 0 = 0 := by simp [shape]

theorem shape_pos_arg {X y : ℝ} (hX : 0 < X) (hy : 0 ≤ y) : 0 < 1 + X * (1 - 1 / (1 + y + y ^ 2)) := by
  have : 1 / (1 + y + y ^ 2) ≤ 1 := by rw [div_le_one (by positivity)]; nlinarith [sq_nonneg y]
  nlinarith

theorem shape_lt {X y z : ℝ} (hX : 0 < X) (hy : 0 ≤ y) (hyz : y < z) : shape X y < shape X z := by
  refine Real.log_lt_log (shape_pos_arg hX hy) ?_
  have : 1 / (1 + z + z ^ 2) < 1 / (1 + y + y ^ 2) := one_div_lt_one_div_of_lt (by positivity) (by nlinarith)
  nlinarith

theorem shape_le {X y z : ℝ} (hX : 0 < X) (hy : 0 ≤ y) (hyz : y ≤ z) : shape X y ≤ shape X z := by
  rcases hyz.eq_or_lt with rfl | h
  · exact le_rfl
  · exact (shape_lt hX hy h).le

theorem shape_tendsto {X : ℝ} (hX : 0 < X) : Tendsto (shape X) atTop (𝓝 (Real.log (1 + X))) := by
  have h1 : Tendsto (fun y : ℝ => 1 + y + y ^ 2) atTop atTop := by
    refine tendsto_atTop_mono' atTop ?_ tendsto_id
    filter_upwards [eventually_ge_atTop 0] with y hy
    show y ≤ _
    nlinarith [sq_nonneg y]
  have h2 : Tendsto (fun y : ℝ => 1 / (1 + y + y ^ 2)) atTop (𝓝 0) := by
    simp only [one_div]
    exact h1.inv_tendsto_atTop
  have h3 : Tendsto (fun y : ℝ => 1 + X * (1 - 1 / (1 + y + y ^ 2))) atTop (𝓝 (1 + X * (1 - 0))) := (((tendsto_const_nhds.sub h2)).const_mul X).const_add 1
  rw [sub_zero, mul_one] at h3
  exact h3.log (by linarith)

theorem shape_slope {X : ℝ} : HasDerivAt (shape X) X 0 := by
  have h1 : HasDerivAt (fun y : ℝ => 1 + y + y ^ 2) 1 0 := by
    have := ((hasDerivAt_id (0 : ℝ)).const_add 1).add (hasDerivAt_pow 2 (0 : ℝ))
    have e : (1 : ℝ) + ((2 : ℕ) : ℝ) * 0 ^ (2 - 1) = 1 := by norm_num
    rw [e] at this
    exact this
  have h2 : HasDerivAt (fun y : ℝ => 1 + X * (1 - 1 / (1 + y + y ^ 2))) X 0 := by
    have := (((h1.inv (by norm_num)).const_sub 1).const_mul X).const_add 1
    have e : X * -(-1 / ((1 : ℝ) + 0 + 0 ^ 2) ^ 2) = X := by norm_num
    rw [e] at this
    simp only [one_div]
    exact this
  have := h2.log (by norm_num)
  have e : X / (1 + X * (1 - 1 / ((1 : ℝ) + 0 + 0 ^ 2))) = X := by norm_num
  rw [e] at this
  exact this

/-- The correction in terms of `y = A t²`. -/
theorem pbeHR_shape {γ bg e u d2 : ℝ} (hγ : 0 < γ) (hb : 0 < bg) (he : e < 0) (hu : 0 < u) (hd : 0 ≤ d2) :
    pbeHR γ bg e u d2 = γ * u * shape (Real.exp (-e / (γ * u)) - 1) (d2 * (bg / (Real.exp (-e / (γ * u)) - 1))) := by
  have hE : 1 < Real.exp (-e / (γ * u)) := by
    rw [Real.one_lt_exp_iff]; apply div_pos <;> [linarith; positivity]
  have hx : 0 < Real.exp (-e / (γ * u)) - 1 := by linarith
  unfold pbeHR shape
  set X := Real.exp (-e / (γ * u)) - 1 with hX
  have hbg : bg * d2 = X * (d2 * (bg / X)) := by field_simp
  rw [hbg]
  have hy : 0 ≤ d2 * (bg / X) := by positivity
  generalize d2 * (bg / X) = y at hy
  congr 2
  have : 0 < 1 + y + y ^ 2 := by positivity
  have e2 : 1 + y * (1 + y) = 1 + y + y ^ 2 := by ring
  rw [e2]
  field_simp
  ring

/-- What the correction cancels at most. -/
theorem log_expm1 {γ e u : ℝ} (hγ : 0 < γ) (hu : 0 < u) : γ * u * Real.log (1 + (Real.exp (-e / (γ * u)) - 1)) = -e := by
  rw [add_sub_cancel, Real.log_exp]
  field_simp

theorem expm1_pos {γ e u : ℝ} (hγ : 0 < γ) (he : e < 0) (hu : 0 < u) : 0 < Real.exp (-e / (γ * u)) - 1 := by
  rw [sub_pos, Real.one_lt_exp_iff]
  exact div_pos (by linarith) (by positivity)

/-! ### The fields -/

/-- Densities and what is computed from them. -/
def densityField (f : Field) : Bool := decide (f ∈ [Field.a, .b, .n, .s, .zeta, .r_s, .n_m13, .a_43, .b_43])

variable {ρ σ : Field → ℝ}

theorem density_fields (h : Sound ρ) (k : Sound σ) (e : SameDensities ρ σ) : ∀ f, densityField f = true → ρ f = σ f := by
  have ea := e .a (by simp [IsDensity])
  have eb := e .b (by simp [IsDensity])
  have en := e .n (by simp [IsDensity])
  have es := e .s (by simp [IsDensity])
  intro f hf
  simp only [densityField, decide_eq_true_eq, List.mem_cons, List.not_mem_nil, or_false] at hf
  rcases hf with rfl | rfl | rfl | rfl | rfl | rfl | rfl | rfl | rfl
  · exact ea
  · exact eb
  · exact en
  · exact es
  · rw [h.zeta, k.zeta, es, en]
  · rw [h.r_s, k.r_s, en]
  · rw [h.n_m13, k.n_m13, en]
  · rw [h.a_43, k.a_43, ea]
  · rw [h.b_43, k.b_43, eb]

theorem pw92eps_density : pw92eps.usesOnly densityField = true := by rfl
theorem vwn5_eps_density : vwn5_eps.usesOnly densityField = true := by rfl
theorem phi_density : phi.usesOnly densityField = true := by rfl

/-- The factor in `t² = κ |∇n|²`. -/
noncomputable def tFactor (ρ : Field → ℝ) : ℝ := t2const / (phi.evalR ρ * phi.evalR ρ * ρ .n ^ (7 / 3 : ℝ))

theorem tFactor_pos (h : Sound ρ) : 0 < tFactor ρ := by
  have := t2const_pos; have := (phi_pos h).pos; have := h.n
  unfold tFactor; positivity

theorem d2_factor (ρ : Field → ℝ) : (pbecD2 phi).evalR ρ = tFactor ρ * ρ .gnn := by
  simp only [pbecD2, evalR_div, evalR_mul, evalR_lit, evalR_pow, tFactor]
  show t2const * ρ .gnn / _ = _
  rw [div_mul_eq_mul_div]; rfl

/-! ### The correction -/

/-- `H` as a function of `g = |∇n|²`: `κ` is the factor of `t²`, and `β = β₀ + β₁ t²`. -/
noncomputable def gradTerm (u e κ β₀ β₁ g : ℝ) : ℝ :=
  param_gamma * u * shape (Real.exp (-e / (param_gamma * u)) - 1)
    (κ * g * ((β₀ + β₁ * (κ * g)) / param_gamma / (Real.exp (-e / (param_gamma * u)) - 1)))

section
variable {u e κ β₀ β₁ : ℝ}

theorem gradTerm_zero : gradTerm u e κ β₀ β₁ 0 = 0 := by simp [gradTerm, shape_zero]

theorem gradTerm_lt (hu : 0 < u) (he : e < 0) (hκ : 0 < κ) (h0 : 0 < β₀) (h1 : 0 ≤ β₁) {g g' : ℝ} (hg : 0 ≤ g) (hgg : g < g') :
    gradTerm u e κ β₀ β₁ g < gradTerm u e κ β₀ β₁ g' := by
  have hγ := param_gamma_pos
  have hX := expm1_pos hγ he hu
  unfold gradTerm
  refine mul_lt_mul_of_pos_left (shape_lt hX (by positivity) ?_) (by positivity)
  have h2 : κ * g < κ * g' := by gcongr
  have h3 : β₀ + β₁ * (κ * g) ≤ β₀ + β₁ * (κ * g') := by gcongr
  exact mul_lt_mul h2 (by gcongr) (by positivity) (by nlinarith)

theorem gradTerm_tendsto (hu : 0 < u) (he : e < 0) (hκ : 0 < κ) (h0 : 0 < β₀) (h1 : 0 ≤ β₁) :
    Tendsto (gradTerm u e κ β₀ β₁) atTop (𝓝 (-e)) := by
  have hγ := param_gamma_pos
  have hX := expm1_pos hγ he hu
  rw [← log_expm1 (e := e) hγ hu]
  refine ((shape_tendsto hX).comp ?_).const_mul _
  refine tendsto_atTop_mono' atTop (f₁ := fun g => κ * (β₀ / param_gamma / (Real.exp (-e / (param_gamma * u)) - 1)) * g) ?_
    (tendsto_id.const_mul_atTop (by positivity))
  filter_upwards [eventually_ge_atTop 0] with g hg
  show κ * (β₀ / param_gamma / (Real.exp (-e / (param_gamma * u)) - 1)) * g ≤ _
  rw [mul_right_comm]
  have : β₀ ≤ β₀ + β₁ * (κ * g) := by have : 0 ≤ β₁ * (κ * g) := by positivity
                                      linarith
  gcongr

theorem gradTerm_slope (hu : 0 < u) (he : e < 0) : HasDerivAt (gradTerm u e κ β₀ β₁) (u * κ * β₀) 0 := by
  have hγ := param_gamma_pos
  have hX := expm1_pos hγ he hu
  set X := Real.exp (-e / (param_gamma * u)) - 1 with hXd
  have h1 : HasDerivAt (fun g : ℝ => κ * g) κ 0 := by simpa using (hasDerivAt_id (0 : ℝ)).const_mul κ
  have h2 : HasDerivAt (fun g : ℝ => (β₀ + β₁ * (κ * g)) / param_gamma / X) (β₁ * κ / param_gamma / X) 0 :=
    (((h1.const_mul β₁).const_add β₀).div_const _).div_const _
  have h3 := h1.mul h2
  have e0 : κ * 0 * ((β₀ + β₁ * (κ * 0)) / param_gamma / X) = 0 := by simp
  have h4 : HasDerivAt (shape X) X (κ * 0 * ((β₀ + β₁ * (κ * 0)) / param_gamma / X)) := by rw [e0]; exact shape_slope
  have h5 := (h4.comp (0 : ℝ) h3).const_mul (param_gamma * u)
  have e1 : param_gamma * u * (X * (κ * ((β₀ + β₁ * (κ * 0)) / param_gamma / X) + κ * 0 * (β₁ * κ / param_gamma / X))) = u * κ * β₀ := by
    field_simp; ring
  rw [e1] at h5
  exact h5

end

/-- The coefficient of `t²` in the `β` of PBELOCC. -/
noncomputable def locSlope (id : ℕ) (r : ℝ) : ℝ := if id = 73 then 0.08 * (1 - Real.exp (-r * r)) else 0

theorem locSlope_nonneg (id : ℕ) (r : ℝ) : 0 ≤ locSlope id r := by
  unfold locSlope
  split
  · have : Real.exp (-r * r) ≤ 1 := by rw [Real.exp_le_one_iff]; nlinarith [sq_nonneg r]
    nlinarith
  · exact le_rfl

/-- The energy per electron of the uniform gas. -/
noncomputable def epsOf (id : ℕ) : Expr Field := if id = 22 ∨ id = 21 then vwn5_eps else pw92eps

theorem epsOf_neg (id : ℕ) (h : Sound ρ) : (epsOf id).evalR ρ < 0 := by
  unfold epsOf; split
  · exact vwn5_eps_neg h
  · exact pw92eps_neg h

theorem epsOf_lda (id : ℕ) {l : Expr Field} (hl : energy (ldaOf id) = some l) : l.evalR ρ = ρ .n * (epsOf id).evalR ρ := by
  unfold epsOf
  unfold ldaOf at hl
  split at hl <;> rename_i h
  · rw [if_pos h]; cases hl; rfl
  · rw [if_neg h]; cases hl; exact mul_comm _ _

theorem pbeBeta_pos (id : ℕ) : 0 < pbeBeta id := by unfold pbeBeta; split_ifs <;> norm_num

theorem pbeGrad_form {bg eps : Expr Field} {β₀ β₁ : ℝ} (h0 : 0 < β₀) (h1 : 0 ≤ β₁) (h : Sound ρ) (he : eps.evalR ρ < 0)
    (hb : bg.evalR ρ = (β₀ + β₁ * (tFactor ρ * ρ .gnn)) / param_gamma) :
    (pbeLikeH bg eps (pow3 phi) (pbecD2 phi)).evalR ρ = gradTerm ((pow3 phi).evalR ρ) (eps.evalR ρ) (tFactor ρ) β₀ β₁ (ρ .gnn) := by
  have hγ := param_gamma_pos
  have ht : 0 ≤ tFactor ρ * ρ .gnn := mul_nonneg (tFactor_pos h).le h.gnn
  rw [pbeLikeH_evalR, hb, d2_factor, pbeHR_shape hγ (by positivity) he (u3_pos h).pos ht]
  rfl

theorem family_form {id : ℕ} (hid : id ∈ pbeFamily) {x : Expr Field} (hx : energy id = some x) (h : Sound ρ) :
    x.evalR ρ = ρ .n * ((epsOf id).evalR ρ +
      gradTerm ((pow3 phi).evalR ρ) ((epsOf id).evalR ρ) (tFactor ρ) (pbeBeta id) (locSlope id (ρ .r_s)) (ρ .gnn)) := by
  simp only [pbeFamily, List.mem_cons, List.not_mem_nil, or_false] at hid
  have hγ := param_gamma_pos
  rcases hid with rfl | rfl | rfl | rfl | rfl <;> cases hx
  · rw [← pbeGrad_form (bg := (param_beta_gamma : Expr Field)) (pbeBeta_pos 4) (locSlope_nonneg 4 _) h (epsOf_neg 4 h) (by
      simp [locSlope, pbeBeta, param_beta_gamma, param_beta_accurate])]
    simp [epsOf]; rfl
  · rw [← pbeGrad_form (bg := (param_beta_gamma : Expr Field)) (pbeBeta_pos 22) (locSlope_nonneg 22 _) h (epsOf_neg 22 h) (by
      simp [locSlope, pbeBeta, param_beta_gamma, param_beta_accurate])]
    simp [epsOf]; rfl
  · rw [← pbeGrad_form (bg := ((0.079030523241 / param_gamma : ℝ) : Expr Field)) (pbeBeta_pos 67) (locSlope_nonneg 67 _) h (epsOf_neg 67 h) (by
      simp [locSlope, pbeBeta])]
    simp [epsOf]; rfl
  · rw [← pbeGrad_form (bg := ((0.052 / param_gamma : ℝ) : Expr Field)) (pbeBeta_pos 71) (locSlope_nonneg 71 _) h (epsOf_neg 71 h) (by
      simp [locSlope, pbeBeta])]
    simp [epsOf]; rfl
  · rw [← pbeGrad_form (bg := (((0.0375 : ℝ) : Expr Field) + ((0.08 : ℝ) : Expr Field) * pbecD2 phi * (1 - exp (-d.r_s * d.r_s))) /
      (param_gamma : Expr Field)) (pbeBeta_pos 73) (locSlope_nonneg 73 _) h (epsOf_neg 73 h) (by
      have e1 : locSlope 73 (ρ .r_s) = 0.08 * (1 - Real.exp (-ρ .r_s * ρ .r_s)) := by simp [locSlope]
      have e2 : pbeBeta 73 = 0.0375 := by simp [pbeBeta]
      rw [e1, e2, ← d2_factor]
      simp only [evalR_div, evalR_add, evalR_mul, evalR_lit, evalR_sub, evalR_one, evalR_exp, evalR_neg]
      show (_ + _ * _ * (1 - Real.exp (-ρ .r_s * ρ .r_s))) / _ = _
      ring)]
    simp [epsOf]; rfl

/-- Only the gradient matters if the densities are the same. -/
theorem family_congr {id : ℕ} (h : Sound ρ) (k : Sound σ) (e : SameDensities ρ σ) :
    σ .n = ρ .n ∧ (epsOf id).evalR σ = (epsOf id).evalR ρ ∧ (pow3 phi).evalR σ = (pow3 phi).evalR ρ ∧ tFactor σ = tFactor ρ ∧
      σ .r_s = ρ .r_s ∧ σ .zeta = ρ .zeta := by
  have hf := density_fields h k e
  have hn : σ .n = ρ .n := (hf .n rfl).symm
  have hp : phi.evalR σ = phi.evalR ρ := (evalR_congr hf _ phi_density).symm
  refine ⟨hn, ?_, ?_, ?_, (hf .r_s rfl).symm, (hf .zeta rfl).symm⟩
  · unfold epsOf; split
    · exact (evalR_congr hf _ vwn5_eps_density).symm
    · exact (evalR_congr hf _ pw92eps_density).symm
  · rw [evalR_pow3, evalR_pow3, hp]
  · rw [tFactor, tFactor, hp, hn]

/-! ### The functionals with a factor for polarised densities -/

/-- The exponent of the factor. -/
noncomputable def zvRate (ρ : Field → ℝ) : ℝ := zvFit.evalR ρ * (tFactor ρ ^ (0.5 : ℝ) * phi.evalR ρ * (ρ .r_s / 3) ^ (-1 / 6 : ℝ)) ^ 3

theorem zv_form {β α : ℝ} (hβ : 0 < β) (h : Sound ρ) :
    (zvpbe β α).evalR ρ = ρ .n * (pw92eps.evalR ρ + Real.exp (-(α * zvRate ρ * (ρ .gnn ^ (0.5 : ℝ)) ^ 3)) *
      gradTerm ((pow3 phi).evalR ρ) (pw92eps.evalR ρ) (tFactor ρ) β 0 (ρ .gnn)) := by
  rw [← pbeGrad_form (bg := ((β / param_gamma : ℝ) : Expr Field)) hβ le_rfl h (pw92eps_neg h) (by simp)]
  have e : (pow3 (pow (pbecD2 phi) 0.5 * phi * pow (d.r_s / 3) (-1 / 6))).evalR ρ =
      (tFactor ρ ^ (0.5 : ℝ) * phi.evalR ρ * (ρ .r_s / 3) ^ (-1 / 6 : ℝ)) ^ 3 * (ρ .gnn ^ (0.5 : ℝ)) ^ 3 := by
    rw [evalR_pow3, evalR_mul, evalR_mul, evalR_pow, evalR_pow, evalR_div, evalR_ofNat, d2_factor, Real.mul_rpow (tFactor_pos h).le h.gnn]
    show (_ * _ * phi.evalR ρ * (ρ .r_s / 3) ^ _) ^ 3 = _
    ring
  simp only [zvpbe, evalR_mul, evalR_add, evalR_exp, evalR_lit, e]
  show ρ .n * _ = _
  congr 3
  rw [zvRate]
  ring_nf

theorem zvFit_zero (h : ρ .zeta = 0) : zvFit.evalR ρ = 0 := by
  have : zvFit.evalR ρ = (0.462757 + 1.30129 * ρ .zeta * ρ .zeta - 1.59546 * ρ .zeta * ρ .zeta * ρ .zeta * ρ .zeta + 1.19635 * ρ .zeta * ρ .zeta *
      ρ .zeta * ρ .zeta * ρ .zeta * ρ .zeta - 0.36519 * ρ .zeta * ρ .zeta * ρ .zeta * ρ .zeta * ρ .zeta * ρ .zeta * ρ .zeta *
      ρ .zeta) * ρ .zeta * ρ .zeta * ρ .zeta * ρ .zeta := by
    simp only [zvFit, evalR_mul, evalR_add, evalR_sub, evalR_ofScientific]
    rfl
  rw [this, h]; ring

theorem zvFit_pos (h : Sound ρ) (hz : ρ .zeta ≠ 0) : 0 < zvFit.evalR ρ := by
  have e : zvFit.evalR ρ = (0.462757 + 1.30129 * ρ .zeta ^ 2 - 1.59546 * (ρ .zeta ^ 2) ^ 2 + 1.19635 * (ρ .zeta ^ 2) ^ 3 -
      0.36519 * (ρ .zeta ^ 2) ^ 4) * (ρ .zeta ^ 2) ^ 2 := by
    simp only [zvFit, evalR_mul, evalR_add, evalR_sub, evalR_ofScientific]
    show (0.462757 + 1.30129 * ρ .zeta * ρ .zeta - 1.59546 * ρ .zeta * ρ .zeta * ρ .zeta * ρ .zeta + 1.19635 * ρ .zeta * ρ .zeta *
      ρ .zeta * ρ .zeta * ρ .zeta * ρ .zeta - 0.36519 * ρ .zeta * ρ .zeta * ρ .zeta * ρ .zeta * ρ .zeta * ρ .zeta * ρ .zeta *
      ρ .zeta) * ρ .zeta * ρ .zeta * ρ .zeta * ρ .zeta = _
    ring
  have hz' := abs_lt.1 h.abs_zeta
  have hz2 : ρ .zeta ^ 2 ≤ 1 := by nlinarith
  have hq : 0 < ρ .zeta ^ 2 := by positivity
  rw [e]
  generalize ρ .zeta ^ 2 = q at hq hz2
  apply mul_pos _ (by positivity)
  have h2 : q ^ 2 ≤ q := by nlinarith
  have h4 : q ^ 4 ≤ q ^ 3 := by nlinarith [pow_nonneg hq.le 3]
  have h3 : 0 ≤ q ^ 3 := by positivity
  nlinarith

theorem zvRate_nonneg (h : Sound ρ) : 0 ≤ zvRate ρ := by
  have := (zvFit_nonneg h).nonneg
  have := (phi_pos h).pos
  have := tFactor_pos h
  have hr : 0 < ρ .r_s := by rw [h.r_s]; have := h.n; positivity
  unfold zvRate; positivity

theorem zvRate_pos (h : Sound ρ) (hz : ρ .zeta ≠ 0) : 0 < zvRate ρ := by
  have := zvFit_pos h hz
  have := (phi_pos h).pos
  have := tFactor_pos h
  have hr : 0 < ρ .r_s := by rw [h.r_s]; have := h.n; positivity
  unfold zvRate; positivity

theorem zvFit_density : zvFit.usesOnly densityField = true := by rfl

theorem zvRate_congr (h : Sound ρ) (k : Sound σ) (e : SameDensities ρ σ) : zvRate σ = zvRate ρ := by
  have hf := density_fields h k e
  obtain ⟨-, -, -, ht, hr, -⟩ := family_congr (id := 4) h k e
  rw [zvRate, zvRate, ht, hr, evalR_congr hf _ phi_density, evalR_congr hf _ zvFit_density]

theorem zv_tendsto {c u e κ β : ℝ} (hc : 0 < c) (hu : 0 < u) (he : e < 0) (hκ : 0 < κ) (h0 : 0 < β) :
    Tendsto (fun g => Real.exp (-(c * (g ^ (0.5 : ℝ)) ^ 3)) * gradTerm u e κ β 0 g) atTop (𝓝 0) := by
  have h1 : Tendsto (fun g : ℝ => c * (g ^ (0.5 : ℝ)) ^ 3) atTop atTop :=
    Tendsto.const_mul_atTop hc ((tendsto_pow_atTop (by norm_num)).comp (tendsto_rpow_atTop (by norm_num)))
  have h2 := (Real.tendsto_exp_neg_atTop_nhds_zero.comp h1).mul (gradTerm_tendsto hu he hκ h0 le_rfl)
  rw [zero_mul] at h2
  exact h2

/-! ### Simplified PBE -/

/-- The factor in the `t²` of SPBEC. -/
noncomputable def sFactor (ρ : Field → ℝ) : ℝ := rcbrt (Real.pi / 3) / 16 * ρ .n_m13 / (phi.evalR ρ * ρ .n) ^ 2

theorem sFactor_pos (h : Sound ρ) : 0 < sFactor ρ := by
  have : 0 < rcbrt (Real.pi / 3) := by unfold rcbrt; positivity
  have := (phi_pos h).pos
  have hn := h.n
  have : 0 < ρ .n_m13 := by rw [h.n_m13]; positivity
  unfold sFactor; positivity

/-- `H` of SPBEC as a function of `g = |∇n|²`. -/
noncomputable def spbeTerm (u e κ g : ℝ) : ℝ :=
  spbecGamm * u * Real.log (1 + (Real.exp (-e / (spbecBetaGamma * u)) - 1) *
    (1 - 1 / (1 + κ * g * (spbecBetaGamma / (Real.exp (-e / (spbecBetaGamma * u)) - 1)))))

theorem spbe_bg_pos : 0 < spbecBetaGamma := by norm_num [spbecBetaGamma, spbecGamm]
theorem spbe_gamma_pos : 0 < spbecGamm := by norm_num [spbecGamm]

theorem spbec_form (h : Sound ρ) : spbec.evalR ρ = ρ .n * (vwn5_eps.evalR ρ + spbeTerm ((pow3 phi).evalR ρ) (vwn5_eps.evalR ρ) (sFactor ρ) (ρ .gnn)) := by
  have hX := expm1_pos spbe_bg_pos (vwn5_eps_neg h) (u3_pos h).pos
  have ht : 0 ≤ sFactor ρ * ρ .gnn := mul_nonneg (sFactor_pos h).le h.gnn
  have e : ((rcbrt (Real.pi / 3) / 16 : ℝ) * d.gnn * d.n_m13 / pow2 (phi * d.n) : Expr Field).evalR ρ = sFactor ρ * ρ .gnn := by
    simp only [evalR_mul, evalR_div, evalR_lit, evalR_pow2, sFactor]
    show _ * ρ .gnn * ρ .n_m13 / (_ * ρ .n) ^ 2 = _
    ring
  simp only [spbec, H_spbe, spbecG, evalR_mul _ d.n, evalR_add, spbeTerm]
  show ρ .n * _ = _
  congr 2
  revert e
  generalize ((rcbrt (Real.pi / 3) / 16 : ℝ) * d.gnn * d.n_m13 / pow2 (phi * d.n) : Expr Field) = t
  intro e
  rw [evalR_mul, evalR_mul, evalR_log, evalR_add, evalR_one, evalR_div, evalR_mul, evalR_add, evalR_one, evalR_mul, evalR_div, evalR_expm1, evalR_div,
    evalR_neg, evalR_mul, e, evalR_lit, evalR_lit]
  set X := Real.exp (-vwn5_eps.evalR ρ / (spbecBetaGamma * (pow3 phi).evalR ρ)) - 1
  congr 3
  have := spbe_bg_pos
  have : 0 < 1 + sFactor ρ * ρ .gnn * (spbecBetaGamma / X) := by positivity
  have e2 : spbecBetaGamma * (sFactor ρ * ρ .gnn) = X * (sFactor ρ * ρ .gnn * (spbecBetaGamma / X)) := by field_simp
  rw [e2]
  generalize sFactor ρ * ρ .gnn * (spbecBetaGamma / X) = y at this
  field_simp
  ring

section
variable {u e κ : ℝ}

theorem spbeTerm_zero : spbeTerm u e κ 0 = 0 := by simp [spbeTerm]

theorem spbeTerm_lt (hu : 0 < u) (he : e < 0) (hκ : 0 < κ) {g g' : ℝ} (hg : 0 ≤ g) (hgg : g < g') : spbeTerm u e κ g < spbeTerm u e κ g' := by
  have hX := expm1_pos spbe_bg_pos he hu
  have hb := spbe_bg_pos
  have hG := spbe_gamma_pos
  unfold spbeTerm
  set X := Real.exp (-e / (spbecBetaGamma * u)) - 1
  have h1 : κ * g * (spbecBetaGamma / X) < κ * g' * (spbecBetaGamma / X) := by gcongr
  have h0 : 0 ≤ κ * g * (spbecBetaGamma / X) := by positivity
  generalize κ * g * (spbecBetaGamma / X) = y at h1 h0
  generalize κ * g' * (spbecBetaGamma / X) = z at h1
  have h2 : 1 / (1 + z) < 1 / (1 + y) := one_div_lt_one_div_of_lt (by linarith) (by linarith)
  have h3 : 1 / (1 + y) ≤ 1 := by rw [div_le_one (by linarith)]; linarith
  refine mul_lt_mul_of_pos_left (Real.log_lt_log (by nlinarith) (by nlinarith)) (by positivity)

theorem spbeTerm_tendsto (hu : 0 < u) (he : e < 0) (hκ : 0 < κ) :
    Tendsto (spbeTerm u e κ) atTop (𝓝 (-(spbecGamm / spbecBetaGamma) * e)) := by
  have hX := expm1_pos spbe_bg_pos he hu
  have hb := spbe_bg_pos
  have hG := spbe_gamma_pos
  have e0 : -(spbecGamm / spbecBetaGamma) * e = spbecGamm * u * Real.log (1 + (Real.exp (-e / (spbecBetaGamma * u)) - 1) * (1 - 0)) := by
    have := log_expm1 (e := e) spbe_bg_pos hu
    rw [sub_zero, mul_one]
    have e1 : e = -(spbecBetaGamma * u * Real.log (1 + (Real.exp (-e / (spbecBetaGamma * u)) - 1))) := by linarith
    generalize Real.log (1 + (Real.exp (-e / (spbecBetaGamma * u)) - 1)) = L at e1
    rw [e1]
    field_simp
  rw [e0]
  unfold spbeTerm
  set X := Real.exp (-e / (spbecBetaGamma * u)) - 1
  have h1 : Tendsto (fun g : ℝ => 1 + κ * g * (spbecBetaGamma / X)) atTop atTop := by
    refine tendsto_atTop_add_const_left _ _ ?_
    exact (tendsto_id.const_mul_atTop hκ).atTop_mul_const (by positivity)
  have h2 : Tendsto (fun g : ℝ => 1 / (1 + κ * g * (spbecBetaGamma / X))) atTop (𝓝 0) := by
    simp only [one_div]; exact h1.inv_tendsto_atTop
  exact (((((tendsto_const_nhds.sub h2)).const_mul X).const_add 1).log (by rw [sub_zero, mul_one]; linarith)).const_mul _

end

theorem sFactor_congr (h : Sound ρ) (k : Sound σ) (e : SameDensities ρ σ) : sFactor σ = sFactor ρ := by
  have hf := density_fields h k e
  rw [sFactor, sFactor, hf .n_m13 rfl, hf .n rfl, evalR_congr hf _ phi_density]

end XCFun.Fun
