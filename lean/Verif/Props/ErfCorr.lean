/-
C78: range-separated correlation interpolates between full correlation and none.  Also the converse of C42.
-/
import Verif.Proofs.ErfCorr
import Verif.Proofs.ScalingRange
import Verif.Props.RangeSep
import Verif.Props.PbeLimits
import Verif.Props.Depends

namespace XCFun.Props
open XCFun Spec Expr Filter Topology

variable {ρ : Field → ℝ}

theorem withMu_sound (h : Sound ρ) (μ : ℝ) : Sound (withMu ρ μ) :=
  { toPhysical := withMu_physical h.toPhysical μ, s_lt := h.s_lt, lt_s := h.lt_s, zeta := h.zeta, r_s := h.r_s, n_m13 := h.n_m13,
    gaa := h.gaa, gbb := h.gbb, gnn := h.gnn }

theorem withMu_update (ρ : Field → ℝ) (μ : ℝ) : withMu ρ μ = Function.update ρ (.param 78) μ := by
  funext f
  rcases eq_or_ne f (.param 78) with rfl | hf
  · rw [Function.update_self]; exact withMu_param ρ μ
  · rw [Function.update_of_ne hf]
    cases f <;> first
      | rfl
      | exact if_neg fun h => hf (congrArg Field.param h)

/-- The density variables after setting a parameter. -/
theorem member_parameter {v : Vars} (hv : ¬ Unsupported v) (par : ℕ → ℝ) (p : ℕ) (μ : ℝ) (x : ℕ → ℝ) :
    memberR (upd par p μ) v x = Function.update (memberR par v x) (.param p) μ := by
  obtain ⟨m, e1, e2⟩ := memberR_par par (upd par p μ) hv x
  rw [e1, e2]
  funext f
  cases f <;> simp [upd, Function.update]

theorem consistent_member (par : ℕ → ℝ) {v : Vars} (hv : ¬ Unsupported v) (hA : v ≠ .A ∧ v ≠ .A_GAA) (hD : ¬ Doubled v) {x : ℕ → ℝ}
    (hx : PhysicalInput v x) : Consistent (memberR par v x) := by
  have e : ∀ f, IsDensity f ∨ IsOther f → memberR par v x f = given (1 / 2) x v f := fun f hf =>
    memberR_given par hv hA (fun y hy => (hx.dens y hy).le) hf
  have h := given_consistent hv hA hD x
  constructor
  · rw [e _ (.inl (by simp [IsDensity])), e _ (.inl (by simp [IsDensity])), e _ (.inl (by simp [IsDensity]))]; exact h.sum
  · rw [e _ (.inl (by simp [IsDensity])), e _ (.inl (by simp [IsDensity])), e _ (.inl (by simp [IsDensity]))]; exact h.diff

theorem erf_form (ρ : Field → ℝ) (μ : ℝ) : Fun.ldaerfc.evalR (withMu ρ μ) =
    ρ .n * (Fun.pw92eps.evalR ρ - Lit.ecLong μ (ρ .r_s) (ρ .zeta) (Fun.pw92eps.evalR ρ)) := by
  rw [Fun.ldaerfc_eval, withMu_param]
  rfl

theorem jt_form (h : Sound ρ) (μ : ℝ) : Fun.ldaerfc_jt.evalR (withMu ρ μ) = ρ .n * Fun.vwn5_eps.evalR ρ /
    (1 + Fun.jt1 (ρ .r_s) * μ + Fun.jt2 (ρ .r_s) (ρ .n) (Fun.vwn5_eps.evalR ρ) * μ ^ 2) := by
  rw [Fun.ldaerfc_jt_eval (withMu_sound h μ), withMu_param]
  rfl

/-- **C78, no range separation.** LDAERFC is then PW92C, LDAERFC_JT is VWN5C. -/
theorem C78_zero (h : Sound ρ) : Fun.ldaerfc.evalR (withMu ρ 0) = Fun.pw92c.evalR ρ ∧ Fun.ldaerfc_jt.evalR (withMu ρ 0) = Fun.vwn5c.evalR ρ := by
  constructor
  · obtain ⟨c1, c2, c3, e⟩ := Fun.ecLong_form (ρ .r_s) (ρ .zeta) (Fun.pw92eps.evalR ρ)
    rw [erf_form, e, Fun.ecForm_zero, sub_zero, mul_comm]
    rfl
  · rw [jt_form h]
    simp only [mul_zero, add_zero, ne_eq, OfNat.ofNat_ne_zero, not_false_eq_true, zero_pow, div_one]
    rfl

/-- `φ` of a density that is not fully polarised is positive. -/
theorem phi_lit_pos (h : Sound ρ) : 0 < Lit.phi (ρ .zeta) := by
  have h1 : 0 < 1 + ρ .zeta := by
    rw [h.zeta]; have := h.lt_s
    have : 0 < (ρ .n + ρ .s) / ρ .n := div_pos (by linarith) h.n
    rwa [add_div, div_self h.n.ne'] at this
  have h2 : 0 < 1 - ρ .zeta := by
    rw [h.zeta]; have := h.s_lt
    have : 0 < (ρ .n - ρ .s) / ρ .n := div_pos (by linarith) h.n
    rwa [sub_div, div_self h.n.ne'] at this
  show 0 < ((1 + ρ .zeta) ^ (2 / 3 : ℝ) + (1 - ρ .zeta) ^ (2 / 3 : ℝ)) / 2
  positivity

/-- **C78, weak range separation.** LDAERFC leaves PW92C with the square of the range separation, with the coefficient of the random phase approximation,
`n (3/(2π)) (4/(9π))^(1/3) φ(ζ) r_s`. -/
theorem C78_erf_small (h : Sound ρ) : Tendsto (fun μ => (Fun.ldaerfc.evalR (withMu ρ μ) - Fun.pw92c.evalR ρ) / μ ^ 2) (𝓝[>] 0)
    (𝓝 (ρ .n * (3 / (2 * Real.pi)) * (4 / (9 * Real.pi)) ^ (1 / 3 : ℝ) * Lit.phi (ρ .zeta) * ρ .r_s)) := by
  obtain ⟨c1, c2, c3, e⟩ := Fun.ecLong_form (ρ .r_s) (ρ .zeta) (Fun.pw92eps.evalR ρ)
  have hf := phi_lit_pos h
  have hr := h.r_s_pos
  have h1 := (Fun.ecForm_small (b := 0.784949 * ρ .r_s) (f := Lit.phi (ρ .zeta)) (c1 := c1) (c2 := c2) (c3 := c3)
    (C2 := -3 * (1 - ρ .zeta ^ 2) * (Lit.g0Erf (ρ .r_s) - 1 / 2) / (8 * ρ .r_s ^ 3)) (ε := Fun.pw92eps.evalR ρ)
    (show 0 < √(ρ .r_s) / Lit.phi (ρ .zeta) by positivity)).const_mul (ρ .n)
  have el : ρ .n * (Lit.phi (ρ .zeta) ^ 3 * (√(ρ .r_s) / Lit.phi (ρ .zeta)) ^ 2 * (3 * Lit.αrs / (2 * Real.pi))) =
      ρ .n * (3 / (2 * Real.pi)) * (4 / (9 * Real.pi)) ^ (1 / 3 : ℝ) * Lit.phi (ρ .zeta) * ρ .r_s := by
    rw [div_pow, Real.sq_sqrt hr.le, Lit.αrs]
    generalize (4 / (9 * Real.pi)) ^ (1 / 3 : ℝ) = A
    have := Real.pi_pos
    field_simp
  rw [el] at h1
  refine h1.congr fun μ => ?_
  rw [erf_form, e, show Fun.pw92c.evalR ρ = Fun.pw92eps.evalR ρ * ρ .n from rfl]
  ring

/-- `r_s³ = 3/(4πn)`. -/
theorem rs_cube (h : Sound ρ) : ρ .r_s ^ 3 = 3 / (4 * Real.pi * ρ .n) := by
  have := h.n
  have hp := Real.pi_pos
  rw [h.r_s, ← Real.rpow_natCast, ← Real.rpow_mul (by positivity)]
  norm_num
  ring

/-- **C78, strong range separation, LDAERFC.** The energy decays with the inverse square of the range separation; the coefficient is given by the pair density of
opposite spins at contact, `2π n_a n_b (2 g(0) - 1)/2`. -/
theorem C78_erf_large (h : Sound ρ) (hc : Consistent ρ) : Tendsto (fun μ => μ ^ 2 * Fun.ldaerfc.evalR (withMu ρ μ)) atTop
    (𝓝 (2 * Real.pi * ρ .a * ρ .b * (Lit.g0Erf (ρ .r_s) - 1 / 2))) := by
  obtain ⟨c1, c2, c3, e⟩ := Fun.ecLong_form (ρ .r_s) (ρ .zeta) (Fun.pw92eps.evalR ρ)
  have hf := phi_lit_pos h
  have hr := h.r_s_pos
  have hn := h.n
  have hp := Real.pi_pos
  have h1 := (Fun.ecForm_large (b := 0.784949 * ρ .r_s) (f := Lit.phi (ρ .zeta)) (c1 := c1) (c2 := c2) (c3 := c3)
    (C2 := -3 * (1 - ρ .zeta ^ 2) * (Lit.g0Erf (ρ .r_s) - 1 / 2) / (8 * ρ .r_s ^ 3)) (ε := Fun.pw92eps.evalR ρ) (by positivity)
    (show 0 < √(ρ .r_s) / Lit.phi (ρ .zeta) by positivity)).const_mul (ρ .n)
  have hz : 1 - ρ .zeta ^ 2 = 4 * ρ .a * ρ .b / ρ .n ^ 2 := by
    rw [h.zeta, ← hc.sum, ← hc.diff]
    have : ρ .a + ρ .b ≠ 0 := by rw [hc.sum]; exact hn.ne'
    field_simp
    ring
  have el : ρ .n * -(-3 * (1 - ρ .zeta ^ 2) * (Lit.g0Erf (ρ .r_s) - 1 / 2) / (8 * ρ .r_s ^ 3)) =
      2 * Real.pi * ρ .a * ρ .b * (Lit.g0Erf (ρ .r_s) - 1 / 2) := by
    rw [rs_cube h, hz]
    generalize Lit.g0Erf (ρ .r_s) - 1 / 2 = G
    field_simp
    ring
  rw [el] at h1
  refine h1.congr fun μ => ?_
  rw [erf_form, e]
  ring

/-- **C78, strong range separation, LDAERFC_JT.** The same with another pair density at contact, and without the dependence on the polarisation:
`(π/2) n² (g(0) - 1/2)`. -/
theorem C78_jt_large (h : Sound ρ) : Tendsto (fun μ => μ ^ 2 * Fun.ldaerfc_jt.evalR (withMu ρ μ)) atTop
    (𝓝 (Real.pi / 2 * ρ .n ^ 2 *
      (3.39530545262710070631 * ((4.7125 + ρ .r_s) ^ (3 / 2 : ℝ) + 163.44) * Real.exp (-3.2581 * √(4.7125 + ρ .r_s)) - 1 / 2))) := by
  have hε := Fun.vwn5_eps_neg h
  have hn := h.n
  have hp := Real.pi_pos
  have hg := Fun.jtG0_lt h.r_s_pos
  have h1 := Fun.jt_large (A := ρ .n * Fun.vwn5_eps.evalR ρ) (c1 := Fun.jt1 (ρ .r_s)) (Fun.jt2_pos h.r_s_pos hn hε)
  have el : ρ .n * Fun.vwn5_eps.evalR ρ / Fun.jt2 (ρ .r_s) (ρ .n) (Fun.vwn5_eps.evalR ρ) = Real.pi / 2 * ρ .n ^ 2 * (Fun.jtG0 (ρ .r_s) - 1 / 2) := by
    have hg' : Fun.jtG0 (ρ .r_s) - 1 / 2 ≠ 0 := by linarith
    rw [Fun.jt2]
    generalize Fun.jtG0 (ρ .r_s) - 1 / 2 = G at *
    have := hε.ne
    field_simp
  rw [el] at h1
  exact h1.congr fun μ => by rw [jt_form h]

/-- **C78, complete range separation.** Both tend to zero. -/
theorem C78_vanish (h : Sound ρ) (hc : Consistent ρ) : Tendsto (fun μ => Fun.ldaerfc.evalR (withMu ρ μ)) atTop (𝓝 0) ∧
    Tendsto (fun μ => Fun.ldaerfc_jt.evalR (withMu ρ μ)) atTop (𝓝 0) :=
  ⟨Fun.tendsto_zero_of_sq (C78_erf_large h hc), Fun.tendsto_zero_of_sq (C78_jt_large h)⟩

/-- **C78, signs, LDAERFC.** A weak range separation weakens correlation, and both for weak and for strong range separation the energy is negative. -/
theorem C78_erf_sign (h : Sound ρ) (hc : Consistent ρ) :
    (∀ᶠ μ in 𝓝[>] 0, Fun.pw92c.evalR ρ < Fun.ldaerfc.evalR (withMu ρ μ) ∧ Fun.ldaerfc.evalR (withMu ρ μ) < 0) ∧
    (∀ᶠ μ in atTop, Fun.pw92c.evalR ρ < Fun.ldaerfc.evalR (withMu ρ μ) ∧ Fun.ldaerfc.evalR (withMu ρ μ) < 0) := by
  have hr := h.r_s_pos
  have hn := h.n
  have hp := Real.pi_pos
  have hf := phi_lit_pos h
  have ha := h.a
  have hb := h.b
  have hneg : Fun.pw92c.evalR ρ < 0 := mul_neg_of_neg_of_pos (Fun.pw92eps_neg h) h.n
  constructor
  · have h1 := (C78_erf_small h).eventually (lt_mem_nhds (show (0 : ℝ) < ρ .n * (3 / (2 * Real.pi)) * (4 / (9 * Real.pi)) ^ (1 / 3 : ℝ) *
      Lit.phi (ρ .zeta) * ρ .r_s by positivity))
    have h2 : Tendsto (fun μ => Fun.ldaerfc.evalR (withMu ρ μ)) (𝓝[>] 0) (𝓝 (Fun.pw92c.evalR ρ)) := by
      have hs : Tendsto (fun μ : ℝ => μ ^ 2) (𝓝[>] 0) (𝓝 0) := by
        have : Continuous fun μ : ℝ => μ ^ 2 := by fun_prop
        have := this.tendsto 0
        rw [zero_pow two_ne_zero] at this
        exact this.mono_left nhdsWithin_le_nhds
      have := ((C78_erf_small h).mul hs).add_const (Fun.pw92c.evalR ρ)
      rw [mul_zero, zero_add] at this
      refine this.congr' ?_
      filter_upwards [self_mem_nhdsWithin] with μ hμ
      have : (0 : ℝ) < μ := hμ
      field_simp
      ring
    filter_upwards [h1, h2.eventually (gt_mem_nhds hneg), self_mem_nhdsWithin] with μ h1 h2 hμ
    refine ⟨?_, h2⟩
    have hμ : (0 : ℝ) < μ := hμ
    have := (div_pos_iff_of_pos_right (by positivity)).1 h1
    linarith
  · have hg := Fun.g0Erf_lt hr
    have h1 := (C78_erf_large h hc).eventually (gt_mem_nhds (show 2 * Real.pi * ρ .a * ρ .b * (Lit.g0Erf (ρ .r_s) - 1 / 2) < 0 from
      mul_neg_of_pos_of_neg (by positivity) (by linarith)))
    filter_upwards [h1, (C78_vanish h hc).1.eventually (lt_mem_nhds hneg), eventually_gt_atTop 0] with μ h1 h2 hμ
    refine ⟨h2, ?_⟩
    have : 0 < μ ^ 2 := by positivity
    by_contra hcon
    exact absurd h1 (not_lt.2 (mul_nonneg this.le (not_lt.1 hcon)))

/-- The denominator of LDAERFC_JT. -/
theorem jt_den_pos (h : Sound ρ) (hc : Consistent ρ) {μ : ℝ} (hμ : 0 ≤ μ) :
    0 < 1 + Fun.jt1 (ρ .r_s) * μ + Fun.jt2 (ρ .r_s) (ρ .n) (Fun.vwn5_eps.evalR ρ) * μ ^ 2 := by
  have h1 := Fun.jtDenominator_pos h ⟨hc.sum, hc.diff⟩ hμ
  have gas := Fun.fill_isGas h ⟨hc.sum, hc.diff⟩
  have er : ρ .r_s = Lit.rs (ρ .n) := by
    have := Fun.drs gas; rw [Fun.fillGas_n ⟨hc.sum, hc.diff⟩] at this; exact this
  have ev : Fun.vwn5_eps.evalR ρ = Lit.vwn5Eps ⟨ρ .a, ρ .b, 0, 0, 0, 0, 0⟩ 1.92366105093154 := by have := Fun.lit_vwn5_eps gas; exact this
  have egn : (Lit.Gas.mk (ρ .a) (ρ .b) 0 0 0 0 0).n = ρ .n := hc.sum
  rw [Spec.jtDenominator] at h1
  simp only [egn, ← er, ← ev] at h1
  exact h1

/-- **C78, sign, LDAERFC_JT.** Negative for every range separation. -/
theorem C78_jt_negative (h : Sound ρ) (hc : Consistent ρ) {μ : ℝ} (hμ : 0 ≤ μ) : Fun.ldaerfc_jt.evalR (withMu ρ μ) < 0 := by
  rw [jt_form h]
  exact div_neg_of_neg_of_pos (mul_neg_of_pos_of_neg h.n (Fun.vwn5_eps_neg h)) (jt_den_pos h hc hμ)

/-- **C78, monotone, LDAERFC_JT.** For `r_s` up to 1.02707…/0.23016… (about 4.46) more range separation leaves less correlation, and the energy is between
VWN5C and zero. -/
theorem C78_jt_monotone (h : Sound ρ) (hc : Consistent ρ) (hr : ρ .r_s ≤ 1.0270741452992294 / 0.230160617208092) {μ ν : ℝ} (h0 : 0 ≤ μ) (hlt : μ < ν) :
    Fun.vwn5c.evalR ρ ≤ Fun.ldaerfc_jt.evalR (withMu ρ μ) ∧ Fun.ldaerfc_jt.evalR (withMu ρ μ) < Fun.ldaerfc_jt.evalR (withMu ρ ν) ∧
      Fun.ldaerfc_jt.evalR (withMu ρ ν) < 0 := by
  have hrp := h.r_s_pos
  have h1 : 0 ≤ Fun.jt1 (ρ .r_s) := by
    unfold Fun.jt1
    refine div_nonneg ?_ (by positivity)
    have : ρ .r_s * 0.230160617208092 ≤ 1.0270741452992294 := by rwa [le_div_iff₀ (by norm_num)] at hr
    nlinarith
  have h2 := Fun.jt2_pos hrp h.n (Fun.vwn5_eps_neg h)
  have hA : ρ .n * Fun.vwn5_eps.evalR ρ < 0 := mul_neg_of_pos_of_neg h.n (Fun.vwn5_eps_neg h)
  have key : ∀ {μ ν : ℝ}, 0 ≤ μ → μ < ν → Fun.ldaerfc_jt.evalR (withMu ρ μ) < Fun.ldaerfc_jt.evalR (withMu ρ ν) := by
    intro μ ν h0 hlt
    rw [jt_form h, jt_form h]
    have hν : 0 ≤ ν := h0.trans hlt.le
    rw [div_lt_div_iff₀ (by positivity) (by positivity)]
    refine mul_lt_mul_of_neg_left ?_ hA
    have : μ ^ 2 < ν ^ 2 := by nlinarith
    nlinarith
  refine ⟨?_, key h0 hlt, C78_jt_negative h hc (h0.trans hlt.le)⟩
  rw [← (C78_zero h).2]
  rcases h0.eq_or_lt with rfl | hp
  · exact le_rfl
  · exact (key le_rfl hp).le

/-- **C78 fails for dilute densities.** Beyond that `r_s`, LDAERFC_JT of some range separation is below VWN5C: the short-range part of the correlation energy is larger
than the whole. -/
theorem C78_jt_overshoots (h : Sound ρ) (hc : Consistent ρ) (hr : 1.0270741452992294 / 0.230160617208092 < ρ .r_s) :
    ∃ μ, 0 < μ ∧ Fun.ldaerfc_jt.evalR (withMu ρ μ) < Fun.vwn5c.evalR ρ := by
  have hrp := h.r_s_pos
  have h1 : Fun.jt1 (ρ .r_s) < 0 := by
    unfold Fun.jt1
    refine div_neg_of_neg_of_pos ?_ (by positivity)
    have : 1.0270741452992294 < ρ .r_s * 0.230160617208092 := by rwa [div_lt_iff₀ (by norm_num)] at hr
    nlinarith
  have h2 := Fun.jt2_pos hrp h.n (Fun.vwn5_eps_neg h)
  have hA : ρ .n * Fun.vwn5_eps.evalR ρ < 0 := mul_neg_of_pos_of_neg h.n (Fun.vwn5_eps_neg h)
  have hμ : 0 < -Fun.jt1 (ρ .r_s) / (2 * Fun.jt2 (ρ .r_s) (ρ .n) (Fun.vwn5_eps.evalR ρ)) := div_pos (by linarith) (by linarith)
  refine ⟨_, hμ, ?_⟩
  have hd := jt_den_pos h hc hμ.le
  rw [jt_form h]
  show _ < ρ .n * Fun.vwn5_eps.evalR ρ
  generalize Fun.jt2 (ρ .r_s) (ρ .n) (Fun.vwn5_eps.evalR ρ) = c2 at *
  generalize Fun.jt1 (ρ .r_s) = c1 at *
  have hd1 : 1 + c1 * (-c1 / (2 * c2)) + c2 * (-c1 / (2 * c2)) ^ 2 < 1 := by
    have : c1 * (-c1 / (2 * c2)) + c2 * (-c1 / (2 * c2)) ^ 2 = -(c1 ^ 2 / (4 * c2)) := by field_simp; ring
    have h3 : 0 < c1 ^ 2 / (4 * c2) := div_pos (by have := h1.ne; positivity) (by linarith)
    linarith
  rw [div_lt_iff₀ hd]
  nlinarith

/-! ### Cases -/

/-- Spin densities 1 and 8. -/
theorem case_consistent : Consistent (caseVars 0) := consistent_member _ (by decide) (by decide) (by simp [Doubled]) (case_physical le_rfl)

theorem case_densities : caseVars 0 .a = 1 ∧ caseVars 0 .b = 8 ∧ caseVars 0 .n = 9 := by
  refine ⟨?_, ?_, ?_⟩ <;> rw [case_field le_rfl (.inl (by simp [IsDensity]))] <;> norm_num [given, spinFields, uniformInput]

/-- A dense gas, with more range separation less correlation. -/
example : Fun.ldaerfc_jt.evalR (withMu (caseVars 0) 0.4) < Fun.ldaerfc_jt.evalR (withMu (caseVars 0) 0.5) ∧
    Fun.ldaerfc.evalR (withMu (caseVars 0) 0) = Fun.pw92c.evalR (caseVars 0) ∧
    Tendsto (fun μ => μ ^ 2 * Fun.ldaerfc.evalR (withMu (caseVars 0) μ)) atTop (𝓝 (2 * Real.pi * 1 * 8 * (Lit.g0Erf (caseVars 0 .r_s) - 1 / 2))) := by
  have h := case_sound le_rfl
  refine ⟨(C78_jt_monotone h case_consistent ?_ (by norm_num) (by norm_num)).2.1, (C78_zero h).1, ?_⟩
  · by_contra hcon
    have h3 := rs_cube h
    rw [case_densities.2.2] at h3
    have hp := Real.pi_gt_three
    have h1 : 1 < caseVars 0 .r_s := lt_trans (by norm_num) (not_le.1 hcon)
    have : 1 < caseVars 0 .r_s ^ 3 := one_lt_pow₀ h1 (by norm_num)
    rw [h3, lt_div_iff₀ (by positivity)] at this
    linarith
  · have := C78_erf_large h case_consistent
    rwa [case_densities.1, case_densities.2.1] at this

/-- A dilute gas: spin densities 1/2000 each, where `r_s` is larger than 6. -/
example : ∃ μ, 0 < μ ∧ Fun.ldaerfc_jt.evalR (withMu (memberR (fun _ => 0) .A_B_GAA_GAB_GBB (Function.update (uniformInput (1 / 2000) (1 / 2000)) 2 0)) μ) <
    Fun.vwn5c.evalR (memberR (fun _ => 0) .A_B_GAA_GAB_GBB (Function.update (uniformInput (1 / 2000) (1 / 2000)) 2 0)) := by
  have hph : PhysicalInput .A_B_GAA_GAB_GBB (Function.update (uniformInput (1 / 2000) (1 / 2000)) 2 0) :=
    physical_uniform (by norm_num [threshold]) (by norm_num [threshold]) (.inl rfl) le_rfl
  have h : Sound (memberR (fun _ => 0) .A_B_GAA_GAB_GBB (Function.update (uniformInput (1 / 2000) (1 / 2000)) 2 0)) :=
    memberR_sound _ (by decide) (by decide) hph
  have hf : ∀ f, IsDensity f → memberR (fun _ => 0) .A_B_GAA_GAB_GBB (Function.update (uniformInput (1 / 2000) (1 / 2000)) 2 0) f = _ :=
    fun f hf => memberR_given _ (by decide) (by decide) (fun y hy => (hph.dens y hy).le) (.inl hf)
  refine C78_jt_overshoots h (consistent_member _ (by decide) (by decide) (by simp [Doubled]) hph) ?_
  have h3 := rs_cube h
  have hn := hf .n (by simp [IsDensity])
  norm_num [given, spinFields, uniformInput] at hn
  norm_num at h3 hn ⊢
  rw [hn] at h3
  by_contra hcon
  have hr := h.r_s_pos
  have hp := Real.pi_lt_four
  have h6 := pow_le_pow_left₀ hr.le (not_lt.1 hcon) 3
  norm_num at h3 h6 hr
  rw [h3] at h6
  have : 0 < Real.pi := Real.pi_pos
  rw [div_le_iff₀ (by positivity)] at h6
  linarith

/-! ### C78 for `xcfun_eval` -/

section
variable (s : State ℝ) {v : Vars} (hv : ¬ Unsupported v) (hA : v ≠ .A ∧ v ≠ .A_GAA) (hD : ¬ Doubled v)
  (hvs : s.vars = some v) (hm : s.mode = PARTIAL_DERIVATIVES) (ho : s.order = 0)

include hv hvs hm ho in
/-- The energy of an object as a function of its parameter `p`. -/
theorem eval_parameter {p : ℕ} (hp : ∀ id ∈ s.active, id ≠ p) (μ : ℝ) (x : ℕ → ℝ) (junk : Junk ℝ) (out : ℝ) :
    xcfunEval codeKernel junk (setParameter s p μ) ((List.range v.len).map x) [out] = .ok [(s.active.map fun id => s.settings id *
      ((Fun.energy id).getD 0).evalR (Function.update (memberR s.settings v x) (.param p) μ)).sum] := by
  rw [eval_order0 (setParameter s p μ) hv hvs hm ho x junk out, energyAt_members (setParameter s p μ) hv]
  have e : memberR (setParameter s p μ).settings v x = Function.update (memberR s.settings v x) (.param p) μ := member_parameter hv _ _ _ _
  rw [e]
  congr 3
  refine List.map_congr_left fun id hid => ?_
  have : (setParameter s p μ).settings id = s.settings id := by simp [setParameter, upd, hp id hid]
  rw [this]

/-- The functional without range separation. -/
def unseparated (id : ℕ) : ℕ := if id = 14 then 28 else 3

include hv hvs hm ho in
/-- **C78, no range separation, `xcfun_eval`.** For any object combining LDAERFC and LDAERFC_JT, after setting the range separation to zero the energy is that of
the object combining PW92C and VWN5C with the same weights. -/
theorem C78_eval_zero (hs : ∀ id ∈ s.active, id ∈ [14, 15]) (t : State ℝ) (htv : t.vars = some v) (htm : t.mode = PARTIAL_DERIVATIVES) (hto : t.order = 0)
    (hA : v ≠ .A ∧ v ≠ .A_GAA) (ht : t.active = s.active.map unseparated) (hw : ∀ id ∈ s.active, t.settings (unseparated id) = s.settings id)
    {x : ℕ → ℝ} (hx : PhysicalInput v x) (junk junk' : Junk ℝ) (out out' : ℝ) :
    xcfunEval codeKernel junk (setParameter s 78 0) ((List.range v.len).map x) [out] =
      xcfunEval codeKernel junk' t ((List.range v.len).map x) [out'] := by
  rw [eval_parameter s hv hvs hm ho (fun id hid h => by have := hs id hid; rw [h] at this; exact absurd this (by decide)) 0 x junk out,
    eval_order0 t hv htv htm hto x junk' out', energyAt_members t hv, ht, List.map_map]
  congr 3
  refine List.map_congr_left fun id hid => ?_
  simp only [Function.comp, hw id hid]
  congr 1
  have h := memberR_sound s.settings hv hA hx
  obtain ⟨m, e1, e2⟩ := memberR_par s.settings t.settings hv x
  have hz := C78_zero h
  rw [withMu_update] at hz
  have := hs id hid
  simp only [List.mem_cons, List.not_mem_nil, or_false] at this
  rcases this with rfl | rfl
  · refine hz.1.trans ?_
    show Fun.pw92c.evalR _ = Fun.pw92c.evalR _
    rw [e1, e2]
    rfl
  · refine hz.2.trans ?_
    show Fun.vwn5c.evalR _ = Fun.vwn5c.evalR _
    rw [e1, e2]
    rfl

include hv hA hD hvs hm ho in
/-- **C78, complete range separation, `xcfun_eval`.** For any object combining LDAERFC and LDAERFC_JT with any weights, the energies returned tend to zero as the
parameter `rangesep_mu` grows beyond all bounds. -/
theorem C78_eval_vanish (hs : ∀ id ∈ s.active, id ∈ [14, 15]) {x : ℕ → ℝ} (hx : PhysicalInput v x) (junk : Junk ℝ) (out : ℝ) :
    ∃ E : ℝ → ℝ, (∀ μ, xcfunEval codeKernel junk (setParameter s 78 μ) ((List.range v.len).map x) [out] = .ok [E μ]) ∧ Tendsto E atTop (𝓝 0) := by
  refine ⟨_, fun μ => eval_parameter s hv hvs hm ho (fun id hid h => by have := hs id hid; rw [h] at this; exact absurd this (by decide)) μ x junk out, ?_⟩
  have h := memberR_sound s.settings hv hA hx
  have hz := C78_vanish h (consistent_member _ hv hA hD hx)
  simp only [withMu_update] at hz
  have key : ∀ l : List ℕ, (∀ id ∈ l, id ∈ [14, 15]) → Tendsto (fun μ => (l.map fun id => s.settings id *
      ((Fun.energy id).getD 0).evalR (Function.update (memberR s.settings v x) (.param 78) μ)).sum) atTop (𝓝 0) := by
    intro l hl
    induction l with
    | nil => exact tendsto_const_nhds
    | cons id l ih =>
      have h1 : Tendsto (fun μ => s.settings id * ((Fun.energy id).getD 0).evalR (Function.update (memberR s.settings v x) (.param 78) μ)) atTop
          (𝓝 (s.settings id * 0)) := by
        refine Tendsto.const_mul _ ?_
        have := hl id List.mem_cons_self
        simp only [List.mem_cons, List.not_mem_nil, or_false] at this
        rcases this with rfl | rfl
        · exact hz.1
        · exact hz.2
      have h2 := h1.add (ih fun i hi => hl i (List.mem_cons_of_mem _ hi))
      rw [mul_zero, add_zero] at h2
      simpa only [List.map_cons, List.sum_cons] using h2
  exact key _ hs

end

/-- An object made of LDAERFC and half LDAERFC_JT, and one made of PW92C and half VWN5C. -/
example : ∃ s₀ s t₀ t : State ℝ, run State.init [.set "ldaerfc" 1, .set "ldaerfc_jt" 0.5] = .ok s₀ ∧
    evalSetup s₀ Vars.A_B_GAA_GAB_GBB.code PARTIAL_DERIVATIVES 0 = .ok (0, s) ∧ run State.init [.set "pw92c" 1, .set "vwn5c" 0.5] = .ok t₀ ∧
    evalSetup t₀ Vars.A_B_GAA_GAB_GBB.code PARTIAL_DERIVATIVES 0 = .ok (0, t) ∧
    xcfunEval codeKernel none (setParameter s 78 0) [1, 8, 4, 0, 0] [0] = xcfunEval codeKernel none t [1, 8, 4, 0, 0] [0] ∧
    ∃ E : ℝ → ℝ, (∀ μ, xcfunEval codeKernel none (setParameter s 78 μ) [1, 8, 4, 0, 0] [0] = .ok [E μ]) ∧ Tendsto E atTop (𝓝 0) := by
  obtain ⟨s₀, s, hr, hset⟩ : ∃ s₀ s : State ℝ, run State.init [.set "ldaerfc" 1, .set "ldaerfc_jt" 0.5] = .ok s₀ ∧
    evalSetup s₀ Vars.A_B_GAA_GAB_GBB.code PARTIAL_DERIVATIVES 0 = .ok (0, s) := ⟨_, _, rfl, rfl⟩
  obtain ⟨t₀, t, ht, htset⟩ : ∃ t₀ t : State ℝ, run State.init [.set "pw92c" 1, .set "vwn5c" 0.5] = .ok t₀ ∧
    evalSetup t₀ Vars.A_B_GAA_GAB_GBB.code PARTIAL_DERIVATIVES 0 = .ok (0, t) := ⟨_, _, rfl, rfl⟩
  refine ⟨s₀, s, t₀, t, hr, hset, ht, htset, ?_⟩
  obtain ⟨e, -⟩ := setup_facts hr hset
  obtain ⟨f, -⟩ := setup_facts ht htset
  have hs₀ : s₀.active = [14, 15] ∧ s₀.settings 14 = lit 0 0 + 1 ∧ s₀.settings 15 = lit 0 0 + 0.5 := by cases hr; exact ⟨rfl, rfl, rfl⟩
  have ht₀ : t₀.active = [28, 3] ∧ t₀.settings 28 = lit 0 0 + 1 ∧ t₀.settings 3 = lit 0 0 + 0.5 := by cases ht; exact ⟨rfl, rfl, rfl⟩
  have ha : s.active = [14, 15] := by rw [e]; exact hs₀.1
  have h1 := C78_eval_zero s (v := .A_B_GAA_GAB_GBB) (by decide) (by rw [e]) (by rw [e]) (by rw [e]) (by rw [ha]; decide) t (by rw [f]) (by rw [f]) (by rw [f])
    (by decide) (by rw [ha, f]; exact ht₀.1) (by
      rw [ha]
      intro id hid
      simp only [List.mem_cons, List.not_mem_nil, or_false] at hid
      rcases hid with rfl | rfl
      · rw [e, f]; exact ht₀.2.1.trans hs₀.2.1.symm
      · rw [e, f]; exact ht₀.2.2.trans hs₀.2.2.symm) (case_physical (t := 4) (by norm_num)) none none 0 0
  have h2 := C78_eval_vanish s (v := .A_B_GAA_GAB_GBB) (by decide) (by decide) (by simp [Doubled]) (by rw [e]) (by rw [e]) (by rw [e]) (by rw [ha]; decide)
    (case_physical (t := 4) (by norm_num)) none 0
  rw [case_input] at h1
  simp only [case_input] at h2
  exact ⟨h1, h2⟩

/-! ### Converse of C42: the parameters are read -/

theorem attenuation_pos {A : ℝ} (hA : 0 < A) : 0 < Lit.attenuation A := by
  have h1 := (Atten.attenuation_large (A := 1) one_pos).1
  have hB : 0 < Lit.attenuation (Max.max A 1) := by
    have := Atten.attenuation_mono one_pos (le_max_right A 1)
    norm_num at h1
    linarith
  have hg := Atten.attenuation_growth hA (le_max_left A 1)
  have : 0 < Lit.attenuation A * Max.max A 1 ^ 4 := lt_of_lt_of_le (by positivity) hg
  exact (pos_iff_pos_of_mul_pos this).2 (by positivity)

/-- Short-range exchange is strictly weaker than full exchange. -/
theorem sr_lt (h : Physical ρ) (ga : 0 ≤ ρ .gaa) (gb : 0 ≤ ρ .gbb) (hμ : 0 < ρ (.param Fun.RANGESEP_MU)) :
    Fun.beckex.evalR ρ < Fun.beckesrx.evalR ρ := by
  have ha : 0 < Fun.d.a.evalR ρ := h.a
  have hb : 0 < Fun.d.b.evalR ρ := h.b
  have ga' : 0 ≤ Fun.d.gaa.evalR ρ := ga
  have gb' : 0 ≤ Fun.d.gbb.evalR ρ := gb
  have na := Fun.alpha_neg ρ ha ga'
  have nb := Fun.alpha_neg ρ hb gb'
  have a0 := attenuation_pos (Fun.codeA_pos ρ ha ga' hμ)
  have b0 := attenuation_pos (Fun.codeA_pos ρ hb gb' hμ)
  simp only [Fun.beckex, Fun.beckesrx, Expr.evalR_add, Fun.sr_eval, ← Fun.alpha_eval]
  rw [show (Fun.getParam Fun.RANGESEP_MU).evalR ρ = ρ (.param Fun.RANGESEP_MU) from rfl]
  nlinarith

theorem beckex_neg (h : Physical ρ) (ga : 0 ≤ ρ .gaa) (gb : 0 ≤ ρ .gbb) : Fun.beckex.evalR ρ < 0 :=
  add_neg (Fun.alpha_neg ρ (n := Fun.d.a) h.a ga) (Fun.alpha_neg ρ (n := Fun.d.b) h.b gb)

/-- A function with two limits is not constant. -/
theorem two_values {f : ℝ → ℝ} {L M : Filter ℝ} [L.NeBot] [M.NeBot] {l m : ℝ} (hl : Tendsto f L (𝓝 l)) (hm : Tendsto f M (𝓝 m)) (hlm : l ≠ m) :
    ∃ a b, f a ≠ f b := by
  by_contra hcon
  push Not at hcon
  have e : ∀ a, f a = f 0 := fun a => hcon a 0
  have h1 : Tendsto f L (𝓝 (f 0)) := tendsto_const_nhds.congr fun a => (e a).symm
  have h2 : Tendsto f M (𝓝 (f 0)) := tendsto_const_nhds.congr fun a => (e a).symm
  exact hlm ((tendsto_nhds_unique hl h1).trans (tendsto_nhds_unique h2 hm))

/-- Every functional that is said to read a parameter depends on it. -/
theorem readers_values {p id : ℕ} (hid : id ∈ readers p) {par : ℕ → ℝ} (h9 : id = 9 → par 81 ≠ 0 ∧ 0 < par 78) :
    ∃ x : ℕ → ℝ, ∃ a b : ℝ, ((Fun.energy id).getD 0).evalR (Function.update (memberR par .A_B_GAA_GAB_GBB x) (.param p) a) ≠
      ((Fun.energy id).getD 0).evalR (Function.update (memberR par .A_B_GAA_GAB_GBB x) (.param p) b) := by
  set ρ := memberR par .A_B_GAA_GAB_GBB (Function.update (uniformInput 1 8) 2 0) with hρ
  have h : Sound ρ := memberR_sound _ (by decide) (by decide) (case_physical le_rfl)
  have hc : Consistent ρ := consistent_member _ (by decide) (by decide) (by simp [Doubled]) (case_physical le_rfl)
  have hX := beckex_neg h.toPhysical h.gaa h.gbb
  have hpar : ∀ i, ρ (.param i) = par i := (memberR_derived par (v := .A_B_GAA_GAB_GBB) (by decide) _).2.2.2.2.2
  have cam := fun (k : ℕ) (a : ℝ) => C54_cam (Function.update ρ (.param k) a)
  unfold readers at hid
  split_ifs at hid with h78 h8081
  · subst h78
    simp only [List.mem_cons, List.not_mem_nil, or_false] at hid
    obtain ⟨l0, l1⟩ := C54_limits h.toPhysical h.gaa h.gbb
    simp only [withMu_update] at l0 l1
    rcases hid with rfl | rfl | rfl | rfl | rfl
    · exact ⟨_, two_values l0 l1 hX.ne⟩
    · obtain ⟨a, b, hab⟩ := two_values l0 l1 hX.ne
      refine ⟨Function.update (uniformInput 1 8) 2 0, a, b, ?_⟩
      show Fun.beckecamx.evalR (Function.update ρ _ a) ≠ Fun.beckecamx.evalR (Function.update ρ _ b)
      rw [cam 78 a, cam 78 b]
      have e : ∀ (c : ℝ) (k : ℕ), k ≠ 78 → Function.update ρ (.param 78) c (.param k) = par k := fun c k hk => by
        rw [Function.update_of_ne (by simpa using hk)]; exact hpar k
      have ex : ∀ c, Fun.beckex.evalR (Function.update ρ (.param 78) c) = Fun.beckex.evalR ρ := fun c => by
        rw [hρ, ← member_parameter (by decide)]; exact beckex_settings (by decide) _ _ _
      rw [e a Fun.CAM_ALPHA (by decide), e a Fun.CAM_BETA (by decide), e b Fun.CAM_ALPHA (by decide), e b Fun.CAM_BETA (by decide), ex, ex]
      intro hcon
      exact hab (mul_left_cancel₀ (h9 rfl).1 (add_left_cancel hcon))
    · obtain ⟨a, b, -, -, hab⟩ := C54_local_not_monotone
      refine ⟨Function.update (uniformInput (1 / 2) (1 / 2)) 2 0, a, b, ?_⟩
      have hph : PhysicalInput .A_B_GAA_GAB_GBB (Function.update (uniformInput (1 / 2) (1 / 2)) 2 0) :=
        physical_uniform (by norm_num [threshold]) (by norm_num [threshold]) (.inl rfl) le_rfl
      have e : ∀ c, Fun.lda_erfx.evalR (Function.update (memberR par .A_B_GAA_GAB_GBB (Function.update (uniformInput (1 / 2) (1 / 2)) 2 0)) (.param 78) c) =
          Fun.lda_erfx.evalR (withMu halfGas c) := by
        intro c
        refine Expr.evalR_congr (p := fun f => f = .a || f = .b || f = .param 78) ?_ _ ?_
        · intro f hf
          simp only [Bool.or_eq_true, decide_eq_true_eq] at hf
          rcases hf with (rfl | rfl) | rfl
          · rw [Function.update_of_ne (by simp), memberR_given _ (by decide) (by decide) (fun y hy => (hph.dens y hy).le) (.inl (by simp [IsDensity]))]
            norm_num [given, spinFields, uniformInput, withMu, halfGas]
          · rw [Function.update_of_ne (by simp), memberR_given _ (by decide) (by decide) (fun y hy => (hph.dens y hy).le) (.inl (by simp [IsDensity]))]
            norm_num [given, spinFields, uniformInput, withMu, halfGas]
          · rw [Function.update_self]; exact (withMu_param _ _).symm
        · rfl
      show Fun.lda_erfx.evalR _ ≠ Fun.lda_erfx.evalR _
      rw [e, e]
      exact hab.ne'
    · obtain ⟨l0, l1⟩ := C78_vanish h hc
      have hz := (C78_zero h).1
      simp only [withMu_update] at l0 hz
      refine ⟨Function.update (uniformInput 1 8) 2 0, two_values (M := pure 0) l0 (tendsto_pure_nhds _ _) ?_⟩
      refine (lt_of_eq_of_lt hz ?_).ne'
      exact mul_neg_of_neg_of_pos (Fun.pw92eps_neg h) h.n
    · obtain ⟨l0, l1⟩ := C78_vanish h hc
      have hz := (C78_zero h).2
      simp only [withMu_update] at l1 hz
      refine ⟨Function.update (uniformInput 1 8) 2 0, two_values (M := pure 0) l1 (tendsto_pure_nhds _ _) ?_⟩
      refine (lt_of_eq_of_lt hz ?_).ne'
      exact mul_neg_of_pos_of_neg h.n (Fun.vwn5_eps_neg h)
  · simp only [List.mem_cons, List.not_mem_nil, or_false] at hid
    subst hid
    refine ⟨Function.update (uniformInput 1 8) 2 0, 0, 1, ?_⟩
    show Fun.beckecamx.evalR (Function.update ρ _ 0) ≠ Fun.beckecamx.evalR (Function.update ρ _ 1)
    rw [cam p 0, cam p 1]
    have ex : ∀ c, Fun.beckex.evalR (Function.update ρ (.param p) c) = Fun.beckex.evalR ρ := fun c => by
      rw [hρ, ← member_parameter (by decide)]; exact beckex_settings (by decide) _ _ _
    have es : ∀ c, Fun.beckesrx.evalR (Function.update ρ (.param p) c) = Fun.beckesrx.evalR ρ := fun c => by
      rw [hρ, ← member_parameter (by decide)]; exact beckesrx_settings (by decide) _ _ (by rcases h8081 with rfl | rfl <;> rfl) _
    rw [ex, ex, es, es]
    have hs := sr_lt h.toPhysical h.gaa h.gbb (by rw [hpar]; exact (h9 rfl).2)
    rcases h8081 with rfl | rfl
    · rw [show Function.update ρ (.param 80) 0 (.param Fun.CAM_ALPHA) = 0 from Function.update_self ..,
        show Function.update ρ (.param 80) 1 (.param Fun.CAM_ALPHA) = 1 from Function.update_self ..,
        Function.update_of_ne (by simp [Fun.CAM_BETA]), Function.update_of_ne (by simp [Fun.CAM_BETA])]
      intro hcon
      linarith
    · rw [show Function.update ρ (.param 81) 0 (.param Fun.CAM_BETA) = 0 from Function.update_self ..,
        show Function.update ρ (.param 81) 1 (.param Fun.CAM_BETA) = 1 from Function.update_self ..,
        Function.update_of_ne (by simp [Fun.CAM_ALPHA]), Function.update_of_ne (by simp [Fun.CAM_ALPHA])]
      intro hcon
      linarith
  · simp at hid

/-- **C42, converse.** Each functional that `readers p` names does read the parameter: for every object consisting of it alone there are an input and two values of the
parameter for which `xcfun_eval` returns different energies.  (For BECKECAMX with the parameters `cam_beta` and `rangesep_mu` of the object not zero.) -/
theorem C42_readers_read {p id : ℕ} (hid : id ∈ readers p) (s : State ℝ) (hvs : s.vars = some .A_B_GAA_GAB_GBB) (hm : s.mode = PARTIAL_DERIVATIVES)
    (ho : s.order = 0) (hs : s.active = [id]) (hw : s.settings id ≠ 0) (h9 : id = 9 → s.settings 81 ≠ 0 ∧ 0 < s.settings 78) (junk : Junk ℝ) (out : ℝ) :
    ∃ (input : List ℝ) (a b : ℝ), xcfunEval codeKernel junk (setParameter s p a) input [out] ≠
      xcfunEval codeKernel junk (setParameter s p b) input [out] := by
  obtain ⟨x, a, b, hab⟩ := readers_values hid h9
  have hp : ∀ i ∈ s.active, i ≠ p := by
    rw [hs]
    intro i hi
    rw [List.mem_singleton] at hi
    subst hi
    unfold readers at hid
    split_ifs at hid with h1 h2
    · rintro rfl; subst h1; exact absurd hid (by decide)
    · rintro rfl; rcases h2 with rfl | rfl <;> exact absurd hid (by decide)
    · simp at hid
  refine ⟨(List.range Vars.A_B_GAA_GAB_GBB.len).map x, a, b, ?_⟩
  rw [eval_parameter s (by decide) hvs hm ho hp, eval_parameter s (by decide) hvs hm ho hp, hs]
  simp only [List.map_cons, List.map_nil, List.sum_cons, List.sum_nil, add_zero]
  intro hcon
  injection hcon with hcon
  injection hcon with hcon
  exact hab (mul_left_cancel₀ hw hcon)

/-- An object made of CAM exchange reads `cam_beta`. -/
example : ∃ s₀ s : State ℝ, run State.init [.set "beckecamx" 1] = .ok s₀ ∧ evalSetup s₀ Vars.A_B_GAA_GAB_GBB.code PARTIAL_DERIVATIVES 0 = .ok (0, s) ∧
    ∃ (input : List ℝ) (a b : ℝ), xcfunEval codeKernel none (setParameter s 81 a) input [0] ≠ xcfunEval codeKernel none (setParameter s 81 b) input [0] := by
  obtain ⟨s₀, s, hr, hset⟩ : ∃ s₀ s : State ℝ, run State.init [.set "beckecamx" 1] = .ok s₀ ∧
    evalSetup s₀ Vars.A_B_GAA_GAB_GBB.code PARTIAL_DERIVATIVES 0 = .ok (0, s) := ⟨_, _, rfl, rfl⟩
  refine ⟨s₀, s, hr, hset, ?_⟩
  obtain ⟨e, -⟩ := setup_facts hr hset
  have hs₀ : s₀.active = [9] ∧ s₀.settings 9 = lit 0 0 + 1 ∧ s₀.settings 78 = lit 4 1 ∧ s₀.settings 81 = lit 46 2 := by cases hr; exact ⟨rfl, rfl, rfl, rfl⟩
  refine C42_readers_read (p := 81) (id := 9) (by decide) s (by rw [e]) (by rw [e]) (by rw [e]) (by rw [e]; exact hs₀.1) ?_ (fun _ => ⟨?_, ?_⟩) none 0
  · rw [e]; intro h; rw [show s₀.settings 9 = _ from hs₀.2.1] at h; norm_num [lit, Lit.lit] at h
  · rw [e]; intro h; rw [show s₀.settings 81 = _ from hs₀.2.2.2] at h; norm_num [lit, Lit.lit] at h
  · rw [e]; show 0 < s₀.settings 78; rw [hs₀.2.2.1]; norm_num [lit, Lit.lit]

end XCFun.Props
