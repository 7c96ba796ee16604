/-
**C54.** Range-separated exchange interpolates between full exchange and none.
-/
import Verif.Proofs.RangeSep
import Verif.Props.Limits
import Mathlib.Topology.Order.Basic

namespace XCFun.Props
open XCFun Spec

/-- The same density variables with another range separation. -/
noncomputable def withMu (ρ : Field → ℝ) (μ : ℝ) : Field → ℝ
  | .param k => if k = Fun.RANGESEP_MU then μ else ρ (.param k)
  | f => ρ f

theorem withMu_physical {ρ : Field → ℝ} (h : Physical ρ) (μ : ℝ) : Physical (withMu ρ μ) := ⟨h.1, h.2, h.3, h.4, h.5⟩

theorem withMu_param (ρ : Field → ℝ) (μ : ℝ) : withMu ρ μ (.param Fun.RANGESEP_MU) = μ := by simp [withMu]

/-- `K` depends on the density and gradient only. -/
theorem codeK_congr {ρ ρ' : Field → ℝ} {n g n' g' : Expr Field} (hn : n.evalR ρ = n'.evalR ρ') (hg : g.evalR ρ = g'.evalR ρ') :
    Fun.codeK ρ n g = Fun.codeK ρ' n' g' := by
  simp only [Fun.codeK, Expr.evalR_mul, Expr.evalR_add, Expr.evalR_div, Expr.evalR_lit, Expr.evalR_ofNat, Expr.evalR_one, Expr.evalR_pow,
    Fun.sas_evalR, hn, hg]
  congr

theorem withMu_sas (ρ : Field → ℝ) (μ : ℝ) : Fun.codeK (withMu ρ μ) Fun.d.a Fun.d.gaa = Fun.codeK ρ Fun.d.a Fun.d.gaa ∧
    Fun.codeK (withMu ρ μ) Fun.d.b Fun.d.gbb = Fun.codeK ρ Fun.d.b Fun.d.gbb := ⟨codeK_congr rfl rfl, codeK_congr rfl rfl⟩

theorem member_settings {v : Vars} (hv : ¬ Unsupported v) (p p' : ℕ → ℝ) (x : ℕ → ℝ) (f : Field) (hf : f ∈ [Field.a, .b, .gaa, .gbb]) :
    memberR p v x f = memberR p' v x f := by
  simp only [List.mem_cons, List.not_mem_nil, or_false] at hf
  cases v <;> first
    | exact absurd (by decide) hv
    | (rcases hf with rfl | rfl | rfl | rfl <;> rfl)

/-- Full and short-range Becke exchange depend on the settings through the range separation only. -/
theorem beckex_settings {v : Vars} (hv : ¬ Unsupported v) (p p' : ℕ → ℝ) (x : ℕ → ℝ) :
    Fun.beckex.evalR (memberR p v x) = Fun.beckex.evalR (memberR p' v x) := by
  have ea : Fun.d.a.evalR (memberR p v x) = Fun.d.a.evalR (memberR p' v x) := member_settings hv p p' x .a (by decide)
  have eb : Fun.d.b.evalR (memberR p v x) = Fun.d.b.evalR (memberR p' v x) := member_settings hv p p' x .b (by decide)
  have ga : Fun.d.gaa.evalR (memberR p v x) = Fun.d.gaa.evalR (memberR p' v x) := member_settings hv p p' x .gaa (by decide)
  have gb : Fun.d.gbb.evalR (memberR p v x) = Fun.d.gbb.evalR (memberR p' v x) := member_settings hv p p' x .gbb (by decide)
  simp only [Fun.beckex, Expr.evalR_add, Fun.alpha_eval, ea, eb, codeK_congr ea ga, codeK_congr eb gb]

theorem beckesrx_settings {v : Vars} (hv : ¬ Unsupported v) (p p' : ℕ → ℝ) (hp : p 78 = p' 78) (x : ℕ → ℝ) :
    Fun.beckesrx.evalR (memberR p v x) = Fun.beckesrx.evalR (memberR p' v x) := by
  have ea : Fun.d.a.evalR (memberR p v x) = Fun.d.a.evalR (memberR p' v x) := member_settings hv p p' x .a (by decide)
  have eb : Fun.d.b.evalR (memberR p v x) = Fun.d.b.evalR (memberR p' v x) := member_settings hv p p' x .b (by decide)
  have ga : Fun.d.gaa.evalR (memberR p v x) = Fun.d.gaa.evalR (memberR p' v x) := member_settings hv p p' x .gaa (by decide)
  have gb : Fun.d.gbb.evalR (memberR p v x) = Fun.d.gbb.evalR (memberR p' v x) := member_settings hv p p' x .gbb (by decide)
  have em : (Fun.getParam Fun.RANGESEP_MU).evalR (memberR p v x) = (Fun.getParam Fun.RANGESEP_MU).evalR (memberR p' v x) := by
    refine ((memberR_derived p hv x).2.2.2.2.2 78).trans (hp.trans ?_)
    exact ((memberR_derived p' hv x).2.2.2.2.2 78).symm
  simp only [Fun.beckesrx, Expr.evalR_add, Fun.sr_eval, Fun.codeA, ea, eb, em, codeK_congr ea ga, codeK_congr eb gb]

/-- **C54, short range.** Short-range Becke exchange is between full Becke exchange and 0, for every positive range separation. -/
theorem C54_short_range {ρ : Field → ℝ} (h : Physical ρ) (ga : 0 ≤ ρ .gaa) (gb : 0 ≤ ρ .gbb) (hμ : 0 < ρ (.param Fun.RANGESEP_MU)) :
    Fun.beckex.evalR ρ ≤ Fun.beckesrx.evalR ρ ∧ Fun.beckesrx.evalR ρ ≤ 0 := by
  have ha : 0 < Fun.d.a.evalR ρ := h.a
  have hb : 0 < Fun.d.b.evalR ρ := h.b
  have ga' : 0 ≤ Fun.d.gaa.evalR ρ := ga
  have gb' : 0 ≤ Fun.d.gbb.evalR ρ := gb
  have na := Fun.alpha_neg ρ ha ga'
  have nb := Fun.alpha_neg ρ hb gb'
  have a0 := Atten.attenuation_nonneg (Fun.codeA_pos ρ ha ga' hμ)
  have a1 := Atten.attenuation_le_one (Fun.codeA_pos ρ ha ga' hμ)
  have b0 := Atten.attenuation_nonneg (Fun.codeA_pos ρ hb gb' hμ)
  have b1 := Atten.attenuation_le_one (Fun.codeA_pos ρ hb gb' hμ)
  simp only [Fun.beckex, Fun.beckesrx, Expr.evalR_add, Fun.sr_eval, ← Fun.alpha_eval]
  rw [show (Fun.getParam Fun.RANGESEP_MU).evalR ρ = ρ (.param Fun.RANGESEP_MU) from rfl]
  constructor <;> nlinarith

/-- Densities 1 and 8, gradients 3 and 5, range separation 0.4, CAM parameters 0.19 and 0.46. -/
noncomputable def camWave : Field → ℝ
  | .param k => if k = Fun.RANGESEP_MU then 0.4 else if k = Fun.CAM_ALPHA then 0.19 else if k = Fun.CAM_BETA then 0.46 else 0
  | f => wave f

theorem camWave_physical : Physical camWave := ⟨wave_physical.1, wave_physical.2, wave_physical.3, wave_physical.4, wave_physical.5⟩
theorem camWave_gradients : 0 ≤ camWave .gaa ∧ 0 ≤ camWave .gbb := wave_gradients
theorem camWave_mu : camWave (.param Fun.RANGESEP_MU) = 0.4 := rfl

example : Fun.beckex.evalR camWave ≤ Fun.beckesrx.evalR camWave ∧ Fun.beckesrx.evalR camWave ≤ 0 :=
  C54_short_range camWave_physical camWave_gradients.1 camWave_gradients.2 (by rw [camWave_mu]; norm_num)

/-- **C54, monotone.** More range separation leaves less short-range exchange. -/
theorem C54_monotone {ρ : Field → ℝ} (h : Physical ρ) (ga : 0 ≤ ρ .gaa) (gb : 0 ≤ ρ .gbb) {μ ν : ℝ} (h0 : 0 < μ) (hle : μ ≤ ν) :
    Fun.beckesrx.evalR (withMu ρ μ) ≤ Fun.beckesrx.evalR (withMu ρ ν) := by
  have ha : 0 < Fun.d.a.evalR ρ := h.a
  have hb : 0 < Fun.d.b.evalR ρ := h.b
  have ga' : 0 ≤ Fun.d.gaa.evalR ρ := ga
  have gb' : 0 ≤ Fun.d.gbb.evalR ρ := gb
  have na := Fun.alpha_neg ρ ha ga'
  have nb := Fun.alpha_neg ρ hb gb'
  rw [Fun.alpha_eval] at na nb
  have ma := Atten.attenuation_mono (Fun.codeA_pos ρ ha ga' h0) (Fun.codeA_mono ρ ha ga' hle)
  have mb := Atten.attenuation_mono (Fun.codeA_pos ρ hb gb' h0) (Fun.codeA_mono ρ hb gb' hle)
  have em : ∀ μ, (Fun.getParam Fun.RANGESEP_MU).evalR (withMu ρ μ) = μ := withMu_param ρ
  have ea : ∀ μ, Fun.d.a.evalR (withMu ρ μ) = Fun.d.a.evalR ρ := fun _ => rfl
  have eb : ∀ μ, Fun.d.b.evalR (withMu ρ μ) = Fun.d.b.evalR ρ := fun _ => rfl
  simp only [Fun.beckesrx, Expr.evalR_add, Fun.sr_eval, em, Fun.codeA, (withMu_sas ρ _).1, (withMu_sas ρ _).2, ea, eb]
  unfold Fun.codeA at ma mb
  nlinarith

example : Fun.beckesrx.evalR (withMu wave 0.3) ≤ Fun.beckesrx.evalR (withMu wave 0.4) :=
  C54_monotone wave_physical wave_gradients.1 wave_gradients.2 (by norm_num) (by norm_num)

/-- One spin for vanishing and for large range separation. -/
theorem spin_limits {c k : ℝ} (hk : 0 < k) : Filter.Tendsto (fun μ : ℝ => c * (1 - Lit.attenuation (μ * k))) (nhdsWithin 0 (Set.Ioi 0)) (nhds c) ∧
    Filter.Tendsto (fun μ : ℝ => c * (1 - Lit.attenuation (μ * k))) Filter.atTop (nhds 0) := by
  constructor
  · have : Filter.Tendsto (fun μ : ℝ => Lit.attenuation (μ * k)) (nhdsWithin 0 (Set.Ioi 0)) (nhds 0) := by
      refine squeeze_zero' (g := fun μ => 8 / 3 * √Real.pi * (μ * k)) ?_ ?_ ?_
      · filter_upwards [self_mem_nhdsWithin] with μ hμ
        exact Atten.attenuation_nonneg (mul_pos hμ hk)
      · filter_upwards [self_mem_nhdsWithin] with μ hμ
        exact Atten.attenuation_small (mul_pos hμ hk)
      · have : Continuous fun μ : ℝ => 8 / 3 * √Real.pi * (μ * k) := by fun_prop
        have h := this.tendsto 0
        simp only [zero_mul, mul_zero] at h
        exact h.mono_left nhdsWithin_le_nhds
    simpa using (this.const_sub 1).const_mul c
  · have : Filter.Tendsto (fun μ : ℝ => 1 - Lit.attenuation (μ * k)) Filter.atTop (nhds 0) := by
      refine squeeze_zero' (g := fun μ => (μ * k)⁻¹) ?_ ?_ ?_
      · filter_upwards [Filter.eventually_gt_atTop 0] with μ hμ
        linarith [Atten.attenuation_le_one (mul_pos hμ hk)]
      · filter_upwards [Filter.eventually_ge_atTop (1 / k), Filter.eventually_gt_atTop 0] with μ hμ h0
        have hA : 1 ≤ μ * k := by rwa [div_le_iff₀ hk] at hμ
        have h1 := (Atten.attenuation_large (mul_pos h0 hk)).1
        generalize μ * k = A at *
        have hA0 : 0 < A := by linarith
        have h2 : 1 / (36 * A ^ 2) ≤ 1 / (2 * A) := by
          apply one_div_le_one_div_of_le (by positivity); nlinarith
        have h3 : 1 / (26880 * A ^ 6) ≤ 1 / (2 * A) := by
          apply one_div_le_one_div_of_le (by positivity)
          have : A ≤ A ^ 6 := le_self_pow₀ hA (by norm_num)
          linarith
        have h4 : 0 ≤ 1 / (960 * A ^ 4) := by positivity
        have h5 : A⁻¹ = 1 / (2 * A) + 1 / (2 * A) := by field_simp; norm_num
        linarith
      · exact tendsto_inv_atTop_zero.comp (Filter.tendsto_id.atTop_mul_const hk)
    simpa using this.const_mul c

/-- **C54, limits.** Short-range exchange tends to full exchange for vanishing range separation, to 0 for large range separation. -/
theorem C54_limits {ρ : Field → ℝ} (h : Physical ρ) (ga : 0 ≤ ρ .gaa) (gb : 0 ≤ ρ .gbb) :
    Filter.Tendsto (fun μ => Fun.beckesrx.evalR (withMu ρ μ)) (nhdsWithin 0 (Set.Ioi 0)) (nhds (Fun.beckex.evalR ρ)) ∧
    Filter.Tendsto (fun μ => Fun.beckesrx.evalR (withMu ρ μ)) Filter.atTop (nhds 0) := by
  have ha : 0 < Fun.d.a.evalR ρ := h.a
  have hb : 0 < Fun.d.b.evalR ρ := h.b
  have ga' : 0 ≤ Fun.d.gaa.evalR ρ := ga
  have gb' : 0 ≤ Fun.d.gbb.evalR ρ := gb
  have em : ∀ μ, (Fun.getParam Fun.RANGESEP_MU).evalR (withMu ρ μ) = μ := withMu_param ρ
  have ea : ∀ μ, Fun.d.a.evalR (withMu ρ μ) = Fun.d.a.evalR ρ := fun _ => rfl
  have eb : ∀ μ, Fun.d.b.evalR (withMu ρ μ) = Fun.d.b.evalR ρ := fun _ => rfl
  have ka : 0 < √(Fun.codeK ρ Fun.d.a Fun.d.gaa) / (6 * √Real.pi * (Fun.d.a.evalR ρ) ^ (1 / 3 : ℝ)) := by
    have := Fun.codeK_pos ρ ha ga'; have := Real.pi_pos; positivity
  have kb : 0 < √(Fun.codeK ρ Fun.d.b Fun.d.gbb) / (6 * √Real.pi * (Fun.d.b.evalR ρ) ^ (1 / 3 : ℝ)) := by
    have := Fun.codeK_pos ρ hb gb'; have := Real.pi_pos; positivity
  obtain ⟨la, ua⟩ := spin_limits (c := (Fun.becke_alpha Fun.d.a Fun.d.gaa).evalR ρ) ka
  obtain ⟨lb, ub⟩ := spin_limits (c := (Fun.becke_alpha Fun.d.b Fun.d.gbb).evalR ρ) kb
  have e : (fun μ => Fun.beckesrx.evalR (withMu ρ μ)) = fun μ =>
      (Fun.becke_alpha Fun.d.a Fun.d.gaa).evalR ρ *
        (1 - Lit.attenuation (μ * (√(Fun.codeK ρ Fun.d.a Fun.d.gaa) / (6 * √Real.pi * (Fun.d.a.evalR ρ) ^ (1 / 3 : ℝ))))) +
      (Fun.becke_alpha Fun.d.b Fun.d.gbb).evalR ρ *
        (1 - Lit.attenuation (μ * (√(Fun.codeK ρ Fun.d.b Fun.d.gbb) / (6 * √Real.pi * (Fun.d.b.evalR ρ) ^ (1 / 3 : ℝ))))) := by
    funext μ
    simp only [Fun.beckesrx, Expr.evalR_add, Fun.sr_eval, em, Fun.codeA, (withMu_sas ρ _).1, (withMu_sas ρ _).2, ea, eb, Fun.alpha_eval,
      mul_div_assoc]
  rw [e, Fun.beckex, Expr.evalR_add]
  refine ⟨la.add lb, ?_⟩
  simpa using ua.add ub

example : Filter.Tendsto (fun μ => Fun.beckesrx.evalR (withMu wave μ)) Filter.atTop (nhds 0) :=
  (C54_limits wave_physical wave_gradients.1 wave_gradients.2).2

/-- **C54, CAM.** Coulomb-attenuated exchange is `1 - α - β` of full and `β` of short-range exchange, for all values of the variables. -/
theorem C54_cam (ρ : Field → ℝ) : Fun.beckecamx.evalR ρ =
    (1 - ρ (.param Fun.CAM_ALPHA) - ρ (.param Fun.CAM_BETA)) * Fun.beckex.evalR ρ + ρ (.param Fun.CAM_BETA) * Fun.beckesrx.evalR ρ := by
  simp only [Fun.beckex, Fun.beckesrx, Fun.beckecamx, Expr.evalR_add, Fun.sr_eval, Fun.cam_eval, Fun.alpha_eval]
  rw [show (Fun.getParam Fun.CAM_ALPHA).evalR ρ = ρ (.param Fun.CAM_ALPHA) from rfl, show (Fun.getParam Fun.CAM_BETA).evalR ρ = ρ (.param Fun.CAM_BETA) from rfl]
  ring

example : Fun.beckecamx.evalR camWave = (1 - 0.19 - 0.46) * Fun.beckex.evalR camWave + 0.46 * Fun.beckesrx.evalR camWave := C54_cam camWave

/-- **C54, CAM bounds.** With non-negative `β` the energy is between `1 - α` and `1 - α - β` of full exchange. -/
theorem C54_cam_bounds {ρ : Field → ℝ} (h : Physical ρ) (ga : 0 ≤ ρ .gaa) (gb : 0 ≤ ρ .gbb) (hμ : 0 < ρ (.param Fun.RANGESEP_MU))
    (hβ : 0 ≤ ρ (.param Fun.CAM_BETA)) : (1 - ρ (.param Fun.CAM_ALPHA)) * Fun.beckex.evalR ρ ≤ Fun.beckecamx.evalR ρ ∧
      Fun.beckecamx.evalR ρ ≤ (1 - ρ (.param Fun.CAM_ALPHA) - ρ (.param Fun.CAM_BETA)) * Fun.beckex.evalR ρ := by
  obtain ⟨h1, h2⟩ := C54_short_range h ga gb hμ
  rw [C54_cam]
  constructor <;> nlinarith

example : (1 - 0.19) * Fun.beckex.evalR camWave ≤ Fun.beckecamx.evalR camWave ∧
    Fun.beckecamx.evalR camWave ≤ (1 - 0.19 - 0.46) * Fun.beckex.evalR camWave :=
  C54_cam_bounds camWave_physical camWave_gradients.1 camWave_gradients.2 (by rw [camWave_mu]; norm_num)
    (by show (0 : ℝ) ≤ 0.46; norm_num)

/-- **C54, local functional.** LDAERFX is between Slater exchange and 0, in all of its branches. -/
theorem C54_local {ρ : Field → ℝ} (h : Physical ρ) (hμ : 0 < ρ (.param Fun.RANGESEP_MU)) :
    Fun.slaterx.evalR ρ ≤ Fun.lda_erfx.evalR ρ ∧ Fun.lda_erfx.evalR ρ ≤ 0 := by
  have ha : 0 < Fun.d.a.evalR ρ := h.a
  have hb : 0 < Fun.d.b.evalR ρ := h.b
  have hpos : ∀ {n : ℝ}, 0 < n → 0 < Spec.erfArg (ρ (.param Fun.RANGESEP_MU)) n := by
    intro n hn; unfold Spec.erfArg; positivity
  obtain ⟨a0, a1⟩ := Fun.ldaFactor_bounds (hpos ha)
  obtain ⟨b0, b1⟩ := Fun.ldaFactor_bounds (hpos hb)
  have hc := Fun.cx_pos
  have pa : 0 < (Fun.d.a.evalR ρ) ^ (4 / 3 : ℝ) := by positivity
  have pb : 0 < (Fun.d.b.evalR ρ) ^ (4 / 3 : ℝ) := by positivity
  have ea := Fun.exUnif_double _ ha
  have eb := Fun.exUnif_double _ hb
  have es : Fun.slaterx.evalR ρ = -Fun.cx * (Fun.d.a.evalR ρ) ^ (4 / 3 : ℝ) + -Fun.cx * (Fun.d.b.evalR ρ) ^ (4 / 3 : ℝ) := by
    rw [Fun.slaterx_evalR h, Fun.uniformExchange_eq]; rfl
  have el : Fun.lda_erfx.evalR ρ = -Fun.cx * (Fun.d.a.evalR ρ) ^ (4 / 3 : ℝ) * Fun.ldaFactor (Spec.erfArg (ρ (.param Fun.RANGESEP_MU)) (Fun.d.a.evalR ρ)) +
      -Fun.cx * (Fun.d.b.evalR ρ) ^ (4 / 3 : ℝ) * Fun.ldaFactor (Spec.erfArg (ρ (.param Fun.RANGESEP_MU)) (Fun.d.b.evalR ρ)) := by
    have em : (Fun.getParam Fun.RANGESEP_MU).evalR ρ = ρ (.param Fun.RANGESEP_MU) := rfl
    simp only [Fun.lda_erfx]
    rw [Expr.evalR_mul, Expr.evalR_add, Fun.ldaerf_all ha, Fun.ldaerf_all hb, em, Expr.evalR_ofScientific, ← ea, ← eb]
    norm_num
    ring
  have qa := mul_pos hc pa
  have qb := mul_pos hc pb
  rw [es, el]
  constructor <;> nlinarith

example : Fun.slaterx.evalR camWave ≤ Fun.lda_erfx.evalR camWave ∧ Fun.lda_erfx.evalR camWave ≤ 0 :=
  C54_local camWave_physical (by rw [camWave_mu]; norm_num)

/-- **C54, `xcfun_eval`.** An object with short-range Becke exchange and one with full Becke exchange of the same non-negative weight: the first returns an
energy between that of the second and 0, for any input whose gradient squares are not negative. -/
theorem C54_eval (s s' : State ℝ) {v : Vars} (hv : ¬ Unsupported v) (hA : v ≠ .A ∧ v ≠ .A_GAA)
    (hvs : s.vars = some v ∧ s'.vars = some v) (hm : s.mode = PARTIAL_DERIVATIVES ∧ s'.mode = PARTIAL_DERIVATIVES) (ho : s.order = 0 ∧ s'.order = 0)
    (hs : s.active = [8]) (hs' : s'.active = [6]) {w : ℝ} (hw : 0 ≤ w) (h8 : s.settings 8 = w) (h6 : s'.settings 6 = w) (hμ : 0 < s.settings 78)
    {x : ℕ → ℝ} (ga : 0 ≤ given (1 / 2) x v .gaa) (gb : 0 ≤ given (1 / 2) x v .gbb) (junk junk' : Junk ℝ) (out out' : ℝ) :
    ∃ E E', xcfunEval codeKernel junk s ((List.range v.len).map x) [out] = .ok [E] ∧
      xcfunEval codeKernel junk' s' ((List.range v.len).map x) [out'] = .ok [E'] ∧ E' ≤ E ∧ E ≤ 0 := by
  refine ⟨_, _, eval_order0 s hv hvs.1 hm.1 ho.1 x junk out, eval_order0 s' hv hvs.2 hm.2 ho.2 x junk' out', ?_⟩
  rw [energyAt_members s hv, energyAt_members s' hv, hs, hs']
  simp only [List.map_cons, List.map_nil, List.sum_cons, List.sum_nil, add_zero, h8, h6]
  have hp := (memberR_derived s.settings hv x).2.2.2.2.2 78
  have hp' : memberR s.settings v x (.param Fun.RANGESEP_MU) = s.settings 78 := hp
  have hother : ∀ (par : ℕ → ℝ) f, IsOther f → memberR par v x f = given (1 / 2) x v f := by
    intro par f hf
    rw [memberR, member_other _ _ _ hf, c0_given]
  have ph := memberR_physical s.settings hv hA x
  obtain ⟨h1, h2⟩ := C54_short_range ph (by rw [hother _ _ (by simp [IsOther])]; exact ga) (by rw [hother _ _ (by simp [IsOther])]; exact gb)
    (by rw [hp']; exact hμ)
  have e : Fun.beckex.evalR (memberR s'.settings v x) = Fun.beckex.evalR (memberR s.settings v x) :=
    beckex_settings hv _ _ x
  change w * Fun.beckex.evalR (memberR s'.settings v x) ≤ w * Fun.beckesrx.evalR (memberR s.settings v x) ∧
    w * Fun.beckesrx.evalR (memberR s.settings v x) ≤ 0
  rw [e]
  exact ⟨mul_le_mul_of_nonneg_left h1 hw, mul_nonpos_of_nonneg_of_nonpos hw h2⟩

/-- Objects as made by the API, with range separation 0.4 by default; the second spin has density below the threshold. -/
example : ∃ s₀ s s₁ s' : State ℝ, run State.init [.set "beckesrx" 1] = .ok s₀ ∧ evalSetup s₀ Vars.A_B_GAA_GAB_GBB.code PARTIAL_DERIVATIVES 0 = .ok (0, s) ∧
    run State.init [.set "beckex" 1] = .ok s₁ ∧ evalSetup s₁ Vars.A_B_GAA_GAB_GBB.code PARTIAL_DERIVATIVES 0 = .ok (0, s') ∧
    ∃ E E', xcfunEval codeKernel none s [1, 0, 2, 1, 3] [0] = .ok [E] ∧ xcfunEval codeKernel none s' [1, 0, 2, 1, 3] [0] = .ok [E'] ∧ E' ≤ E ∧ E ≤ 0 := by
  obtain ⟨s₀, s, hr, hset⟩ : ∃ s₀ s : State ℝ, run State.init [.set "beckesrx" 1] = .ok s₀ ∧
    evalSetup s₀ Vars.A_B_GAA_GAB_GBB.code PARTIAL_DERIVATIVES 0 = .ok (0, s) := ⟨_, _, rfl, rfl⟩
  obtain ⟨s₁, s', hr', hset'⟩ : ∃ s₁ s' : State ℝ, run State.init [.set "beckex" 1] = .ok s₁ ∧
    evalSetup s₁ Vars.A_B_GAA_GAB_GBB.code PARTIAL_DERIVATIVES 0 = .ok (0, s') := ⟨_, _, rfl, rfl⟩
  refine ⟨s₀, s, s₁, s', hr, hset, hr', hset', ?_⟩
  obtain ⟨e, -⟩ := setup_facts hr hset
  obtain ⟨e', -⟩ := setup_facts hr' hset'
  have hl : (lit 0 0 : ℝ) = 0 := by simp [lit, Lit.lit]
  have hs₀ : s₀.active = [8] ∧ s₀.settings 8 = lit 0 0 + 1 ∧ s₀.settings 78 = lit 4 1 := by cases hr; exact ⟨rfl, rfl, rfl⟩
  have hs₁ : s₁.active = [6] ∧ s₁.settings 6 = lit 0 0 + 1 := by cases hr'; exact ⟨rfl, rfl⟩
  exact C54_eval s s' (v := .A_B_GAA_GAB_GBB) (w := 1) (x := fun i => [1, 0, 2, 1, 3].getD i 0) (by decide) (by decide)
    ⟨by rw [e], by rw [e']⟩ ⟨by rw [e], by rw [e']⟩ ⟨by rw [e], by rw [e']⟩ (by rw [e]; exact hs₀.1) (by rw [e']; exact hs₁.1) (by norm_num)
    (by rw [e]; refine hs₀.2.1.trans ?_; rw [hl, zero_add]) (by rw [e']; refine hs₁.2.trans ?_; rw [hl, zero_add])
    (by rw [e]; refine lt_of_lt_of_eq ?_ hs₀.2.2.symm; norm_num [lit, Lit.lit])
    (by show (0 : ℝ) ≤ 2; norm_num) (by show (0 : ℝ) ≤ 3; norm_num) none none 0 0

/-- **C54, `xcfun_eval`, CAM.** The object with CAM exchange of weight `w` returns the energy of the object with full exchange of weight `w (1 - α - β)` and
short-range exchange of weight `w β`, for any input. -/
theorem C54_eval_cam (s s' : State ℝ) {v : Vars} (hv : ¬ Unsupported v)
    (hvs : s.vars = some v ∧ s'.vars = some v) (hm : s.mode = PARTIAL_DERIVATIVES ∧ s'.mode = PARTIAL_DERIVATIVES) (ho : s.order = 0 ∧ s'.order = 0)
    (hs : s.active = [9]) (hs' : s'.active = [6, 8]) (hμ : s.settings 78 = s'.settings 78)
    (h6 : s'.settings 6 = s.settings 9 * (1 - s.settings 80 - s.settings 81)) (h8 : s'.settings 8 = s.settings 9 * s.settings 81)
    (x : ℕ → ℝ) (junk : Junk ℝ) (out : ℝ) :
    xcfunEval codeKernel junk s ((List.range v.len).map x) [out] = xcfunEval codeKernel junk s' ((List.range v.len).map x) [out] := by
  rw [eval_order0 s hv hvs.1 hm.1 ho.1 x junk out, eval_order0 s' hv hvs.2 hm.2 ho.2 x junk out, energyAt_members s hv, energyAt_members s' hv, hs, hs']
  simp only [List.map_cons, List.map_nil, List.sum_cons, List.sum_nil, add_zero, h8, h6]
  have e6 : Fun.beckex.evalR (memberR s'.settings v x) = Fun.beckex.evalR (memberR s.settings v x) := beckex_settings hv _ _ x
  have e8 : Fun.beckesrx.evalR (memberR s'.settings v x) = Fun.beckesrx.evalR (memberR s.settings v x) := beckesrx_settings hv _ _ hμ.symm x
  have p80 : memberR s.settings v x (.param Fun.CAM_ALPHA) = s.settings 80 := (memberR_derived s.settings hv x).2.2.2.2.2 80
  have p81 : memberR s.settings v x (.param Fun.CAM_BETA) = s.settings 81 := (memberR_derived s.settings hv x).2.2.2.2.2 81
  have := C54_cam (memberR s.settings v x)
  rw [p80, p81] at this
  change Outcome.ok [s.settings 9 * Fun.beckecamx.evalR (memberR s.settings v x)] = Outcome.ok [s.settings 9 * (1 - s.settings 80 - s.settings 81) *
    Fun.beckex.evalR (memberR s'.settings v x) + s.settings 9 * s.settings 81 * Fun.beckesrx.evalR (memberR s'.settings v x)]
  rw [e6, e8, this]
  congr 2
  ring

example : ∃ s₀ s s₁ s' : State ℝ, run State.init [.set "beckecamx" 2] = .ok s₀ ∧ evalSetup s₀ Vars.A_B_GAA_GAB_GBB.code PARTIAL_DERIVATIVES 0 = .ok (0, s) ∧
    run State.init [.set "beckex" 0.7, .set "beckesrx" 0.92] = .ok s₁ ∧ evalSetup s₁ Vars.A_B_GAA_GAB_GBB.code PARTIAL_DERIVATIVES 0 = .ok (0, s') ∧
    xcfunEval codeKernel none s [1, 3, 2, 1, 3] [0] = xcfunEval codeKernel none s' [1, 3, 2, 1, 3] [0] := by
  obtain ⟨s₀, s, hr, hset⟩ : ∃ s₀ s : State ℝ, run State.init [.set "beckecamx" 2] = .ok s₀ ∧
    evalSetup s₀ Vars.A_B_GAA_GAB_GBB.code PARTIAL_DERIVATIVES 0 = .ok (0, s) := ⟨_, _, rfl, rfl⟩
  obtain ⟨s₁, s', hr', hset'⟩ : ∃ s₁ s' : State ℝ, run State.init [.set "beckex" 0.7, .set "beckesrx" 0.92] = .ok s₁ ∧
    evalSetup s₁ Vars.A_B_GAA_GAB_GBB.code PARTIAL_DERIVATIVES 0 = .ok (0, s') := ⟨_, _, rfl, rfl⟩
  refine ⟨s₀, s, s₁, s', hr, hset, hr', hset', ?_⟩
  obtain ⟨e, -⟩ := setup_facts hr hset
  obtain ⟨e', -⟩ := setup_facts hr' hset'
  have hl : (lit 0 0 : ℝ) = 0 := by simp [lit, Lit.lit]
  have hs₀ : s₀.active = [9] ∧ s₀.settings 9 = lit 0 0 + 2 ∧ s₀.settings 78 = lit 4 1 ∧ s₀.settings 80 = lit 19 2 ∧ s₀.settings 81 = lit 46 2 := by
    cases hr; exact ⟨rfl, rfl, rfl, rfl, rfl⟩
  have hs₁ : s₁.active = [6, 8] ∧ s₁.settings 6 = lit 0 0 + 0.7 ∧ s₁.settings 8 = lit 0 0 + 0.92 ∧ s₁.settings 78 = lit 4 1 := by
    cases hr'; exact ⟨rfl, rfl, rfl, rfl⟩
  obtain ⟨i0, i9, i78, i80, i81⟩ := hs₀
  obtain ⟨j0, j6, j8, j78⟩ := hs₁
  have h9 : s.settings 9 = 2 := by rw [e]; refine i9.trans ?_; rw [hl, zero_add]
  have h80 : s.settings 80 = 0.19 := by rw [e]; refine i80.trans ?_; norm_num [lit, Lit.lit]
  have h81 : s.settings 81 = 0.46 := by rw [e]; refine i81.trans ?_; norm_num [lit, Lit.lit]
  have h6 : s'.settings 6 = 0.7 := by rw [e']; refine j6.trans ?_; rw [hl, zero_add]
  have h8 : s'.settings 8 = 0.92 := by rw [e']; refine j8.trans ?_; rw [hl, zero_add]
  exact C54_eval_cam s s' (v := .A_B_GAA_GAB_GBB) (by decide) ⟨by rw [e], by rw [e']⟩ ⟨by rw [e], by rw [e']⟩ ⟨by rw [e], by rw [e']⟩
    (by rw [e]; exact i0) (by rw [e']; exact j0) (by rw [e, e']; exact i78.trans j78.symm) (by rw [h6, h9, h80, h81]; norm_num)
    (by rw [h8, h9, h81]; norm_num) (fun i => [1, 3, 2, 1, 3].getD i 0) none 0

/-- The uniform gas of density 1, spins 1/2 each. -/
noncomputable def halfGas : Field → ℝ
  | .a | .b => 1 / 2
  | _ => 0

/-- **C54, local functional, not monotone.** At `a = 100`, where the code changes to the leading term of the expansion, more range separation gives more
short-range exchange. -/
theorem C54_local_not_monotone : ∃ μ ν : ℝ, 0 < μ ∧ μ < ν ∧
    Fun.lda_erfx.evalR (withMu halfGas ν) < Fun.lda_erfx.evalR (withMu halfGas μ) := by
  refine ⟨99.9999 * (2 * 3.093667726280136), 100 * (2 * 3.093667726280136), by norm_num, by norm_num, ?_⟩
  have key : ∀ A : ℝ, Fun.lda_erfx.evalR (withMu halfGas (A * (2 * 3.093667726280136))) = Lit.exUnif 1 * Fun.ldaFactor A := by
    intro A
    have hh : ∀ f : Expr Field, f.evalR (withMu halfGas (A * (2 * 3.093667726280136))) = 1 / 2 →
        (Fun.esrx_ldaerfspin f (Fun.getParam Fun.RANGESEP_MU)).evalR (withMu halfGas (A * (2 * 3.093667726280136))) = Lit.exUnif 1 * Fun.ldaFactor A := by
      intro f hf
      rw [Fun.ldaerf_all (by rw [hf]; norm_num), hf,
        show (Fun.getParam Fun.RANGESEP_MU).evalR (withMu halfGas (A * (2 * 3.093667726280136))) = A * (2 * 3.093667726280136) from withMu_param _ _,
        Spec.erfArg]
      norm_num
    simp only [Fun.lda_erfx]
    rw [Expr.evalR_mul, Expr.evalR_add, hh _ rfl, hh _ rfl, Expr.evalR_ofScientific]
    norm_num
    ring
  have hx : Lit.exUnif 1 < 0 := by
    have h4 : 0 < (3 / Real.pi) ^ (1 / 3 : ℝ) := by have := Real.pi_pos; positivity
    simp only [Lit.exUnif, Real.one_rpow]
    linarith
  rw [key, key]
  refine mul_lt_mul_of_neg_left ?_ hx
  have h1 := (Atten.attenuation_large (A := 99.9999) (by norm_num)).1
  unfold Fun.ldaFactor
  rw [if_neg (by norm_num), if_pos (by norm_num), if_neg (by norm_num), if_neg (by norm_num), if_pos (by norm_num)]
  norm_num at h1 ⊢
  linarith

/-- **C54, the parameters.** The parameters that the functionals read (`Fun.RANGESEP_MU` and the others) are those that a user sets by name,
in any capitalisation: `xcfun_set` changes that one and nothing else. -/
theorem C54_named (s : State ℝ) (name : String) (k : ℕ) (value : ℝ)
    (h : ∃ p ∈ [("rangesep_mu", Fun.RANGESEP_MU), ("exx", Fun.EXX), ("cam_alpha", Fun.CAM_ALPHA), ("cam_beta", Fun.CAM_BETA)],
      SameName name p.1 ∧ k = p.2) :
    xcfunSet s name value = .ok (0, { s with settings := Function.update s.settings k value }) := by
  obtain ⟨p, hp, hn, rfl⟩ := h
  have hl : lookupFunctional p.1 = none ∧ lookupParameter p.1 = some p.2 := by
    clear hn
    revert p
    decide +kernel
  rw [← lookupFunctional_congr hn, ← lookupParameter_congr hn] at hl
  simp only [xcfunSet, xcfunSetFuel, hl.1, hl.2, setParameter]
  congr 3
  funext i
  simp only [upd, Function.update_apply]

/-- `Cam_Beta` is the parameter that BECKECAMX multiplies the short-range exchange by. -/
example (s : State ℝ) : ∃ s', xcfunSet s "Cam_Beta" 0.5 = .ok (0, s') ∧ s'.settings Fun.CAM_BETA = 0.5 ∧
    s'.settings Fun.CAM_ALPHA = s.settings Fun.CAM_ALPHA :=
  ⟨_, C54_named s "Cam_Beta" Fun.CAM_BETA 0.5 ⟨("cam_beta", Fun.CAM_BETA), by simp, by decide +kernel, rfl⟩, by simp,
    by simp [Fun.CAM_BETA, Fun.CAM_ALPHA]⟩

end XCFun.Props
