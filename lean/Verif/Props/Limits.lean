/-
C40: the uniform-gas limit; C41: signs and bounds of exchange and kinetic energies.
-/
import Verif.Proofs.LimitsEval
import Verif.Props.Scaling

namespace XCFun.Props
open XCFun Spec

/-- **C40, exchange.** At zero gradients the ten functionals of `slaterLike` are the exchange energy of the uniform electron gas. -/
theorem C40_exchange {id : ℕ} (hid : id ∈ slaterLike) {e : Expr Field} (he : Fun.energy id = some e) {ρ : Field → ℝ}
    (h : Physical ρ) (ga : ρ .gaa = 0) (gb : ρ .gbb = 0) : e.evalR ρ = uniformExchange (ρ .a) (ρ .b) := by
  have ga' : Fun.d.gaa.evalR ρ = 0 := ga
  have gb' : Fun.d.gbb.evalR ρ = 0 := gb
  simp only [slaterLike, List.mem_cons, List.not_mem_nil, or_false] at hid
  rcases hid with rfl | rfl | rfl | rfl | rfl | rfl | rfl | rfl | rfl | rfl <;> cases he
  · exact Fun.slaterx_evalR h
  · rw [Fun.pw86x_evalR h, ga, gb, Fun.pw86F_zero, Fun.pw86F_zero, mul_one, mul_one, ← Fun.uniformExchange_eq]
  · rw [Fun.pbex, Fun.pbex_evalR, Fun.enhancement_zero ga', Fun.enhancement_zero gb', mul_one, mul_one, ← Fun.uniformExchange_eq]
  · rw [Fun.beckex_evalR, Fun.beckexcorr, Expr.evalR_add, Fun.becke_corr_zero ga', Fun.becke_corr_zero gb', add_zero, add_zero]
  · rw [Fun.revpbex, Fun.pbex_evalR, Fun.enhancement_zero ga', Fun.enhancement_zero gb', mul_one, mul_one, ← Fun.uniformExchange_eq]
  · rw [Fun.rpbex_evalR, Fun.rpbe_zero ga', Fun.rpbe_zero gb', mul_one, mul_one, ← Fun.uniformExchange_eq]
  · rw [Fun.pw91x_evalR, Fun.pw91_zero _ ga', Fun.pw91_zero _ gb', mul_one, mul_one, ← Fun.uniformExchange_eq]
  · rw [Fun.apbex_evalR, Fun.apbe_zero ga', Fun.apbe_zero gb', mul_one, mul_one, ← Fun.uniformExchange_eq]
  · rw [Fun.pbeintx_evalR, Fun.pbeint_zero ga', Fun.pbeint_zero gb', mul_one, mul_one, ← Fun.uniformExchange_eq]
  · rw [Fun.pbesolx_evalR, Fun.pbesol_zero ga', Fun.pbesol_zero gb', mul_one, mul_one, ← Fun.uniformExchange_eq]

/-- Density variables with densities 1 and 8 and no gradient. -/
noncomputable def gas : Field → ℝ
  | .a => 1
  | .b => 8
  | .n => 9
  | .a_43 => 1
  | .b_43 => 16
  | _ => 0

theorem gas_physical : Physical gas := by
  refine ⟨by norm_num [gas], by norm_num [gas], by norm_num [gas], by norm_num [gas], ?_⟩
  simp only [gas]
  rw [show (8 : ℝ) = 2 ^ (3 : ℝ) by norm_num, ← Real.rpow_mul (by norm_num)]
  norm_num

example : Fun.pw91x.evalR gas = Fun.slaterx.evalR gas :=
  (C40_exchange (id := 26) (by decide) rfl gas_physical rfl rfl).trans
    (C40_exchange (id := 0) (by decide) rfl gas_physical rfl rfl).symm

/-- **C40, corrections.** BECKECORRX, OPTXCORR, KTX, P86CORRC (and TW, VWK) vanish at zero gradients. -/
theorem C40_corrections {id : ℕ} (hid : id ∈ gradientOnly) {e : Expr Field} (he : Fun.energy id = some e) {ρ : Field → ℝ}
    (ga : ρ .gaa = 0) (gb : ρ .gbb = 0) (gn : ρ .gnn = 0) : e.evalR ρ = 0 := by
  have ga' : Fun.d.gaa.evalR ρ = 0 := ga
  have gb' : Fun.d.gbb.evalR ρ = 0 := gb
  have gn' : Fun.d.gnn.evalR ρ = 0 := gn
  simp only [gradientOnly, List.mem_cons, List.not_mem_nil, or_false] at hid
  rcases hid with rfl | rfl | rfl | rfl | rfl | rfl <;> cases he
  · rw [Fun.beckexcorr, Expr.evalR_add, Fun.becke_corr_zero ga', Fun.becke_corr_zero gb', add_zero]
  · simp [Fun.optxcorr, ga', gb']
  · simp [Fun.ktx, ga', gb']
  · simp [Fun.tw, ga', gb']
  · simp [Fun.p86c_corr, gn']
  · simp [Fun.vW, Fun.vW_alpha, ga', gb']

example : Fun.p86c_corr.evalR gas = 0 := C40_corrections (id := 57) (by decide) rfl rfl rfl rfl

/-- **C40, OPTX** does not have the uniform-gas limit: at zero gradients it is 1.05151 times the exchange energy of the uniform gas. -/
theorem C40_optx {ρ : Field → ℝ} (h : Physical ρ) (ga : ρ .gaa = 0) (gb : ρ .gbb = 0) :
    Fun.energy 17 = some Fun.optx ∧ Fun.optx.evalR ρ = 1.05151 * uniformExchange (ρ .a) (ρ .b) := by
  have ga' : Fun.d.gaa.evalR ρ = 0 := ga
  have gb' : Fun.d.gbb.evalR ρ = 0 := gb
  refine ⟨rfl, ?_⟩
  rw [Fun.optx_evalR h, show Fun.optxcorr.evalR ρ = 0 by simp [Fun.optxcorr, ga', gb'], mul_zero, sub_zero]

example : Fun.optx.evalR gas = 1.05151 * uniformExchange 1 8 := (C40_optx gas_physical rfl rfl).2

/-- **C40, correlation.** At zero gradient of the total density, the PBE-like correlation functionals are PW92C (VWN5C for SPBEC and
VWN_PBEC), and P86C is PZ81C. -/
theorem C40_correlation {i j : ℕ} (hij : (i, j) ∈ localCorrelation) {e l : Expr Field}
    (he : Fun.energy i = some e) (hl : Fun.energy j = some l) {ρ : Field → ℝ} (h : ρ .gnn = 0) : e.evalR ρ = l.evalR ρ :=
  Fun.localCorrelation_evalR h hij he hl

example : Fun.pbec.evalR gas = Fun.pw92c.evalR gas := C40_correlation (i := 4) (j := 28) (by decide) rfl rfl rfl

/-- The factor of the uniform-gas exchange energy at zero gradients. -/
noncomputable def gasFactor (id : ℕ) : ℝ := if id ∈ slaterLike then 1 else if id = 17 then 1.05151 else 0

/-- **C40, `xcfun_eval`.** Any object combining these exchange functionals and corrections, any variable set describing both spins, densities
above the threshold and zero gradients: the energy returned is the uniform-gas exchange energy of the spin densities the inputs stand
for, times the sum of the weights (1.05151 times the weight for OPTX, 0 for the corrections). -/
theorem C40_eval (s : State ℝ) {v : Vars} (hv : ¬ Unsupported v) (hA : v ≠ .A ∧ v ≠ .A_GAA)
    (hvs : s.vars = some v) (hm : s.mode = PARTIAL_DERIVATIVES) (ho : s.order = 0)
    (hs : ∀ id ∈ s.active, id ∈ slaterLike ∨ id ∈ gradientOnly ∨ id = 17)
    {x : ℕ → ℝ} (h : ∀ y ∈ densities (1 / 2) x v, threshold ≤ y) (hg : ∀ f, IsGradient f → given (1 / 2) x v f = 0)
    (junk : Junk ℝ) (out : ℝ) :
    xcfunEval codeKernel junk s ((List.range v.len).map x) [out] =
      .ok [(s.active.map fun id => s.settings id * gasFactor id).sum *
        uniformExchange (given (1 / 2) x v .a) (given (1 / 2) x v .b)] := by
  rw [eval_order0 s hv hvs hm ho, energyAt_members s hv, ← List.sum_map_mul_right]
  have hm : ∀ f, IsDensity f ∨ IsOther f → memberR s.settings v x f = given (1 / 2) x v f :=
    fun f hf => memberR_given _ hv hA h hf
  have hg' : ∀ f, IsGradient f → memberR s.settings v x f = 0 := by
    intro f hf
    rw [hm f (.inr ?_)]
    · exact hg f hf
    · rcases hf with rfl | rfl | rfl | rfl | rfl | rfl <;> simp [IsOther]
  have hp : Physical (memberR s.settings v x) := by
    obtain ⟨p1, p2, p3⟩ := memberR_pos s.settings hv hA h
    obtain ⟨-, -, -, a4, b4, -⟩ := memberR_derived s.settings hv x
    exact ⟨p1, p2, p3, a4, b4⟩
  have ga := hg' .gaa (by simp [IsGradient])
  have gb := hg' .gbb (by simp [IsGradient])
  have gn := hg' .gnn (by simp [IsGradient])
  rw [← hm .a (.inl (by simp [IsDensity])), ← hm .b (.inl (by simp [IsDensity]))]
  refine congrArg (fun l => Outcome.ok [List.sum l]) (List.map_congr_left fun id hid => ?_)
  have hne : ∀ id, id ∈ slaterLike ∨ id ∈ gradientOnly ∨ id = 17 → ∃ e, Fun.energy id = some e := by
    intro id h
    simp only [slaterLike, gradientOnly, List.mem_cons, List.not_mem_nil, or_false] at h
    rcases h with (rfl | rfl | rfl | rfl | rfl | rfl | rfl | rfl | rfl | rfl) | (rfl | rfl | rfl | rfl | rfl | rfl) | rfl <;>
      exact ⟨_, rfl⟩
  obtain ⟨e, he⟩ := hne id (hs id hid)
  rw [he, Option.getD_some, mul_assoc]
  congr 1
  rcases hs id hid with h1 | h1 | rfl
  · rw [C40_exchange h1 he hp ga gb, gasFactor, if_pos h1, one_mul]
  · rw [C40_corrections h1 he ga gb gn, gasFactor, if_neg, if_neg, zero_mul]
    · rintro rfl
      revert h1
      decide
    · intro h2
      simp only [gradientOnly, List.mem_cons, List.not_mem_nil, or_false] at h1
      rcases h1 with rfl | rfl | rfl | rfl | rfl | rfl <;> revert h2 <;> decide
  · have := C40_optx hp ga gb
    rw [this.1] at he
    cases he
    rw [this.2, gasFactor, if_neg (by decide), if_pos rfl]

/-- Spin densities 1 and 8: `0.75 BECKEX + 0.25 PBEX + 0.5 BECKECORRX`. -/
example : ∃ s₀ s : State ℝ, run State.init [.set "beckex" 0.75, .set "pbex" 0.25, .set "beckecorrx" 0.5] = .ok s₀ ∧
    evalSetup s₀ Vars.A_B_GAA_GAB_GBB.code PARTIAL_DERIVATIVES 0 = .ok (0, s) ∧
    xcfunEval codeKernel none s [1, 8, 0, 0, 0] [0] = .ok [uniformExchange 1 8] := by
  obtain ⟨s₀, s, hr, hset⟩ : ∃ s₀ s : State ℝ,
    run State.init [.set "beckex" 0.75, .set "pbex" 0.25, .set "beckecorrx" 0.5] = .ok s₀ ∧
    evalSetup s₀ Vars.A_B_GAA_GAB_GBB.code PARTIAL_DERIVATIVES 0 = .ok (0, s) := ⟨_, _, rfl, rfl⟩
  refine ⟨s₀, s, hr, hset, ?_⟩
  obtain ⟨e, -⟩ := setup_facts hr hset
  have hl : (lit 0 0 : ℝ) = 0 := by simp [lit, Lit.lit]
  have hs₀ : s₀.active = [6, 5, 7] ∧ s₀.settings 6 = lit 0 0 + 0.75 ∧ s₀.settings 5 = lit 0 0 + 0.25 := by
    cases hr
    refine ⟨rfl, ?_, ?_⟩ <;> rfl
  have hact : s.active = [6, 5, 7] := by rw [e]; exact hs₀.1
  have h6 : s.settings 6 = 0.75 := by rw [e]; refine hs₀.2.1.trans ?_; rw [hl, zero_add]
  have h5 : s.settings 5 = 0.25 := by rw [e]; refine hs₀.2.2.trans ?_; rw [hl, zero_add]
  have := C40_eval s (v := .A_B_GAA_GAB_GBB) (by decide) (by decide) (by rw [e]) (by rw [e]) (by rw [e])
    (by rw [hact]; decide) (x := fun i => [1, 8, 0, 0, 0].getD i 0)
    (by norm_num [densities, densSlots, threshold])
    (by rintro f (rfl | rfl | rfl | rfl | rfl | rfl) <;> norm_num [given, spinFields]) none 0
  refine this.trans ?_
  rw [hact]
  simp only [List.map_cons, List.map_nil, List.sum_cons, List.sum_nil, h6, h5, gasFactor]
  rw [if_pos (by decide), if_pos (by decide), if_neg (by decide), if_neg (by decide)]
  show Outcome.ok [_ * uniformExchange 1 8] = _
  norm_num

/-! ## C41 -/

/-- **C41, below the uniform gas.** For positive densities and non-negative gradient squares these functionals are at most the
exchange energy of the uniform gas, which is negative. -/
theorem C41_below_uniform {id : ℕ} (hid : id ∈ belowUniform) {e : Expr Field} (he : Fun.energy id = some e) {ρ : Field → ℝ}
    (h : Physical ρ) (ga : 0 ≤ ρ .gaa) (gb : 0 ≤ ρ .gbb) :
    e.evalR ρ ≤ uniformExchange (ρ .a) (ρ .b) ∧ uniformExchange (ρ .a) (ρ .b) < 0 := by
  have ga' : 0 ≤ Fun.d.gaa.evalR ρ := ga
  have gb' : 0 ≤ Fun.d.gbb.evalR ρ := gb
  have ha : 0 < Fun.d.a.evalR ρ := h.a
  have hb : 0 < Fun.d.b.evalR ρ := h.b
  refine ⟨?_, Fun.uniformExchange_neg h.a h.b⟩
  simp only [belowUniform, List.mem_cons, List.not_mem_nil, or_false] at hid
  rcases hid with rfl | rfl | rfl | rfl | rfl | rfl | rfl | rfl | rfl <;> cases he
  · exact (Fun.slaterx_evalR h).le
  · rw [Fun.pw86x_evalR h, Fun.uniformExchange_eq]
    have := Fun.cx_pos
    have h1 : 0 < Fun.cx * ρ .a ^ (4 / 3 : ℝ) := mul_pos this (Real.rpow_pos_of_pos h.a _)
    have h2 : 0 < Fun.cx * ρ .b ^ (4 / 3 : ℝ) := mul_pos this (Real.rpow_pos_of_pos h.b _)
    have f1 := Fun.pw86F_ge h.a ga
    have f2 := Fun.pw86F_ge h.b gb
    nlinarith
  · rw [Fun.pbex, Fun.pbex_evalR]
    exact (Fun.pbe_bounds h.a h.b (Fun.enhancement_bounds Fun.R_pbe_pos ha ga') (Fun.enhancement_bounds Fun.R_pbe_pos hb gb')).2
  · rw [Fun.beckex_evalR, Fun.beckexcorr, Expr.evalR_add]
    have := Fun.becke_corr_nonpos ha ga'
    have := Fun.becke_corr_nonpos hb gb'
    linarith
  · rw [Fun.revpbex, Fun.pbex_evalR]
    exact (Fun.pbe_bounds h.a h.b (Fun.enhancement_bounds Fun.R_revpbe_pos ha ga')
      (Fun.enhancement_bounds Fun.R_revpbe_pos hb gb')).2
  · rw [Fun.rpbex_evalR]
    exact (Fun.pbe_bounds h.a h.b (Fun.rpbe_bounds ha ga') (Fun.rpbe_bounds hb gb')).2
  · rw [Fun.apbex_evalR]
    exact (Fun.pbe_bounds h.a h.b (Fun.apbe_bounds ha ga') (Fun.apbe_bounds hb gb')).2
  · rw [Fun.pbeintx_evalR]
    exact (Fun.pbe_bounds h.a h.b (Fun.pbeint_bounds ha ga') (Fun.pbeint_bounds hb gb')).2
  · rw [Fun.pbesolx_evalR]
    exact (Fun.pbe_bounds h.a h.b (Fun.pbesol_bounds ha ga') (Fun.pbesol_bounds hb gb')).2

/-- The densities of `gas`, with gradients. -/
noncomputable def wave : Field → ℝ
  | .gaa => 3
  | .gbb => 5
  | .gnn => 8
  | f => gas f

theorem wave_physical : Physical wave := ⟨gas_physical.1, gas_physical.2, gas_physical.3, gas_physical.4, gas_physical.5⟩

theorem wave_gradients : 0 ≤ wave .gaa ∧ 0 ≤ wave .gbb := by norm_num [wave]

example : Fun.beckex.evalR wave ≤ uniformExchange 1 8 :=
  (C41_below_uniform (id := 6) (by decide) rfl wave_physical wave_gradients.1 wave_gradients.2).1

/-- **C41, exchange.** For positive densities and non-negative gradient squares these functionals are never positive. -/
theorem C41_exchange {id : ℕ} (hid : id ∈ exchangeNonpos) {e : Expr Field} (he : Fun.energy id = some e) {ρ : Field → ℝ}
    (h : Physical ρ) (ga : 0 ≤ ρ .gaa) (gb : 0 ≤ ρ .gbb) : e.evalR ρ ≤ 0 := by
  have ga' : 0 ≤ Fun.d.gaa.evalR ρ := ga
  have gb' : 0 ≤ Fun.d.gbb.evalR ρ := gb
  have ha : 0 < Fun.d.a.evalR ρ := h.a
  have hb : 0 < Fun.d.b.evalR ρ := h.b
  have h43 : 0 ≤ Fun.d.a_43.evalR ρ ∧ 0 ≤ Fun.d.b_43.evalR ρ := by
    have e1 : 0 ≤ ρ .a_43 := by rw [h.a_43]; exact Real.rpow_nonneg h.a.le _
    have e2 : 0 ≤ ρ .b_43 := by rw [h.b_43]; exact Real.rpow_nonneg h.b.le _
    exact ⟨e1, e2⟩
  by_cases hb' : id ∈ belowUniform
  · obtain ⟨h1, h2⟩ := C41_below_uniform hb' he h ga gb
    exact h1.trans h2.le
  have key : id = 7 ∨ id = 17 ∨ id = 26 ∨ id = 60 ∨ id = 62 ∨ id = 64 := by
    simp only [exchangeNonpos, belowUniform, List.mem_cons, List.not_mem_nil, or_false] at hid hb'
    omega
  rcases key with rfl | rfl | rfl | rfl | rfl | rfl <;> cases he
  · rw [Fun.beckexcorr, Expr.evalR_add]
    exact add_nonpos (Fun.becke_corr_nonpos ha ga') (Fun.becke_corr_nonpos hb gb')
  · rw [Fun.optx_evalR h]
    have := Fun.optxcorr_nonneg h ga gb
    have := Fun.uniformExchange_neg h.a h.b
    linarith
  · rw [Fun.pw91x_evalR]
    have := Fun.cx_pos
    have h1 : 0 < Fun.cx * ρ .a ^ (4 / 3 : ℝ) := mul_pos this (Real.rpow_pos_of_pos h.a _)
    have h2 : 0 < Fun.cx * ρ .b ^ (4 / 3 : ℝ) := mul_pos this (Real.rpow_pos_of_pos h.b _)
    have f1 := mul_pos h1 (Fun.pw91_pos Fun.pw91x_good ha ga')
    have f2 := mul_pos h2 (Fun.pw91_pos Fun.pw91x_good hb gb')
    linarith
  all_goals
    refine add_nonpos (Fun.b97_nonpos ?_ ?_ ?_ h43.1) (Fun.b97_nonpos ?_ ?_ ?_ h43.2) <;>
      norm_num [Fun.b97x_c, Fun.b97_1x_c, Fun.b97_2x_c]

example : Fun.optx.evalR wave ≤ 0 := C41_exchange (id := 17) (by decide) rfl wave_physical wave_gradients.1 wave_gradients.2

/-- **C41, bounded enhancement.** The energy of the PBE-like functionals is at least their bound (1.804, 2.245 for REVPBEX) times that
of the uniform gas. -/
theorem C41_enhancement_bound {id : ℕ} {κ : ℝ} (hid : (id, κ) ∈ enhancementBound) {e : Expr Field} (he : Fun.energy id = some e)
    {ρ : Field → ℝ} (h : Physical ρ) (ga : 0 ≤ ρ .gaa) (gb : 0 ≤ ρ .gbb) :
    κ * uniformExchange (ρ .a) (ρ .b) ≤ e.evalR ρ := by
  have ga' : 0 ≤ Fun.d.gaa.evalR ρ := ga
  have gb' : 0 ≤ Fun.d.gbb.evalR ρ := gb
  have ha : 0 < Fun.d.a.evalR ρ := h.a
  have hb : 0 < Fun.d.b.evalR ρ := h.b
  have k1 : (1.804 : ℝ) = 1 + Fun.R_pbe := by norm_num [Fun.R_pbe]
  have k2 : (1.804 : ℝ) = 1 + 0.804 := by norm_num
  have k3 : (2.245 : ℝ) = 1 + Fun.R_revpbe := by norm_num [Fun.R_revpbe]
  simp only [enhancementBound, List.mem_cons, Prod.mk.injEq, List.not_mem_nil, or_false] at hid
  rcases hid with ⟨rfl, rfl⟩ | ⟨rfl, rfl⟩ | ⟨rfl, rfl⟩ | ⟨rfl, rfl⟩ | ⟨rfl, rfl⟩ | ⟨rfl, rfl⟩ | ⟨rfl, rfl⟩ <;> cases he
  · rw [one_mul]; exact (Fun.slaterx_evalR h).ge
  · rw [Fun.pbex, Fun.pbex_evalR, k1]
    exact (Fun.pbe_bounds h.a h.b (Fun.enhancement_bounds Fun.R_pbe_pos ha ga') (Fun.enhancement_bounds Fun.R_pbe_pos hb gb')).1
  · rw [Fun.rpbex_evalR, k1]
    exact (Fun.pbe_bounds h.a h.b (Fun.rpbe_bounds ha ga') (Fun.rpbe_bounds hb gb')).1
  · rw [Fun.apbex_evalR, k2]
    exact (Fun.pbe_bounds h.a h.b (Fun.apbe_bounds ha ga') (Fun.apbe_bounds hb gb')).1
  · rw [Fun.pbeintx_evalR, k2]
    exact (Fun.pbe_bounds h.a h.b (Fun.pbeint_bounds ha ga') (Fun.pbeint_bounds hb gb')).1
  · rw [Fun.pbesolx_evalR, k2]
    exact (Fun.pbe_bounds h.a h.b (Fun.pbesol_bounds ha ga') (Fun.pbesol_bounds hb gb')).1
  · rw [Fun.revpbex, Fun.pbex_evalR, k3]
    exact (Fun.pbe_bounds h.a h.b (Fun.enhancement_bounds Fun.R_revpbe_pos ha ga')
      (Fun.enhancement_bounds Fun.R_revpbe_pos hb gb')).1

example : 1.804 * uniformExchange 1 8 ≤ Fun.pbex.evalR wave :=
  C41_enhancement_bound (id := 5) (by simp [enhancementBound]) rfl wave_physical wave_gradients.1 wave_gradients.2

/-- **C41, kinetic energies** are never negative for positive densities and non-negative gradient squares; nor are the gradient functions OPTXCORR
and KTX, which enter OPTX and KT with negative weight. -/
theorem C41_kinetic {id : ℕ} (hid : id ∈ kineticNonneg ∨ id = 18 ∨ id = 23) {e : Expr Field} (he : Fun.energy id = some e)
    {ρ : Field → ℝ} (h : Physical ρ) (ga : 0 ≤ ρ .gaa) (gb : 0 ≤ ρ .gbb) : 0 ≤ e.evalR ρ := by
  obtain ⟨h1, h2, h3, h4, h5⟩ := Fun.kinetic_nonneg h ga gb
  simp only [kineticNonneg, List.mem_cons, List.not_mem_nil, or_false] at hid
  rcases hid with (rfl | rfl | rfl | rfl | rfl) | rfl | rfl <;> cases he
  exacts [h1.le, h2, h4.le, h5.le, h3, Fun.optxcorr_nonneg h ga gb, Fun.ktx_nonneg h ga gb]

example : 0 ≤ Fun.pw91k.evalR wave := C41_kinetic (id := 27) (by decide) rfl wave_physical wave_gradients.1 wave_gradients.2

theorem sum_nonpos {l : List ℝ} (h : ∀ y ∈ l, y ≤ 0) : l.sum ≤ 0 := by
  induction l with
  | nil => exact le_refl _
  | cons y l ih =>
    rw [List.sum_cons]
    exact add_nonpos (h y List.mem_cons_self) (ih fun z hz => h z (List.mem_cons_of_mem _ hz))

/-- **C41, `xcfun_eval`.** Any object combining such exchange functionals with non-negative weights, any variable set describing both spins, any inputs
whatever (also densities below the threshold, zero or negative) whose gradient squares are not negative: the energy returned is at most 0. -/
theorem C41_eval (s : State ℝ) {v : Vars} (hv : ¬ Unsupported v) (hA : v ≠ .A ∧ v ≠ .A_GAA)
    (hvs : s.vars = some v) (hm : s.mode = PARTIAL_DERIVATIVES) (ho : s.order = 0)
    (hs : ∀ id ∈ s.active, id ∈ exchangeNonpos ∧ 0 ≤ s.settings id)
    {x : ℕ → ℝ} (ga : 0 ≤ given (1 / 2) x v .gaa) (gb : 0 ≤ given (1 / 2) x v .gbb) (junk : Junk ℝ) (out : ℝ) :
    ∃ E, xcfunEval codeKernel junk s ((List.range v.len).map x) [out] = .ok [E] ∧ E ≤ 0 := by
  refine ⟨_, eval_order0 s hv hvs hm ho x junk out, ?_⟩
  rw [energyAt_members s hv]
  refine sum_nonpos ?_
  intro y hy
  obtain ⟨id, hid, rfl⟩ := List.mem_map.1 hy
  obtain ⟨h1, h2⟩ := hs id hid
  refine mul_nonpos_of_nonneg_of_nonpos h2 ?_
  have hne : ∃ e, Fun.energy id = some e := by
    simp only [exchangeNonpos, List.mem_cons, List.not_mem_nil, or_false] at h1
    rcases h1 with rfl | rfl | rfl | rfl | rfl | rfl | rfl | rfl | rfl | rfl | rfl | rfl | rfl | rfl | rfl <;> exact ⟨_, rfl⟩
  obtain ⟨e, he⟩ := hne
  rw [he, Option.getD_some]
  refine C41_exchange h1 he (memberR_physical s.settings hv hA x) ?_ ?_
  · rw [memberR, member_other _ _ _ (by simp [IsOther]), c0_given]; exact ga
  · rw [memberR, member_other _ _ _ (by simp [IsOther]), c0_given]; exact gb

/-- The variable sets with gradient components, where the gradient squares cannot be negative. -/
def Components (v : Vars) : Prop := v ∈ [Vars.A_B, .N, .N_S, .A_B_AX_AY_AZ_BX_BY_BZ, .A_B_AX_AY_AZ_BX_BY_BZ_TAUA_TAUB,
  .A_B_2ND_TAYLOR, .N_NX_NY_NZ, .N_NX_NY_NZ_TAUN, .N_2ND_TAYLOR, .N_S_NX_NY_NZ_SX_SY_SZ, .N_S_NX_NY_NZ_SX_SY_SZ_TAUN_TAUS]

/-- **C41, components.** With gradient components (or no gradients) as input, the condition on the gradient squares always holds. -/
theorem C41_components {v : Vars} (hv : Components v) (x : ℕ → ℝ) :
    0 ≤ given (1 / 2) x v .gaa ∧ 0 ≤ given (1 / 2) x v .gbb := by
  simp only [Components, List.mem_cons, List.not_mem_nil, or_false] at hv
  rcases hv with rfl | rfl | rfl | rfl | rfl | rfl | rfl | rfl | rfl | rfl | rfl <;>
    simp only [given, spinFields, withTotals, dot] <;> constructor <;>
    first
      | exact le_refl _
      | positivity
      | nlinarith [sq_nonneg (x 2 + x 5), sq_nonneg (x 3 + x 6), sq_nonneg (x 4 + x 7)]
      | nlinarith [sq_nonneg (x 2 - x 5), sq_nonneg (x 3 - x 6), sq_nonneg (x 4 - x 7)]

example : Components .N_S_NX_NY_NZ_SX_SY_SZ := by simp [Components]

/-- A negative density: the energy is still not positive. -/
example : ∃ s₀ s : State ℝ, run State.init [.set "beckex" 0.75] = .ok s₀ ∧
    evalSetup s₀ Vars.A_B_AX_AY_AZ_BX_BY_BZ.code PARTIAL_DERIVATIVES 0 = .ok (0, s) ∧
    ∃ E, xcfunEval codeKernel none s [-1, 8, 1, 2, 3, 4, 5, 6] [0] = .ok [E] ∧ E ≤ 0 := by
  obtain ⟨s₀, s, hr, hset⟩ : ∃ s₀ s : State ℝ, run State.init [.set "beckex" 0.75] = .ok s₀ ∧
    evalSetup s₀ Vars.A_B_AX_AY_AZ_BX_BY_BZ.code PARTIAL_DERIVATIVES 0 = .ok (0, s) := ⟨_, _, rfl, rfl⟩
  refine ⟨s₀, s, hr, hset, ?_⟩
  obtain ⟨e, -⟩ := setup_facts hr hset
  have hl : (lit 0 0 : ℝ) = 0 := by simp [lit, Lit.lit]
  have hs₀ : s₀.active = [6] ∧ s₀.settings 6 = lit 0 0 + 0.75 := by
    cases hr
    exact ⟨rfl, rfl⟩
  have hact : s.active = [6] := by rw [e]; exact hs₀.1
  have h6 : s.settings 6 = 0.75 := by rw [e]; refine hs₀.2.trans ?_; rw [hl, zero_add]
  obtain ⟨ga, gb⟩ := C41_components (v := .A_B_AX_AY_AZ_BX_BY_BZ) (by simp [Components])
    (fun i => [-1, 8, 1, 2, 3, 4, 5, 6].getD i 0)
  exact C41_eval s (v := .A_B_AX_AY_AZ_BX_BY_BZ) (by decide) (by decide) (by rw [e]) (by rw [e]) (by rw [e])
    (by rw [hact]; intro id hid; rw [List.mem_singleton] at hid; subst hid; exact ⟨by decide, by rw [h6]; norm_num⟩) ga gb none 0

end XCFun.Props
