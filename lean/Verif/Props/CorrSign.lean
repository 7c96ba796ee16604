/-
C50: correlation energies are negative.
-/
import Verif.Spec.CorrSign
import Verif.Props.Smooth
import Verif.Props.Limits

namespace XCFun.Props
open XCFun Spec Expr

/-- **C50.** These correlation energies per volume are negative for all positive spin densities, all spin polarisations and all gradients
(`Sound`: positive densities, `|s| < n`, non-negative gradient squares). -/
theorem C50_negative {id : ℕ} (hid : id ∈ correlationNegative) {e : Expr Field} (he : Fun.energy id = some e) {ρ : Field → ℝ} (h : Sound ρ) :
    e.evalR ρ < 0 := by
  simp only [correlationNegative, List.mem_cons, List.not_mem_nil, or_false] at hid
  rcases hid with rfl | rfl | rfl | rfl | rfl | rfl | rfl | rfl | rfl | rfl | rfl <;> cases he
  · exact mul_neg_of_pos_of_neg h.n (Fun.vwn3_eps_neg h)
  · exact mul_neg_of_pos_of_neg h.n (Fun.vwn5_eps_neg h)
  · exact Fun.pbec_neg h
  · exact Fun.spbec_neg h
  · exact Fun.vwn_pbec_neg h
  · exact mul_neg_of_neg_of_pos (Fun.pw92eps_neg h) h.n
  · exact Fun.apbec_neg h
  · exact Fun.zvpbe_neg (by norm_num) (by norm_num) h
  · exact Fun.pbeintc_neg h
  · exact Fun.pbelocc_neg h
  · exact Fun.zvpbe_neg (by norm_num) (by norm_num) h

/-- **C50, PZ81C**: the same if the spin densities sum to the total density. -/
theorem C50_pz81 {ρ : Field → ℝ} (h : Sound ρ) (hc : Consistent ρ) : Fun.pz81c.evalR ρ < 0 := Fun.pz81c_neg h hc

theorem given_consistent {v : Vars} (hv : ¬ Unsupported v) (hA : v ≠ .A ∧ v ≠ .A_GAA) (hd : ¬ Doubled v) (x : ℕ → ℝ) :
    Consistent (given (1 / 2) x v) := by
  constructor <;> cases v <;> first
    | exact absurd (by decide) hv
    | exact absurd rfl hA.1
    | exact absurd rfl hA.2
    | rfl
    | exact absurd (by simp [Doubled]) hd

/-- **C50, `xcfun_eval`.** Any object combining such functionals (or PZ81C, id 55, unless the variables are total and spin density) with non-negative
weights returns an energy that is not positive; and if one of the weights is positive, a negative one. -/
theorem C50_eval (s : State ℝ) {v : Vars} (hv : ¬ Unsupported v) (hA : v ≠ .A ∧ v ≠ .A_GAA)
    (hvs : s.vars = some v) (hm : s.mode = PARTIAL_DERIVATIVES) (ho : s.order = 0)
    (hs : ∀ id ∈ s.active, (id ∈ correlationNegative ∨ id = 55 ∧ ¬ Doubled v) ∧ 0 ≤ s.settings id)
    {x : ℕ → ℝ} (hx : PhysicalInput v x) (junk : Junk ℝ) (out : ℝ) :
    ∃ E, xcfunEval codeKernel junk s ((List.range v.len).map x) [out] = .ok [E] ∧ E ≤ 0 ∧
      ((∃ id ∈ s.active, 0 < s.settings id) → E < 0) := by
  refine ⟨_, eval_order0 s hv hvs hm ho x junk out, ?_⟩
  rw [energyAt_members s hv]
  have hS := memberR_sound s.settings hv hA hx
  have neg : ∀ id ∈ s.active, ((Fun.energy id).getD 0).evalR (memberR s.settings v x) < 0 := by
    intro id hid
    rcases (hs id hid).1 with h1 | ⟨rfl, h1⟩
    · obtain ⟨e, he⟩ : ∃ e, Fun.energy id = some e := by
        simp only [correlationNegative, List.mem_cons, List.not_mem_nil, or_false] at h1
        rcases h1 with rfl | rfl | rfl | rfl | rfl | rfl | rfl | rfl | rfl | rfl | rfl <;> exact ⟨_, rfl⟩
      rw [he, Option.getD_some]
      exact C50_negative h1 he hS
    · refine C50_pz81 hS ?_
      have hc := given_consistent hv hA h1 x
      have e : ∀ f, IsDensity f ∨ IsOther f → memberR s.settings v x f = given (1 / 2) x v f :=
        fun f hf => memberR_given s.settings hv hA (fun y hy => (hx.dens y hy).le) hf
      constructor
      · rw [e .a (by simp [IsDensity]), e .b (by simp [IsDensity]), e .n (by simp [IsDensity])]; exact hc.sum
      · rw [e .a (by simp [IsDensity]), e .b (by simp [IsDensity]), e .s (by simp [IsDensity])]; exact hc.diff
  have nonpos : ∀ l : List ℕ, (∀ id ∈ l, id ∈ s.active) →
      (l.map fun id => s.settings id * ((Fun.energy id).getD 0).evalR (memberR s.settings v x)).sum ≤ 0 := by
    intro l hl
    refine sum_nonpos fun y hy => ?_
    obtain ⟨id, hid, rfl⟩ := List.mem_map.1 hy
    exact mul_nonpos_of_nonneg_of_nonpos (hs id (hl id hid)).2 (neg id (hl id hid)).le
  refine ⟨nonpos _ fun _ h => h, ?_⟩
  rintro ⟨id, hid, hp⟩
  have : ∀ l : List ℕ, (∀ i ∈ l, i ∈ s.active) → id ∈ l →
      (l.map fun id => s.settings id * ((Fun.energy id).getD 0).evalR (memberR s.settings v x)).sum < 0 := by
    intro l
    induction l with
    | nil => intro _ h; cases h
    | cons i l ih =>
      intro hl h
      rw [List.map_cons, List.sum_cons]
      rcases List.mem_cons.1 h with rfl | h
      · have := mul_neg_of_pos_of_neg hp (neg id hid)
        have := nonpos l fun j hj => hl j (List.mem_cons_of_mem _ hj)
        linarith
      · have := nonpos [i] fun j hj => hl j (by rw [List.mem_singleton] at hj; subst hj; exact List.mem_cons_self)
        rw [List.map_singleton, List.sum_singleton] at this
        have := ih (fun j hj => hl j (List.mem_cons_of_mem _ hj)) h
        linarith
  exact this _ (fun _ h => h) hid

/-- A combination of PW92, PBE and PZ81 correlation for two different spin densities with opposite gradients. -/
example : ∃ s₀ s : State ℝ, run State.init [.set "pbec" 0.5, .set "pw92c" 0.25, .set "pz81c" 0.25] = .ok s₀ ∧
    evalSetup s₀ Vars.A_B_GAA_GAB_GBB.code PARTIAL_DERIVATIVES 0 = .ok (0, s) ∧
    ∃ E, xcfunEval codeKernel none s [1, 8, 4, -2, 1] [0] = .ok [E] ∧ E < 0 := by
  obtain ⟨s₀, s, hr, hset⟩ : ∃ s₀ s : State ℝ, run State.init [.set "pbec" 0.5, .set "pw92c" 0.25, .set "pz81c" 0.25] = .ok s₀ ∧
    evalSetup s₀ Vars.A_B_GAA_GAB_GBB.code PARTIAL_DERIVATIVES 0 = .ok (0, s) := ⟨_, _, rfl, rfl⟩
  refine ⟨s₀, s, hr, hset, ?_⟩
  obtain ⟨e, -⟩ := setup_facts hr hset
  have hl : (lit 0 0 : ℝ) = 0 := by simp [lit, Lit.lit]
  have hs₀ : s₀.active = [4, 28, 55] ∧ s₀.settings 4 = lit 0 0 + 0.5 ∧ s₀.settings 28 = lit 0 0 + 0.25 ∧ s₀.settings 55 = lit 0 0 + 0.25 := by
    cases hr
    exact ⟨rfl, rfl, rfl, rfl⟩
  have hact : s.active = [4, 28, 55] := by rw [e]; exact hs₀.1
  have h4 : s.settings 4 = 0.5 := by rw [e]; refine hs₀.2.1.trans ?_; rw [hl, zero_add]
  have h28 : s.settings 28 = 0.25 := by rw [e]; refine hs₀.2.2.1.trans ?_; rw [hl, zero_add]
  have h55 : s.settings 55 = 0.25 := by rw [e]; refine hs₀.2.2.2.trans ?_; rw [hl, zero_add]
  obtain ⟨E, h1, -, h2⟩ := C50_eval s (v := .A_B_GAA_GAB_GBB) (by decide) (by decide) (by rw [e]) (by rw [e]) (by rw [e])
    (by
      rw [hact]; intro id hid
      simp only [List.mem_cons, List.not_mem_nil, or_false] at hid
      rcases hid with rfl | rfl | rfl
      · exact ⟨.inl (by decide), by rw [h4]; norm_num⟩
      · exact ⟨.inl (by decide), by rw [h28]; norm_num⟩
      · exact ⟨.inr ⟨rfl, by simp [Doubled]⟩, by rw [h55]; norm_num⟩)
    (x := fun i => [1, 8, 4, -2, 1].getD i 0) (by
      constructor
      · intro y hy
        simp only [densities, densSlots, List.map_cons, List.map_nil, List.mem_cons, List.not_mem_nil, or_false] at hy
        rcases hy with rfl | rfl <;> norm_num [threshold]
      all_goals norm_num [given, spinFields]) none 0
  exact ⟨E, h1, h2 ⟨4, by rw [hact]; simp, by rw [h4]; norm_num⟩⟩

/-- **C50, counterexample.** With total and spin density as variables (`XC_N_S`) PZ81C returns a positive energy for the unpolarised gas of `r_s = 1`,
because the code takes `n + s` and `n - s` for the spin densities. -/
theorem C50_pz81_doubled_positive : ∃ s₀ s : State ℝ, run State.init [.set "pz81c" 1] = .ok s₀ ∧
    evalSetup s₀ Vars.N_S.code PARTIAL_DERIVATIVES 0 = .ok (0, s) ∧
    ∃ E, xcfunEval codeKernel none s [3 / (4 * Real.pi), 0] [0] = .ok [E] ∧ 0 < E := by
  obtain ⟨s₀, s, hr, hset⟩ : ∃ s₀ s : State ℝ, run State.init [.set "pz81c" 1] = .ok s₀ ∧
    evalSetup s₀ Vars.N_S.code PARTIAL_DERIVATIVES 0 = .ok (0, s) := ⟨_, _, rfl, rfl⟩
  refine ⟨s₀, s, hr, hset, ?_⟩
  obtain ⟨e, -⟩ := setup_facts hr hset
  have hl : (lit 0 0 : ℝ) = 0 := by simp [lit, Lit.lit]
  have hs₀ : s₀.active = [55] ∧ s₀.settings 55 = lit 0 0 + 1 := by
    cases hr
    exact ⟨rfl, rfl⟩
  have hact : s.active = [55] := by rw [e]; exact hs₀.1
  have h55 : s.settings 55 = 1 := by rw [e]; refine hs₀.2.trans ?_; rw [hl, zero_add]
  let x : ℕ → ℝ := fun i => [3 / (4 * Real.pi), 0].getD i 0
  refine ⟨_, eval_order0 s (v := .N_S) (by decide) (by rw [e]) (by rw [e]) (by rw [e]) x none 0, ?_⟩
  rw [energyAt_members s (by decide), hact, List.map_singleton, List.sum_singleton, h55, one_mul]
  have hpi := Real.pi_pos
  have hpi3 := Real.pi_gt_three
  have hpi4 := Real.pi_lt_four
  have hn : (0 : ℝ) < 3 / (4 * Real.pi) := by positivity
  have hth : threshold < 3 / (4 * Real.pi) := by
    rw [lt_div_iff₀ (by positivity)]; norm_num [threshold]; nlinarith
  have hd : ∀ y ∈ densities (1 / 2) x .N_S, threshold ≤ y := by
    intro y hy
    simp only [densities, List.mem_cons, List.not_mem_nil, or_false] at hy
    rcases hy with rfl | rfl | rfl <;> simp only [x, List.getD_cons_zero, List.getD_cons_succ, add_zero, sub_zero] <;> exact hth.le
  set ρ := memberR s.settings .N_S x with hρ
  have ea : ρ .a = 3 / (4 * Real.pi) := by
    rw [hρ, memberR_given s.settings (by decide) (by decide) hd (by simp [IsDensity])]
    simp [given, withTotals, spinFields, x]
  have eb : ρ .b = 3 / (4 * Real.pi) := by
    rw [hρ, memberR_given s.settings (by decide) (by decide) hd (by simp [IsDensity])]
    simp [given, withTotals, spinFields, x]
  have en : ρ .n = 3 / (4 * Real.pi) := by
    rw [hρ, memberR_given s.settings (by decide) (by decide) hd (by simp [IsDensity])]
    simp [given, withTotals, x]
  obtain ⟨-, hrs, hm13, ha43, hb43, -⟩ := memberR_derived s.settings (v := .N_S) (by decide) x
  rw [← hρ] at hrs hm13 ha43 hb43
  rw [ea] at ha43
  rw [eb] at hb43
  rw [en] at hm13 hrs
  have r1 : ρ .r_s = 1 := by
    rw [hrs, show 3 / (3 / (4 * Real.pi) * 4 * Real.pi) = 1 by field_simp, Real.one_rpow]
  have h43 : (2 : ℝ) ^ (4 / 3 : ℝ) = 2 * 2 ^ (1 / 3 : ℝ) := by
    rw [show (4 / 3 : ℝ) = 1 + 1 / 3 by norm_num, Real.rpow_add (by norm_num), Real.rpow_one]
  obtain ⟨c1, c2⟩ := Fun.cbrt_two_bounds
  have fz : Fun.pz81fz.evalR ρ = (4 * 2 ^ (1 / 3 : ℝ) - 2) / (2 * 2 ^ (1 / 3 : ℝ) - 2) := by
    have e : Fun.pz81fz.evalR ρ = (2 ^ (4 / 3 : ℝ) * (ρ .a_43 + ρ .b_43) * ρ .n_m13 / ρ .n - 2) / (2 * 2 ^ (1 / 3 : ℝ) - 2) := by
      simp only [Fun.pz81fz, evalR_div, evalR_sub, evalR_mul, evalR_add, evalR_lit, evalR_ofNat]; rfl
    have : (3 / (4 * Real.pi)) ^ (4 / 3 : ℝ) * (3 / (4 * Real.pi)) ^ (-1 / 3 : ℝ) = 3 / (4 * Real.pi) := by
      rw [← Real.rpow_add hn, show (4 / 3 + -1 / 3 : ℝ) = 1 by norm_num, Real.rpow_one]
    rw [e, ha43, hb43, hm13, en, h43]
    congr 2
    rw [div_eq_iff hn.ne']
    linear_combination (4 * (2 : ℝ) ^ (1 / 3 : ℝ)) * this
  have fz5 : 5 ≤ Fun.pz81fz.evalR ρ := by
    rw [fz, le_div_iff₀ (by linarith)]; linarith
  show 0 < Fun.pz81eps.evalR ρ * ρ .n
  rw [en]
  refine mul_pos ?_ hn
  have e1 : Fun.d.r_s.evalR ρ = 1 := r1
  unfold Fun.pz81eps
  rw [evalR_iflt, if_neg (by rw [e1, evalR_one]; norm_num)]
  simp only [Fun.Eld, evalR_div, evalR_add, evalR_sub, evalR_mul, evalR_lit, evalR_one, evalR_sqrt, e1, Real.sqrt_one]
  norm_num
  nlinarith

end XCFun.Props
