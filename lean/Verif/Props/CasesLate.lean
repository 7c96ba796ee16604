import Verif.Props.GradientExpansion
import Verif.Props.ErfCorr
import Verif.Props.LiteratureDeriv
import Verif.Props.Hydrogenic
import Verif.Props.Accuracy
import Verif.Props.RoundedEnergy
import Verif.Props.PolymulCalculus
import Verif.Props.GradedOrder
import Verif.Props.SpinScaling
import Verif.Props.CHost
import Verif.Props.Python
import Verif.Props.Programs
import Verif.Props.BeckeRoussel
import Verif.Props.Funeval

/-! # The theorems applied to concrete cases: published forms, rounding, polynomials

Further theorems without an instance of their own, applied to explicit arguments. -/

namespace XCFun.Props

open XCFun Spec Lit Filter Topology
open scoped ContDiff

/-! ## C81 -/

/-- APBE exchange and correlation at unit density: the gradient terms all but cancel. -/
example : ∃ s₀ s : State ℝ, run State.init [.set "apbex" 1, .set "apbec" 1] = .ok s₀ ∧
    evalSetup s₀ Vars.A_B_GAA_GAB_GBB.code PARTIAL_DERIVATIVES 0 = .ok (0, s) ∧
    ∃ E : ℝ → ℝ, ∃ c, (∀ g2, xcfunEval codeKernel none s [1 / 2, 1 / 2, g2 / 4, g2 / 4, g2 / 4] [0] = .ok [E g2]) ∧
      HasDerivAt E c 0 ∧ |c| ≤ 1e-11 * correlationTerm 0.079030523241 1 := by
  obtain ⟨s₀, s, hr, hset⟩ : ∃ s₀ s : State ℝ, run State.init [.set "apbex" 1, .set "apbec" 1] = .ok s₀ ∧
    evalSetup s₀ Vars.A_B_GAA_GAB_GBB.code PARTIAL_DERIVATIVES 0 = .ok (0, s) := ⟨_, _, rfl, rfl⟩
  refine ⟨s₀, s, hr, hset, ?_⟩
  obtain ⟨e, -⟩ := setup_facts hr hset
  have hl : (lit 0 0 : ℝ) = 0 := by simp [lit, XCFun.Lit.lit]
  have hs₀ : (s₀.active = [68, 67] ∨ s₀.active = [67, 68]) ∧ s₀.settings 68 = lit 0 0 + 1 ∧ s₀.settings 67 = lit 0 0 + 1 := by
    cases hr
    exact ⟨.inl rfl, rfl, rfl⟩
  exact C81_apbe s (by rw [e]) (by rw [e]) (by rw [e]) (by rw [e]; exact hs₀.1)
    ⟨by rw [e]; refine hs₀.2.1.trans ?_; rw [hl]; norm_num, by rw [e]; refine hs₀.2.2.trans ?_; rw [hl]; norm_num⟩
    (n := 1) (by norm_num [threshold]) none 0

/-! ## C78 -/

/-- The two functionals of the long range at densities 1 and 8. -/
example : Tendsto (fun μ => (Fun.ldaerfc.evalR (withMu (caseVars 0) μ) - Fun.pw92c.evalR (caseVars 0)) / μ ^ 2) (𝓝[>] 0)
      (𝓝 (9 * (3 / (2 * Real.pi)) * (4 / (9 * Real.pi)) ^ (1 / 3 : ℝ) * Lit.phi (caseVars 0 .zeta) * caseVars 0 .r_s)) ∧
    Tendsto (fun μ => μ ^ 2 * Fun.ldaerfc_jt.evalR (withMu (caseVars 0) μ)) atTop
      (𝓝 (Real.pi / 2 * 9 ^ 2 * (3.39530545262710070631 * ((4.7125 + caseVars 0 .r_s) ^ (3 / 2 : ℝ) + 163.44) *
        Real.exp (-3.2581 * √(4.7125 + caseVars 0 .r_s)) - 1 / 2))) := by
  have h := case_sound (le_refl (0 : ℝ))
  have h1 := C78_erf_small h
  have h2 := C78_jt_large h
  rw [case_densities.2.2] at h1 h2
  exact ⟨h1, h2⟩

/-! ## C80 -/

/-- The hole at half a bohr from the nucleus of a helium ion. -/
example : ∃ n g l τ, OneOrbital (density1s 4) (1 / 2) n g l τ ∧ holeX n g l (2 * τ) 0 = 2 ∧ holeB n 2 = 1 / 2 ∧ holeD n g (2 * τ) 0 = 0 := by
  obtain ⟨n, g, l, τ, h⟩ : ∃ n g l τ, OneOrbital (density1s 4) (1 / 2) n g l τ := ⟨_, _, _, _, Hyd.of_closed (by norm_num) _⟩
  obtain ⟨h1, h2, -, h4⟩ := C80_hole (by norm_num) (by norm_num) h
  have e : holeX n g l (2 * τ) 0 = 2 := by rw [h1]; norm_num
  exact ⟨n, g, l, τ, h, e, by rwa [e] at h2, h4⟩

/-- The self-energy of the electron of a helium ion. -/
example : ∫ r in Set.Ioi 0, 4 * Real.pi * r ^ 2 * (density1s 4 r * potential1s 4 r / 2) = 5 / 8 := by
  rw [(C80_potential (a := 4) (by norm_num)).2.2.2.2]; norm_num

/-! ## C61 -/

/-- PBE exchange of two spins with all fields different, order 3. -/
example (e : Expr Field) (he : Fun.energy 5 = some e) (g : Field → CT ℝ 3) :
    e.evalCT g + e.evalCT g = e.evalCT (fun f => g (match f with | .b => .a | .gbb => .gaa | .taub => .taua | .lapb => .lapa | .b_43 => .a_43 | .jpbb => .jpaa | f => f)) +
      e.evalCT (fun f => g (match f with | .a => .b | .gaa => .gbb | .taua => .taub | .lapa => .lapb | .a_43 => .b_43 | .jpaa => .jpbb | f => f)) := by
  refine C61_functional (by decide) he g _ _ (fun p hp => ?_) fun i => ⟨rfl, rfl⟩
  simp only [spinFieldPairs, List.mem_cons, List.not_mem_nil, or_false] at hp
  rcases hp with rfl | rfl | rfl | rfl | rfl | rfl <;> exact ⟨rfl, rfl, rfl, rfl⟩

/-! ## C69, C84 -/

/-- The contraction is the adjoint of multiplication by `1 + 5x` in one variable. -/
example : ∃ out : List ℤ, Polymul.polycontract 1 2 1 [9, 9, 9] [1, 5] [1, 2, 3, 4] = .ok out ∧ out.length = 3 := by
  obtain ⟨out, h, hl, -⟩ := C69_contract 0 2 1 [9, 9, 9] [1, 5] [(1 : ℤ), 2, 3, 4] (by rw [terms_length]; decide)
    (by rw [terms_length]; decide) (by rw [terms_length]; decide)
  exact ⟨out, h, hl⟩

example : ¬ (multisets (List.range 5) 2).Pairwise fun t u => GrevLt 5 (fun i => u.count i) (fun i => t.count i) := C84_first_greatest_decreasing (by norm_num)

/-! ## C73 -/

/-- A misspelt name between two functionals is as if it were not there. -/
example : run State.init (settingsOf [.weight "slaterx" 1, .weight "b4lyp" 2, .weight "vwn5c" 1]) =
    run (State.init : State ℝ) (settingsOf [.weight "slaterx" 1, .weight "vwn5c" 1]) :=
  C73_unknown_name [.weight "slaterx" 1] [.weight "vwn5c" 1] "b4lyp" 2 (by decide +kernel)

/-! ## C29, C52 -/

example : acosExpand 1 (1 / 2 : ℝ) 1 ≠ deriv Real.arccos (1 / 2) := (C29_acos_slope_wrong (by norm_num)).2

/-- The restricted PBE potential of any smooth density. -/
example (ρ : Space → ℝ) (r : Space) (hρ : ContDiffAt ℝ ∞ ρ r) (ht : threshold < ρ r) (junk : Junk ℝ)
    (E : (ℕ → ℝ) → ℝ) (hE : E = fun x => pbeX (gasAt .N_2ND_TAYLOR x) + pbeC (gasAt .N_2ND_TAYLOR x)) :
    ∃ s₀ s : State ℝ, run State.init [.set "pbe" 1] = .ok s₀ ∧ evalSetup s₀ Vars.N_2ND_TAYLOR.code POTENTIAL 1 = .ok (0, s) ∧
      xcfunEval codeKernel junk s ((List.range 10).map (expansion ρ r)) [0, 0] = .ok
        [E (expansion ρ r), functionalDerivative E (expansion ρ) 0 r] := by
  obtain ⟨s₀, s, hr, hset⟩ : ∃ s₀ s : State ℝ, run State.init [.set "pbe" 1] = .ok s₀ ∧
    evalSetup s₀ Vars.N_2ND_TAYLOR.code POTENTIAL 1 = .ok (0, s) := ⟨_, _, rfl, rfl⟩
  refine ⟨s₀, s, hr, hset, ?_⟩
  obtain ⟨hact, hcov, hP⟩ := pbe_state hr hset
  have := C52_restricted_potential _ s₀ s hr 1 hset ρ r hρ ht (fun id hid => by
    rw [hact] at hid
    simp only [List.mem_cons, List.not_mem_nil, or_false] at hid
    rcases hid with rfl | rfl <;> trivial) (Eventually.of_forall fun x' => hcov _) [] [0, 0] junk (by simp)
  rw [hP, ← hE] at this
  simpa using this

/-- The potential of Slater exchange at any two spin densities above the threshold. -/
example (x : ℕ → ℝ) (h0 : threshold < x 0) (h1 : threshold < x 1) (junk : Junk ℝ) (E : (ℕ → ℝ) → ℝ) (hE : E = fun x => slaterX (gasAt .A_B x)) :
    ∃ s₀ s : State ℝ, run State.init [.set "slaterx" 1] = .ok s₀ ∧ evalSetup s₀ Vars.A_B.code POTENTIAL 1 = .ok (0, s) ∧
      xcfunEval codeKernel junk s [x 0, x 1] [0, 0, 0] = .ok [E x, pderiv 0 E x, pderiv 1 E x] := by
  obtain ⟨s₀, s, hr, hset⟩ : ∃ s₀ s : State ℝ, run State.init [.set "slaterx" 1] = .ok s₀ ∧
    evalSetup s₀ Vars.A_B.code POTENTIAL 1 = .ok (0, s) := ⟨_, _, rfl, rfl⟩
  refine ⟨s₀, s, hr, hset, ?_⟩
  obtain ⟨e, -⟩ := setup_facts hr hset
  have hl : (lit 0 0 : ℝ) = 0 := by simp [lit, XCFun.Lit.lit]
  have hs₀ : s₀.active = [0] ∧ s₀.settings 0 = lit 0 0 + 1 ∧ s₀.depends.testBit 1 = false := by cases hr; exact ⟨rfl, rfl, rfl⟩
  have hact : s.active = [0] := by rw [e]; exact hs₀.1
  have hset0 : s.settings 0 = 1 := by rw [e]; refine hs₀.2.1.trans ?_; rw [hl, zero_add]
  have hP : publishedAt s .A_B = E := by
    rw [hE]
    funext x
    rw [publishedAt, publishedSum, hact, List.map_cons, List.map_nil, List.sum_cons, List.sum_nil, hset0, one_mul, add_zero]
    rfl
  have := C52_lda_potential s (v := .A_B) (.inl rfl) (by rw [e]) (by rw [e]) (by rw [e]; exact hs₀.2.2) x (by
      intro y hy
      simp only [densities, densSlots, List.map_cons, List.map_nil, List.mem_cons, List.not_mem_nil, or_false] at hy
      rcases hy with rfl | rfl <;> assumption) (by
      intro id hid
      rw [hact, List.mem_singleton] at hid
      subst hid
      trivial) (Eventually.of_forall fun x' id hid => by
        rw [hact, List.mem_singleton] at hid
        subst hid
        exact ⟨_, rfl, trivial⟩) [] [0, 0, 0] junk (by decide)
  rw [hP] at this
  exact this

/-- PBE contracted with two directions. -/
example (y : ℕ → ℝ) (hy : y = fun i => [1, 0.1, 0.2, 0.3, 8, 0.4, 0.5, 0.6, 4, 0, 0, 0, -2, 0, 1, 0, 1, 0.7, 0, 0].getD i 0)
    (E : (ℕ → ℝ) → ℝ) (hE : E = fun x => pbeX (gasAt .A_B_GAA_GAB_GBB x) + pbeC (gasAt .A_B_GAA_GAB_GBB x)) :
    ∃ s₀ s : State ℝ, run State.init [.set "pbe" 1] = .ok s₀ ∧ evalSetup s₀ Vars.A_B_GAA_GAB_GBB.code CONTRACTED 2 = .ok (0, s) ∧
      xcfunEval codeKernel none s ((List.range 20).map y) [0, 0, 0, 0] = .ok
        ((List.range 4).map fun S => pderivs (bits 2 S) (fun e => E (pathAt 2 y e)) fun _ => 0) := by
  obtain ⟨s₀, s, hr, hset⟩ : ∃ s₀ s : State ℝ, run State.init [.set "pbe" 1] = .ok s₀ ∧
    evalSetup s₀ Vars.A_B_GAA_GAB_GBB.code CONTRACTED 2 = .ok (0, s) := ⟨_, _, rfl, rfl⟩
  refine ⟨s₀, s, hr, hset, ?_⟩
  obtain ⟨hact, hcov, hP⟩ := pbe_state hr hset
  obtain ⟨e, -⟩ := setup_facts hr hset
  have := C52_contracted s (v := .A_B_GAA_GAB_GBB) (by decide) (by decide) (by simp [Doubled]) (by rw [e]) (by rw [e]) 2 (by rw [e]; rfl) (by norm_num) y (by
      subst hy
      constructor
      · intro z hz
        simp only [densities, densSlots, List.map_cons, List.map_nil, List.mem_cons, List.not_mem_nil, or_false] at hz
        rcases hz with rfl | rfl <;> norm_num [threshold]
      all_goals norm_num [Spec.given, spinFields]) (fun id hid => by
    rw [hact] at hid
    simp only [List.mem_cons, List.not_mem_nil, or_false] at hid
    rcases hid with rfl | rfl <;> trivial) (Eventually.of_forall fun x' => hcov _) [] [0, 0, 0, 0] none (by simp)
  rw [hP, ← hE] at this
  simpa [show Vars.A_B_GAA_GAB_GBB.len = 5 from rfl] using this

/-! ## C47, C63 -/

/-- Densities of the two spins must come as `(n, 2)`. -/
example (uninit : ℕ → ℝ) : ∃ s s' : State ℝ, run State.init [.set "pbe" 1] = .ok s ∧
    evalEnergyAB codeKernel none uninit s ⟨[3], fun _ => 1⟩ none = .ok (.error .xcfunException, s') ∧ s'.active = s.active := by
  obtain ⟨s, hr⟩ : ∃ s : State ℝ, run State.init [.set "pbe" 1] = .ok s := ⟨_, rfl⟩
  obtain ⟨s', h1, -, h2, -⟩ := C47_energy_ab_raises _ s hr none uninit ⟨[3], fun _ => 1⟩ none (.inl (by simp))
  exact ⟨s, s', hr, h1, h2⟩

/-- The restricted potential takes one density at each point. -/
example (uninit : ℕ → ℝ) : ∃ s s' : State ℝ, run State.init [.set "pbe" 1] = .ok s ∧
    evalPotentialN codeKernel none uninit s ⟨[3, 2], fun _ => 1⟩ none none = .ok (.error .xcfunException, s') ∧ s'.active = s.active := by
  obtain ⟨s, hr⟩ : ∃ s : State ℝ, run State.init [.set "pbe" 1] = .ok s := ⟨_, rfl⟩
  obtain ⟨s', h1, -, h2, -⟩ := C47_potential_n_raises _ s hr none uninit ⟨[3, 2], fun _ => 1⟩ none none (.inl (by simp))
  exact ⟨s, s', hr, h1, h2⟩

/-- The PBE potential from Python for any two smooth spin densities at any number of points. -/
example (j : (N : ℕ) → ℕ → CT ℝ N) (uninit : ℕ → ℝ) (a b : Space → ℝ) (ha : ContDiff ℝ ∞ a) (hb : ContDiff ℝ ∞ b) (h0 : ∀ r, threshold < a r ∧ threshold < b r)
    (r : ℕ → Space) (n : ℕ) (hn : n ≤ 1000) : ∃ s s' : State ℝ, run State.init [.set "pbe" 1] = .ok s ∧
    ∃ data, evalPotentialAB codeKernel (some j) uninit s
        ⟨[n, 2], fun i => if i.getD 1 0 = 0 then a (r (i.getD 0 0)) else b (r (i.getD 0 0))⟩
        (some ⟨[n, 3, 2], fun i => expansion (if i.getD 2 0 = 0 then a else b) (r (i.getD 0 0)) (1 + i.getD 1 0)⟩)
        (some ⟨[n, 6, 2], fun i => expansion (if i.getD 2 0 = 0 then a else b) (r (i.getD 0 0)) (4 + i.getD 1 0)⟩) = .ok (.ok ⟨n, 3, data⟩, s') ∧
      ∀ i < n, data[i * 3 + 1]? = some (functionalDerivative (energyAt s .A_B_2ND_TAYLOR) (expansion2 a b) 0 (r i)) := by
  obtain ⟨s, hr, hM, hG, hact⟩ : ∃ s : State ℝ, run State.init [.set "pbe" 1] = .ok s ∧ isMetagga s = false ∧ isGga s = true ∧ s.active = [5, 4] :=
    ⟨_, rfl, rfl, rfl, rfl⟩
  obtain ⟨data, s', e1, -, e2, -⟩ := C47_potential_ab_gga _ s hr hM hG j uninit
    ⟨[n, 2], fun i => if i.getD 1 0 = 0 then a (r (i.getD 0 0)) else b (r (i.getD 0 0))⟩
    ⟨[n, 3, 2], fun i => expansion (if i.getD 2 0 = 0 then a else b) (r (i.getD 0 0)) (1 + i.getD 1 0)⟩
    ⟨[n, 6, 2], fun i => expansion (if i.getD 2 0 = 0 then a else b) (r (i.getD 0 0)) (4 + i.getD 1 0)⟩ n rfl rfl rfl (by omega)
    a b r (fun i _ => ha.contDiffAt) (fun i _ => hb.contDiffAt) (fun i _ => ⟨by simp, by simp⟩) (fun i _ k _ => ⟨by simp, by simp⟩)
    (fun i _ k _ => ⟨by simp, by simp⟩)
    (fun i _ => C49_regular s (by decide) (by decide) (physical_expansion2 (h0 _).1 (h0 _).2) fun id hid => by
      rw [hact] at hid
      simp only [List.mem_cons, List.not_mem_nil, or_false] at hid
      rcases hid with rfl | rfl <;> trivial)
  exact ⟨s, s', hr, data, e1, fun i hi => (e2 i hi).2.1⟩

/-- The example program after another object has been made: that object is still there. -/
example : ∃ rs, ∃ w w' : Proc ℝ, ∃ s, opRun codeKernel Proc.start [.new (some 5)] = .ok (rs, w) ∧ w.heap 5 = some s ∧
    exampleMain codeKernel realOrder (fun _ => none) 7 w = .ok (.ok [], w') ∧ w'.heap 5 = some s := by
  obtain ⟨rs, w, s, h, h5, h7⟩ : ∃ rs, ∃ w : Proc ℝ, ∃ s, opRun codeKernel Proc.start [.new (some 5)] = .ok (rs, w) ∧ w.heap 5 = some s ∧ w.heap 7 = none :=
    ⟨_, _, _, rfl, rfl, rfl⟩
  obtain ⟨w', e1, e2⟩ := C63_example_after _ rs w h (fun _ => none) 7 h7
  exact ⟨rs, w, w', s, h, h5, e1, by rw [e2, h5]⟩

/-! ## C49, C66 -/

/-- The gradient of PBE for two different spin densities consists of the derivatives of what the code returns at order 0. -/
example (x : ℕ → ℝ) (hx : x = fun i => [1, 8, 4, -2, 1].getD i 0) :
    ∃ s₀ s : State ℝ, run State.init [.set "pbe" 1] = .ok s₀ ∧ evalSetup s₀ Vars.A_B_GAA_GAB_GBB.code PARTIAL_DERIVATIVES 1 = .ok (0, s) ∧
      ∃ F : (ℕ → ℝ) → ℝ, (∀ y, xcfunEval codeKernel none { s with order := 0 } ((List.range 5).map y) [0] = .ok [F y]) ∧
        xcfunEval codeKernel none s ((List.range 5).map x) [0, 0, 0, 0, 0, 0] = .ok
          [F x, pderiv 0 F x, pderiv 1 F x, pderiv 2 F x, pderiv 3 F x, pderiv 4 F x] := by
  obtain ⟨s₀, s, hr, hset⟩ : ∃ s₀ s : State ℝ, run State.init [.set "pbe" 1] = .ok s₀ ∧
    evalSetup s₀ Vars.A_B_GAA_GAB_GBB.code PARTIAL_DERIVATIVES 1 = .ok (0, s) := ⟨_, _, rfl, rfl⟩
  refine ⟨s₀, s, hr, hset, ?_⟩
  obtain ⟨hact, -, -⟩ := pbe_state hr hset
  obtain ⟨e, -⟩ := setup_facts hr hset
  obtain ⟨F, h0, h1⟩ := C49_partial_derivatives s (v := .A_B_GAA_GAB_GBB) (by decide) (by decide) (by rw [e]) (by rw [e])
  refine ⟨F, fun y => ?_, ?_⟩
  · have := h0 y [] 0 [] none
    rwa [List.append_nil] at this
  · have := h1 x (by
        subst hx
        constructor
        · intro y hy
          simp only [densities, densSlots, List.map_cons, List.map_nil, List.mem_cons, List.not_mem_nil, or_false] at hy
          rcases hy with rfl | rfl <;> norm_num [threshold]
        all_goals norm_num [Spec.given, spinFields]) (fun id hid => by
      rw [hact] at hid
      simp only [List.mem_cons, List.not_mem_nil, or_false] at hid
      rcases hid with rfl | rfl <;> trivial) 1 (by rw [e]; rfl) (by norm_num) [] [0, 0, 0, 0, 0, 0] none 6 (by rw [e]; rfl) (by simp)
    rw [List.append_nil] at this
    exact this

/-- The table of the first derivatives of Slater exchange. -/
example (x : ℕ → ℝ) (m : ℕ → ℕ) : ∃ s₀ s : State ℝ, run State.init [.set "slaterx" 1] = .ok s₀ ∧ evalSetup s₀ Vars.A_B.code PARTIAL_DERIVATIVES 1 = .ok (0, s) ∧
    ∃ out, xcfunEval codeKernel none s [x 0, x 1] [0, 0, 0] = .ok out ∧
      printTable 2 out m = .ok [([0, 0], energyAt s .A_B x), ([1, 0], (energyOn s .A_B (seed1 x (some 0))).get 1),
        ([0, 1], (energyOn s .A_B (seed1 x (some 1))).get 1)] := by
  obtain ⟨s₀, s, hr, hset⟩ : ∃ s₀ s : State ℝ, run State.init [.set "slaterx" 1] = .ok s₀ ∧
    evalSetup s₀ Vars.A_B.code PARTIAL_DERIVATIVES 1 = .ok (0, s) := ⟨_, _, rfl, rfl⟩
  refine ⟨s₀, s, hr, hset, ?_⟩
  obtain ⟨e, -⟩ := setup_facts hr hset
  obtain ⟨out, h1, h2⟩ := C66_table s .A_B (by rw [e]) (by rw [e]) 1 (by rw [e]; rfl) (by norm_num) (by decide) x [0, 0, 0] none (by rw [e]; rfl) m
  exact ⟨out, h1, h2⟩

/-! ## C57 -/

/-- The gradient of the Becke-Roussel exchange energy at one point. -/
example (x : ℕ → ℝ) (hx : x = fun i => [1, 8, 2, 1, 3, 5, 7, -4, 6, 9, 10].getD i 0) :
    ∃ s₀ s : State ℝ, run State.init [.set "brx" 1] = .ok s₀ ∧
      evalSetup s₀ Vars.A_B_GAA_GAB_GBB_LAPA_LAPB_TAUA_TAUB_JPAA_JPBB.code PARTIAL_DERIVATIVES 1 = .ok (0, s) ∧
      xcfunEval codeKernel none s [1, 8, 2, 1, 3, 5, 7, -4, 6, 9, 10] (List.replicate 12 0) = .ok
        (energyAt s .A_B_GAA_GAB_GBB_LAPA_LAPB_TAUA_TAUB_JPAA_JPBB x ::
          (List.range 11).map fun i => pderiv i (energyNear s .A_B_GAA_GAB_GBB_LAPA_LAPB_TAUA_TAUB_JPAA_JPBB x) x) := by
  obtain ⟨s₀, s, hr, hset⟩ : ∃ s₀ s : State ℝ, run State.init [.set "brx" 1] = .ok s₀ ∧
    evalSetup s₀ Vars.A_B_GAA_GAB_GBB_LAPA_LAPB_TAUA_TAUB_JPAA_JPBB.code PARTIAL_DERIVATIVES 1 = .ok (0, s) := ⟨_, _, rfl, rfl⟩
  refine ⟨s₀, s, hr, hset, ?_⟩
  obtain ⟨e, -⟩ := setup_facts hr hset
  have hs₀ : s₀.active = [10] := by cases hr; rfl
  have hreg : RegularBR s .A_B_GAA_GAB_GBB_LAPA_LAPB_TAUA_TAUB_JPAA_JPBB x := by
    refine C57_regular _ (by decide) (by decide) ?_ ?_
    · subst hx
      constructor
      · intro y hy
        simp only [densities, densSlots, List.map_cons, List.map_nil, List.mem_cons, List.not_mem_nil, or_false] at hy
        rcases hy with rfl | rfl <;> norm_num [threshold]
      all_goals simp only [Spec.given, spinFields]; norm_num
    · intro id hid
      have hid : id ∈ [10] := by rw [e] at hid; rw [← hs₀]; exact hid
      exact .inl (.inl (List.mem_singleton.1 hid))
  obtain ⟨h0, h1⟩ := C57_partial_derivatives s _ (by rw [e]) (by rw [e]) (by decide) hreg 1 (by rw [e]; rfl) (by norm_num) []
    (List.replicate 12 0) none 12 (by rw [e]; rfl) (by simp)
  rw [← h0]
  have hl : (List.range Vars.A_B_GAA_GAB_GBB_LAPA_LAPB_TAUA_TAUB_JPAA_JPBB.len).map x ++ [] = [1, 8, 2, 1, 3, 5, 7, -4, 6, 9, 10] := by
    subst hx; rfl
  rw [hl] at h1
  exact h1

/-- Becke-Roussel exchange contracted with one direction. -/
example (y : ℕ → ℝ) (hy : ∀ i < 11, y (i * 2) = [1, 8, 2, 1, 3, 5, 7, -4, 6, 9, 10].getD i 0) (x : ℕ → ℝ) (hx : x = fun i => y (i * 2)) :
    ∃ s₀ s : State ℝ, run State.init [.set "brx" 1] = .ok s₀ ∧
      evalSetup s₀ Vars.A_B_GAA_GAB_GBB_LAPA_LAPB_TAUA_TAUB_JPAA_JPBB.code CONTRACTED 1 = .ok (0, s) ∧
      xcfunEval codeKernel none s ((List.range 22).map y) [0, 0] = .ok
        ((List.range 2).map fun S => pderivs (bits 1 S)
          (fun e => energyNear s .A_B_GAA_GAB_GBB_LAPA_LAPB_TAUA_TAUB_JPAA_JPBB x (pathAt 1 y e)) fun _ => 0) := by
  obtain ⟨s₀, s, hr, hset⟩ : ∃ s₀ s : State ℝ, run State.init [.set "brx" 1] = .ok s₀ ∧
    evalSetup s₀ Vars.A_B_GAA_GAB_GBB_LAPA_LAPB_TAUA_TAUB_JPAA_JPBB.code CONTRACTED 1 = .ok (0, s) := ⟨_, _, rfl, rfl⟩
  refine ⟨s₀, s, hr, hset, ?_⟩
  obtain ⟨e, -⟩ := setup_facts hr hset
  have hs₀ : s₀.active = [10] := by cases hr; rfl
  have hreg : RegularBR s .A_B_GAA_GAB_GBB_LAPA_LAPB_TAUA_TAUB_JPAA_JPBB fun i => y (i * 2 ^ 1) := by
    refine C57_regular _ (by decide) (by decide) ?_ ?_
    · constructor
      · intro z hz
        simp only [densities, densSlots, List.map_cons, List.map_nil, List.mem_cons, List.not_mem_nil, or_false] at hz
        rcases hz with rfl | rfl
        · rw [pow_one, hy 0 (by norm_num)]; norm_num [threshold]
        · rw [pow_one, hy 1 (by norm_num)]; norm_num [threshold]
      all_goals
        simp only [Spec.given, spinFields, pow_one]
        simp only [hy 2 (by norm_num), hy 3 (by norm_num), hy 4 (by norm_num)]
        norm_num
    · intro id hid
      have hid : id ∈ [10] := by rw [e] at hid; rw [← hs₀]; exact hid
      exact .inl (.inl (List.mem_singleton.1 hid))
  have h1 := C57_contracted s _ (by rw [e]) (by rw [e]) 1 (by rw [e]; rfl) (by norm_num) (by decide) y hreg [] [0, 0] none (by simp)
  subst hx
  rw [List.append_nil, show Vars.A_B_GAA_GAB_GBB_LAPA_LAPB_TAUA_TAUB_JPAA_JPBB.len * 2 ^ 1 = 22 from rfl] at h1
  simpa using h1

end XCFun.Props
