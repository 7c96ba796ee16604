/-
C51: bounds of meta-GGA exchange.
-/
import Verif.Proofs.MetaBounds
import Verif.Props.CorrSign

namespace XCFun.Props
open XCFun Spec Expr

/-- **C51, TPSSX and BLOCX.** The exchange energy density lies between 1 and 1.804 times that of the uniform gas with the same spin densities, for all positive
densities and kinetic energy densities, and gradient squares that are not negative (positive for BLOCX, which takes a logarithm). -/
theorem C51_tpss {ρ : Field → ℝ} (h : Physical ρ) (ga : 0 ≤ ρ .gaa) (gb : 0 ≤ ρ .gbb) (ta : 0 < ρ .taua) (tb : 0 < ρ .taub) :
    (1.804 * uniformExchange (ρ .a) (ρ .b) ≤ Fun.tpssx.evalR ρ ∧ Fun.tpssx.evalR ρ ≤ uniformExchange (ρ .a) (ρ .b)) ∧
    (0 < ρ .gaa → 0 < ρ .gbb →
      1.804 * uniformExchange (ρ .a) (ρ .b) ≤ Fun.blocx.evalR ρ ∧ Fun.blocx.evalR ρ ≤ uniformExchange (ρ .a) (ρ .b)) := by
  have t := Fun.tpssx_bounds h ga gb ta tb
  refine ⟨⟨t.1, by rw [← one_mul (uniformExchange _ _)]; exact t.2⟩, fun ga gb => ?_⟩
  have t := Fun.blocx_bounds h ga gb ta tb
  exact ⟨t.1, by rw [← one_mul (uniformExchange _ _)]; exact t.2⟩

/-- **C51, SCANX.** SCAN exchange is negative and above 1.174 times the uniform gas, if the kinetic energy density of each spin is at least that of one
orbital, and not exactly that plus the one of the uniform gas (`α = 1`, where the code divides by zero). -/
theorem C51_scan {ρ : Field → ℝ} (h : Physical ρ) (ga : 0 ≤ ρ .gaa) (gb : 0 ≤ ρ .gbb)
    (ta : tauW (2 * ρ .a) (4 * ρ .gaa) ≤ 2 * ρ .taua) (tb : tauW (2 * ρ .b) (4 * ρ .gbb) ≤ 2 * ρ .taub)
    (na : 2 * ρ .taua - tauW (2 * ρ .a) (4 * ρ .gaa) ≠ tauU (2 * ρ .a)) (nb : 2 * ρ .taub - tauW (2 * ρ .b) (4 * ρ .gbb) ≠ tauU (2 * ρ .b)) :
    1.174 * uniformExchange (ρ .a) (ρ .b) < Fun.scanx.evalR ρ ∧ Fun.scanx.evalR ρ < 0 :=
  Fun.scanx_bounds h ga gb ta tb na nb

/-- The densities of `wave`, each spin with the kinetic energy density of one orbital. -/
noncomputable def orbitals : Field → ℝ
  | .gaa => 8
  | .gbb => 64
  | .taua => 1
  | .taub => 1
  | f => wave f

theorem orbitals_physical : Physical orbitals := ⟨wave_physical.1, wave_physical.2, wave_physical.3, wave_physical.4, wave_physical.5⟩

example : 1.804 * uniformExchange 1 8 ≤ Fun.tpssx.evalR orbitals ∧ Fun.tpssx.evalR orbitals ≤ uniformExchange 1 8 :=
  (C51_tpss orbitals_physical (by norm_num [orbitals]) (by norm_num [orbitals]) (by norm_num [orbitals]) (by norm_num [orbitals])).1

theorem tauU_pos {n : ℝ} (h : 0 < n) : 0 < tauU n := by
  have := Real.pi_pos
  have := Real.rpow_pos_of_pos h (5 / 3)
  unfold tauU; positivity

example : 1.174 * uniformExchange 1 8 < Fun.scanx.evalR orbitals ∧ Fun.scanx.evalR orbitals < 0 := by
  have ea : orbitals .a = 1 := rfl
  have eb : orbitals .b = 8 := rfl
  refine C51_scan orbitals_physical (by norm_num [orbitals]) (by norm_num [orbitals]) ?_ ?_ ?_ ?_
  · rw [ea]; norm_num [tauW, orbitals]
  · rw [eb]; norm_num [tauW, orbitals]
  · rw [show 2 * orbitals .taua - tauW (2 * orbitals .a) (4 * orbitals .gaa) = 0 by rw [ea]; norm_num [tauW, orbitals]]
    exact (tauU_pos (by rw [ea]; norm_num)).ne
  · rw [show 2 * orbitals .taub - tauW (2 * orbitals .b) (4 * orbitals .gbb) = 0 by rw [eb]; norm_num [tauW, orbitals]]
    exact (tauU_pos (by rw [eb]; norm_num)).ne

/-- Kinetic energy densities at least those of one orbital, off the surface `α = 1`. -/
structure OrbitalBound (ρ : Field → ℝ) : Prop where
  gaa : 0 < ρ .gaa
  gbb : 0 < ρ .gbb
  taua : tauW (ρ .a) (ρ .gaa) ≤ ρ .taua
  taub : tauW (ρ .b) (ρ .gbb) ≤ ρ .taub
  na : ρ .taua - tauW (ρ .a) (ρ .gaa) ≠ tauU (2 * ρ .a) / 2
  nb : ρ .taub - tauW (ρ .b) (ρ .gbb) ≠ tauU (2 * ρ .b) / 2

theorem tauW_double {n : ℝ} (g : ℝ) (hn : 0 < n) : tauW (2 * n) (4 * g) = 2 * tauW n g := by
  unfold tauW; field_simp; ring

/-- **C51, `xcfun_eval`.** Any object combining TPSSX, BLOCX and SCANX with non-negative weights returns an energy between 0 and 1.804 times the sum of the
weights times the energy of the uniform gas. -/
theorem C51_eval (s : State ℝ) {v : Vars} (hv : ¬ Unsupported v) (hA : v ≠ .A ∧ v ≠ .A_GAA)
    (hvs : s.vars = some v) (hm : s.mode = PARTIAL_DERIVATIVES) (ho : s.order = 0)
    (hs : ∀ id ∈ s.active, id ∈ [42, 70, 46] ∧ 0 ≤ s.settings id)
    {x : ℕ → ℝ} (hx : ∀ y ∈ densities (1 / 2) x v, threshold ≤ y) (hb : OrbitalBound (given (1 / 2) x v)) (junk : Junk ℝ) (out : ℝ) :
    ∃ E, xcfunEval codeKernel junk s ((List.range v.len).map x) [out] = .ok [E] ∧ E ≤ 0 ∧
      1.804 * (s.active.map s.settings).sum * uniformExchange (given (1 / 2) x v .a) (given (1 / 2) x v .b) ≤ E := by
  refine ⟨_, eval_order0 s hv hvs hm ho x junk out, ?_⟩
  rw [energyAt_members s hv]
  have hP := memberR_physical s.settings hv hA x
  have e : ∀ f, IsDensity f ∨ IsOther f → memberR s.settings v x f = given (1 / 2) x v f :=
    fun f hf => memberR_given s.settings hv hA hx hf
  have ea := e .a (by simp [IsDensity])
  have eb := e .b (by simp [IsDensity])
  have ega := e .gaa (by simp [IsOther])
  have egb := e .gbb (by simp [IsOther])
  have eta := e .taua (by simp [IsOther])
  have etb := e .taub (by simp [IsOther])
  rw [← ea, ← eb]
  obtain ⟨ga, gb, ta, tb, na, nb⟩ := hb
  rw [← ega] at ga
  rw [← egb] at gb
  rw [← ea, ← ega, ← eta] at ta na
  rw [← eb, ← egb, ← etb] at tb nb
  set ρ := memberR s.settings v x
  have wa : 0 < tauW (ρ .a) (ρ .gaa) := div_pos ga (by linarith [hP.a])
  have wb : 0 < tauW (ρ .b) (ρ .gbb) := div_pos gb (by linarith [hP.b])
  have hU : uniformExchange (ρ .a) (ρ .b) < 0 := Fun.uniformExchange_neg hP.a hP.b
  have each : ∀ id ∈ [42, 70, 46], 1.804 * uniformExchange (ρ .a) (ρ .b) ≤ ((Fun.energy id).getD 0).evalR ρ ∧
      ((Fun.energy id).getD 0).evalR ρ ≤ 0 := by
    obtain ⟨t1, t2⟩ := C51_tpss hP ga.le gb.le (by linarith) (by linarith)
    have t2 := t2 ga gb
    have t3 := C51_scan hP ga.le gb.le (by rw [tauW_double _ hP.a]; linarith) (by rw [tauW_double _ hP.b]; linarith)
      (by rw [tauW_double _ hP.a]; intro h; exact na (by linarith)) (by rw [tauW_double _ hP.b]; intro h; exact nb (by linarith))
    intro id hid
    simp only [List.mem_cons, List.not_mem_nil, or_false] at hid
    rcases hid with rfl | rfl | rfl
    · exact ⟨t1.1, t1.2.trans hU.le⟩
    · exact ⟨t2.1, t2.2.trans hU.le⟩
    · have t4 : 1.804 * uniformExchange (ρ .a) (ρ .b) ≤ 1.174 * uniformExchange (ρ .a) (ρ .b) := by nlinarith
      exact ⟨t4.trans t3.1.le, t3.2.le⟩
  constructor
  · refine sum_nonpos fun y hy => ?_
    obtain ⟨id, hid, rfl⟩ := List.mem_map.1 hy
    exact mul_nonpos_of_nonneg_of_nonpos (hs id hid).2 (each id (hs id hid).1).2
  · have : ∀ l : List ℕ, (∀ i ∈ l, i ∈ s.active) → 1.804 * (l.map s.settings).sum * uniformExchange (ρ .a) (ρ .b) ≤
        (l.map fun id => s.settings id * ((Fun.energy id).getD 0).evalR ρ).sum := by
      intro l
      induction l with
      | nil => intro _; simp
      | cons i l ih =>
        intro hl
        have h1 := hs i (hl i List.mem_cons_self)
        have h2 := ih fun j hj => hl j (List.mem_cons_of_mem _ hj)
        have h3 := mul_le_mul_of_nonneg_left (each i h1.1).1 h1.2
        rw [List.map_cons, List.sum_cons, List.map_cons, List.sum_cons]
        linarith
    exact this _ fun _ h => h

/-- TPSSX and SCANX with two different spin densities in one orbital each. -/
example : ∃ s₀ s : State ℝ, run State.init [.set "tpssx" 0.25, .set "scanx" 0.5] = .ok s₀ ∧
    evalSetup s₀ Vars.A_B_GAA_GAB_GBB_TAUA_TAUB.code PARTIAL_DERIVATIVES 0 = .ok (0, s) ∧
    ∃ E, xcfunEval codeKernel none s [1, 8, 8, 3, 64, 1, 1] [0] = .ok [E] ∧ E ≤ 0 ∧ 1.804 * 0.75 * uniformExchange 1 8 ≤ E := by
  obtain ⟨s₀, s, hr, hset⟩ : ∃ s₀ s : State ℝ, run State.init [.set "tpssx" 0.25, .set "scanx" 0.5] = .ok s₀ ∧
    evalSetup s₀ Vars.A_B_GAA_GAB_GBB_TAUA_TAUB.code PARTIAL_DERIVATIVES 0 = .ok (0, s) := ⟨_, _, rfl, rfl⟩
  refine ⟨s₀, s, hr, hset, ?_⟩
  obtain ⟨e, -⟩ := setup_facts hr hset
  have hl : (lit 0 0 : ℝ) = 0 := by simp [lit, Lit.lit]
  have hs₀ : s₀.active = [42, 46] ∧ s₀.settings 42 = lit 0 0 + 0.25 ∧ s₀.settings 46 = lit 0 0 + 0.5 := by
    cases hr
    exact ⟨rfl, rfl, rfl⟩
  have hact : s.active = [42, 46] := by rw [e]; exact hs₀.1
  have h42 : s.settings 42 = 0.25 := by rw [e]; refine hs₀.2.1.trans ?_; rw [hl, zero_add]
  have h46 : s.settings 46 = 0.5 := by rw [e]; refine hs₀.2.2.trans ?_; rw [hl, zero_add]
  obtain ⟨E, h1, h2, h3⟩ := C51_eval s (v := .A_B_GAA_GAB_GBB_TAUA_TAUB) (by decide) (by decide) (by rw [e]) (by rw [e]) (by rw [e])
    (by
      rw [hact]; intro id hid
      simp only [List.mem_cons, List.not_mem_nil, or_false] at hid
      rcases hid with rfl | rfl
      · exact ⟨by decide, by rw [h42]; norm_num⟩
      · exact ⟨by decide, by rw [h46]; norm_num⟩)
    (x := fun i => [1, 8, 8, 3, 64, 1, 1].getD i 0)
    (by
      intro y hy
      simp only [densities, densSlots, List.map_cons, List.map_nil, List.mem_cons, List.not_mem_nil, or_false] at hy
      rcases hy with rfl | rfl <;> norm_num [threshold])
    (by
      constructor
      iterate 4 norm_num [given, spinFields, tauW]
      · have := tauU_pos (n := 2) (by norm_num)
        norm_num [given, spinFields, tauW]; exact (half_pos this).ne
      · have := tauU_pos (n := 16) (by norm_num)
        norm_num [given, spinFields, tauW]; exact (half_pos this).ne) none 0
  refine ⟨E, h1, h2, le_trans (le_of_eq ?_) h3⟩
  rw [hact, List.map_cons, List.map_cons, List.map_nil, List.sum_cons, List.sum_cons, List.sum_nil, h42, h46]
  norm_num [given, spinFields]

/-- **C51, counterexample.** REVTPSSX, whose published form obeys the same bound, violates it: the square root in its `x` contains `p` in place of
`p / |∇n|²` (revtpssx_eps.hpp:43), so that the enhancement factor passes through a pole. -/
theorem C51_revtpssx_violates : ∃ (x : ℕ → ℝ) (s₀ s : State ℝ), run State.init [.set "revtpssx" 1] = .ok s₀ ∧
    evalSetup s₀ Vars.A_B_GAA_GAB_GBB_TAUA_TAUB.code PARTIAL_DERIVATIVES 0 = .ok (0, s) ∧
    (∀ y ∈ densities (1 / 2) x .A_B_GAA_GAB_GBB_TAUA_TAUB, threshold ≤ y) ∧ OrbitalBound (given (1 / 2) x .A_B_GAA_GAB_GBB_TAUA_TAUB) ∧
    ∃ E, xcfunEval codeKernel none s ((List.range 7).map x) [0] = .ok [E] ∧ E < 1.804 * uniformExchange (x 0) (x 1) := by
  obtain ⟨N, hN⟩ : ∃ N : ℝ, N = 1000 / (3 * (Real.pi * Real.pi)) := ⟨_, rfl⟩
  have hpi := Real.pi_pos
  have hpi4 := Real.pi_lt_four
  have hN0 : 0 < N := by rw [hN]; positivity
  have hN20 : 20 ≤ N := by
    rw [hN, le_div_iff₀ (by positivity)]; nlinarith
  let x : ℕ → ℝ := fun i => [N / 2, N / 2, 100 * N ^ 2, 100 * N ^ 2, 100 * N ^ 2, 25 * N, 25 * N].getD i 0
  obtain ⟨s₀, s, hr, hset⟩ : ∃ s₀ s : State ℝ, run State.init [.set "revtpssx" 1] = .ok s₀ ∧
    evalSetup s₀ Vars.A_B_GAA_GAB_GBB_TAUA_TAUB.code PARTIAL_DERIVATIVES 0 = .ok (0, s) := ⟨_, _, rfl, rfl⟩
  obtain ⟨e, -⟩ := setup_facts hr hset
  have hl : (lit 0 0 : ℝ) = 0 := by simp [lit, Lit.lit]
  have hs₀ : s₀.active = [44] ∧ s₀.settings 44 = lit 0 0 + 1 := by
    cases hr
    exact ⟨rfl, rfl⟩
  have hact : s.active = [44] := by rw [e]; exact hs₀.1
  have h44 : s.settings 44 = 1 := by rw [e]; refine hs₀.2.trans ?_; rw [hl, zero_add]
  have hd : ∀ y ∈ densities (1 / 2) x .A_B_GAA_GAB_GBB_TAUA_TAUB, threshold ≤ y := by
    intro y hy
    simp only [densities, densSlots, List.map_cons, List.map_nil, List.mem_cons, List.not_mem_nil, or_false] at hy
    have : threshold ≤ N / 2 := by norm_num [threshold]; linarith
    rcases hy with rfl | rfl <;> exact this
  refine ⟨x, s₀, s, hr, hset, hd, ?_, _, eval_order0 s (v := .A_B_GAA_GAB_GBB_TAUA_TAUB) (by decide) (by rw [e]) (by rw [e]) (by rw [e]) x none 0, ?_⟩
  · have hw : tauW (N / 2) (100 * N ^ 2) = 25 * N := by unfold tauW; field_simp; norm_num
    have hu : 0 < tauU (2 * (N / 2)) / 2 := by have := tauU_pos (n := 2 * (N / 2)) (by linarith); linarith
    have hg : 0 < 100 * N ^ 2 := by positivity
    exact ⟨hg, hg, hw.le, hw.le, ne_of_eq_of_ne (sub_eq_zero.2 hw.symm) hu.ne, ne_of_eq_of_ne (sub_eq_zero.2 hw.symm) hu.ne⟩
  · rw [energyAt_members s (by decide), hact, List.map_singleton, List.sum_singleton, h44, one_mul]
    have g : ∀ f, IsDensity f ∨ IsOther f → memberR s.settings .A_B_GAA_GAB_GBB_TAUA_TAUB x f = given (1 / 2) x .A_B_GAA_GAB_GBB_TAUA_TAUB f :=
      fun f hf => memberR_given s.settings (by decide) (by decide) hd hf
    have ea : memberR s.settings .A_B_GAA_GAB_GBB_TAUA_TAUB x .a = N / 2 := g .a (by simp [IsDensity])
    have eb : memberR s.settings .A_B_GAA_GAB_GBB_TAUA_TAUB x .b = N / 2 := g .b (by simp [IsDensity])
    have := Fun.revtpssx_large (memberR_physical s.settings (v := .A_B_GAA_GAB_GBB_TAUA_TAUB) (by decide) (by decide) x) hN ea eb
      (g .gaa (by simp [IsOther])) (g .gbb (by simp [IsOther])) (g .taua (by simp [IsOther])) (g .taub (by simp [IsOther]))
    rw [ea, eb] at this
    exact this

end XCFun.Props
