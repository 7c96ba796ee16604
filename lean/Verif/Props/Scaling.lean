/-
C39: uniform scaling of exchange and kinetic energies.
-/
import Verif.Proofs.ScalingEval
import Verif.Proofs.ScalingNeg
import Verif.Props.Spin

namespace XCFun.Props
open XCFun Spec

/-- **C39, exchange functionals.** Scaling the densities with `g^3`, the squared gradients with `g^8`, the kinetic energy densities and
Laplacians with `g^5` multiplies the energy density by `g^4`. -/
theorem C39_exchange {id : ℕ} (hid : id ∈ exchangeIds) {e : Expr Field} (he : Fun.energy id = some e) {g : ℝ} (hg : 0 < g)
    {ρ : Field → ℝ} (ha : 0 < ρ .a) (hb : 0 < ρ .b) (hn : 0 < ρ .n) :
    e.evalR (scaleField g ρ) = g ^ 4 * e.evalR ρ := by
  have h : Fun.Deg e 4 := by
    simp only [exchangeIds, List.mem_cons, List.not_mem_nil, or_false] at hid
    rcases hid with rfl | rfl | rfl | rfl | rfl | rfl | rfl | rfl | rfl | rfl | rfl | rfl | rfl | rfl | rfl | rfl | rfl | rfl |
      rfl | rfl | rfl | rfl | rfl | rfl | rfl <;> cases he
    exacts [Fun.deg_slaterx, Fun.deg_pw86x, Fun.deg_pbex, Fun.deg_beckex, Fun.deg_beckexcorr, Fun.deg_brx, Fun.deg_optx,
      Fun.deg_optxcorr, Fun.deg_revpbex, Fun.deg_rpbex, Fun.deg_pw91x, Fun.deg_m05x, Fun.deg_m05x2x, Fun.deg_m06x,
      Fun.deg_m06x2x, Fun.deg_m06lx, Fun.deg_m06hfx, Fun.deg_tpssx, Fun.deg_b97x, Fun.deg_b97_1x, Fun.deg_b97_2x,
      Fun.deg_apbex, Fun.deg_blocx, Fun.deg_pbeintx, Fun.deg_pbesolx]
  rw [h.eq hg ⟨ha, hb, hn⟩]
  norm_cast

example (ρ : Field → ℝ) (ha : 0 < ρ .a) (hb : 0 < ρ .b) (hn : 0 < ρ .n) :
    Fun.pbex.evalR (scaleField 2 ρ) = 2 ^ 4 * Fun.pbex.evalR ρ :=
  C39_exchange (id := 5) (by decide) rfl (by norm_num) ha hb hn

/-- **C39, kinetic energy functionals** scale with `g^5`. -/
theorem C39_kinetic {id : ℕ} (hid : id ∈ kineticIds) {e : Expr Field} (he : Fun.energy id = some e) {g : ℝ} (hg : 0 < g)
    {ρ : Field → ℝ} (ha : 0 < ρ .a) (hb : 0 < ρ .b) (hn : 0 < ρ .n) :
    e.evalR (scaleField g ρ) = g ^ 5 * e.evalR ρ := by
  have h : Fun.Deg e 5 := by
    simp only [kineticIds, List.mem_cons, List.not_mem_nil, or_false] at hid
    rcases hid with rfl | rfl | rfl <;> cases he
    exacts [Fun.deg_tfk, Fun.deg_pw91k, Fun.deg_vW]
  rw [h.eq hg ⟨ha, hb, hn⟩]
  norm_cast

example (ρ : Field → ℝ) (ha : 0 < ρ .a) (hb : 0 < ρ .b) (hn : 0 < ρ .n) :
    Fun.vW.evalR (scaleField 3 ρ) = 3 ^ 5 * Fun.vW.evalR ρ :=
  C39_kinetic (id := 59) (by decide) rfl (by norm_num) ha hb hn

/-- The power of an object all of whose functionals are exchange (4) or all kinetic energy (5) functionals. -/
def ScalesWith (s : State ℝ) (k : ℕ) : Prop :=
  (k = 4 ∧ ∀ id ∈ s.active, id ∈ exchangeIds) ∨ (k = 5 ∧ ∀ id ∈ s.active, id ∈ kineticIds)

/-- What `xcfun_eval` returns at order 0. -/
theorem eval_order0 (s : State ℝ) {v : Vars} (hv : ¬ Unsupported v) (hvs : s.vars = some v)
    (hm : s.mode = PARTIAL_DERIVATIVES) (ho : s.order = 0) (y : ℕ → ℝ) (junk : Junk ℝ) (out : ℝ) :
    xcfunEval codeKernel junk s ((List.range v.len).map y) [out] = .ok [energyAt s v y] := by
  have hsup : DV.reads v ≠ none := by rw [ne_eq, ← unsupported_iff]; exact hv
  have hlen : outputLength s = .ok ((1 : ℕ) : ℤ) := by
    have h1 : ¬ (PARTIAL_DERIVATIVES = MODE_UNSET) := by decide
    have h2 : ¬ ((0 : ℤ) = -1) := by decide
    simp only [outputLength, hm, h1, hvs, ho, h2, if_false, if_true]
    exact outlen_eq v (k := 0) (by decide) (0 : ℝ) (fun _ => 0) (fun _ _ => 0) (fun _ _ _ => 0)
  have := C15_order_of_derivatives s v hvs hm 0 ho (by decide) hsup y [] [out] junk _ hlen (le_refl _)
  rw [List.append_nil] at this
  rw [this]
  rfl

/-- **C39, `xcfun_eval`.** For any object combining exchange functionals (or kinetic energy functionals) with any weights, any variable
set describing both spins, and densities above the threshold before and after: the energy returned at the scaled inputs is `g^4`
(`g^5`) times the energy returned at the inputs. -/
theorem C39_eval (s : State ℝ) {v : Vars} (hv : ¬ Unsupported v) (hA : v ≠ .A ∧ v ≠ .A_GAA)
    (hvs : s.vars = some v) (hm : s.mode = PARTIAL_DERIVATIVES) (ho : s.order = 0) {k : ℕ} (hk : ScalesWith s k)
    {g : ℝ} (hg : 0 < g) {x : ℕ → ℝ} (h : ∀ y ∈ densities (1 / 2) x v, threshold ≤ y)
    (h' : ∀ y ∈ densities (1 / 2) (scaleInputs v g x) v, threshold ≤ y) (junk : Junk ℝ) (out : ℝ) :
    ∃ e : ℝ, xcfunEval codeKernel junk s ((List.range v.len).map x) [out] = .ok [e] ∧
      xcfunEval codeKernel junk s ((List.range v.len).map (scaleInputs v g x)) [out] = .ok [g ^ k * e] := by
  have hP := fun y => eval_order0 s hv hvs hm ho y junk out
  refine ⟨energyAt s v x, hP x, ?_⟩
  rw [hP, energyAt_scale s hv hA hg h h' (k := k)]
  intro id hid e he
  rcases hk with ⟨rfl, hk⟩ | ⟨rfl, hk⟩
  · refine ⟨fun {g ρ} hg h => ?_⟩
    rw [C39_exchange (hk id hid) he hg h.a h.b h.n]
    norm_cast
  · refine ⟨fun {g ρ} hg h => ?_⟩
    rw [C39_kinetic (hk id hid) he hg h.a h.b h.n]
    norm_cast

/-- `0.2 PBEX + 0.8 BECKEX` at `(1, 2, 3, 4, 5)` and at the inputs scaled with `g = 2`. -/
example : ∃ s₀ s : State ℝ, run State.init [.set "pbex" 0.2, .set "beckex" 0.8] = .ok s₀ ∧
    evalSetup s₀ Vars.A_B_GAA_GAB_GBB.code PARTIAL_DERIVATIVES 0 = .ok (0, s) ∧ ∃ e : ℝ,
    xcfunEval codeKernel none s [1, 2, 3, 4, 5] [0] = .ok [e] ∧
    xcfunEval codeKernel none s [8, 16, 768, 1024, 1280] [0] = .ok [2 ^ 4 * e] := by
  obtain ⟨s₀, s, hr, hset⟩ : ∃ s₀ s : State ℝ, run State.init [.set "pbex" 0.2, .set "beckex" 0.8] = .ok s₀ ∧
    evalSetup s₀ Vars.A_B_GAA_GAB_GBB.code PARTIAL_DERIVATIVES 0 = .ok (0, s) := ⟨_, _, rfl, rfl⟩
  refine ⟨s₀, s, hr, hset, ?_⟩
  obtain ⟨e, -⟩ := setup_facts hr hset
  have hact : s.active = [5, 6] := by
    rw [e]
    cases hr
    rfl
  have e1 : (List.range (Vars.len .A_B_GAA_GAB_GBB)).map (fun i : ℕ => (i : ℝ) + 1) = [1, 2, 3, 4, 5] := by
    show [((0 : ℕ) : ℝ) + 1, ((1 : ℕ) : ℝ) + 1, ((2 : ℕ) : ℝ) + 1, ((3 : ℕ) : ℝ) + 1, ((4 : ℕ) : ℝ) + 1] = _
    norm_num
  have e2 : (List.range (Vars.len .A_B_GAA_GAB_GBB)).map (scaleInputs .A_B_GAA_GAB_GBB 2 fun i : ℕ => (i : ℝ) + 1) =
      [8, 16, 768, 1024, 1280] := by
    show [2 ^ 3 * (((0 : ℕ) : ℝ) + 1), 2 ^ 3 * (((1 : ℕ) : ℝ) + 1), 2 ^ 8 * (((2 : ℕ) : ℝ) + 1), 2 ^ 8 * (((3 : ℕ) : ℝ) + 1),
      2 ^ 8 * (((4 : ℕ) : ℝ) + 1)] = _
    norm_num
  have := C39_eval s (v := .A_B_GAA_GAB_GBB) (by decide) (by decide) (by rw [e]) (by rw [e]) (by rw [e]) (k := 4)
    (.inl ⟨rfl, by rw [hact]; decide⟩) (g := 2) (by norm_num) (x := fun i => (i : ℝ) + 1)
    (by norm_num [densities, densSlots, threshold]) (by norm_num [densities, densSlots, threshold, scaleInputs, inputDeg]) none 0
  rwa [e1, e2] at this

/-- **C39, SCAN exchange, away from the thresholds.** SCAN, r++SCAN, r2SCAN and r4SCAN exchange (ids 46, 50, 52, 54) compare `tau - tau_w`
with `1e-14` and the squared gradient with `1e-16`; where both comparisons come out "greater" at both densities the energy scales. -/
theorem C39_scan_partial {id : ℕ} (hid : id ∈ [46, 50, 52, 54]) {e : Expr Field} (he : Fun.energy id = some e) {g : ℝ} (hg : 0 < g)
    {ρ : Field → ℝ} (h1 : 0 < ρ .a) (h2 : 0 < ρ .b) (h3 : 0 < ρ .n)
    (ha : FarSpin (ρ .a) (ρ .gaa) (ρ .taua)) (hb : FarSpin (ρ .b) (ρ .gbb) (ρ .taub))
    (ha' : FarSpin (g ^ 3 * ρ .a) (g ^ 8 * ρ .gaa) (g ^ 5 * ρ .taua))
    (hb' : FarSpin (g ^ 3 * ρ .b) (g ^ 8 * ρ .gbb) (g ^ 5 * ρ .taub)) :
    e.evalR (scaleField g ρ) = g ^ 4 * e.evalR ρ := by
  simp only [List.mem_cons, List.not_mem_nil, or_false] at hid
  rcases hid with rfl | rfl | rfl | rfl <;> cases he <;>
    exact Fun.scan_scale (by decide) (by decide) (by decide) hg ⟨h1, h2, h3⟩ ha hb ha' hb'

example : Fun.r2scanx.evalR (scaleField 2 fun _ => 1) = 2 ^ 4 * Fun.r2scanx.evalR fun _ => 1 :=
  C39_scan_partial (id := 52) (by decide) rfl (by norm_num) (by norm_num) (by norm_num) (by norm_num)
    (by norm_num [FarSpin]) (by norm_num [FarSpin]) (by norm_num [FarSpin, abs_of_pos]) (by norm_num [FarSpin, abs_of_pos])

/-- **C39, exceptions.** `XC_TW`, described as the von Weizsaecker kinetic energy, squares the squared gradient (tw.cpp:20-22): it scales
with `g^13`, and not with `g^5`. -/
theorem C39_tw {g : ℝ} (hg : 0 < g) {ρ : Field → ℝ} (ha : 0 < ρ .a) (hb : 0 < ρ .b) (hn : 0 < ρ .n) :
    Fun.energy 25 = some Fun.tw ∧ Fun.tw.evalR (scaleField g ρ) = g ^ 13 * Fun.tw.evalR ρ := by
  refine ⟨rfl, ?_⟩
  rw [Fun.deg_tw.eq hg ⟨ha, hb, hn⟩]
  norm_cast

theorem C39_tw_negation : ∃ (g : ℝ) (ρ : Field → ℝ), 0 < g ∧ 0 < ρ .a ∧ 0 < ρ .b ∧ 0 < ρ .n ∧ 0 < ρ .gaa ∧ 0 < ρ .gbb ∧
    Fun.tw.evalR (scaleField g ρ) ≠ g ^ 5 * Fun.tw.evalR ρ := by
  refine ⟨2, fun _ => 1, by norm_num, by norm_num, by norm_num, by norm_num, by norm_num, by norm_num, ?_⟩
  rw [(C39_tw (by norm_num) (by norm_num) (by norm_num) (by norm_num)).2]
  have : 0 < Fun.tw.evalR fun _ => 1 := by
    simp only [Fun.tw, Expr.evalR_div, Expr.evalR_mul, Expr.evalR_pow, Expr.evalR_add, Expr.evalR_lit]
    show (0 : ℝ) < 1 / 8 * (1 + 1) ^ (2 : ℝ) / 1
    positivity
  intro h
  norm_num at h
  linarith

/-- KTX contains the fixed length `DELTA = 0.1` (ktx.cpp:18-24) and does not scale. -/
theorem C39_ktx_negation : Fun.energy 23 = some Fun.ktx ∧ ∃ (g : ℝ) (ρ : Field → ℝ), 0 < g ∧ 0 < ρ .a ∧ 0 < ρ .b ∧ 0 < ρ .n ∧
    Fun.ktx.evalR (scaleField g ρ) ≠ g ^ 4 * Fun.ktx.evalR ρ := by
  obtain ⟨g, ρ, hg, h, hne⟩ := Fun.ktx_not_scale
  exact ⟨rfl, g, ρ, hg, h.a, h.b, h.n, hne⟩

/-- REVTPSSX has `p*p` where TPSSX has `p0*p0`, `p = p0 |grad n|^2` (revtpssx_eps.hpp:43, tpssx_eps.hpp): it does not scale. -/
theorem C39_revtpssx_negation : Fun.energy 44 = some Fun.revtpssx ∧ ∃ (g : ℝ) (ρ : Field → ℝ), 0 < g ∧ 0 < ρ .a ∧ 0 < ρ .b ∧
    0 < ρ .n ∧ 0 < ρ .gaa ∧ 0 < ρ .gbb ∧ Fun.revtpssx.evalR (scaleField g ρ) ≠ g ^ 4 * Fun.revtpssx.evalR ρ := by
  obtain ⟨g, ρ, hg, h, h1, h2, hne⟩ := Fun.revtpssx_not_scale
  exact ⟨rfl, g, ρ, hg, h.a, h.b, h.n, h1, h2, hne⟩

/-- Each of the five SCAN exchange functionals replaces the squared gradient by `1e-16` where it is smaller (SCAN_like_eps.hpp:119-125), and so
does not scale at zero gradient. -/
theorem C39_scan_negation {id : ℕ} (hid : id ∈ [46, 48, 50, 52, 54]) : ∃ e : Expr Field, Fun.energy id = some e ∧
    ∃ (g : ℝ) (ρ : Field → ℝ), 0 < g ∧ 0 < ρ .a ∧ 0 < ρ .b ∧ 0 < ρ .n ∧ e.evalR (scaleField g ρ) ≠ g ^ 4 * e.evalR ρ := by
  have key : ∀ k i j, (k, i, j) ∈ Fun.scanKinds → ∃ (g : ℝ) (ρ : Field → ℝ), 0 < g ∧ 0 < ρ .a ∧ 0 < ρ .b ∧ 0 < ρ .n ∧
      (Fun.scanX k i j).evalR (scaleField g ρ) ≠ g ^ 4 * (Fun.scanX k i j).evalR ρ := by
    intro k i j h
    obtain ⟨g, ρ, hg, h, hne⟩ := Fun.scan_not_scale h
    exact ⟨g, ρ, hg, h.a, h.b, h.n, hne⟩
  simp only [List.mem_cons, List.not_mem_nil, or_false] at hid
  rcases hid with rfl | rfl | rfl | rfl | rfl
  exacts [⟨_, rfl, key 0 0 0 (by decide)⟩, ⟨_, rfl, key 1 1 0 (by decide)⟩, ⟨_, rfl, key 2 1 0 (by decide)⟩,
    ⟨_, rfl, key 2 1 1 (by decide)⟩, ⟨_, rfl, key 2 1 2 (by decide)⟩]

end XCFun.Props
