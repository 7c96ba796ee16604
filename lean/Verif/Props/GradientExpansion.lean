/-
**C81.** The gradient expansion of closed shells: how the energies leave those of the uniform gas as a small gradient is switched on, and the cancellation of
exchange and correlation in PBE.
-/
import Verif.Proofs.GradientExpansion

namespace XCFun.Props
open XCFun Spec Lit

theorem hasDerivAt_weighted (w : ℕ → ℝ) (f : ℕ → ℝ → ℝ) (c : ℕ → ℝ) : ∀ l : List ℕ, (∀ id ∈ l, HasDerivAt (f id) (c id) 0) →
    HasDerivAt (fun t => (l.map fun id => w id * f id t).sum) (l.map fun id => w id * c id).sum 0
  | [], _ => by simpa using hasDerivAt_const (0 : ℝ) (0 : ℝ)
  | id :: l, h => by
    simp only [List.map_cons, List.sum_cons]
    exact ((h id (by simp)).const_mul (w id)).fun_add (hasDerivAt_weighted w f c l fun i hi => h i (by simp [hi]))

/-- **C81.** For a closed shell of any density `n` the energy returned by `xcfun_eval`, as a function of the squared gradient, has at zero gradient the derivative
given by the published coefficients: `-(3 μ/(16 π))/(k_F n)` for exchange, `(π β/16)/(k_F n)` for correlation. -/
theorem C81_eval (s : State ℝ) {v : Vars} (hv : ¬ Unsupported v) (hA : v ≠ .A ∧ v ≠ .A_GAA) (hD : ¬ Doubled v)
    (hvs : s.vars = some v) (hm : s.mode = PARTIAL_DERIVATIVES) (ho : s.order = 0) {n : ℝ} {x : ℝ → ℕ → ℝ}
    (hx : ∀ g2, ∀ y ∈ densities (1 / 2) (x g2) v, threshold ≤ y) (hq : ∀ g2, ClosedShell (gasAt v (x g2)) n g2)
    {c : ℕ → ℝ} (hc : ∀ id ∈ s.active, gradientTerm n id = some (c id)) (junk : Junk ℝ) (out : ℝ) :
    ∃ E : ℝ → ℝ, (∀ g2, xcfunEval codeKernel junk s ((List.range v.len).map (x g2)) [out] = .ok [E g2]) ∧
      HasDerivAt E (s.active.map fun id => s.settings id * c id).sum 0 := by
  have hn : 0 < n := by
    have h := (gasAt_pos hv hA (hx 0)).1
    rw [(hq 0).a] at h
    linarith
  have cov : ∀ g2, Covered s (gasAt v (x g2)) := by
    intro g2 id hid
    have h := hc id hid
    match id, h with
    | 0, _ | 1, _ | 3, _ | 4, _ | 5, _ | 19, _ | 20, _ | 22, _ | 28, _ | 67, _ | 68, _ | 69, _ | 71, _ | 72, _ | 73, _ | 74, _ | 76, _ =>
      exact ⟨_, rfl, trivial⟩
  refine ⟨fun g2 => publishedSum s (gasAt v (x g2)), fun g2 => C52_eval s hv hA hD hvs hm ho (hx g2) (cov g2) junk out, ?_⟩
  exact hasDerivAt_weighted s.settings (fun id g2 => publishedEnergy (parSet s) (gasAt v (x g2)) id) c s.active
    fun id hid => GE.published_deriv hn hq (parSet s) (hc id hid)

/-- Input with gradients for a closed shell. -/
noncomputable def shellInput (n g2 : ℝ) (i : ℕ) : ℝ := [n / 2, n / 2, g2 / 4, g2 / 4, g2 / 4].getD i 0

theorem shellInput_closed (n g2 : ℝ) : ClosedShell (gasAt .A_B_GAA_GAB_GBB (shellInput n g2)) n g2 := ⟨rfl, rfl, rfl, rfl, rfl⟩

theorem shellInput_threshold {n : ℝ} (hn : 2 * threshold ≤ n) (g2 : ℝ) : ∀ y ∈ densities (1 / 2) (shellInput n g2) .A_B_GAA_GAB_GBB, threshold ≤ y := by
  intro y hy
  simp only [densities, densSlots, List.map_cons, List.map_nil, List.mem_cons, List.not_mem_nil, or_false] at hy
  rcases hy with rfl | rfl <;> (show threshold ≤ n / 2; linarith)

/-- **C81, PBE.** With `μ = β π²/3` the gradient terms of exchange and correlation cancel, so that the linear response of the uniform gas is that of the local
approximation. In the program they do so up to seven millionths only: PBEX takes `β = 0.066725`, PBEC `β = 0.06672455060314922`. -/
theorem C81_pbe (s : State ℝ) (hvs : s.vars = some .A_B_GAA_GAB_GBB) (hm : s.mode = PARTIAL_DERIVATIVES) (ho : s.order = 0)
    (hs : s.active = [5, 4] ∨ s.active = [4, 5]) (hw : s.settings 5 = 1 ∧ s.settings 4 = 1) {n : ℝ} (hn : 2 * threshold ≤ n) (junk : Junk ℝ) (out : ℝ) :
    ∃ E : ℝ → ℝ, (∀ g2, xcfunEval codeKernel junk s [n / 2, n / 2, g2 / 4, g2 / 4, g2 / 4] [out] = .ok [E g2]) ∧
      HasDerivAt E (-(4.4939685078e-7 * Real.pi / 16) / (kF n * n)) 0 ∧
      4.4939685078e-7 * Real.pi / 16 / (kF n * n) ≤ 7e-6 * correlationTerm 0.06672455060314922 n := by
  obtain ⟨E, hE, hd⟩ := C81_eval s (v := .A_B_GAA_GAB_GBB) (by decide) (by decide) (by simp [Doubled]) hvs hm ho (x := shellInput n)
    (shellInput_threshold hn) (shellInput_closed n) (c := fun id => (gradientTerm n id).getD 0)
    (by rcases hs with h | h <;> rw [h] <;> intro id hid <;> simp only [List.mem_cons, List.not_mem_nil, or_false] at hid <;>
          rcases hid with rfl | rfl <;> rfl) junk out
  have hpi := Real.pi_pos
  have h0 : 0 < n := by have : (0 : ℝ) < threshold := by norm_num [threshold]
                        linarith
  have hk := GE.kF_pos h0
  refine ⟨E, hE, hd.congr_deriv ?_, ?_⟩
  · have h5 : (gradientTerm n 5).getD 0 = exchangeTerm (0.066725 * Real.pi ^ 2 / 3) n := rfl
    have h4 : (gradientTerm n 4).getD 0 = correlationTerm 0.06672455060314922 n := rfl
    have e : exchangeTerm (0.066725 * Real.pi ^ 2 / 3) n + correlationTerm 0.06672455060314922 n = -(4.4939685078e-7 * Real.pi / 16) / (kF n * n) := by
      rw [exchangeTerm, correlationTerm]
      field_simp
      norm_num
    rcases hs with h | h <;> rw [h] <;>
      simp only [List.map_cons, List.map_nil, List.sum_cons, List.sum_nil, add_zero, hw.1, hw.2, one_mul, h4, h5] <;> rw [← e]
    ring
  · rw [correlationTerm, ← mul_div_assoc]
    refine div_le_div_of_nonneg_right ?_ (by positivity)
    nlinarith

/-- **C81, APBE.** The same for APBE, where the digits of `β` are chosen for cancellation. -/
theorem C81_apbe (s : State ℝ) (hvs : s.vars = some .A_B_GAA_GAB_GBB) (hm : s.mode = PARTIAL_DERIVATIVES) (ho : s.order = 0)
    (hs : s.active = [68, 67] ∨ s.active = [67, 68]) (hw : s.settings 68 = 1 ∧ s.settings 67 = 1) {n : ℝ} (hn : 2 * threshold ≤ n)
    (junk : Junk ℝ) (out : ℝ) :
    ∃ E : ℝ → ℝ, ∃ c, (∀ g2, xcfunEval codeKernel junk s [n / 2, n / 2, g2 / 4, g2 / 4, g2 / 4] [out] = .ok [E g2]) ∧
      HasDerivAt E c 0 ∧ |c| ≤ 1e-11 * correlationTerm 0.079030523241 n := by
  obtain ⟨E, hE, hd⟩ := C81_eval s (v := .A_B_GAA_GAB_GBB) (by decide) (by decide) (by simp [Doubled]) hvs hm ho (x := shellInput n)
    (shellInput_threshold hn) (shellInput_closed n) (c := fun id => (gradientTerm n id).getD 0)
    (by rcases hs with h | h <;> rw [h] <;> intro id hid <;> simp only [List.mem_cons, List.not_mem_nil, or_false] at hid <;>
          rcases hid with rfl | rfl <;> rfl) junk out
  have hpi := Real.pi_pos
  have h0 : 0 < n := by have : (0 : ℝ) < threshold := by norm_num [threshold]
                        linarith
  have hk := GE.kF_pos h0
  have e : exchangeTerm 0.26 n + correlationTerm 0.079030523241 n = (0.079030523241 * Real.pi ^ 2 - 0.78) / (16 * Real.pi) / (kF n * n) := by
    rw [exchangeTerm, correlationTerm]
    field_simp
    ring
  refine ⟨E, exchangeTerm 0.26 n + correlationTerm 0.079030523241 n, hE, hd.congr_deriv ?_, ?_⟩
  · have h5 : (gradientTerm n 68).getD 0 = exchangeTerm 0.26 n := rfl
    have h4 : (gradientTerm n 67).getD 0 = correlationTerm 0.079030523241 n := rfl
    rcases hs with h | h <;> rw [h] <;>
      simp only [List.map_cons, List.map_nil, List.sum_cons, List.sum_nil, add_zero, hw.1, hw.2, one_mul, h4, h5]
    ring
  · have l := Real.pi_gt_d20
    have u := Real.pi_lt_d20
    rw [e, abs_div, abs_of_pos (mul_pos hk h0), correlationTerm, ← mul_div_assoc]
    refine div_le_div_of_nonneg_right ?_ (by positivity)
    rw [abs_div, abs_of_pos (show 0 < 16 * Real.pi by positivity), div_le_iff₀ (by positivity), abs_le]
    constructor <;> nlinarith

/-- PBE as it is set up by its name. -/
example : ∃ s₀ s : State ℝ, run State.init [.set "pbe" 1] = .ok s₀ ∧
    evalSetup s₀ Vars.A_B_GAA_GAB_GBB.code PARTIAL_DERIVATIVES 0 = .ok (0, s) ∧
    ∃ E : ℝ → ℝ, (∀ g2, xcfunEval codeKernel none s [1 / 2, 1 / 2, g2 / 4, g2 / 4, g2 / 4] [0] = .ok [E g2]) ∧
      HasDerivAt E (-(4.4939685078e-7 * Real.pi / 16) / (kF 1 * 1)) 0 := by
  obtain ⟨s₀, s, hr, hset⟩ : ∃ s₀ s : State ℝ, run State.init [.set "pbe" 1] = .ok s₀ ∧
    evalSetup s₀ Vars.A_B_GAA_GAB_GBB.code PARTIAL_DERIVATIVES 0 = .ok (0, s) := ⟨_, _, rfl, rfl⟩
  refine ⟨s₀, s, hr, hset, ?_⟩
  obtain ⟨e, -⟩ := setup_facts hr hset
  have hl : (lit 0 0 : ℝ) = 0 := by simp [lit, XCFun.Lit.lit]
  have hs₀ : (s₀.active = [5, 4] ∨ s₀.active = [4, 5]) ∧ s₀.settings 5 = lit 0 0 + 1 * lit 1 0 ∧ s₀.settings 4 = lit 0 0 + 1 * lit 1 0 := by
    cases hr
    exact ⟨.inl rfl, rfl, rfl⟩
  have h1 : (lit 1 0 : ℝ) = 1 := by simp [lit, XCFun.Lit.lit]
  obtain ⟨E, hE, hd, -⟩ := C81_pbe s (by rw [e]) (by rw [e]) (by rw [e]) (by rw [e]; exact hs₀.1)
    ⟨by rw [e]; refine hs₀.2.1.trans ?_; rw [hl, h1]; norm_num, by rw [e]; refine hs₀.2.2.trans ?_; rw [hl, h1]; norm_num⟩
    (n := 1) (by norm_num [threshold]) none 0
  exact ⟨E, hE, hd⟩

/-- Three functionals with different weights. -/
example : ∃ s₀ s : State ℝ, run State.init [.set "pbesolx" 0.75, .set "slaterx" 0.25, .set "pbeintc" 2] = .ok s₀ ∧
    evalSetup s₀ Vars.A_B_GAA_GAB_GBB.code PARTIAL_DERIVATIVES 0 = .ok (0, s) ∧
    (∀ id ∈ s.active, gradientTerm 1 id = some ((gradientTerm 1 id).getD 0)) ∧ s.active = [74, 0, 71] := by
  obtain ⟨s₀, s, hr, hset⟩ : ∃ s₀ s : State ℝ, run State.init [.set "pbesolx" 0.75, .set "slaterx" 0.25, .set "pbeintc" 2] = .ok s₀ ∧
    evalSetup s₀ Vars.A_B_GAA_GAB_GBB.code PARTIAL_DERIVATIVES 0 = .ok (0, s) := ⟨_, _, rfl, rfl⟩
  refine ⟨s₀, s, hr, hset, ?_⟩
  obtain ⟨e, -⟩ := setup_facts hr hset
  have hs₀ : s₀.active = [74, 0, 71] := by cases hr; rfl
  have hact : s.active = [74, 0, 71] := by rw [e]; exact hs₀
  refine ⟨?_, hact⟩
  rw [hact]
  intro id hid
  simp only [List.mem_cons, List.not_mem_nil, or_false] at hid
  rcases hid with rfl | rfl | rfl <;> rfl

end XCFun.Props
