/-
**C53.** Where the code replaces a formula by an approximation, the energy stays near the published one.

`sqrtx_asinh_sqrtx` uses a rational function below 1/2; it enters BECKEX, BECKECORRX, BECKESRX, BECKECAMX, PW91X, PW91K. LDAERFX uses limits below
1e-9 and from 100 on. C52 excludes these ranges; here they are included.
-/
import Verif.Proofs.RangeSep
import Verif.Spec.Accuracy
import Verif.Props.Literature

namespace XCFun.Props
open XCFun Spec Lit

/-- **C53, the function.** `sqrtx_asinh_sqrtx` against `√x arsinh √x`: at most `6e-15 min(x, 1/2)` apart for all `x ≥ 0`, whatever expression
gives `x`. -/
theorem C53_function {ρ : Field → ℝ} (x : Expr Field) (h0 : 0 ≤ x.evalR ρ) :
    |x.sqrtxAsinhSqrtx.evalR ρ - √(x.evalR ρ) * Real.arsinh √(x.evalR ρ)| ≤ 6e-15 * min (x.evalR ρ) (1 / 2) :=
  Fun.sas_close h0

example : |(Expr.sqrtxAsinhSqrtx (Fun.d.gaa : Expr Field)).evalR (fun _ => 1 / 4) - 1 / 2 * Real.arsinh (1 / 2)| ≤ 2e-15 := by
  have h4 : √(1 / 4 : ℝ) = 1 / 2 := by
    rw [show (1 / 4 : ℝ) = (1 / 2) ^ 2 by norm_num]; exact Real.sqrt_sq (by norm_num)
  have h := C53_function (ρ := fun _ => 1 / 4) Fun.d.gaa (by show (0 : ℝ) ≤ 1 / 4; norm_num)
  have e : Fun.d.gaa.evalR (fun _ => (1 / 4 : ℝ)) = 1 / 4 := rfl
  rw [e, h4] at h
  refine h.trans ?_
  norm_num

/-- **C53, the slope.** The derivatives of the two functions differ by at most `6e-15`. -/
theorem C53_slope {x : ℝ} (h0 : 0 < x) (h1 : x < 1 / 2) :
    |deriv (fun y => padeNum y / padeDen y) x - deriv (fun y => √y * Real.arsinh √y) x| ≤ 6e-15 :=
  Pade.approx_deriv_bound h0 h1

example : |deriv (fun y => padeNum y / padeDen y) 0.1 - deriv (fun y => √y * Real.arsinh √y) 0.1| ≤ 6e-15 :=
  C53_slope (by norm_num) (by norm_num)

/-- **C53, functionals.** Every functional of the table is within the tolerance of the published formula. -/
theorem C53_published {ρ : Field → ℝ} {g : Gas} (h : IsGas ρ g) (id : ℕ) {F : Formula} (hF : published[id]? = some (some F))
    (hd : nearDomain id F (Fun.parOf ρ) g) :
    |((Fun.energy id).getD 0).evalR ρ - F.energy (Fun.parOf ρ) g| ≤ tolerance F (Fun.parOf ρ) g id := by
  rcases hd with hd | ⟨hid, ha, hb⟩ | ⟨hid, ⟨ha, hb⟩, hμ⟩ | ⟨rfl, hμ⟩
  · rw [Fun.energy_published h id hF hd, sub_self, abs_zero]
    unfold tolerance
    split <;> positivity
  · simp only [List.mem_cons, List.not_mem_nil, or_false] at hid
    rcases hid with rfl | rfl | rfl | rfl <;> cases hF
    · exact Fun.close_beckex h ha hb
    · exact Fun.close_beckecorr h ha hb
    · exact Fun.close_pw91x h ha hb
    · exact Fun.close_pw91k h ha hb
  · simp only [List.mem_cons, List.not_mem_nil, or_false] at hid
    rcases hid with rfl | rfl <;> cases hF
    · exact Fun.close_beckesr h ha hb hμ
    · exact Fun.close_beckecam h ha hb hμ
  · cases hF
    exact Fun.close_ldaerfx h hμ

/-- The tolerance of an object. -/
noncomputable def toleranceSum (s : State ℝ) (g : Gas) : ℝ :=
  (s.active.map fun id => |s.settings id| * match published[id]? with
    | some (some F) => tolerance F (parSet s) g id
    | _ => 0).sum

/-- All functionals of the object have a published formula, near which they are for the gas. -/
def NearCovered (s : State ℝ) (g : Gas) : Prop := ∀ id ∈ s.active, ∃ F, published[id]? = some (some F) ∧ nearDomain id F (parSet s) g

theorem abs_sum_sub_le {α : Type*} (l : List α) (f g t : α → ℝ) (h : ∀ i ∈ l, |f i - g i| ≤ t i) :
    |(l.map f).sum - (l.map g).sum| ≤ (l.map t).sum := by
  induction l with
  | nil => simp
  | cons i l ih =>
    simp only [List.map_cons, List.sum_cons]
    rw [add_sub_add_comm]
    exact (abs_add_le _ _).trans (add_le_add (h i List.mem_cons_self) (ih fun j hj => h j (List.mem_cons_of_mem _ hj)))

/-- **C53, `xcfun_eval`.** The energy returned by an object is within its tolerance of the published one. -/
theorem C53_eval (s : State ℝ) {v : Vars} (hv : ¬ Unsupported v) (hA : v ≠ .A ∧ v ≠ .A_GAA) (hD : ¬ Doubled v)
    (hvs : s.vars = some v) (hm : s.mode = PARTIAL_DERIVATIVES) (ho : s.order = 0) {x : ℕ → ℝ}
    (hx : ∀ y ∈ densities (1 / 2) x v, threshold ≤ y) (hs : NearCovered s (gasAt v x)) (junk : Junk ℝ) (out : ℝ) :
    ∃ E, xcfunEval codeKernel junk s ((List.range v.len).map x) [out] = .ok [E] ∧
      |E - publishedSum s (gasAt v x)| ≤ toleranceSum s (gasAt v x) := by
  refine ⟨_, eval_order0 s hv hvs hm ho x junk out, ?_⟩
  rw [energyAt_members s hv]
  have hp := (memberR_derived s.settings hv x).2.2.2.2.2
  have hq : Fun.parOf (memberR s.settings v x) = parSet s := by
    rw [Fun.parOf, hp, hp, hp]; rfl
  refine abs_sum_sub_le _ _ _ _ fun id hid => ?_
  obtain ⟨F, hF, hd⟩ := hs id hid
  have := C53_published (memberR_isGas s.settings hv hA hD hx) id hF (by rw [hq]; exact hd)
  rw [hq] at this
  simp only [publishedEnergy, hF]
  rw [← mul_sub, abs_mul]
  exact mul_le_mul_of_nonneg_left this (abs_nonneg _)

/-- Becke exchange of a gas with small gradients, where the code uses the rational function. -/
example : ∃ s₀ s : State ℝ, run State.init [.set "beckex" 1] = .ok s₀ ∧
    evalSetup s₀ Vars.A_B_GAA_GAB_GBB.code PARTIAL_DERIVATIVES 0 = .ok (0, s) ∧
    ∃ E, xcfunEval codeKernel none s [1, 2, 0.01, 0.003, 0.02] [0] = .ok [E] ∧
      |E - b88X ⟨1, 2, 0.01, 0.003, 0.02, 0, 0⟩| ≤ 1e-16 * |b88X ⟨1, 2, 0.01, 0.003, 0.02, 0, 0⟩| := by
  obtain ⟨s₀, s, hr, hset⟩ : ∃ s₀ s : State ℝ, run State.init [.set "beckex" 1] = .ok s₀ ∧
    evalSetup s₀ Vars.A_B_GAA_GAB_GBB.code PARTIAL_DERIVATIVES 0 = .ok (0, s) := ⟨_, _, rfl, rfl⟩
  refine ⟨s₀, s, hr, hset, ?_⟩
  obtain ⟨e, -⟩ := setup_facts hr hset
  have hl : (lit 0 0 : ℝ) = 0 := by simp [lit, XCFun.Lit.lit]
  have hs₀ : s₀.active = [6] ∧ s₀.settings 6 = lit 0 0 + 1 := by cases hr; exact ⟨rfl, rfl⟩
  have hact : s.active = [6] := by rw [e]; exact hs₀.1
  have h6 : s.settings 6 = 1 := by rw [e]; refine hs₀.2.trans ?_; rw [hl, zero_add]
  obtain ⟨E, hE, hb⟩ := C53_eval s (v := .A_B_GAA_GAB_GBB) (x := inputOf ⟨1, 2, 0.01, 0.003, 0.02, 0, 0⟩) (by decide) (by decide) (by simp [Doubled])
    (by rw [e]) (by rw [e]) (by rw [e])
    (by
      intro y hy
      simp only [densities, densSlots, List.map_cons, List.map_nil, List.mem_cons, List.not_mem_nil, or_false] at hy
      rcases hy with rfl | rfl <;> norm_num [threshold, inputOf])
    (by
      unfold NearCovered; rw [hact]; intro id hid
      simp only [List.mem_cons, List.not_mem_nil, or_false] at hid
      subst hid
      exact ⟨_, rfl, Or.inr (Or.inl ⟨by decide, show (0 : ℝ) ≤ 0.01 by norm_num, show (0 : ℝ) ≤ 0.02 by norm_num⟩)⟩)
    none 0
  refine ⟨E, hE, ?_⟩
  have e1 : publishedSum s (gasAt .A_B_GAA_GAB_GBB (inputOf ⟨1, 2, 0.01, 0.003, 0.02, 0, 0⟩)) =
      b88X ⟨1, 2, 0.01, 0.003, 0.02, 0, 0⟩ := by
    rw [publishedSum, hact, List.map_cons, List.map_nil, List.sum_cons, List.sum_nil, add_zero, h6, one_mul]
    rfl
  have e2 : toleranceSum s (gasAt .A_B_GAA_GAB_GBB (inputOf ⟨1, 2, 0.01, 0.003, 0.02, 0, 0⟩)) =
      1e-16 * |b88X ⟨1, 2, 0.01, 0.003, 0.02, 0, 0⟩| := by
    rw [toleranceSum, hact, List.map_cons, List.map_nil, List.sum_cons, List.sum_nil, add_zero, h6, abs_one, one_mul]
    rfl
  rwa [e1, e2] at hb

end XCFun.Props
