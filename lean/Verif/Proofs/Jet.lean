/-
Jets turn sums, products and compositions of smooth functions into the ctaylor
operations.
-/
import Verif.Spec.Jet
import Verif.Spec.Taylor
import Verif.Proofs.CT
import Mathlib.Analysis.Calculus.IteratedDeriv.Lemmas
import Mathlib.Analysis.Calculus.ContDiff.Basic
import Mathlib.Analysis.Calculus.ContDiff.Operations
import Mathlib.Analysis.Calculus.FDeriv.Mul
import Mathlib.Analysis.Calculus.FDeriv.Add
import Mathlib.Analysis.Calculus.FDeriv.Comp

namespace XCFun
open Spec Filter Topology
open scoped Nat ContDiff

variable {E : Type*} [NormedAddCommGroup E] [NormedSpace ℝ E] {d : ℕ → E} {x : E}

theorem smooth_near {f : E → ℝ} (h : ContDiffAt ℝ ∞ f x) :
    ∀ᶠ y in 𝓝 x, DifferentiableAt ℝ f y := by
  have h1 : ContDiffAt ℝ 1 f x := h.of_le (by exact_mod_cast le_top)
  exact (h1.eventually (by simp)).mono fun y hy => hy.differentiableAt (by simp)

theorem smooth_dirDeriv {f : E → ℝ} (h : ContDiffAt ℝ ∞ f x) (v : E) :
    ContDiffAt ℝ ∞ (dirDeriv v f) x := by
  have := h.fderiv_right (m := ∞) (by simp)
  exact this.clm_apply contDiffAt_const

theorem dirDeriv_congr {f g : E → ℝ} (h : f =ᶠ[𝓝 x] g) (v : E) :
    dirDeriv v f =ᶠ[𝓝 x] dirDeriv v g :=
  (h.fderiv (𝕜 := ℝ)).mono fun y hy => by simp only [dirDeriv, hy]

theorem jet_congr {N : ℕ} {f g : E → ℝ} (h : f =ᶠ[𝓝 x] g) : jet d x N f = jet d x N g := by
  induction N generalizing f g with
  | zero => simp only [jet, h.eq_of_nhds]
  | succ N ih => simp only [jet, ih h, ih (dirDeriv_congr h _)]

theorem jet_const (N : ℕ) (c : ℝ) : jet d x N (fun _ => c) = CT.const N c := by
  have zero : ∀ N, jet d x N (fun _ => (0 : ℝ)) = 0 := by
    intro N
    induction N with
    | zero => rfl
    | succ N ih =>
      have : dirDeriv (d N) (fun _ : E => (0 : ℝ)) = fun _ => 0 := by
        funext y; simp [dirDeriv]
      rw [jet, this, ih]; rfl
  induction N with
  | zero => rfl
  | succ N ih =>
    have : dirDeriv (d N) (fun _ : E => c) = fun _ => 0 := by funext y; simp [dirDeriv]
    rw [jet, this, ih, zero]; simp

theorem jet_add {N : ℕ} {f g : E → ℝ} (hf : ContDiffAt ℝ ∞ f x) (hg : ContDiffAt ℝ ∞ g x) :
    jet d x N (fun y => f y + g y) = jet d x N f + jet d x N g := by
  induction N generalizing f g with
  | zero => simp [jet]
  | succ N ih =>
    have e : dirDeriv (d N) (fun y => f y + g y) =ᶠ[𝓝 x]
        fun y => dirDeriv (d N) f y + dirDeriv (d N) g y := by
      filter_upwards [smooth_near hf, smooth_near hg] with y h1 h2
      simp only [dirDeriv]; rw [fderiv_fun_add h1 h2]; rfl
    simp only [jet]
    rw [ih hf hg, jet_congr e, ih (smooth_dirDeriv hf _) (smooth_dirDeriv hg _)]
    simp

theorem jet_mul {N : ℕ} {f g : E → ℝ} (hf : ContDiffAt ℝ ∞ f x) (hg : ContDiffAt ℝ ∞ g x) :
    jet d x N (fun y => f y * g y) = jet d x N f * jet d x N g := by
  induction N generalizing f g with
  | zero => simp [jet]
  | succ N ih =>
    have e : dirDeriv (d N) (fun y => f y * g y) =ᶠ[𝓝 x]
        fun y => dirDeriv (d N) f y * g y + f y * dirDeriv (d N) g y := by
      filter_upwards [smooth_near hf, smooth_near hg] with y h1 h2
      simp only [dirDeriv]; rw [fderiv_fun_mul h1 h2]
      simp; ring
    have hf' := smooth_dirDeriv hf (d N)
    have hg' := smooth_dirDeriv hg (d N)
    simp only [jet]
    rw [ih hf hg, jet_congr e, jet_add (hf'.mul hg) (hf.mul hg'), ih hf' hg, ih hf hg']
    simp

theorem jet_neg {N : ℕ} {f : E → ℝ} (hf : ContDiffAt ℝ ∞ f x) :
    jet d x N (fun y => -f y) = -jet d x N f := by
  have h := jet_mul (d := d) (N := N) (contDiffAt_const (c := (-1 : ℝ))) hf
  rw [jet_const, ← CT.constHom_apply, map_neg, map_one] at h
  simpa using h

theorem jet_sub {N : ℕ} {f g : E → ℝ} (hf : ContDiffAt ℝ ∞ f x) (hg : ContDiffAt ℝ ∞ g x) :
    jet d x N (fun y => f y - g y) = jet d x N f - jet d x N g := by
  have h := jet_add (d := d) (N := N) hf hg.neg
  rw [jet_neg hg] at h
  simpa [sub_eq_add_neg] using h

theorem jet_c0 (N : ℕ) (f : E → ℝ) : (jet d x N f).c0 = f x := by
  induction N generalizing f with
  | zero => rfl
  | succ N ih => exact ih f

theorem smooth_deriv {g : ℝ → ℝ} {u : ℝ} (h : ContDiffAt ℝ ∞ g u) : ContDiffAt ℝ ∞ (deriv g) u := by
  have := smooth_dirDeriv h (1 : ℝ)
  exact this

/-- The chain rule: composing with the Taylor coefficients of `g`. -/
theorem jet_comp {N : ℕ} {f : E → ℝ} {g : ℝ → ℝ} (hf : ContDiffAt ℝ ∞ f x)
    (hg : ContDiffAt ℝ ∞ g (f x)) :
    jet d x N (fun y => g (f y)) =
      CT.compose (jet d x N f) (fun i => iteratedDeriv i g (f x) / i !) := by
  induction N generalizing f g with
  | zero => simp [jet, CT.compose_leaf]
  | succ N ih =>
    have e : dirDeriv (d N) (fun y => g (f y)) =ᶠ[𝓝 x]
        fun y => deriv g (f y) * dirDeriv (d N) f y := by
      have hgn : ∀ᶠ y in 𝓝 x, DifferentiableAt ℝ g (f y) :=
        hf.continuousAt.eventually (smooth_near hg)
      filter_upwards [smooth_near hf, hgn] with y h1 h2
      simp only [dirDeriv]
      have := (h2.hasDerivAt.comp_hasFDerivAt y h1.hasFDerivAt).fderiv
      rw [show (fun y => g (f y)) = g ∘ f from rfl, this]; simp
    have hf' := smooth_dirDeriv hf (d N)
    have hg' := smooth_deriv hg
    simp only [jet]
    rw [ih hf hg, jet_congr e, jet_mul (f := fun y => deriv g (f y)) (hg'.comp x hf) hf', ih hf hg', CT.compose_node]
    congr 2
    apply CT.compose_congr
    intro i _
    rw [← iteratedDeriv_succ', Nat.factorial_succ]
    have : (i ! : ℝ) ≠ 0 := by exact_mod_cast i.factorial_ne_zero
    have : ((i + 1 : ℕ) : ℝ) ≠ 0 := by positivity
    push_cast at *
    field_simp

end XCFun
