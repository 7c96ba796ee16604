/-
Spatial derivatives of derivatives of an expression along a field of inputs.
-/
import Mathlib.Analysis.Calculus.FDeriv.Symmetric
import Verif.Proofs.Partials
import Verif.Spec.Field

namespace XCFun
open Spec Filter Topology
open scoped ContDiff

section
variable {ι : Type} [Fintype ι] [DecidableEq ι]

theorem pderiv_eq_dir {f : (ι → ℝ) → ℝ} {x : ι → ℝ} (h : DifferentiableAt ℝ f x) (i : ι) :
    pderiv i f x = dirDeriv (Pi.single i 1) f x := by
  have hd := hasDerivAt_update x i (x i)
  have hF : HasFDerivAt f (fderiv ℝ f x) (Function.update x i (x i)) := by
    rw [Function.update_eq_self]; exact h.hasFDerivAt
  exact (hF.comp_hasDerivAt _ hd).deriv

theorem pderiv_near' {f : (ι → ℝ) → ℝ} {x : ι → ℝ} (h : ContDiffAt ℝ ∞ f x) (i : ι) :
    pderiv i f =ᶠ[𝓝 x] dirDeriv (Pi.single i 1) f :=
  (smooth_near h).mono fun _ hy => pderiv_eq_dir hy i

theorem pderiv_smooth' {f : (ι → ℝ) → ℝ} {x : ι → ℝ} (h : ContDiffAt ℝ ∞ f x) (i : ι) :
    ContDiffAt ℝ ∞ (pderiv i f) x :=
  (smooth_dirDeriv h _).congr_of_eventuallyEq (pderiv_near' h i)

theorem smooth_diff {E : Type*} [NormedAddCommGroup E] [NormedSpace ℝ E] {f : E → ℝ} {x : E}
    (h : ContDiffAt ℝ ∞ f x) : DifferentiableAt ℝ f x := (smooth_near h).self_of_nhds

theorem pderiv_congr {f g : (ι → ℝ) → ℝ} {x : ι → ℝ} (h : f =ᶠ[𝓝 x] g) (i : ι) :
    pderiv i f x = pderiv i g x := by
  unfold pderiv
  refine Filter.EventuallyEq.deriv_eq ?_
  have hc : Tendsto (fun t => Function.update x i t) (𝓝 (x i)) (𝓝 x) := by
    have := (continuous_const.update i continuous_id : Continuous fun t : ℝ => Function.update x i t).tendsto (x i)
    simpa using this
  exact hc.eventually h

theorem dirDeriv_comm {E : Type*} [NormedAddCommGroup E] [NormedSpace ℝ E] {f : E → ℝ} {x : E}
    (h : ContDiffAt ℝ ∞ f x) (u w : E) :
    dirDeriv u (dirDeriv w f) x = dirDeriv w (dirDeriv u f) x := by
  have hs : IsSymmSndFDerivAt ℝ f x := h.isSymmSndFDerivAt (by simp only [minSmoothness_of_isRCLikeNormedField]; exact WithTop.coe_le_coe.2 le_top)
  have hd : DifferentiableAt ℝ (fderiv ℝ f) x :=
    (h.fderiv_right (m := ∞) (by simp)).differentiableAt (by simp)
  have key : ∀ a b : E, dirDeriv a (dirDeriv b f) x = fderiv ℝ (fderiv ℝ f) x a b := by
    intro a b
    have h1 := (hd.hasFDerivAt.clm_apply (hasFDerivAt_const b x)).fderiv
    have : dirDeriv b f = fun y => fderiv ℝ f y b := rfl
    rw [this, dirDeriv, h1]
    simp
  rw [key, key]
  exact hs u w

theorem pderiv_comm {f : (ι → ℝ) → ℝ} {x : ι → ℝ} (h : ContDiffAt ℝ ∞ f x) (i j : ι) :
    pderiv i (pderiv j f) x = pderiv j (pderiv i f) x := by
  rw [pderiv_eq_dir (smooth_diff (pderiv_smooth' h j)), pderiv_eq_dir (smooth_diff (pderiv_smooth' h i)),
    (dirDeriv_congr (pderiv_near' h j) _).eq_of_nhds, (dirDeriv_congr (pderiv_near' h i) _).eq_of_nhds,
    dirDeriv_comm h]

end

/-- One run of the potential: along the direction `c` in space and along input `g`. -/
theorem mixed_pderiv {e : Expr ℕ} {inp : Space → ℕ → ℝ} {r : Space} (hs : ∀ l, ContDiffAt ℝ ∞ (fun r => inp r l) r)
    (hr : e.Reg (inp r)) (c : Fin 3) (g : ℕ) :
    (e.evalCT (fun l => .node (.node (.leaf (inp r l)) (.leaf (pderiv c (fun r => inp r l) r)))
      (.node (.leaf (unit (some g) l)) (.leaf 0)))).get 3 =
      pderiv c (fun r' => pderiv g (fun x => e.evalR x) (inp r')) r := by
  let u : ℕ → Space × ℝ → ℝ := fun l p => inp p.1 l + p.2 * unit (some g) l
  have hu : ∀ l, ContDiffAt ℝ ∞ (u l) (r, 0) := by
    intro l
    refine ContDiffAt.add ?_ (contDiffAt_snd.mul contDiffAt_const)
    exact ContDiffAt.comp (g := fun r => inp r l) (r, (0:ℝ)) (hs l) contDiffAt_fst
  have hu0 : (fun l => u l (r, 0)) = inp r := by funext l; simp [u]
  let d : ℕ → Space × ℝ := fun k => if k = 0 then (Pi.single c 1, 0) else (0, 1)
  have hreg : e.Reg (fun l => u l (r, 0)) := by rw [hu0]; exact hr
  have hj := Expr.evalCT_jet (N := 2) (by omega) (d := d) (x := (r, (0:ℝ))) u hu e hreg
  have hsm := Expr.evalR_smooth u hu e hreg
  -- derivatives of the inputs
  have hd1 : ∀ l, ∀ᶠ p in 𝓝 (r, (0:ℝ)), dirDeriv (d 1) (u l) p = unit (some g) l := by
    intro l
    have h1 : ∀ᶠ p in 𝓝 (r, (0:ℝ)), DifferentiableAt ℝ (fun p : Space × ℝ => inp p.1 l) p :=
      smooth_near (ContDiffAt.comp (g := fun r => inp r l) (r, (0:ℝ)) (hs l) contDiffAt_fst)
    have h0 : ∀ᶠ r' in 𝓝 r, DifferentiableAt ℝ (fun r => inp r l) r' := smooth_near (hs l)
    have h0' : ∀ᶠ p in 𝓝 (r, (0:ℝ)), DifferentiableAt ℝ (fun r => inp r l) p.1 :=
      continuousAt_fst.eventually h0
    refine h0'.mono fun p hp => ?_
    have e1 : HasFDerivAt (fun p : Space × ℝ => inp p.1 l)
        ((fderiv ℝ (fun r => inp r l) p.1).comp (ContinuousLinearMap.fst ℝ Space ℝ)) p :=
      HasFDerivAt.comp (g := fun r => inp r l) p hp.hasFDerivAt hasFDerivAt_fst
    have e2 : HasFDerivAt (fun p : Space × ℝ => p.2 * unit (some g) l) _ p :=
      HasFDerivAt.mul_const (hasFDerivAt_snd (𝕜 := ℝ)) (unit (some g) l)
    rw [dirDeriv, show fderiv ℝ (u l) _ = _ from (e1.add e2).fderiv]
    simp [d]
  have hd0 : ∀ l, dirDeriv (d 0) (u l) (r, 0) = pderiv c (fun r => inp r l) r := by
    intro l
    have hp := smooth_diff (hs l)
    have e1 : HasFDerivAt (fun p : Space × ℝ => inp p.1 l)
        ((fderiv ℝ (fun r => inp r l) r).comp (ContinuousLinearMap.fst ℝ Space ℝ)) (r, (0:ℝ)) :=
      HasFDerivAt.comp (g := fun r => inp r l) (r, (0:ℝ)) hp.hasFDerivAt hasFDerivAt_fst
    have e2 : HasFDerivAt (fun p : Space × ℝ => p.2 * unit (some g) l) _ (r, (0:ℝ)) :=
      HasFDerivAt.mul_const (hasFDerivAt_snd (𝕜 := ℝ)) (unit (some g) l)
    rw [dirDeriv, show fderiv ℝ (u l) _ = _ from (e1.add e2).fderiv, pderiv_eq_dir hp, dirDeriv]
    simp [d]
  have hjet : ∀ l, jet d (r, (0:ℝ)) 2 (u l) = .node (.node (.leaf (inp r l)) (.leaf (pderiv c (fun r => inp r l) r)))
      (.node (.leaf (unit (some g) l)) (.leaf 0)) := by
    intro l
    have h2 : dirDeriv (d 0) (dirDeriv (d 1) (u l)) (r, (0:ℝ)) = 0 := by
      rw [(dirDeriv_congr (g := fun _ => unit (some g) l) (hd1 l) (d 0)).eq_of_nhds]
      simp [dirDeriv]
    simp only [jet, h2, hd0, (hd1 l).self_of_nhds]
    congr 3
    exact congrFun hu0 l
  simp only [hjet] at hj
  rw [hj]
  change dirDeriv (d 0) (dirDeriv (d 1) (fun p => e.evalR fun l => u l p)) (r, 0) = _
  -- the inner derivative
  have hin : ∀ᶠ r' in 𝓝 r, dirDeriv (d 1) (fun p => e.evalR fun l => u l p) (r', 0) =
      pderiv g (fun x => e.evalR x) (inp r') := by
    have hc : Tendsto (fun r' : Space => (r', (0:ℝ))) (𝓝 r) (𝓝 (r, 0)) :=
      (Continuous.prodMk continuous_id continuous_const).tendsto r
    refine (hc.eventually (smooth_near hsm)).mono fun r' hd => ?_
    have hl : HasDerivAt (fun t : ℝ => ((r', t - inp r' g) : Space × ℝ)) (d 1) (inp r' g) := by
      have := (hasDerivAt_const (inp r' g) r').prodMk ((hasDerivAt_id (inp r' g)).sub_const (inp r' g))
      simpa [d] using this
    have hF : HasFDerivAt (fun p => e.evalR fun l => u l p) (fderiv ℝ (fun p => e.evalR fun l => u l p) (r', 0))
        (r', inp r' g - inp r' g) := by rw [sub_self]; exact hd.hasFDerivAt
    have := (HasFDerivAt.comp_hasDerivAt (inp r' g) hF hl).deriv
    rw [dirDeriv, ← this, pderiv]
    congr 1
    funext t
    simp only [Function.comp_apply]
    congr 1
    funext l
    by_cases h : l = g
    · subst h; simp [u, unit]
    · rw [Function.update_of_ne h]
      have : ¬ g = l := fun h' => h h'.symm
      simp [u, unit, this]
  have hG := smooth_diff (smooth_dirDeriv hsm (d 1))
  have hG0 : DifferentiableAt ℝ (fun r' : Space => dirDeriv (d 1) (fun p => e.evalR fun l => u l p) (r', (0:ℝ))) r :=
    DifferentiableAt.comp (g := dirDeriv (d 1) (fun p => e.evalR fun l => u l p)) r hG
      (differentiableAt_id.prodMk (differentiableAt_const _))
  rw [← pderiv_congr hin, pderiv_eq_dir hG0, dirDeriv, dirDeriv]
  have hp : HasFDerivAt (fun r' : Space => (r', (0:ℝ))) (ContinuousLinearMap.inl ℝ Space ℝ) r := by
    have := (hasFDerivAt_id (𝕜 := ℝ) r).prodMk (hasFDerivAt_const (0:ℝ) r)
    exact this
  have := (HasFDerivAt.comp r hG.hasFDerivAt hp).fderiv
  change _ = (fderiv ℝ ((dirDeriv (d 1) (fun p => e.evalR fun l => u l p)) ∘ fun r' : Space => (r', (0:ℝ))) r) _
  rw [this]
  simp [d]

theorem expansion_smooth {ρ : Space → ℝ} {r : Space} (h : ContDiffAt ℝ ∞ ρ r) (l : ℕ) :
    ContDiffAt ℝ ∞ (fun r => expansion ρ r l) r := by
  have h1 := fun i => pderiv_smooth' h i
  have h2 := fun i j => pderiv_smooth' (h1 j) i
  match l with
  | 0 => exact h
  | 1 => exact h1 0
  | 2 => exact h1 1
  | 3 => exact h1 2
  | 4 => exact h2 0 0
  | 5 => exact h2 0 1
  | 6 => exact h2 0 2
  | 7 => exact h2 1 1
  | 8 => exact h2 1 2
  | 9 => exact h2 2 2
  | n + 10 => exact contDiffAt_const

theorem expansion2_smooth {a b : Space → ℝ} {r : Space} (ha : ContDiffAt ℝ ∞ a r) (hb : ContDiffAt ℝ ∞ b r) (l : ℕ) :
    ContDiffAt ℝ ∞ (fun r => expansion2 a b r l) r := by
  by_cases h : l < 10
  · simp only [expansion2, h, if_true]; exact expansion_smooth ha l
  · simp only [expansion2, h, if_false]; exact expansion_smooth hb _

/-- The position table of the spatial derivatives of density and gradient. -/
def dirTab (c : Fin 3) : ℕ × ℕ × ℕ × ℕ := if c = 0 then dirX else if c = 1 then dirY else dirZ

theorem expansion_dpos {ρ : Space → ℝ} {r : Space} (h : ContDiffAt ℝ ∞ ρ r) (c : Fin 3) {l : ℕ} (hl : l < 4) :
    expansion ρ r (dpos (dirTab c) l) = pderiv c (fun r => expansion ρ r l) r := by
  have hc := fun i j => pderiv_comm h i j
  fin_cases c <;> interval_cases l <;> first | rfl | exact hc _ _

end XCFun
