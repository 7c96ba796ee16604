/-
From jets to partial derivatives.
-/
import Mathlib.Analysis.Calculus.Deriv.Pi
import Mathlib.Analysis.Calculus.ContDiff.Basic
import Verif.Proofs.EvalReal

namespace XCFun
open Spec Filter Topology
open scoped ContDiff

section
variable (n : ℕ) (x : ℕ → ℝ)

/-- A point of `ℝ^n`, the other coordinates taken from `x`. -/
def ext (y : Fin n → ℝ) (l : ℕ) : ℝ := if h : l < n then y ⟨l, h⟩ else x l

/-- The first `n` coordinates. -/
def res (i : Fin n) : ℝ := x i

theorem ext_res : ext n x (res n x) = x := by
  funext l
  simp only [ext, res]
  split <;> rfl

theorem ext_update (y : Fin n → ℝ) {i : ℕ} (hi : i < n) (t : ℝ) :
    ext n x (Function.update y ⟨i, hi⟩ t) = Function.update (ext n x y) i t := by
  funext l
  by_cases h : l = i
  · subst h; simp [ext, hi]
  · rw [Function.update_of_ne h]
    simp only [ext]
    split
    · rw [Function.update_of_ne]
      intro h'; exact h (congrArg Fin.val h')
    · rfl

theorem contDiff_ext (l : ℕ) : ContDiff ℝ ∞ (fun y => ext n x y l) := by
  by_cases h : l < n
  · simp only [ext, h, dif_pos]
    exact contDiff_apply ℝ ℝ _
  · simp only [ext, h, dif_neg, not_false_eq_true]
    exact contDiff_const

theorem dirDeriv_ext (d : Fin n → ℝ) (l : ℕ) :
    dirDeriv d (fun y => ext n x y l) = fun _ => if h : l < n then d ⟨l, h⟩ else 0 := by
  funext y
  by_cases h : l < n
  · have : (fun y : Fin n → ℝ => ext n x y l) = fun y => y ⟨l, h⟩ := by
      funext y; simp [ext, h]
    simp only [dirDeriv, this, h, dif_pos]
    have hp : HasFDerivAt (fun y : Fin n → ℝ => y ⟨l, h⟩) _ y :=
      (ContinuousLinearMap.proj (R := ℝ) (φ := fun _ : Fin n => ℝ) ⟨l, h⟩).hasFDerivAt
    rw [hp.fderiv]
    rfl
  · have : (fun y : Fin n → ℝ => ext n x y l) = fun _ => x l := by
      funext y; simp [ext, h]
    simp only [dirDeriv, this, h, dif_neg, not_false_eq_true]
    simp

/-- Unit direction. -/
def udir (i : ℕ) (l : Fin n) : ℝ := if i = l then 1 else 0

theorem dirDeriv_ext_udir (i l : ℕ) (hi : i < n) :
    dirDeriv (udir n i) (fun y => ext n x y l) = fun _ => Spec.unit (some i) l := by
  rw [dirDeriv_ext]
  funext _
  simp only [udir, Spec.unit, Option.some.injEq]
  by_cases h : l < n
  · simp [h]
  · have : ¬ i = l := by omega
    simp [h, this]

theorem dirDeriv_const (d : Fin n → ℝ) (c : ℝ) : dirDeriv d (fun _ => c) = fun _ => 0 := by
  funext y; simp [dirDeriv]

theorem jet_ext1 {i : ℕ} (hi : i < n) (l : ℕ) :
    jet (fun _ => udir n i) (res n x) 1 (fun y => ext n x y l) = seed1 x (some i) l := by
  simp only [jet, dirDeriv_ext_udir n x _ l hi]
  rw [congrFun (ext_res n x) l]; rfl

/-- The directions of a run. -/
def dirs (i j k : ℕ) (q : ℕ) : Fin n → ℝ :=
  if q = 0 then udir n i else if q = 1 then udir n j else udir n k

theorem jet_ext2 {i j : ℕ} (k : ℕ) (hi : i < n) (hj : j < n) (l : ℕ) :
    jet (dirs n i j k) (res n x) 2 (fun y => ext n x y l) = seed2 x (some i) (some j) l := by
  simp only [jet, dirs, if_true, one_ne_zero, if_false, dirDeriv_ext_udir n x _ l hi,
    dirDeriv_ext_udir n x _ l hj, dirDeriv_const]
  rw [congrFun (ext_res n x) l]; rfl

theorem jet_ext3 {i j k : ℕ} (hi : i < n) (hj : j < n) (hk : k < n) (l : ℕ) :
    jet (dirs n i j k) (res n x) 3 (fun y => ext n x y l) =
      seed3 x (some i) (some j) (some k) l := by
  simp only [jet, dirs, if_true, one_ne_zero, if_false, dirDeriv_ext_udir n x _ l hi,
    dirDeriv_ext_udir n x _ l hj, dirDeriv_ext_udir n x _ l hk, dirDeriv_const,
    OfNat.ofNat_ne_zero, OfNat.ofNat_ne_one]
  rw [congrFun (ext_res n x) l]; rfl

theorem dirDeriv_pderiv {f : (ℕ → ℝ) → ℝ} {y : Fin n → ℝ} {i : ℕ} (hi : i < n)
    (h : DifferentiableAt ℝ (fun y => f (ext n x y)) y) :
    dirDeriv (udir n i) (fun y => f (ext n x y)) y = pderiv i f (ext n x y) := by
  have hy : ext n x y i = y ⟨i, hi⟩ := by simp [ext, hi]
  have e : (fun t => f (Function.update (ext n x y) i t)) =
      (fun y => f (ext n x y)) ∘ Function.update y ⟨i, hi⟩ := by
    funext t; simp [ext_update]
  have hu : udir n i = Pi.single ⟨i, hi⟩ (1 : ℝ) := by
    funext l
    simp only [udir, Pi.single_apply]
    congr 1
    simp [Fin.ext_iff, eq_comm]
  rw [pderiv, e, hy]
  have hd := hasDerivAt_update y ⟨i, hi⟩ (y ⟨i, hi⟩)
  have hF : HasFDerivAt (fun y => f (ext n x y)) (fderiv ℝ (fun y => f (ext n x y)) y)
      (Function.update y ⟨i, hi⟩ (y ⟨i, hi⟩)) := by
    rw [Function.update_eq_self]; exact h.hasFDerivAt
  rw [(hF.comp_hasDerivAt _ hd).deriv, dirDeriv, hu]

theorem pderiv_near {f : (ℕ → ℝ) → ℝ} {y : Fin n → ℝ} {i : ℕ} (hi : i < n)
    (h : ContDiffAt ℝ ∞ (fun y => f (ext n x y)) y) :
    (fun y => pderiv i f (ext n x y)) =ᶠ[𝓝 y] dirDeriv (udir n i) (fun y => f (ext n x y)) := by
  refine (smooth_near h).mono fun z hz => ?_
  exact (dirDeriv_pderiv n x hi hz).symm

theorem pderiv_smooth {f : (ℕ → ℝ) → ℝ} {y : Fin n → ℝ} {i : ℕ} (hi : i < n)
    (h : ContDiffAt ℝ ∞ (fun y => f (ext n x y)) y) :
    ContDiffAt ℝ ∞ (fun y => pderiv i f (ext n x y)) y :=
  (smooth_dirDeriv h _).congr_of_eventuallyEq (pderiv_near n x hi h)

theorem pderiv_dir {f : (ℕ → ℝ) → ℝ} {i : ℕ} (hi : i < n)
    (h : ContDiffAt ℝ ∞ (fun y => f (ext n x y)) (res n x)) :
    dirDeriv (udir n i) (fun y => f (ext n x y)) (res n x) = pderiv i f x := by
  have := (pderiv_near n x hi h).eq_of_nhds
  simp only [ext_res] at this
  exact this.symm

theorem pderiv_dir2 {f : (ℕ → ℝ) → ℝ} {i j : ℕ} (hi : i < n) (hj : j < n)
    (h : ContDiffAt ℝ ∞ (fun y => f (ext n x y)) (res n x)) :
    dirDeriv (udir n i) (dirDeriv (udir n j) (fun y => f (ext n x y))) (res n x) =
      pderiv i (pderiv j f) x := by
  rw [← pderiv_dir n x hi (pderiv_smooth n x hj h)]
  exact ((dirDeriv_congr (pderiv_near n x hj h) _).eq_of_nhds).symm

theorem pderiv_dir3 {f : (ℕ → ℝ) → ℝ} {i j k : ℕ} (hi : i < n) (hj : j < n) (hk : k < n)
    (h : ContDiffAt ℝ ∞ (fun y => f (ext n x y)) (res n x)) :
    dirDeriv (udir n i) (dirDeriv (udir n j) (dirDeriv (udir n k) (fun y => f (ext n x y))))
      (res n x) = pderiv i (pderiv j (pderiv k f)) x := by
  rw [← pderiv_dir2 n x hi hj (pderiv_smooth n x hk h)]
  exact ((dirDeriv_congr (dirDeriv_congr (pderiv_near n x hk h) _) _).eq_of_nhds).symm

variable {n x}

theorem ext_smooth {e : Expr ℕ} (h : e.Reg x) :
    ContDiffAt ℝ ∞ (fun y => e.evalR (ext n x y)) (res n x) := by
  refine Expr.evalR_smooth (fun l y => ext n x y l) (fun l => (contDiff_ext n x l).contDiffAt) e ?_
  simpa [ext_res] using h

theorem evalCT_ext {e : Expr ℕ} (h : e.Reg x) {N : ℕ} (hN : N ≤ 6) (d : ℕ → Fin n → ℝ) :
    e.evalCT (fun l => jet d (res n x) N (fun y => ext n x y l)) =
      jet d (res n x) N (fun y => e.evalR (ext n x y)) := by
  refine Expr.evalCT_jet hN (fun l y => ext n x y l) (fun l => (contDiff_ext n x l).contDiffAt) e ?_
  simpa [ext_res] using h

theorem coef1_pderiv {e : Expr ℕ} (h : e.Reg x) {i : ℕ} (hi : i < n) :
    (e.evalCT (seed1 x (some i))).get 1 = pderiv i (fun ρ => e.evalR ρ) x := by
  have := evalCT_ext (n := n) h (N := 1) (by omega) (fun _ => udir n i)
  simp only [jet_ext1 n x hi] at this
  rw [this]
  exact pderiv_dir n x (f := fun ρ => e.evalR ρ) hi (ext_smooth h)

theorem coef2_pderiv {e : Expr ℕ} (h : e.Reg x) {i j : ℕ} (hi : i < n) (hj : j < n) :
    (e.evalCT (seed2 x (some i) (some j))).get 3 = pderiv i (pderiv j (fun ρ => e.evalR ρ)) x := by
  have := evalCT_ext (n := n) h (N := 2) (by omega) (dirs n i j 0)
  simp only [jet_ext2 n x 0 hi hj] at this
  rw [this]
  exact pderiv_dir2 n x (f := fun ρ => e.evalR ρ) hi hj (ext_smooth h)

theorem coef3_pderiv {e : Expr ℕ} (h : e.Reg x) {i j k : ℕ} (hi : i < n) (hj : j < n) (hk : k < n) :
    (e.evalCT (seed3 x (some i) (some j) (some k))).get 7 =
      pderiv i (pderiv j (pderiv k (fun ρ => e.evalR ρ))) x := by
  have := evalCT_ext (n := n) h (N := 3) (by omega) (dirs n i j k)
  simp only [jet_ext3 n x hi hj hk] at this
  rw [this]
  exact pderiv_dir3 n x (f := fun ρ => e.evalR ρ) hi hj hk (ext_smooth h)

end

end XCFun
