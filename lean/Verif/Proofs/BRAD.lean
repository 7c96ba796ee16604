/-
The automatic differentiation theorem for expressions with the Becke-Roussel solver.
-/
import Verif.Proofs.BRTaylor
import Verif.Proofs.AD
import Verif.Proofs.Path
import Verif.Proofs.EvalReal

namespace XCFun
open Spec Filter Topology
open scoped Nat ContDiff

namespace Expr
variable {ι : Type}

theorem evalNear_prim {p : Prim} (hp : p ≠ .br) (x₀ x : ι → ℝ) (a : Expr ι) :
    (prim p a).evalNear x₀ x = p.fn (a.evalNear x₀ x) := by
  cases p <;> first | rfl | exact absurd rfl hp

theorem evalNear_br (x₀ x : ι → ℝ) (a : Expr ι) :
    (prim .br a).evalNear x₀ x = holeRoot (a.evalNear x₀ x + solverResidual (a.evalR x₀)) := rfl

/-- At the base point itself the value is the code's. -/
theorem evalNear_self (x : ι → ℝ) (e : Expr ι) : e.evalNear x x = e.evalR x := by
  induction e with
  | var i => rfl
  | lit c => rfl
  | add a b iha ihb => simp only [evalNear, evalR, iha, ihb]
  | sub a b iha ihb => simp only [evalNear, evalR, iha, ihb]
  | mul a b iha ihb => simp only [evalNear, evalR, iha, ihb]
  | neg a iha => simp only [evalNear, evalR, iha]
  | prim p a iha =>
    by_cases hp : p = .br
    · subst hp; rw [evalNear_br, iha, BR.root_residual]; rfl
    · rw [evalNear_prim hp, iha]; rfl
  | reg a iha => simp only [evalNear, evalR, iha]
  | iflt a b c d iha ihb ihc ihd => simp only [evalNear, evalR, iha, ihb, ihc, ihd]

theorem RegBR_of_Reg {ρ : ι → ℝ} {e : Expr ι} (h : e.Reg ρ) : e.RegBR ρ := by
  induction e with
  | var i => trivial
  | lit c => trivial
  | add a b iha ihb => exact ⟨iha h.1, ihb h.2⟩
  | sub a b iha ihb => exact ⟨iha h.1, ihb h.2⟩
  | mul a b iha ihb => exact ⟨iha h.1, ihb h.2⟩
  | neg a iha => exact iha h
  | prim p a iha => exact ⟨iha h.1, .inr h.2⟩
  | reg a iha => exact ⟨iha h.1, h.2⟩
  | iflt a b c d iha ihb ihc ihd =>
    obtain ⟨h1, h2, h3, h4⟩ := h
    refine ⟨iha h1, ihb h2, h3, ?_⟩
    split_ifs at h4 ⊢
    · exact ihc h4
    · exact ihd h4


variable {E : Type*} [NormedAddCommGroup E] [NormedSpace ℝ E]

theorem evalNear_smooth {x : E} (ρ : ι → E → ℝ) (hρ : ∀ i, ContDiffAt ℝ ∞ (ρ i) x)
    (e : Expr ι) (h : e.RegBR (fun i => ρ i x)) :
    ContDiffAt ℝ ∞ (fun y => e.evalNear (fun i => ρ i x) (fun i => ρ i y)) x := by
  induction e with
  | var i => exact hρ i
  | lit c => exact contDiffAt_const
  | add a b iha ihb => exact (iha h.1).add (ihb h.2)
  | sub a b iha ihb => exact (iha h.1).sub (ihb h.2)
  | mul a b iha ihb => exact (iha h.1).mul (ihb h.2)
  | neg a iha => exact (iha h).neg
  | prim p a iha =>
    by_cases hp : p = .br
    · subst hp
      have := BR.br_smooth (a.evalR fun i => ρ i x)
      rw [← evalNear_self] at this
      simp only [evalNear_br]
      rw [← evalNear_self]
      exact ContDiffAt.comp (g := fun u => holeRoot (u + solverResidual (a.evalNear (fun i => ρ i x) fun i => ρ i x))) x this (iha h.1)
    · simp only [evalNear_prim hp]
      have hd := h.2.resolve_left hp
      rw [← evalNear_self] at hd
      exact (p.smooth hd).comp x (iha h.1)
  | reg a iha =>
    have hc := (iha h.1).continuousAt
    have h2 := h.2
    rw [← evalNear_self] at h2
    have hev : ∀ᶠ y in 𝓝 x, (1e-14 : ℝ) < a.evalNear (fun i => ρ i x) (fun i => ρ i y) :=
      hc.eventually (lt_mem_nhds h2)
    refine (iha h.1).congr_of_eventuallyEq (hev.mono fun y hy => ?_)
    simp only [evalNear]; rw [if_neg (not_lt.2 hy.le)]
  | iflt u v a b ihu ihv iha ihb =>
    obtain ⟨hu, hv, hne, hab⟩ := h
    have cu := (ihu hu).continuousAt
    have cv := (ihv hv).continuousAt
    rw [← evalNear_self, ← evalNear_self _ v] at hne
    simp only [← evalNear_self (fun i => ρ i x) u, ← evalNear_self (fun i => ρ i x) v] at hab
    rcases lt_or_gt_of_ne hne with hlt | hgt
    · rw [if_pos hlt] at hab
      refine (iha hab).congr_of_eventuallyEq ((cu.eventually_lt cv hlt).mono fun y hy => ?_)
      simp only [evalNear]; rw [if_pos hy]
    · rw [if_neg (not_lt.2 hgt.le)] at hab
      refine (ihb hab).congr_of_eventuallyEq ((cv.eventually_lt cu hgt).mono fun y hy => ?_)
      simp only [evalNear]; rw [if_neg (not_lt.2 hy.le)]

/-- Evaluating on jets computes the jet of the function with exact, shifted solutions. -/
theorem evalCT_jet_near {N : ℕ} (hN : N ≤ 6) {d : ℕ → E} {x : E} (ρ : ι → E → ℝ)
    (hρ : ∀ i, ContDiffAt ℝ ∞ (ρ i) x) (e : Expr ι) (h : e.RegBR (fun i => ρ i x)) :
    e.evalCT (fun i => jet d x N (ρ i)) = jet d x N (fun y => e.evalNear (fun i => ρ i x) (fun i => ρ i y)) := by
  induction e with
  | var i => rfl
  | lit c => exact (jet_const N c).symm
  | add a b iha ihb =>
    simp only [evalCT]
    rw [iha h.1, ihb h.2, ← jet_add (evalNear_smooth ρ hρ a h.1) (evalNear_smooth ρ hρ b h.2)]
    rfl
  | sub a b iha ihb =>
    simp only [evalCT]
    rw [iha h.1, ihb h.2, ← jet_sub (evalNear_smooth ρ hρ a h.1) (evalNear_smooth ρ hρ b h.2)]
    rfl
  | mul a b iha ihb =>
    simp only [evalCT]
    rw [iha h.1, ihb h.2, ← jet_mul (evalNear_smooth ρ hρ a h.1) (evalNear_smooth ρ hρ b h.2)]
    rfl
  | neg a iha =>
    simp only [evalCT]
    rw [iha h, ← jet_neg (evalNear_smooth ρ hρ a h)]
    rfl
  | prim p a iha =>
    simp only [evalCT]
    rw [iha h.1, CT.prim, jet_c0]
    by_cases hp : p = .br
    · subst hp
      have := BR.br_smooth (a.evalR fun i => ρ i x)
      rw [← evalNear_self] at this
      have := jet_comp (d := d) (N := N) (evalNear_smooth ρ hρ a h.1) this
      simp only [evalNear_br]
      rw [← evalNear_self (fun i => ρ i x) a, this]
      exact CT.compose_congr _ fun i hi => BR.br_isTaylor hN _ i hi
    · have hd := h.2.resolve_left hp
      rw [← evalNear_self] at hd
      have := jet_comp (d := d) (N := N) (evalNear_smooth ρ hρ a h.1) (p.smooth hd)
      simp only [evalNear_prim hp]
      rw [this]
      exact CT.compose_congr _ fun i hi => p.isTaylor hN hd i hi
  | reg a iha =>
    simp only [evalCT]
    have h2 := h.2
    rw [← evalNear_self] at h2
    rw [iha h.1, CT.regularize, jet_c0, if_neg (not_lt.2 h2.le)]
    refine jet_congr ?_
    have hc := (evalNear_smooth ρ hρ a h.1).continuousAt
    have hev : ∀ᶠ y in 𝓝 x, (1e-14 : ℝ) < a.evalNear (fun i => ρ i x) (fun i => ρ i y) :=
      hc.eventually (lt_mem_nhds h2)
    exact hev.mono fun y hy => by simp only [evalNear]; rw [if_neg (not_lt.2 hy.le)]
  | iflt u v a b ihu ihv iha ihb =>
    obtain ⟨hu, hv, hne, hab⟩ := h
    have cu := (evalNear_smooth ρ hρ u hu).continuousAt
    have cv := (evalNear_smooth ρ hρ v hv).continuousAt
    rw [← evalNear_self, ← evalNear_self _ v] at hne
    simp only [← evalNear_self (fun i => ρ i x) u, ← evalNear_self (fun i => ρ i x) v] at hab
    simp only [evalCT]
    rw [ihu hu, ihv hv, jet_c0, jet_c0]
    rcases lt_or_gt_of_ne hne with hlt | hgt
    · rw [if_pos hlt] at hab ⊢
      rw [iha hab]
      exact jet_congr ((cu.eventually_lt cv hlt).mono fun y hy => by simp only [evalNear]; rw [if_pos hy])
    · rw [if_neg (not_lt.2 hgt.le)] at hab ⊢
      rw [ihb hab]
      exact jet_congr ((cv.eventually_lt cu hgt).mono fun y hy => by
        simp only [evalNear]; rw [if_neg (not_lt.2 hy.le)])

end Expr
end XCFun
