/-
The automatic differentiation theorem: evaluating an expression on jets gives the jet
of its real value; and evaluation commutes with homomorphisms of expansions.
-/
import Verif.Proofs.CTMath

namespace XCFun
open Spec Filter Topology
open scoped Nat ContDiff

namespace CT

/-- Homomorphisms between expansions that keep scalars; such a map sets perturbations
    to zero, renames or identifies them. -/
structure Hom (N M : ℕ) where
  toRingHom : CT ℝ N →+* CT ℝ M
  const : ∀ c, toRingHom (CT.const N c) = CT.const M c
  c0 : ∀ t, (toRingHom t).c0 = t.c0

@[simp] theorem c0_compose {N : ℕ} (t : CT ℝ N) (c : ℕ → ℝ) : (t.compose c).c0 = c 0 := by
  induction t generalizing c with
  | leaf a => rfl
  | node l h ihl _ => rw [compose_node]; exact ihl c

theorem hom_prim {N M : ℕ} (hN : N ≤ 6) (hM : M ≤ 6) (η : Hom N M) (p : Prim) (t : CT ℝ N) :
    η.toRingHom (t.prim p) = (η.toRingHom t).prim p := by
  have hx : η.toRingHom (t - CT.const N t.c0) = η.toRingHom t - CT.const M t.c0 := by
    rw [map_sub, η.const]
  have big : ∀ i, N < i → (η.toRingHom t - CT.const M t.c0) ^ i = 0 := by
    intro i hi
    rw [← hx, ← map_pow]
    obtain ⟨j, rfl⟩ : ∃ j, i = N + 1 + j := ⟨i - (N + 1), by omega⟩
    rw [pow_add, CT.pow_succ_eq_zero (t - CT.const N t.c0) (by simp), zero_mul, map_zero]
  have big' : ∀ i, M < i → (η.toRingHom t - CT.const M t.c0) ^ i = 0 := by
    intro i hi
    obtain ⟨j, rfl⟩ : ∃ j, i = M + 1 + j := ⟨i - (M + 1), by omega⟩
    rw [pow_add, CT.pow_succ_eq_zero (η.toRingHom t - CT.const M t.c0) (by simp [η.c0]), zero_mul]
  rw [CT.prim, CT.prim, CT.compose_eq_sum, CT.compose_eq_sum, map_sum, η.c0]
  have lhs : ∑ i ∈ Finset.range (N + 1), η.toRingHom (CT.const N (p.coef N t.c0 i) * (t - CT.const N t.c0) ^ i)
      = ∑ i ∈ Finset.range (N + 1), CT.const M (p.coef N t.c0 i) * (η.toRingHom t - CT.const M t.c0) ^ i := by
    refine Finset.sum_congr rfl fun i _ => ?_
    rw [map_mul, map_pow, hx, η.const]
  rw [lhs]
  rcases le_total N M with h | h
  · refine Finset.sum_subset_zero_on_sdiff (fun i hi => ?_) (fun i hi => ?_) fun i hi => ?_
    · simp at hi ⊢; omega
    · rw [big i (by simp at hi; omega), mul_zero]
    · rw [p.coef_prefix (by simp at hi; omega : i ≤ N) h hM]
  · refine (Finset.sum_subset_zero_on_sdiff (fun i hi => ?_) (fun i hi => ?_) fun i hi => ?_).symm
    · simp at hi ⊢; omega
    · rw [big' i (by simp at hi; omega), mul_zero]
    · rw [p.coef_prefix (by simp at hi; omega : i ≤ M) h hN]

theorem hom_regularize {N M : ℕ} (η : Hom N M) (t : CT ℝ N) :
    η.toRingHom t.regularize = (η.toRingHom t).regularize := by
  rw [CT.regularize, CT.regularize, η.c0]
  split
  · rw [CT.setC0_eq, CT.setC0_eq, map_add, η.const, η.c0]
  · rfl

end CT

namespace Expr

variable {ι : Type}

theorem evalCT_hom {N M : ℕ} (hN : N ≤ 6) (hM : M ≤ 6) (η : CT.Hom N M) (ρ : ι → CT ℝ N) (e : Expr ι) :
    η.toRingHom (e.evalCT ρ) = e.evalCT (fun i => η.toRingHom (ρ i)) := by
  induction e with
  | var i => rfl
  | lit c => exact η.const c
  | add x y ihx ihy => simp only [evalCT, map_add, ihx, ihy]
  | sub x y ihx ihy => simp only [evalCT, map_sub, ihx, ihy]
  | mul x y ihx ihy => simp only [evalCT, map_mul, ihx, ihy]
  | neg x ihx => simp only [evalCT, map_neg, ihx]
  | prim p x ihx => simp only [evalCT]; rw [CT.hom_prim hN hM, ihx]
  | reg x ihx => simp only [evalCT]; rw [CT.hom_regularize, ihx]
  | iflt x y a b ihx ihy iha ihb =>
    simp only [evalCT]
    rw [← ihx, ← ihy, η.c0, η.c0]
    split
    · exact iha
    · exact ihb

/-- The constant coefficient is the order-0 value, whatever the order and the seeds. -/
theorem evalCT_c0 {N : ℕ} (hN : N ≤ 6) (ρ : ι → CT ℝ N) (e : Expr ι) :
    (e.evalCT ρ).c0 = e.evalR (fun i => (ρ i).c0) := by
  induction e with
  | var i => rfl
  | lit c => simp [evalCT, evalR]
  | add x y ihx ihy => simp only [evalCT, evalR, CT.c0_add, ihx, ihy]
  | sub x y ihx ihy => simp only [evalCT, evalR, CT.c0_sub, ihx, ihy]
  | mul x y ihx ihy => simp only [evalCT, evalR, CT.c0_mul, ihx, ihy]
  | neg x ihx => simp only [evalCT, evalR, CT.c0_neg, ihx]
  | prim p x ihx =>
    simp only [evalCT, evalR]
    rw [← ihx, CT.prim, CT.c0_compose, p.coef_zero hN]
  | reg x ihx =>
    simp only [evalCT, evalR, CT.regularize]
    rw [ihx]
    split
    · rw [CT.setC0_eq]; simp
    · exact ihx
  | iflt x y a b ihx ihy iha ihb =>
    simp only [evalCT, evalR]
    rw [ihx, ihy]
    split
    · exact iha
    · exact ihb

variable {E : Type*} [NormedAddCommGroup E] [NormedSpace ℝ E]

theorem evalR_smooth {x : E} (ρ : ι → E → ℝ) (hρ : ∀ i, ContDiffAt ℝ ∞ (ρ i) x)
    (e : Expr ι) (h : e.Reg (fun i => ρ i x)) :
    ContDiffAt ℝ ∞ (fun y => e.evalR (fun i => ρ i y)) x := by
  induction e with
  | var i => exact hρ i
  | lit c => exact contDiffAt_const
  | add a b iha ihb => exact (iha h.1).add (ihb h.2)
  | sub a b iha ihb => exact (iha h.1).sub (ihb h.2)
  | mul a b iha ihb => exact (iha h.1).mul (ihb h.2)
  | neg a iha => exact (iha h).neg
  | prim p a iha => exact (p.smooth h.2).comp x (iha h.1)
  | reg a iha =>
    have hc := (iha h.1).continuousAt
    have hev : ∀ᶠ y in 𝓝 x, (1e-14 : ℝ) < a.evalR (fun i => ρ i y) :=
      hc.eventually (lt_mem_nhds h.2)
    refine (iha h.1).congr_of_eventuallyEq (hev.mono fun y hy => ?_)
    simp only [evalR]; rw [if_neg (not_lt.2 hy.le)]
  | iflt u v a b ihu ihv iha ihb =>
    obtain ⟨hu, hv, hne, hab⟩ := h
    have cu := (ihu hu).continuousAt
    have cv := (ihv hv).continuousAt
    rcases lt_or_gt_of_ne hne with hlt | hgt
    · rw [if_pos hlt] at hab
      refine (iha hab).congr_of_eventuallyEq ((cu.eventually_lt cv hlt).mono fun y hy => ?_)
      simp only [evalR]; rw [if_pos hy]
    · rw [if_neg (not_lt.2 hgt.le)] at hab
      refine (ihb hab).congr_of_eventuallyEq ((cv.eventually_lt cu hgt).mono fun y hy => ?_)
      simp only [evalR]; rw [if_neg (not_lt.2 hy.le)]

/-- Evaluating on jets computes the jet. -/
theorem evalCT_jet {N : ℕ} (hN : N ≤ 6) {d : ℕ → E} {x : E} (ρ : ι → E → ℝ)
    (hρ : ∀ i, ContDiffAt ℝ ∞ (ρ i) x) (e : Expr ι) (h : e.Reg (fun i => ρ i x)) :
    e.evalCT (fun i => jet d x N (ρ i)) = jet d x N (fun y => e.evalR (fun i => ρ i y)) := by
  induction e with
  | var i => rfl
  | lit c => exact (jet_const N c).symm
  | add a b iha ihb =>
    simp only [evalCT]
    rw [iha h.1, ihb h.2, ← jet_add (evalR_smooth ρ hρ a h.1) (evalR_smooth ρ hρ b h.2)]
    rfl
  | sub a b iha ihb =>
    simp only [evalCT]
    rw [iha h.1, ihb h.2, ← jet_sub (evalR_smooth ρ hρ a h.1) (evalR_smooth ρ hρ b h.2)]
    rfl
  | mul a b iha ihb =>
    simp only [evalCT]
    rw [iha h.1, ihb h.2, ← jet_mul (evalR_smooth ρ hρ a h.1) (evalR_smooth ρ hρ b h.2)]
    rfl
  | neg a iha =>
    simp only [evalCT]
    rw [iha h, ← jet_neg (evalR_smooth ρ hρ a h)]
    rfl
  | prim p a iha =>
    simp only [evalCT]
    rw [iha h.1, CT.prim, jet_c0]
    have := jet_comp (d := d) (N := N) (evalR_smooth ρ hρ a h.1) (p.smooth h.2)
    simp only [evalR]
    rw [this]
    exact CT.compose_congr _ fun i hi => p.isTaylor hN h.2 i hi
  | reg a iha =>
    simp only [evalCT]
    rw [iha h.1, CT.regularize, jet_c0, if_neg (not_lt.2 h.2.le)]
    refine jet_congr ?_
    have hc := (evalR_smooth ρ hρ a h.1).continuousAt
    have hev : ∀ᶠ y in 𝓝 x, (1e-14 : ℝ) < a.evalR (fun i => ρ i y) :=
      hc.eventually (lt_mem_nhds h.2)
    exact hev.mono fun y hy => by simp only [evalR]; rw [if_neg (not_lt.2 hy.le)]
  | iflt u v a b ihu ihv iha ihb =>
    obtain ⟨hu, hv, hne, hab⟩ := h
    have cu := (evalR_smooth ρ hρ u hu).continuousAt
    have cv := (evalR_smooth ρ hρ v hv).continuousAt
    simp only [evalCT]
    rw [ihu hu, ihv hv, jet_c0, jet_c0]
    rcases lt_or_gt_of_ne hne with hlt | hgt
    · rw [if_pos hlt] at hab ⊢
      rw [iha hab]
      exact jet_congr ((cu.eventually_lt cv hlt).mono fun y hy => by simp only [evalR]; rw [if_pos hy])
    · rw [if_neg (not_lt.2 hgt.le)] at hab ⊢
      rw [ihb hab]
      exact jet_congr ((cv.eventually_lt cu hgt).mono fun y hy => by
        simp only [evalR]; rw [if_neg (not_lt.2 hy.le)])

/-! Substitution -/

theorem evalCT_subst {κ : Type} {N : ℕ} (σ : ι → Expr κ) (ρ : κ → CT ℝ N) (e : Expr ι) :
    (e.subst σ).evalCT ρ = e.evalCT (fun i => (σ i).evalCT ρ) := by
  induction e <;> simp only [subst, evalCT, *]

theorem evalR_subst {κ : Type} (σ : ι → Expr κ) (ρ : κ → ℝ) (e : Expr ι) :
    (e.subst σ).evalR ρ = e.evalR (fun i => (σ i).evalR ρ) := by
  induction e <;> simp only [subst, evalR, *]

end Expr
end XCFun
