/-
Points strictly inside the domain: rewriting rules, and the density variables.
-/
import Verif.Proofs.EvalSimp
import Verif.Proofs.Uses
import Verif.Spec.Energy

namespace XCFun
open Spec

namespace Expr
variable {ι : Type} (ρ : ι → ℝ)

@[simp] theorem Reg_var (i : ι) : (Expr.var i).Reg ρ ↔ True := Iff.rfl
@[simp] theorem Reg_lit (c : ℝ) : (Expr.lit c).Reg ρ ↔ True := Iff.rfl
@[simp] theorem Reg_add (x y : Expr ι) : (x + y).Reg ρ ↔ x.Reg ρ ∧ y.Reg ρ := Iff.rfl
@[simp] theorem Reg_sub (x y : Expr ι) : (x - y).Reg ρ ↔ x.Reg ρ ∧ y.Reg ρ := Iff.rfl
@[simp] theorem Reg_mul (x y : Expr ι) : (x * y).Reg ρ ↔ x.Reg ρ ∧ y.Reg ρ := Iff.rfl
@[simp] theorem Reg_neg (x : Expr ι) : (-x).Reg ρ ↔ x.Reg ρ := Iff.rfl
@[simp] theorem Reg_div (x y : Expr ι) : (x / y).Reg ρ ↔ x.Reg ρ ∧ y.Reg ρ ∧ y.evalR ρ ≠ 0 := by
  show ((y.Reg ρ ∧ y.evalR ρ ≠ 0) ∧ x.Reg ρ) ↔ _
  tauto
@[simp] theorem Reg_zero : (0 : Expr ι).Reg ρ ↔ True := Iff.rfl
@[simp] theorem Reg_one : (1 : Expr ι).Reg ρ ↔ True := Iff.rfl
@[simp] theorem Reg_ofNat (n : ℕ) [n.AtLeastTwo] : (ofNat(n) : Expr ι).Reg ρ ↔ True := Iff.rfl
@[simp] theorem Reg_ofScientific (m : ℕ) (s : Bool) (e : ℕ) :
    (OfScientific.ofScientific m s e : Expr ι).Reg ρ ↔ True := Iff.rfl
@[simp] theorem Reg_exp (x : Expr ι) : x.exp.Reg ρ ↔ x.Reg ρ := by
  show (x.Reg ρ ∧ x.evalR ρ ∈ Set.univ) ↔ _
  simp
@[simp] theorem Reg_expm1 (x : Expr ι) : x.expm1.Reg ρ ↔ x.Reg ρ := by
  show (x.Reg ρ ∧ x.evalR ρ ∈ Set.univ) ↔ _
  simp
@[simp] theorem Reg_atan (x : Expr ι) : x.atan.Reg ρ ↔ x.Reg ρ := by
  show (x.Reg ρ ∧ x.evalR ρ ∈ Set.univ) ↔ _
  simp
@[simp] theorem Reg_erf (x : Expr ι) : x.erf.Reg ρ ↔ x.Reg ρ := by
  show (x.Reg ρ ∧ x.evalR ρ ∈ Set.univ) ↔ _
  simp
@[simp] theorem Reg_asinh (x : Expr ι) : x.asinh.Reg ρ ↔ x.Reg ρ := by
  show (x.Reg ρ ∧ x.evalR ρ ∈ Set.univ) ↔ _
  simp
@[simp] theorem Reg_log (x : Expr ι) : x.log.Reg ρ ↔ x.Reg ρ ∧ 0 < x.evalR ρ := Iff.rfl
@[simp] theorem Reg_pow (x : Expr ι) (a : ℝ) : (x.pow a).Reg ρ ↔ x.Reg ρ ∧ 0 < x.evalR ρ := Iff.rfl
@[simp] theorem Reg_sqrt (x : Expr ι) : x.sqrt.Reg ρ ↔ x.Reg ρ ∧ 0 < x.evalR ρ := Iff.rfl
@[simp] theorem Reg_cbrt (x : Expr ι) : x.cbrt.Reg ρ ↔ x.Reg ρ ∧ 0 < x.evalR ρ := Iff.rfl
@[simp] theorem Reg_npow (x : Expr ι) (n : ℕ) : (x.npow (n + 1)).Reg ρ ↔ x.Reg ρ := by
  induction n with
  | zero => rfl
  | succ n ih => rw [npow, Reg_mul, ih]; tauto
@[simp] theorem Reg_npow_ofNat (x : Expr ι) (n : ℕ) [h : n.AtLeastTwo] :
    (x.npow (ofNat(n))).Reg ρ ↔ x.Reg ρ := by
  obtain ⟨m, rfl⟩ : ∃ m, n = m + 1 := ⟨n - 1, by have := h.prop; omega⟩
  exact Reg_npow ρ x m
@[simp] theorem Reg_powi_ofNat (x : Expr ι) (n : ℕ) [h : n.AtLeastTwo] :
    (x.powi (ofNat(n))).Reg ρ ↔ x.Reg ρ := Reg_npow_ofNat ρ x n
@[simp] theorem Reg_powi_negSucc (x : Expr ι) (n : ℕ) :
    (x.powi (Int.negSucc n)).Reg ρ ↔ x.Reg ρ ∧ 0 < x.evalR ρ := Iff.rfl
@[simp] theorem Reg_pow2 (x : Expr ι) : x.pow2.Reg ρ ↔ x.Reg ρ := by simp [pow2]
@[simp] theorem Reg_pow3 (x : Expr ι) : x.pow3.Reg ρ ↔ x.Reg ρ := by simp [pow3]
@[simp] theorem Reg_ufunc (x : Expr ι) (a : ℝ) :
    (x.ufunc a).Reg ρ ↔ x.Reg ρ ∧ 0 < 1 + x.evalR ρ ∧ 0 < 1 - x.evalR ρ := by
  simp [ufunc]; tauto
@[simp] theorem Reg_iflt (x y a b : Expr ι) : (Expr.iflt x y a b).Reg ρ ↔ x.Reg ρ ∧ y.Reg ρ ∧
    x.evalR ρ ≠ y.evalR ρ ∧ if x.evalR ρ < y.evalR ρ then a.Reg ρ else b.Reg ρ := Iff.rfl
@[simp] theorem Reg_reg (x : Expr ι) : (Expr.reg x).Reg ρ ↔ x.Reg ρ ∧ 1e-14 < x.evalR ρ := Iff.rfl

theorem Reg_poly {x : Expr ι} (h : x.Reg ρ) : ∀ c : List ℝ, (x.poly c).Reg ρ
  | [] => trivial
  | [_] => trivial
  | _ :: d :: cs => ⟨⟨Reg_poly h (d :: cs), h⟩, trivial⟩

@[simp] theorem Reg_sqrtxAsinhSqrtx (x : Expr ι) :
    x.sqrtxAsinhSqrtx.Reg ρ ↔ x.Reg ρ ∧ -0.5 < x.evalR ρ ∧ x.evalR ρ ≠ 0.5 := by
  have hpade : (Expr.prim .pade x).Reg ρ ↔ x.Reg ρ ∧ -(1 / 2) < x.evalR ρ := Iff.rfl
  have hz : (-0.5 : ℝ) = -(1 / 2) := by norm_num
  have e1 : (0.5 : Expr ι).evalR ρ = 0.5 := rfl
  have e2 : (-0.5 : Expr ι).evalR ρ = -0.5 := rfl
  simp only [sqrtxAsinhSqrtx, Reg_iflt, Reg_mul, Reg_asinh, Reg_sqrt, hpade, e1, e2]
  have r1 : (0.5 : Expr ι).Reg ρ := trivial
  have r2 : (-0.5 : Expr ι).Reg ρ := trivial
  simp only [r1, r2, true_and]
  constructor
  · rintro ⟨h1, h2, h3⟩
    refine ⟨h1, ?_, h2⟩
    by_cases h : x.evalR ρ < 0.5
    · rw [if_pos h] at h3
      by_cases h' : (-0.5 : ℝ) < x.evalR ρ
      · exact h'
      · rw [if_neg h'] at h3
        have := h3.2.2.1.2
        norm_num at this h' ⊢
        linarith
    · norm_num at h ⊢; linarith
  · rintro ⟨h1, h2, h3⟩
    refine ⟨h1, h3, ?_⟩
    by_cases h : x.evalR ρ < 0.5
    · rw [if_pos h, if_pos h2]
      refine ⟨h1, ?_, h1, ?_⟩
      · exact ne_of_lt h2
      · rw [← hz]; exact h2
    · rw [if_neg h]
      have : (0:ℝ) < x.evalR ρ := by norm_num at h; linarith
      exact ⟨⟨h1, this⟩, h1, this⟩

/-- Regularity of a composition. -/
theorem Reg_subst {κ : Type} {σ : ι → Expr κ} {ρ : κ → ℝ} {p : ι → Bool}
    (hσ : ∀ i, p i = true → (σ i).Reg ρ) (e : Expr ι) (hu : e.usesOnly p = true)
    (h : e.Reg (fun i => (σ i).evalR ρ)) : (e.subst σ).Reg ρ := by
  have key := fun e => evalR_subst' σ ρ e
  induction e with
  | var i => exact hσ i hu
  | lit c => trivial
  | add x y ihx ihy | sub x y ihx ihy | mul x y ihx ihy =>
    simp only [usesOnly, Bool.and_eq_true] at hu
    exact ⟨ihx hu.1 h.1, ihy hu.2 h.2⟩
  | neg x ih => exact ih hu h
  | prim q x ih =>
    refine ⟨ih hu h.1, ?_⟩
    rw [key]; exact h.2
  | reg x ih =>
    refine ⟨ih hu h.1, ?_⟩
    rw [key]; exact h.2
  | iflt x y a b ihx ihy iha ihb =>
    simp only [usesOnly, Bool.and_eq_true] at hu
    refine ⟨ihx hu.1.1.1 h.1, ihy hu.1.1.2 h.2.1, ?_, ?_⟩
    · rw [key, key]; exact h.2.2.1
    · rw [key, key]
      have h4 := h.2.2.2
      split
      · rename_i hlt; rw [if_pos hlt] at h4; exact iha hu.1.2 h4
      · rename_i hlt; rw [if_neg hlt] at h4; exact ihb hu.2 h4

end Expr
end XCFun
