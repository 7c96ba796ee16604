/-
Which inputs an expression mentions, and that the value depends on nothing else.
-/
import Verif.Model.Fun.Kernel
import Verif.Proofs.Eval
import Verif.Proofs.AD

namespace XCFun

namespace Expr
variable {ι : Type}

/-- Every variable of the expression satisfies `p`. -/
def usesOnly (p : ι → Bool) : Expr ι → Bool
  | var i => p i
  | lit _ => true
  | add x y => x.usesOnly p && y.usesOnly p
  | sub x y => x.usesOnly p && y.usesOnly p
  | mul x y => x.usesOnly p && y.usesOnly p
  | neg x => x.usesOnly p
  | prim _ x => x.usesOnly p
  | reg x => x.usesOnly p
  | iflt x y a b => x.usesOnly p && y.usesOnly p && a.usesOnly p && b.usesOnly p

theorem evalCT_congr {N : ℕ} {p : ι → Bool} {ρ ρ' : ι → CT ℝ N} (h : ∀ i, p i = true → ρ i = ρ' i)
    (e : Expr ι) (he : e.usesOnly p = true) : e.evalCT ρ = e.evalCT ρ' := by
  induction e with
  | var i => exact h i he
  | lit c => rfl
  | add x y ihx ihy | sub x y ihx ihy | mul x y ihx ihy =>
    simp only [usesOnly, Bool.and_eq_true] at he
    simp only [evalCT, ihx he.1, ihy he.2]
  | neg x ih | prim p x ih | reg x ih =>
    simp only [usesOnly] at he
    simp only [evalCT, ih he]
  | iflt x y a b ihx ihy iha ihb =>
    simp only [usesOnly, Bool.and_eq_true] at he
    simp only [evalCT, ihx he.1.1.1, ihy he.1.1.2, iha he.1.2, ihb he.2]

theorem evalR_congr {p : ι → Bool} {ρ ρ' : ι → ℝ} (h : ∀ i, p i = true → ρ i = ρ' i)
    (e : Expr ι) (he : e.usesOnly p = true) : e.evalR ρ = e.evalR ρ' := by
  induction e with
  | var i => exact h i he
  | lit c => rfl
  | add x y ihx ihy | sub x y ihx ihy | mul x y ihx ihy =>
    simp only [usesOnly, Bool.and_eq_true] at he
    simp only [evalR, ihx he.1, ihy he.2]
  | neg x ih | prim p x ih | reg x ih =>
    simp only [usesOnly] at he
    simp only [evalR, ih he]
  | iflt x y a b ihx ihy iha ihb =>
    simp only [usesOnly, Bool.and_eq_true] at he
    simp only [evalR, ihx he.1.1.1, ihy he.1.1.2, iha he.1.2, ihb he.2]

theorem usesOnly_true (e : Expr ι) : e.usesOnly (fun _ => true) = true := by
  induction e <;> simp_all [usesOnly]

theorem usesOnly_subst {κ : Type} {p : ι → Bool} {q : κ → Bool} {σ : ι → Expr κ}
    (h : ∀ i, p i = true → (σ i).usesOnly q = true) (e : Expr ι) (he : e.usesOnly p = true) :
    (e.subst σ).usesOnly q = true := by
  induction e with
  | var i => exact h i he
  | lit c => rfl
  | add x y ihx ihy | sub x y ihx ihy | mul x y ihx ihy =>
    simp only [usesOnly, Bool.and_eq_true] at he
    simp only [subst, usesOnly, ihx he.1, ihy he.2, Bool.and_self]
  | neg x ih | prim p x ih | reg x ih =>
    simp only [usesOnly] at he
    simp only [subst, usesOnly, ih he]
  | iflt x y a b ihx ihy iha ihb =>
    simp only [usesOnly, Bool.and_eq_true] at he
    simp only [subst, usesOnly, ihx he.1.1.1, ihy he.1.1.2, iha he.1.2, ihb he.2, Bool.and_self]

theorem usesOnly_mono {p q : ι → Bool} (h : ∀ i, p i = true → q i = true) (e : Expr ι)
    (he : e.usesOnly p = true) : e.usesOnly q = true := by
  induction e with
  | var i => exact h i he
  | lit c => rfl
  | add x y ihx ihy | sub x y ihx ihy | mul x y ihx ihy =>
    simp only [usesOnly, Bool.and_eq_true] at he
    simp only [usesOnly, ihx he.1, ihy he.2, Bool.and_self]
  | neg x ih | prim p x ih | reg x ih =>
    simp only [usesOnly] at he
    simp only [usesOnly, ih he]
  | iflt x y a b ihx ihy iha ihb =>
    simp only [usesOnly, Bool.and_eq_true] at he
    simp only [usesOnly, ihx he.1.1.1, ihy he.1.1.2, iha he.1.2, ihb he.2, Bool.and_self]

end Expr

theorem select_eq_none_iff (v : Vars) : DV.select v = none ↔ DV.reads v = none := by
  cases v <;> simp [DV.select, DV.selectFrom, DV.reads]

/-- The members of `densvars` mention only the slots listed in `DV.reads`. -/
theorem densvars_uses {v : Vars} {sl : List ℕ} (h : DV.reads v = some sl) (par : ℕ → ℝ)
    {f : Field → Expr ℕ} (hf : densvars par v = some f) (fld : Field) :
    (f fld).usesOnly (fun i => sl.contains i) = true := by
  cases v <;> simp only [DV.reads, Option.some.injEq, reduceCtorEq] at h <;> subst h <;>
    simp only [densvars, DV.select, DV.selectFrom, Option.map_some, Option.some.injEq] at hf <;> subst hf <;>
    cases fld <;> rfl

theorem reads_lt {v : Vars} {sl : List ℕ} (h : DV.reads v = some sl) : ∀ i ∈ sl, i < v.len := by
  have : ∀ v ∈ Vars.all, ∀ i ∈ (DV.reads v).getD [], i < v.len := by decide +kernel
  intro i hi
  exact this v (by cases v <;> decide) i (by rw [h]; exact hi)

theorem len_le (v : Vars) : v.len ≤ 20 := by cases v <;> decide

theorem len_pos (v : Vars) : 0 < v.len := by cases v <;> decide

/-- The kernels of the code read only the slots they say. -/
theorem codeKernel_local : codeKernel.Local where
  lt v sl h := reads_lt h
  congr v sl h par id N ρ ρ' hρ := by
    simp only [codeKernel, codeFp]
    cases hd : densvars par v with
    | none => rfl
    | some f =>
      cases Fun.energy id with
      | none => rfl
      | some e =>
        simp only
        congr 1
        funext fld
        refine Expr.evalCT_congr (p := fun i => sl.contains i) (fun i hi => hρ i ?_) _
          (densvars_uses h par hd fld)
        simpa using hi

end XCFun
