/-
Numerical evaluation of the energy on expansions, for several sets of variables and sums of functionals.
-/
import Verif.Proofs.BallCT
import Verif.Proofs.SelfTestNum

namespace XCFun.Num
open XCFun Spec

/-! ## Density variables -/

/-- Codes of the density variables, as far as they are known. -/
abbrev Codes := Field → Option (IE ℕ)

/-- `c` describes the density variables of `v`. -/
def CodeOf (v : Vars) (c : Codes) : Prop := ∀ par f, densvars par v = some f → ∀ k e, c k = some e → e.den = f k

namespace Dens
open IE

/-! Gradients by components. -/

noncomputable def dot (i j : ℕ) : IE ℕ :=
  ((IE.mul (.var i) (.var j)).add (.mul (.var (i + 1)) (.var (j + 1)))).add (.mul (.var (i + 2)) (.var (j + 2)))
noncomputable def gnnX : IE ℕ := .add (.add (dot 2 2) (.mul (.lit (.nat 2)) (dot 2 5))) (dot 5 5)
noncomputable def gssX : IE ℕ := .add (.sub (dot 2 2) (.mul (.lit (.nat 2)) (dot 2 5))) (dot 5 5)
noncomputable def gnsX : IE ℕ := .sub (dot 2 2) (dot 5 5)

/-! Closed shells. -/

noncomputable def nC : IE ℕ := .reg (.var 0)
noncomputable def aC : IE ℕ := .mul (.lit (.sci 5 true 1)) nC
noncomputable def zeroC : IE ℕ := .lit (.nat 0)
noncomputable def zetaC : IE ℕ := .mul (.prim .inv nC) zeroC
noncomputable def r_sC : IE ℕ :=
  .prim (.pow (.div (.nat 1) (.nat 3))) (.mul (.prim .inv (.mul (.mul nC (.lit (.nat 4))) (.lit .pi))) (.lit (.nat 3)))
noncomputable def n_m13C : IE ℕ := .prim (.pow (.div (.neg (.nat 1)) (.nat 3))) nC
noncomputable def a_43C : IE ℕ := .prim (.pow (.div (.nat 4) (.nat 3))) aC
noncomputable def gaaC : IE ℕ := .mul (.lit (.sci 25 true 2)) (dot 1 1)

/-- Without gradients, spins separately. -/
noncomputable def codeAB : Codes := fun k =>
  Field.casesOn (motive := fun _ => Option (IE ℕ)) k (some a) (some b) none none none (some n) (some s) none none none none none none none none
    (some zeta) (some r_s) (some n_m13) (some a_43) (some b_43) none none fun _ => none

/-- The squares of the gradients. -/
noncomputable def codeABG : Codes := fun k =>
  Field.casesOn (motive := fun _ => Option (IE ℕ)) k (some a) (some b) (some (.var 2)) (some (.var 3)) (some (.var 4)) (some n) (some s)
    (some gnn) (some gns) (some gss) none none none none none
    (some zeta) (some r_s) (some n_m13) (some a_43) (some b_43) none none fun _ => none

/-- The components of the gradients. -/
noncomputable def codeABX : Codes := fun k =>
  Field.casesOn (motive := fun _ => Option (IE ℕ)) k (some a) (some b) (some (dot 2 2)) (some (dot 2 5)) (some (dot 5 5)) (some n) (some s)
    (some gnnX) (some gnsX) (some gssX) none none none none none
    (some zeta) (some r_s) (some n_m13) (some a_43) (some b_43) none none fun _ => none

/-- Closed shells without gradients. -/
noncomputable def codeN : Codes := fun k =>
  Field.casesOn (motive := fun _ => Option (IE ℕ)) k (some aC) (some aC) none none none (some nC) (some zeroC) none none none none none none none none
    (some zetaC) (some r_sC) (some n_m13C) (some a_43C) (some a_43C) none none fun _ => none

/-- Closed shells with the components of the gradient. -/
noncomputable def codeNX : Codes := fun k =>
  Field.casesOn (motive := fun _ => Option (IE ℕ)) k (some aC) (some aC) (some gaaC) (some gaaC) (some gaaC) (some nC) (some zeroC)
    (some (dot 1 1)) (some zeroC) (some zeroC) none none none none none
    (some zetaC) (some r_sC) (some n_m13C) (some a_43C) (some a_43C) none none fun _ => none

theorem sci_half : (RE.sci 5 true 1).den = (0.5 : ℝ) := rfl
theorem sci_quarter : (RE.sci 25 true 2).den = (0.25 : ℝ) := rfl

end Dens

open Dens in
macro "dens_code" : tactic => `(tactic| (
  intro par f hf k e he
  simp only [densvars, DV.select, DV.selectFrom, Option.map_some, Option.some.injEq] at hf
  subst hf
  cases k <;> first
    | (cases he; done)
    | (cases he; rfl)
    | (cases he
       simp only [Dens.a, Dens.b, Dens.n, Dens.s, Dens.zeta, Dens.r_s, Dens.n_m13, Dens.a_43, Dens.b_43, Dens.gnn, Dens.gss, Dens.gns, Dens.dot, Dens.gnnX,
         Dens.gssX, Dens.gnsX, Dens.nC, Dens.aC, Dens.zeroC, Dens.zetaC, Dens.r_sC, Dens.n_m13C, Dens.a_43C, Dens.gaaC, IE.den, IPrim.den, RE.den,
         Nat.cast_ofNat, Nat.cast_one, Nat.cast_zero]
       rfl)))

theorem code_AB : CodeOf .A_B Dens.codeAB := by dens_code
theorem code_ABG : CodeOf .A_B_GAA_GAB_GBB Dens.codeABG := by dens_code
theorem code_ABX : CodeOf .A_B_AX_AY_AZ_BX_BY_BZ Dens.codeABX := by dens_code
theorem code_N : CodeOf .N Dens.codeN := by dens_code
theorem code_NX : CodeOf .N_NX_NY_NZ Dens.codeNX := by dens_code

/-! ## Energies -/

/-- The density variables on expansions. -/
noncomputable def fieldT (c : Codes) (N : ℕ) (ρ : ℕ → T) (k : Field) : T := Option.casesOn (c k) .bad fun e => e.evalT N ρ

theorem nearT_field {v : Vars} {c : Codes} (hc : CodeOf v c) {par : ℕ → ℝ} {f : Field → Expr ℕ} (hf : densvars par v = some f) {N : ℕ} (hN : N ≤ 3)
    {ρ : ℕ → T} {σ : ℕ → CT ℝ N} (h : ∀ l, NearT (ρ l) (σ l)) (k : Field) : NearT (fieldT c N ρ k) ((f k).evalCT σ) := by
  unfold fieldT
  cases he : c k with
  | none => exact .bad
  | some e => rw [← hc par f hf k e he]; exact IE.nearT_eval hN h e

/-- A sum of functionals with weights. -/
noncomputable def sumT (c : Codes) (N : ℕ) (ρ : ℕ → T) (l : List (Dec × IE Field)) : T :=
  List.rec (T.zero N) (fun p _ ih => ((T.const N (ofDec p.1)).mul (p.2.evalT N (fieldT c N ρ))).add ih) l

/-- The active functionals of `s` and their weights are those of `l`. -/
def Terms (s : State ℝ) (l : List (Dec × IE Field)) : Prop :=
  List.Forall₂ (fun id p => s.settings id = lit p.1.1 p.1.2 ∧ Fun.energy id = some p.2.den) s.active l

theorem nearT_energy {s : State ℝ} {v : Vars} {c : Codes} (hc : CodeOf v c) (hv : DV.reads v ≠ none) {l : List (Dec × IE Field)} (hl : Terms s l) {N : ℕ}
    (hN : N ≤ 3) {ρ : ℕ → T} {σ : ℕ → CT ℝ N} (h : ∀ l, NearT (ρ l) (σ l)) : NearT (sumT c N ρ l) (energyOn s v σ) := by
  obtain ⟨f, hf⟩ : ∃ f, densvars s.settings v = some f := by
    unfold densvars
    cases v <;> first | exact ⟨_, rfl⟩ | exact absurd rfl hv
  unfold energyOn
  unfold Terms at hl
  generalize s.active = act at hl ⊢
  induction hl with
  | nil => exact nearT_zero N
  | cons a _ ih =>
    rw [List.map_cons, List.sum_cons]
    refine nearT_add (nearT_mul (nearT_const ?_ N) ?_) ih
    · rw [a.1]; exact near_ofDec _
    · rw [fullExpr, hf, a.2]
      dsimp only
      rw [Expr.evalCT_subst]
      exact IE.nearT_eval hN (nearT_field hc hf hN h) _

/-! ## Inputs -/

/-- An expansion from its coefficients. -/
noncomputable def T.ofFn (N : ℕ) (f : ℕ → Q) : T :=
  Nat.rec (motive := fun _ => (ℕ → Q) → T) (fun f => .leaf (f 0)) (fun n ih f => .node (ih f) (ih fun i => f (Nat.add (Nat.pow 2 n) i))) N f

theorem nearT_ofFn {N : ℕ} {f : ℕ → Q} {g : ℕ → ℝ} (h : ∀ i, Near (f i) (g i)) : NearT (T.ofFn N f) (CT.ofFn N g) := by
  induction N generalizing f g with
  | zero => exact .leaf (h 0)
  | succ n ih => exact .node (ih h) (ih fun i => h _)

/-- Entry `i` of a list of decimals. -/
noncomputable def entry (x : List Dec) (i : ℕ) : Q := Option.casesOn (x[i]?) .bad ofDec

theorem near_entry (x : List Dec) (i : ℕ) : Near (entry x i) ((x.map fun d => (lit d.1 d.2 : ℝ)).getD i 0) := by
  unfold entry
  cases hx : x[i]? with
  | none => exact near_bad
  | some d => simpa [hx] using near_ofDec d

end XCFun.Num
