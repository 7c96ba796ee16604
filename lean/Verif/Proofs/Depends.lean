/-
The complete tables of what the functionals mention.
-/
import Verif.Proofs.Uses
import Verif.Spec.Depends

namespace XCFun
open Spec

/-- `covered` as a computable test. -/
def coveredB (m : ℕ) (f : Field) : Bool :=
  match quantity f with
  | none => true
  | some k => m.testBit k

theorem coveredB_iff (m : ℕ) (f : Field) : coveredB m f = true ↔ covered m f := by
  unfold coveredB covered
  cases quantity f <;> simp

/-- Checks every entry of the table of functionals. -/
def checkAll (p : ℕ → Field → Bool) : ℕ → List (Expr Field) → List ℕ
  | _, [] => []
  | i, e :: es => if e.usesOnly (p i) then checkAll p (i + 1) es else i :: checkAll p (i + 1) es

theorem checkAll_spec {p : ℕ → Field → Bool} : ∀ {i : ℕ} {es : List (Expr Field)} {k : ℕ} {e : Expr Field},
    es[k]? = some e → i + k ∉ checkAll p i es → e.usesOnly (p (i + k)) = true := by
  intro i es
  induction es generalizing i with
  | nil => intro k e h; simp at h
  | cons x xs ih =>
    intro k e h hn
    cases k with
    | zero =>
      simp only [List.getElem?_cons_zero, Option.some.injEq] at h
      subst h
      by_contra hc
      apply hn
      rw [Nat.add_zero] at hc ⊢
      rw [checkAll, if_neg hc]
      exact List.mem_cons_self
    | succ k =>
      simp only [List.getElem?_cons_succ] at h
      rw [← Nat.add_assoc, Nat.add_right_comm]
      refine ih h fun hm => hn ?_
      rw [checkAll, ← Nat.add_assoc, Nat.add_right_comm]
      split
      · exact hm
      · exact List.mem_cons_of_mem _ hm

/-- All functionals except number 44 mention only what they declare. -/
theorem declared_table : checkAll (fun i => coveredB (dependsOf i)) 0 Fun.energies = [44] := by
  decide +kernel

theorem declared_uses {id : ℕ} {e : Expr Field} (he : Fun.energy id = some e) (h44 : id ≠ 44) :
    e.usesOnly (coveredB (dependsOf id)) = true := by
  have := checkAll_spec (p := fun i => coveredB (dependsOf i)) (i := 0) (k := id) he
    (by rw [declared_table]; simpa using h44)
  simpa using this

/-- Number 44 mentions in addition only quantity 3. -/
theorem declared_44 : checkAll (fun i => coveredB (dependsOf i ||| 8)) 0 Fun.energies = [] := by
  decide +kernel

/-- Which functionals mention each parameter, and that no other parameter is mentioned. -/
theorem param_table (p : ℕ) :
    checkAll (fun _ f => f != .param p) 0 Fun.energies = readers p := by
  by_cases h1 : p = 78
  · subst h1; decide +kernel
  by_cases h2 : p = 79
  · subst h2; decide +kernel
  by_cases h3 : p = 80
  · subst h3; decide +kernel
  by_cases h4 : p = 81
  · subst h4; decide +kernel
  have : readers p = [] := by simp [readers, h1, h3, h4]
  rw [this]
  have h0 : checkAll (fun _ f => match f with
      | .param q => q == 78 || q == 79 || q == 80 || q == 81
      | _ => true) 0 Fun.energies = [] := by decide +kernel
  have key : ∀ (i : ℕ) (es : List (Expr Field)), checkAll (fun _ f => match f with
      | .param q => q == 78 || q == 79 || q == 80 || q == 81
      | _ => true) i es = [] → checkAll (fun _ f => f != .param p) i es = [] := by
    intro i es
    induction es generalizing i with
    | nil => intro _; rfl
    | cons x xs ih =>
      intro h
      rw [checkAll] at h ⊢
      split at h
      · rename_i hx
        rw [if_pos]
        · exact ih _ h
        · refine Expr.usesOnly_mono (fun f hf => ?_) x hx
          cases f <;> simp at hf ⊢
          omega
      · cases h
  exact key 0 _ h0

theorem param_uses {id : ℕ} {e : Expr Field} (he : Fun.energy id = some e) {p : ℕ}
    (hp : id ∉ readers p) : e.usesOnly (fun f => f != .param p) = true := by
  have := checkAll_spec (p := fun _ f => f != .param p) (i := 0) (k := id) he
    (by rw [param_table]; simpa using hp)
  simpa using this

/-- Members of `densvars` that belong to a quantity carried by the variable set are assigned by
the switch. -/
theorem selectFrom_assigned {v : Vars} {w w' u u' : DV ℕ} (h : DV.selectFrom w v = some u)
    (h' : DV.selectFrom w' v = some u') (par : ℕ → ℝ) {f : Field} (hf : covered v.provides f)
    (hA : v = .A ∨ v = .A_GAA → quantity f ≠ some 0) :
    u.finish.field par f = u'.finish.field par f := by
  rw [← coveredB_iff] at hf
  cases v <;> simp only [DV.selectFrom, Option.some.injEq, reduceCtorEq] at h h' <;>
    subst h h' <;> cases f <;>
    first
      | rfl
      | exact absurd hf (by decide)
      | exact absurd rfl (hA (Or.inl rfl))
      | exact absurd rfl (hA (Or.inr rfl))

/-! ### Evaluation looks at the settings only through the kernels -/

section
universe u
variable {V : Type u} [Zero V] [One V] [Add V] [Sub V] [Mul V]

theorem accumulate_congr {K : Kernel V} {s : State V} {t : ℕ → V}
    (hw : ∀ id ∈ s.active, s.settings id = t id)
    (hf : ∀ id ∈ s.active, ∀ v N ins, K.fp v s.settings id N ins = K.fp v t id N ins)
    (v : Vars) {N : ℕ} (m : Slots V N) (out : CT V N) :
    accumulate K s v m out = accumulate K { s with settings := t } v m out := by
  unfold accumulate
  cases K.reads v with
  | none => rfl
  | some sl =>
    dsimp only
    congr 2
    refine List.foldl_ext _ _ _ fun a id hid => ?_
    rw [hw id hid, hf id hid]

theorem xcfunEval_congr {K : Kernel V} {s : State V} {t : ℕ → V}
    (hw : ∀ id ∈ s.active, s.settings id = t id)
    (hf : ∀ id ∈ s.active, ∀ v N ins, K.fp v s.settings id N ins = K.fp v t id N ins)
    (junk : Junk V) (input output : List V) :
    xcfunEval K junk s input output = xcfunEval K junk { s with settings := t } input output := by
  have h := fun v (N : ℕ) (m : Slots V N) out => accumulate_congr hw hf v m out
  have b1 : ∀ v, order1Body K s v = order1Body K { s with settings := t } v := by
    intro v; funext; simp only [order1Body, h]
  have b2 : ∀ v, order2Body K s v = order2Body K { s with settings := t } v := by
    intro v; funext; simp only [order2Body, h]
  have b3 : ∀ v, order3Body K s v = order3Body K { s with settings := t } v := by
    intro v; funext; simp only [order3Body, h]
  have b4 : ∀ v, ggaSpinBody K s v = ggaSpinBody K { s with settings := t } v := by
    intro v; funext; simp only [ggaSpinBody, h]
  simp only [xcfunEval, evalPartial, evalOrder0, evalOrder1, order1Last, evalOrder2, evalOrder3,
    evalContracted, evalContractedN, evalPotential, evalPotentialLda, evalPotentialGgaN,
    evalPotentialGgaAB, h, b1, b2, b3, b4]

end

end XCFun
