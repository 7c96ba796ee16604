import Verif.Proofs.History
import Verif.Spec.Setup
import Mathlib.Data.Nat.Bitwise
import Mathlib.Data.Nat.Choose.Sum
import Mathlib.Tactic.Ring
import Mathlib.Tactic.Linarith

/-!
# Lemmas about setup, bit masks and `taylorlen`
-/

set_option linter.unusedSectionVars false

namespace XCFun
open Spec

variable {V : Type _}

theorem dependsOf_testBit' {i k : Nat} :
    (dependsOf i).testBit k = true ↔ ∃ f, funs[i]? = some f ∧ f.depends.testBit k = true := by
  unfold dependsOf
  cases h : funs[i]? <;> simp

theorem needs_iff {s : State V} (hs : s.WF) (k : Nat) : Needs s k ↔ s.depends.testBit k = true := by
  rw [hs.dep, foldl_or_testBit]
  simp [Needs, dependsOf_testBit']

theorem code_lt (v : Vars) : v.code < varsTable.length := by cases v <;> decide

theorem carries_iff (v : Vars) (k : Nat) : Carries v k ↔ v.provides.testBit k = true := by
  unfold Carries Vars.provides Vars.data
  rw [List.getElem?_eq_getElem (code_lt v)]
  simp

theorem and_eq_left_iff (a b : Nat) : a &&& b = a ↔ ∀ k, a.testBit k = true → b.testBit k = true := by
  constructor
  · intro h k hk
    rw [← h, Nat.testBit_and] at hk
    simp only [Bool.and_eq_true] at hk
    exact hk.2
  · intro h
    apply Nat.eq_of_testBit_eq
    intro k
    rw [Nat.testBit_and]
    cases ha : a.testBit k with
    | false => rfl
    | true => simp [h k ha]

theorem sufficient_iff {s : State V} (hs : s.WF) (v : Vars) :
    Sufficient s v ↔ s.depends &&& v.provides = s.depends := by
  rw [and_eq_left_iff]
  unfold Sufficient
  simp only [needs_iff hs, carries_iff]

theorem and_gradient (d : Nat) : (d &&& GRADIENT) ≠ 0 ↔ d.testBit 1 = true := by
  have : d &&& GRADIENT = d &&& 2 ^ 1 := rfl
  rw [this, Nat.and_two_pow]
  cases d.testBit 1 <;> simp

theorem and_meta (d : Nat) :
    (d &&& (LAPLACIAN ||| KINETIC)) ≠ 0 ↔ (d.testBit 2 = true ∨ d.testBit 3 = true) := by
  have : d &&& (LAPLACIAN ||| KINETIC) = (d &&& 2 ^ 2) ||| (d &&& 2 ^ 3) := by
    rw [← Nat.and_or_distrib_left]; rfl
  rw [this, Nat.and_two_pow, Nat.and_two_pow]
  cases d.testBit 2 <;> cases d.testBit 3 <;> simp

theorem isTaylorVars_iff (v : Vars) : isTaylorVars v = true ↔ HessianVars v := by
  unfold isTaylorVars HessianVars
  simp [or_assoc]

theorem ofCode_code (v : Vars) : Vars.ofCode v.code = some v := by cases v <;> rfl

theorem ofCode_eq_some {i : Int} {v : Vars} (h : Vars.ofCode i = some v) : i = v.code := by
  unfold Vars.ofCode at h
  split at h
  · cases h
  · have hlt := (List.getElem?_eq_some_iff.1 h).1
    have h31 : Vars.all.length = 31 := by decide
    rw [h31] at hlt
    obtain ⟨n, rfl⟩ : ∃ n : Nat, i = n := ⟨i.toNat, by omega⟩
    have hn : n < 31 := by omega
    simp only [Int.toNat_natCast] at h
    have : ∀ n < 31, (Vars.all[n]?).map Vars.code = some n := by decide
    have := this n hn
    rw [h] at this
    simp only [Option.map_some, Option.some.injEq] at this
    rw [this]

/-! ## `taylorlen` -/

theorem card_sym_fin (n j : Nat) : Fintype.card (Sym (Fin n) j) = (n + j - 1).choose j := by
  rw [Sym.card_sym_eq_choose, Fintype.card_fin]

theorem numMonomials_eq (n d : Nat) : numMonomials n d = (n + d).choose d := by
  unfold numMonomials
  induction d with
  | zero => simp
  | succ d ih =>
    rw [Finset.sum_range_succ, ih, card_sym_fin]
    have h1 : n + (d + 1) - 1 = n + d := by omega
    rw [h1, show n + (d + 1) = (n + d) + 1 by ring, Nat.choose_succ_succ]

theorem mul_choose_step (d k : Nat) : (d + k).choose d * (d + (k + 1)) = (k + 1) * (d + (k + 1)).choose d := by
  have h := Nat.add_one_mul_choose_eq (d + k) k
  have h1 : (d + k).choose k = (d + k).choose d := by rw [Nat.choose_symm_add]
  have h2 : (d + k + 1).choose (k + 1) = (d + (k + 1)).choose d := by
    rw [show d + k + 1 = d + (k + 1) by ring, Nat.choose_symm_add]
  rw [h1, h2] at h
  rw [mul_comm, mul_comm (k + 1)]
  exact h

theorem int32_ok {x : Nat} (h : (x : Int) ≤ INT_MAX) : int32 (x : Int) = .ok (x : Int) := by
  unfold int32
  rw [if_pos]
  refine ⟨?_, h⟩
  simp only [INT_MIN]; omega

theorem taylorlenLoop_eq (d : Nat) : ∀ (steps k : Nat),
    ((k + steps : Nat) : Int) * ((d + (k + steps)).choose d : Nat) ≤ INT_MAX →
    ((d + (k + steps) : Nat) : Int) ≤ INT_MAX →
    taylorlenLoop d steps ((k + 1 : Nat) : Int) (((d + k).choose d : Nat) : Int)
      = .ok (((d + (k + steps)).choose d : Nat) : Int) := by
  intro steps
  induction steps with
  | zero => intro k _ _; rfl
  | succ steps ih =>
    intro k h1 h2
    have hk : (k + 1) * (d + (k + 1)).choose d ≤ (k + (steps + 1)) * (d + (k + (steps + 1))).choose d :=
      Nat.mul_le_mul (by omega) (Nat.choose_le_choose _ (by omega))
    have hs : int32 ((d : Int) + ((k + 1 : Nat) : Int)) = .ok ((d + (k + 1) : Nat) : Int) := by
      rw [← Nat.cast_add]
      apply int32_ok
      have : d + (k + 1) ≤ d + (k + (steps + 1)) := by omega
      exact le_trans (by exact_mod_cast this) h2
    have hp : int32 ((((d + k).choose d : Nat) : Int) * ((d + (k + 1) : Nat) : Int))
        = .ok (((k + 1) * (d + (k + 1)).choose d : Nat) : Int) := by
      rw [← Nat.cast_mul, mul_choose_step]
      apply int32_ok
      refine le_trans ?_ h1
      exact_mod_cast hk
    have hdiv : (((k + 1) * (d + (k + 1)).choose d : Nat) : Int).tdiv ((k + 1 : Nat) : Int)
        = ((d + (k + 1)).choose d : Nat) := by
      rw [Nat.cast_mul]
      exact Int.mul_tdiv_cancel_left _ (by omega)
    unfold taylorlenLoop
    rw [hs]
    simp only [Outcome.ok_bind]
    rw [hp]
    simp only [Outcome.ok_bind]
    rw [hdiv]
    have e : ((k + 1 : Nat) : Int) + 1 = ((k + 1 + 1 : Nat) : Int) := by push_cast; ring
    have e2 : k + (steps + 1) = (k + 1) + steps := by omega
    rw [e, e2]
    rw [e2] at h1 h2
    exact ih (k + 1) h1 h2

theorem taylorlen_eq (n d : Nat) (h1 : ((n * (n + d).choose d : Nat) : Int) ≤ INT_MAX)
    (h2 : ((n + d : Nat) : Int) ≤ INT_MAX) : taylorlen n d = .ok (((n + d).choose d : Nat) : Int) := by
  unfold taylorlen
  have := taylorlenLoop_eq d n 0 (by
    rw [Nat.zero_add, add_comm d n]
    exact_mod_cast h1) (by rw [Nat.zero_add, add_comm d n]; exact h2)
  simpa [add_comm d n] using this

variable [Add V] [Mul V] [Lit V]

theorem evalSetupVars_zero {s s' : State V} {v : Vars} {m o : Int} (h : evalSetupVars s v m o = (0, s')) :
    s' = { s with mode := m, vars := some v, order := o } ∧ s.depends &&& v.provides = s.depends := by
  unfold evalSetupVars at h
  split at h
  · simp [EVARS] at h
  · rename_i hd
    split at h
    · simp [EORDER] at h
    split at h
    · simp [EVARS_EMODE] at h
    split at h
    · simp [EMODE] at h
    · cases h
      exact ⟨rfl, by simpa using hd⟩

theorem evalSetupVars_nonzero {s : State V} {v : Vars} {m o : Int} (h : (evalSetupVars s v m o).1 ≠ 0) :
    (evalSetupVars s v m o).2 = s := by
  revert h
  unfold evalSetupVars
  split
  · exact fun _ => rfl
  split
  · exact fun _ => rfl
  split
  · exact fun _ => rfl
  split
  · exact fun _ => rfl
  · exact fun h => absurd rfl h

theorem evalSetup_zero {s s' : State V} {v : Int} {m o : Int} (h : evalSetup s v m o = .ok (0, s')) :
    ∃ v', Vars.ofCode v = some v' ∧ s' = { s with mode := m, vars := some v', order := o } ∧
      s.depends &&& v'.provides = s.depends := by
  unfold evalSetup at h
  split at h
  · rename_i v' hv
    simp only [Outcome.ok.injEq] at h
    exact ⟨v', hv, evalSetupVars_zero h⟩
  · cases h

theorem evalSetup_nonzero {s s' : State V} {v : Int} {m o rc : Int} (h : evalSetup s v m o = .ok (rc, s'))
    (hrc : rc ≠ 0) : s' = s := by
  unfold evalSetup at h
  split at h
  · simp only [Outcome.ok.injEq] at h
    have := evalSetupVars_nonzero (s := s) (v := _) (m := m) (o := o) (by rw [h]; exact hrc)
    rw [h] at this; exact this
  · cases h

/-- A step that is not a successful setup does not change mode, variables or order. -/
theorem step_noSetup_frame {s s' : State V} (hs : s.WF) {c : Call V} (hc : ¬ SetupSucceeds s c)
    (h : c.step s = .ok s') : s'.mode = s.mode ∧ s'.vars = s.vars ∧ s'.order = s.order := by
  cases c with
  | set n v =>
    rw [step_set hs h]
    have := pureSet_frame s n v
    exact ⟨this.2.1, this.2.2, this.1⟩
  | get n => cases h; exact ⟨rfl, rfl, rfl⟩
  | isGga => cases h; exact ⟨rfl, rfl, rfl⟩
  | isMetagga => cases h; exact ⟨rfl, rfl, rfl⟩
  | evalSetup v m o =>
    obtain ⟨⟨rc, s₁⟩, hr, h⟩ := Outcome.bind_eq_ok.1 h
    cases h
    by_cases hrc : rc = 0
    · subst hrc; exact absurd ⟨_, hr⟩ hc
    · rw [evalSetup_nonzero hr hrc]; exact ⟨rfl, rfl, rfl⟩
  | userEvalSetup o f d m l k c e =>
    obtain ⟨⟨rc, s₁⟩, hr, h⟩ := Outcome.bind_eq_ok.1 h
    cases h
    by_cases hrc : rc = 0
    · subst hrc; exact absurd ⟨_, hr⟩ hc
    · obtain ⟨v, mo, _, _, hr⟩ := userEvalSetup_eq hr
      rw [evalSetup_nonzero hr hrc]; exact ⟨rfl, rfl, rfl⟩
  | inputLength => obtain ⟨r, hr, h⟩ := Outcome.bind_eq_ok.1 h; cases h; exact ⟨rfl, rfl, rfl⟩
  | outputLength => obtain ⟨r, hr, h⟩ := Outcome.bind_eq_ok.1 h; cases h; exact ⟨rfl, rfl, rfl⟩
  | eval run => obtain ⟨r, hr, h⟩ := Outcome.bind_eq_ok.1 h; cases h; exact ⟨rfl, rfl, rfl⟩

theorem run_noSetup_frame {h : List (Call V)} : ∀ {s s' : State V}, s.WF → NeverSetUp s h → run s h = .ok s' →
    s'.mode = s.mode ∧ s'.vars = s.vars ∧ s'.order = s.order := by
  induction h with
  | nil => intro s s' _ _ h; cases h; exact ⟨rfl, rfl, rfl⟩
  | cons c cs ih =>
    intro s s' hs hn h
    obtain ⟨s₁, h1, h2⟩ := run_cons_ok h
    obtain ⟨e1, e2, e3⟩ := step_noSetup_frame hs hn.1 h1
    obtain ⟨f1, f2, f3⟩ := ih (step_wf hs h1) (hn.2 s₁ h1) h2
    exact ⟨f1.trans e1, f2.trans e2, f3.trans e3⟩

/-- Configuration part of the invariant: either never set up, or a valid order for the mode. -/
def State.CfgOk (s : State V) : Prop :=
  (s.mode = MODE_UNSET ∧ s.vars = none ∧ s.order = -1) ∨
  (∃ v, s.vars = some v ∧ OrderOk s.mode s.order)

theorem evalSetupVars_order {s s' : State V} {v : Vars} {m o : Int} (h : evalSetupVars s v m o = (0, s')) :
    OrderOk m o := by
  unfold evalSetupVars at h
  split at h
  · simp [EVARS] at h
  split at h
  · simp [EORDER] at h
  · rename_i ho
    simp only [MAX_ORDER, not_or, not_and, not_lt] at ho
    refine ⟨?_, ?_, ?_⟩
    · omega
    · omega
    · intro hm
      have := ho.2 hm
      omega

theorem step_cfg {s s' : State V} (hs : s.WF) (hcfg : s.CfgOk) {c : Call V} (h : c.step s = .ok s') : s'.CfgOk := by
  by_cases hc : SetupSucceeds s c
  · right
    have main : ∀ {v m o : Int} {s₁ : State V}, evalSetup s v m o = .ok (0, s₁) →
        ∃ v, s₁.vars = some v ∧ OrderOk s₁.mode s₁.order := by
      intro v m o s₁ hr
      obtain ⟨v', hv, e, _⟩ := evalSetup_zero hr
      unfold evalSetup at hr
      rw [hv] at hr
      simp only [Outcome.ok.injEq] at hr
      rw [e]
      exact ⟨v', rfl, evalSetupVars_order hr⟩
    cases c with
    | evalSetup v m o =>
      obtain ⟨s₁, hr⟩ := hc
      simp only [Call.step, hr, Outcome.ok_bind, Outcome.pure_eq] at h
      cases h; exact main hr
    | userEvalSetup o f d m l k c e =>
      obtain ⟨s₁, hr⟩ := hc
      simp only [Call.step, hr, Outcome.ok_bind, Outcome.pure_eq] at h
      cases h
      obtain ⟨v, mo, _, _, hr⟩ := userEvalSetup_eq hr
      exact main hr
    | _ => exact absurd hc id
  · obtain ⟨e1, e2, e3⟩ := step_noSetup_frame hs hc h
    unfold State.CfgOk
    rw [e1, e2, e3]; exact hcfg

theorem run_cfg {h : List (Call V)} : ∀ {s s' : State V}, s.WF → s.CfgOk → run s h = .ok s' → s'.CfgOk := by
  induction h with
  | nil => intro s s' _ hc h; cases h; exact hc
  | cons c cs ih =>
    intro s s' hs hc h
    obtain ⟨s₁, h1, h2⟩ := run_cons_ok h
    exact ih (step_wf hs h1) (step_cfg hs hc h1) h2

theorem init_cfg : (State.init : State V).CfgOk := Or.inl ⟨rfl, rfl, rfl⟩

end XCFun
