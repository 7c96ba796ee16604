import Verif.Proofs.Setup
import Verif.Spec.Which
import Verif.Model.RatLit
import Mathlib.Tactic.IntervalCases

/-!
# Properties C09-C13 and C38: setup, variable selection, lengths
-/

set_option linter.unusedSectionVars false

namespace XCFun.Props
open Spec

variable {V : Type _} [Add V] [Mul V] [Lit V]

/-! ## C09 -/

theorem code_table (S O P G H M : Prop) [Decidable S] [Decidable O] [Decidable P] [Decidable G] [Decidable H]
    [Decidable M] (rc : Int)
    (hrc : rc = if ¬ S then 2 else if ¬ O then 1 else if P ∧ G ∧ ¬ H then 6 else if P ∧ M then 4 else 0) :
    (rc = 0 ↔ S ∧ O ∧ (P → ¬ M ∧ (G → H))) ∧ (rc = 2 ↔ ¬ S) ∧ (rc = 1 ↔ S ∧ ¬ O) ∧
    (rc = 6 ↔ S ∧ O ∧ P ∧ G ∧ ¬ H) ∧ (rc = 4 ↔ S ∧ O ∧ P ∧ (G → H) ∧ M) := by
  subst hrc
  by_cases S <;> by_cases O <;> by_cases P <;> by_cases G <;> by_cases H <;> by_cases M <;> simp [*]

/-- **C09 (decision table).** On every reachable object, for every variable set, mode and order, `xcfun_eval_setup`
returns exactly one of five codes, and each code is characterised.  On failure the object is unchanged; on success
exactly mode, variables and order change. -/
theorem C09_decision_table (h : List (Call V)) (s : State V) (hr : run State.init h = .ok s)
    (v : Vars) (m o : Int) :
    ∃ rc s', evalSetup s v.code m o = .ok (rc, s') ∧
      (rc = 0 ↔ Sufficient s v ∧ OrderOk m o ∧
        (m = POTENTIAL → ¬ Needs s 2 ∧ ¬ Needs s 3 ∧ (Needs s 1 → HessianVars v))) ∧
      (rc = EVARS ↔ ¬ Sufficient s v) ∧
      (rc = EORDER ↔ Sufficient s v ∧ ¬ OrderOk m o) ∧
      (rc = EVARS_EMODE ↔ Sufficient s v ∧ OrderOk m o ∧ m = POTENTIAL ∧ Needs s 1 ∧ ¬ HessianVars v) ∧
      (rc = EMODE ↔ Sufficient s v ∧ OrderOk m o ∧ m = POTENTIAL ∧ (Needs s 1 → HessianVars v) ∧
        (Needs s 2 ∨ Needs s 3)) ∧
      (rc ≠ 0 → s' = s) ∧
      (rc = 0 → s' = { s with mode := m, vars := some v, order := o }) := by
  have hs := run_wf init_wf hr
  refine ⟨(evalSetupVars s v m o).1, (evalSetupVars s v m o).2, by simp [evalSetup, ofCode_code], ?_⟩
  have hsuf := sufficient_iff hs v
  have hn1 := needs_iff hs 1
  have hn2 := needs_iff hs 2
  have hn3 := needs_iff hs 3
  have hord : OrderOk m o ↔ ¬ ((o < 0 ∨ o > MAX_ORDER) ∨ (m = PARTIAL_DERIVATIVES ∧ o > 4)) := by
    simp only [OrderOk, MAX_ORDER, not_or, not_and, not_lt]
    constructor
    · rintro ⟨a, b, c⟩; exact ⟨⟨a, by omega⟩, fun h => by have := c h; omega⟩
    · rintro ⟨⟨a, b⟩, c⟩; exact ⟨a, by omega, fun h => by have := c h; omega⟩
  have hg : (s.depends &&& GRADIENT) ≠ 0 ↔ Needs s 1 := (and_gradient _).trans hn1.symm
  have hm : (s.depends &&& (LAPLACIAN ||| KINETIC)) ≠ 0 ↔ (Needs s 2 ∨ Needs s 3) := by
    rw [hn2, hn3]; exact and_meta _
  have ht : ((!isTaylorVars v) = true) ↔ ¬ HessianVars v := by
    rw [← isTaylorVars_iff]; simp
  classical
  have hval : (evalSetupVars s v m o).1 = if ¬ Sufficient s v then 2 else if ¬ OrderOk m o then 1
      else if m = POTENTIAL ∧ Needs s 1 ∧ ¬ HessianVars v then 6
      else if m = POTENTIAL ∧ (Needs s 2 ∨ Needs s 3) then 4 else 0 := by
    unfold evalSetupVars
    simp only [ne_eq] at hg hm
    simp only [hsuf, hord, not_not, ne_eq, hg, ht, hm]
    split
    · rfl
    split
    · rfl
    split
    · rfl
    split <;> rfl
  obtain ⟨t0, t2, t1, t6, t4⟩ := code_table _ _ _ _ _ _ _ hval
  refine ⟨?_, t2, t1, t6, t4, evalSetupVars_nonzero, fun h0 => ?_⟩
  · rw [t0]; simp only [not_or, and_assoc]
  · exact (evalSetupVars_zero (s' := (evalSetupVars s v m o).2) (Prod.ext h0 rfl)).1

/-- An int that is not one of the 31 enumerators (in particular `XC_VARS_UNSET` and `XC_NR_VARS`) makes
`xcfun_eval_setup` read outside its table. -/
theorem C09_invalid_vars (s : State V) (i m o : Int) (hi : ∀ v : Vars, i ≠ v.code) : evalSetup s i m o = .ub := by
  unfold evalSetup
  cases hv : Vars.ofCode i with
  | none => rfl
  | some v => exact absurd (ofCode_eq_some hv) (hi v)

example : ∀ v : Vars, (31 : Int) ≠ v.code ∧ (-1 : Int) ≠ v.code := by intro v; cases v <;> decide

/-- All five codes occur: on `pbex` and on `tpssx`. -/
example :
    let s1 : State Rat := { (State.init : State Rat) with active := [5], depends := 3 }
    let s2 : State Rat := { (State.init : State Rat) with active := [42], depends := 11 }
    (evalSetupVars s1 .A_B PARTIAL_DERIVATIVES 1).1 = EVARS ∧
    (evalSetupVars s1 .N_GNN PARTIAL_DERIVATIVES 5).1 = EORDER ∧
    (evalSetupVars s1 .N_GNN POTENTIAL 1).1 = EVARS_EMODE ∧
    (evalSetupVars s1 .N_2ND_TAYLOR POTENTIAL 1).1 = 0 ∧
    (evalSetupVars s2 .N_GNN_TAUN POTENTIAL 1).1 = EVARS_EMODE ∧
    (evalSetupVars s1 .N_GNN CONTRACTED 6).1 = 0 := by decide +kernel

/-- The code `EMODE` alone is never returned: no variable set carries both a Hessian and the kinetic energy, and every
functional needing the Laplacian also needs the kinetic energy. -/
theorem C09_emode_alone_never (h : List (Call V)) (s : State V) (hr : run State.init h = .ok s)
    (v : Vars) (m o : Int) (rc : Int) (s' : State V) (he : evalSetup s v.code m o = .ok (rc, s')) : rc ≠ EMODE := by
  rintro rfl
  have hs := run_wf init_wf hr
  obtain ⟨rc, s'', he', -, -, -, -, h5, -⟩ := C09_decision_table h s hr v m o
  rw [he] at he'
  simp only [Outcome.ok.injEq, Prod.mk.injEq] at he'
  obtain ⟨hsuf, -, -, hgh, hmeta⟩ := h5.1 he'.1.symm
  have tab : ∀ f ∈ funs, (f.depends.testBit 2 = true → f.depends.testBit 3 = true) ∧
      (f.depends.testBit 3 = true → f.depends.testBit 1 = true) := by decide +kernel
  have h3 : Needs s 3 := by
    rcases hmeta with ⟨i, hi, f, hf, hk⟩ | h3
    · exact ⟨i, hi, f, hf, (tab f (List.mem_of_getElem? hf)).1 hk⟩
    · exact h3
  have h1 : Needs s 1 := by
    obtain ⟨i, hi, f, hf, hk⟩ := h3
    exact ⟨i, hi, f, hf, (tab f (List.mem_of_getElem? hf)).2 hk⟩
  have hv := hgh h1
  have hc := (carries_iff v 3).1 (hsuf 3 h3)
  rcases hv with rfl | rfl | rfl | rfl <;> revert hc <;> decide

/-! ## C10 -/

/-- **C10.** After a successful setup, and as long as later `set` calls name no functional that was not active
at the time of the setup, the configured variables provide everything the active functionals need.
Without the restriction on later `set` calls the claim is false (`C10_full_claim_false`). -/
theorem C10_sufficiency (h₁ h₂ : List (Call V)) (s₁ s₂ s₃ : State V) (v m o : Int)
    (hr : run State.init h₁ = .ok s₁) (hset : evalSetup s₁ v m o = .ok (0, s₂)) (hr₂ : run s₂ h₂ = .ok s₃)
    (hno : ∀ c ∈ sets h₂, ∀ i, Mentions c.1 i → i ∈ s₁.active) :
    ∃ w, s₃.vars = some w ∧ Sufficient s₃ w := by
  have hs₁ := run_wf init_wf hr
  obtain ⟨v', hv', e, hd⟩ := evalSetup_zero hset
  have hact : s₂.active = s₁.active := by rw [e]
  have hs₂ : s₂.WF := by rw [e]; exact ⟨hs₁.nodup, hs₁.lt, hs₁.dep⟩
  -- generalise over the starting state of the second history
  have main : ∀ (h : List (Call V)) (s s' : State V), s.WF → (∀ i, i ∈ s.active ↔ i ∈ s₁.active) →
      (∃ w, s.vars = some w ∧ Sufficient s w) → (∀ c ∈ sets h, ∀ i, Mentions c.1 i → i ∈ s₁.active) →
      run s h = .ok s' → ∃ w, s'.vars = some w ∧ Sufficient s' w := by
    intro h
    induction h with
    | nil => intro s s' _ _ hsuf _ h; cases h; exact hsuf
    | cons c cs ih =>
      intro s s' hs hact hsuf hno h
      obtain ⟨t, h1, h2⟩ := run_cons_ok h
      have ht := step_wf hs h1
      have hactt : ∀ i, i ∈ t.active ↔ i ∈ s.active := by
        intro i
        by_cases hc : ∃ n v, c = .set n v
        · obtain ⟨n, v, rfl⟩ := hc
          rw [step_set hs h1, pureSet_mem_active]
          constructor
          · rintro (h | h)
            · exact h
            · exact (hact i).2 (hno (n, v) (by simp [sets_cons_set]) i h)
          · exact Or.inl
        · rw [(step_frame (fun n v e => hc ⟨n, v, e⟩) h1).1]
      have needs_t : ∀ k, Needs t k ↔ Needs s k := by
        intro k
        unfold Needs
        simp only [hactt]
      have hact' : ∀ i, i ∈ t.active ↔ i ∈ s₁.active := fun i => (hactt i).trans (hact i)
      have hno' : ∀ c ∈ sets cs, ∀ i, Mentions c.1 i → i ∈ s₁.active := by
        intro c' hc' i hm
        refine hno c' ?_ i hm
        by_cases hc : ∃ n v, c = .set n v
        · obtain ⟨n, v, rfl⟩ := hc
          rw [sets_cons_set]; exact List.mem_cons_of_mem _ hc'
        · rw [sets_cons_other (fun n v e => hc ⟨n, v, e⟩)]; exact hc'
      refine ih t s' ht hact' ?_ hno' h2
      by_cases hc : SetupSucceeds s c
      · have fromSetup : ∀ {v m o : Int} {s₁ : State V}, evalSetup s v m o = .ok (0, s₁) →
            ∃ w, s₁.vars = some w ∧ Sufficient s w := by
          intro v m o s₁ hr
          obtain ⟨v', hv, e, hd⟩ := evalSetup_zero hr
          rw [e]
          exact ⟨v', rfl, (sufficient_iff hs v').2 hd⟩
        have trans : (∃ w, t.vars = some w ∧ Sufficient s w) → ∃ w, t.vars = some w ∧ Sufficient t w := by
          rintro ⟨w, hw, hsw⟩
          exact ⟨w, hw, fun k hk => hsw k ((needs_t k).1 hk)⟩
        apply trans
        cases c with
        | evalSetup v m o =>
          obtain ⟨s₁, hr⟩ := hc
          simp only [Call.step, hr, Outcome.ok_bind, Outcome.pure_eq] at h1
          cases h1; exact fromSetup hr
        | userEvalSetup o f d m l k c e =>
          obtain ⟨s₁, hr⟩ := hc
          simp only [Call.step, hr, Outcome.ok_bind, Outcome.pure_eq] at h1
          cases h1
          obtain ⟨v, mo, _, _, hr⟩ := userEvalSetup_eq hr
          exact fromSetup hr
        | _ => exact absurd hc id
      · obtain ⟨w, hw, hsw⟩ := hsuf
        refine ⟨w, (step_noSetup_frame hs hc h1).2.1.trans hw, fun k hk => hsw k ((needs_t k).1 hk)⟩
  refine main h₂ s₂ s₃ hs₂ (by intro i; rw [hact]) ⟨v', by rw [e], ?_⟩ hno hr₂
  have := (sufficient_iff hs₁ v').2 hd
  intro k hk
  apply this k
  unfold Needs at *
  rw [hact] at hk
  exact hk

/-- A concrete run to which `C10_sufficiency` applies: `pbe`, setup with `XC_N_GNN`, then changing a weight. -/
example : ∃ s : State Rat, run State.init [.set "pbe" 1, .evalSetup 5 1 2, .set "PBEX" 3, .isGga] = .ok s ∧
    s.vars = some .N_GNN ∧ s.active = [5, 4] := ⟨_, rfl, rfl, rfl⟩

/-- **C10 (negation of the full claim).** `slaterx`, setup with `XC_A_B`, then `pbex`: the object is configured with
variables that do not carry the gradient its active functionals need. -/
theorem C10_full_claim_false : ∃ (s : State Rat) (w : Vars),
    run State.init [.set "slaterx" 1, .evalSetup Vars.A_B.code PARTIAL_DERIVATIVES 1, .set "pbex" 1] = .ok s ∧
    s.vars = some w ∧ ¬ Sufficient s w := by
  refine ⟨_, .A_B, rfl, rfl, fun h => ?_⟩
  have h1 : Carries .A_B 1 := h 1 ⟨5, by decide +kernel, ⟨"PBEX", DENSITY ||| GRADIENT⟩, rfl, by decide⟩
  rw [carries_iff] at h1
  revert h1; decide

/-! ## C11 -/

/-- The returned value, if any, as a list. -/
def okPart {α : Type _} : Outcome α → List α
  | .ok a => [a]
  | _ => []

set_option synthInstance.maxSize 2000 in
set_option synthInstance.maxHeartbeats 100000 in
/-- The complete table of `xcfun_which_vars` on arguments in range. -/
theorem whichVars_table : ∀ f : Fin 4, ∀ d : Fin 4, ∀ l k c e : Fin 2,
    ∀ v ∈ okPart (whichVars f d l k c e),
      densityKind v = some d.val ∧
      (v.provides.testBit 1 = true ↔ 1 ≤ f.val) ∧
      (v.provides.testBit 3 = true ↔ k.val = 1) ∧
      (v.provides.testBit 4 = true ↔ c.val = 1) ∧
      (v.provides.testBit 2 = true ↔ l.val = 1 ∨ f.val = 3) ∧
      (explicitGradient v = true ↔ e.val = 1) ∧
      (isTaylorSymbol v = true ↔ f.val = 3) ∧
      (f.val = 2 ↔ (l.val = 1 ∨ k.val = 1)) := by decide +kernel

theorem whichVars_range {f d l k c e : Nat} {v : Vars} (h : whichVars f d l k c e = .ok v) :
    f < 4 ∧ d < 4 ∧ l < 2 ∧ k < 2 ∧ c < 2 ∧ e < 2 := by
  unfold whichVars at h
  split at h
  · cases h
  · rename_i hn
    simp only [not_or, not_lt] at hn
    omega

/-- **C11 (faithful).** For all arguments: if `xcfun_which_vars` returns a variable set, it is of the requested density
kind, carries a gradient exactly for GGA and beyond, carries kinetic energy and current exactly when requested, the
Laplacian exactly when requested or in a Taylor expansion, gives the gradient by components exactly when requested,
and is a Taylor expansion exactly for function type 3. -/
theorem C11_faithful (f d l k c e : Nat) (v : Vars) (h : whichVars f d l k c e = .ok v) :
    densityKind v = some d ∧
    (Carries v 1 ↔ 1 ≤ f) ∧ (Carries v 3 ↔ k = 1) ∧ (Carries v 4 ↔ c = 1) ∧
    (Carries v 2 ↔ l = 1 ∨ f = 3) ∧ (explicitGradient v = true ↔ e = 1) ∧
    (isTaylorSymbol v = true ↔ f = 3) ∧ (f = 2 ↔ (l = 1 ∨ k = 1)) := by
  obtain ⟨hf, hd, hl, hk, hc, he⟩ := whichVars_range h
  have := whichVars_table ⟨f, hf⟩ ⟨d, hd⟩ ⟨l, hl⟩ ⟨k, hk⟩ ⟨c, hc⟩ ⟨e, he⟩ v (by simp [h, okPart])
  simp only [carries_iff]
  exact this

/-- **C11 (total).** For all arguments the call either returns a variable set or aborts. -/
theorem C11_total (f d l k c e : Nat) : (∃ v, whichVars f d l k c e = .ok v) ∨ whichVars f d l k c e = .die := by
  unfold whichVars
  split
  · exact Or.inr rfl
  · split
    · exact Or.inl ⟨_, rfl⟩
    · exact Or.inr rfl

/-- **C11 (injective).** No two different accepted requests return the same variable set. -/
theorem C11_injective (f d l k c e f' d' l' k' c' e' : Nat) (v : Vars)
    (h : whichVars f d l k c e = .ok v) (h' : whichVars f' d' l' k' c' e' = .ok v) :
    (f, d, l, k, c, e) = (f', d', l', k', c', e') := by
  obtain ⟨a1, a2, a3, a4, a5, a6, a7, a8⟩ := C11_faithful _ _ _ _ _ _ _ h
  obtain ⟨b1, b2, b3, b4, b5, b6, b7, b8⟩ := C11_faithful _ _ _ _ _ _ _ h'
  obtain ⟨hf, hd, hl, hk, hc, he⟩ := whichVars_range h
  obtain ⟨hf', hd', hl', hk', hc', he'⟩ := whichVars_range h'
  rw [a1] at b1
  rw [a2] at b2; rw [a3] at b3; rw [a4] at b4; rw [a5] at b5; rw [a6] at b6; rw [a7] at b7
  simp only [Option.some.injEq] at b1
  simp only [Prod.mk.injEq]
  omega

/-- **C11 (surjective).** Every variable set is returned for some request. -/
theorem C11_surjective (v : Vars) : ∃ f d l k c e, whichVars f d l k c e = .ok v := by
  cases v
  case A => exact ⟨0, 0, 0, 0, 0, 0, rfl⟩
  case N => exact ⟨0, 1, 0, 0, 0, 0, rfl⟩
  case A_B => exact ⟨0, 2, 0, 0, 0, 0, rfl⟩
  case N_S => exact ⟨0, 3, 0, 0, 0, 0, rfl⟩
  case A_GAA => exact ⟨1, 0, 0, 0, 0, 0, rfl⟩
  case N_GNN => exact ⟨1, 1, 0, 0, 0, 0, rfl⟩
  case A_B_GAA_GAB_GBB => exact ⟨1, 2, 0, 0, 0, 0, rfl⟩
  case N_S_GNN_GNS_GSS => exact ⟨1, 3, 0, 0, 0, 0, rfl⟩
  case A_GAA_LAPA => exact ⟨2, 0, 1, 0, 0, 0, rfl⟩
  case A_GAA_TAUA => exact ⟨2, 0, 0, 1, 0, 0, rfl⟩
  case N_GNN_LAPN => exact ⟨2, 1, 1, 0, 0, 0, rfl⟩
  case N_GNN_TAUN => exact ⟨2, 1, 0, 1, 0, 0, rfl⟩
  case A_B_GAA_GAB_GBB_LAPA_LAPB => exact ⟨2, 2, 1, 0, 0, 0, rfl⟩
  case A_B_GAA_GAB_GBB_TAUA_TAUB => exact ⟨2, 2, 0, 1, 0, 0, rfl⟩
  case N_S_GNN_GNS_GSS_LAPN_LAPS => exact ⟨2, 3, 1, 0, 0, 0, rfl⟩
  case N_S_GNN_GNS_GSS_TAUN_TAUS => exact ⟨2, 3, 0, 1, 0, 0, rfl⟩
  case A_B_GAA_GAB_GBB_LAPA_LAPB_TAUA_TAUB => exact ⟨2, 2, 1, 1, 0, 0, rfl⟩
  case A_B_GAA_GAB_GBB_LAPA_LAPB_TAUA_TAUB_JPAA_JPBB => exact ⟨2, 2, 1, 1, 1, 0, rfl⟩
  case N_S_GNN_GNS_GSS_LAPN_LAPS_TAUN_TAUS => exact ⟨2, 3, 1, 1, 0, 0, rfl⟩
  case A_AX_AY_AZ => exact ⟨1, 0, 0, 0, 0, 1, rfl⟩
  case A_B_AX_AY_AZ_BX_BY_BZ => exact ⟨1, 2, 0, 0, 0, 1, rfl⟩
  case N_NX_NY_NZ => exact ⟨1, 1, 0, 0, 0, 1, rfl⟩
  case N_S_NX_NY_NZ_SX_SY_SZ => exact ⟨1, 3, 0, 0, 0, 1, rfl⟩
  case A_AX_AY_AZ_TAUA => exact ⟨2, 0, 0, 1, 0, 1, rfl⟩
  case A_B_AX_AY_AZ_BX_BY_BZ_TAUA_TAUB => exact ⟨2, 2, 0, 1, 0, 1, rfl⟩
  case N_NX_NY_NZ_TAUN => exact ⟨2, 1, 0, 1, 0, 1, rfl⟩
  case N_S_NX_NY_NZ_SX_SY_SZ_TAUN_TAUS => exact ⟨2, 3, 0, 1, 0, 1, rfl⟩
  case A_2ND_TAYLOR => exact ⟨3, 0, 0, 0, 0, 0, rfl⟩
  case A_B_2ND_TAYLOR => exact ⟨3, 2, 0, 0, 0, 0, rfl⟩
  case N_2ND_TAYLOR => exact ⟨3, 1, 0, 0, 0, 0, rfl⟩
  case N_S_2ND_TAYLOR => exact ⟨3, 3, 0, 0, 0, 0, rfl⟩

example : whichVars 2 2 0 1 0 1 = .ok .A_B_AX_AY_AZ_BX_BY_BZ_TAUA_TAUB ∧ whichVars 4 0 0 0 0 0 = .die ∧
    whichVars 0 0 1 0 0 0 = .die := by decide

/-! ## C12 -/

/-- **C12.** `xcfun_user_eval_setup` aborts when the request does not decode, and otherwise is `xcfun_eval_setup` on the
decoded variables and mode with the same order; mode types 1, 2, 3 decode to the three modes and nothing else
decodes. -/
theorem C12_user_eval_setup (s : State V) (o : Int) (f d m l k c e : Nat) :
    (∀ v mo, whichVars f d l k c e = .ok v → whichMode m = .ok mo →
      userEvalSetup s o f d m l k c e = evalSetup s v.code mo o) ∧
    ((¬ ∃ v mo, whichVars f d l k c e = .ok v ∧ whichMode m = .ok mo) →
      userEvalSetup s o f d m l k c e = .die) ∧
    (∀ mo, whichMode m = .ok mo ↔
      (m = 1 ∧ mo = PARTIAL_DERIVATIVES) ∨ (m = 2 ∧ mo = POTENTIAL) ∨ (m = 3 ∧ mo = CONTRACTED)) := by
  have hmode : ∀ mo, whichMode m = .ok mo ↔
      (m = 1 ∧ mo = PARTIAL_DERIVATIVES) ∨ (m = 2 ∧ mo = POTENTIAL) ∨ (m = 3 ∧ mo = CONTRACTED) := by
    intro mo
    unfold whichMode
    by_cases h3 : m > 3
    · simp only [h3, if_true]; constructor
      · intro h; cases h
      · omega
    · rw [if_neg h3]
      have : m = 0 ∨ m = 1 ∨ m = 2 ∨ m = 3 := by omega
      rcases this with rfl | rfl | rfl | rfl <;> simp [eq_comm]
  refine ⟨fun v mo hv hmo => ?_, fun hno => ?_, hmode⟩
  · unfold userEvalSetup; rw [hv, hmo]; rfl
  · unfold userEvalSetup
    rcases C11_total f d l k c e with ⟨v, hv⟩ | hv
    · rw [hv]
      have hm : whichMode m = .die := by
        cases hm : whichMode m with
        | ok mo => exact absurd ⟨v, mo, hv, hm⟩ hno
        | die => rfl
        | ub => unfold whichMode at hm; split_ifs at hm
        | diverge => unfold whichMode at hm; split_ifs at hm
      rw [hm]; rfl
    · rw [hv]; rfl

example : whichMode 2 = .ok POTENTIAL ∧ whichMode 0 = .die ∧ whichMode 4 = .die := by decide

/-! ## C13 -/

/-- **C13 (arithmetic).** For every number of variables and order for which the products fit into an `int`, `taylorlen`
returns the number of monomials of degree at most `d` in `n` variables, which is `binomial(n + d, d)`. -/
theorem C13_taylorlen (n d : Nat) (h1 : n * (n + d).choose d < 2 ^ 31) (h2 : n + d < 2 ^ 31) :
    taylorlen n d = .ok (numMonomials n d : Int) ∧ numMonomials n d = (n + d).choose d := by
  refine ⟨?_, numMonomials_eq n d⟩
  rw [numMonomials_eq]
  apply taylorlen_eq
  · simp only [INT_MAX]; omega
  · simp only [INT_MAX]; omega

/-- **C13 (API).** On every reachable object configured for partial derivatives, `xcfun_output_length` returns, without
overflow, the number of derivatives of order at most `order` in `xcfun_input_length` variables. -/
theorem C13_output_length (h : List (Call V)) (s : State V) (hr : run State.init h = .ok s)
    (hm : s.mode = PARTIAL_DERIVATIVES) :
    ∃ n d : Nat, inputLength s = .ok n ∧ s.order = d ∧ outputLength s = .ok (numMonomials n d : Int) := by
  have hcfg := run_cfg init_wf init_cfg hr
  rcases hcfg with ⟨h0, _, _⟩ | ⟨v, hv, ho⟩
  · rw [hm] at h0; exact absurd h0 (by decide)
  · have ho4 := ho.2.2 hm
    obtain ⟨d, hd⟩ : ∃ d : Nat, s.order = d := ⟨s.order.toNat, by have := ho.1; omega⟩
    refine ⟨v.len, d, by simp [inputLength, hv], hd, ?_⟩
    have hlen : v.len ≤ 20 := by cases v <;> decide
    have hd4 : d ≤ 4 := by omega
    have hout : outputLength s = taylorlen v.len s.order := by
      unfold outputLength
      rw [if_neg (by rw [hm]; decide), hv]
      have hd' : ((d : Int) = -1) = False := by simp only [eq_iff_iff, iff_false]; omega
      simp [hm, hd, hd', PARTIAL_DERIVATIVES]
    rw [hout, hd]
    refine (C13_taylorlen v.len d ?_ (by omega)).1
    have c1 : (v.len + d).choose d ≤ (20 + d).choose d := Nat.choose_le_choose _ (by omega)
    have c2 : (20 + d).choose d ≤ 10626 := by
      have : ∀ d ≤ 4, (20 + d).choose d ≤ 10626 := by decide
      exact this d hd4
    calc v.len * (v.len + d).choose d ≤ 20 * 10626 := Nat.mul_le_mul hlen (c1.trans c2)
      _ < 2 ^ 31 := by norm_num

example : taylorlen 5 2 = .ok 21 ∧ taylorlen 20 4 = .ok 10626 ∧ taylorlen 40 40 = .ub := by decide +kernel

/-! ## C38 -/

/-- **C38 (guards).** On every object that was never successfully set up, `xcfun_output_length` aborts with a message,
and `xcfun_input_length` reads outside its table.  (For `xcfun_eval` see `C38_eval_before_setup`.) -/
theorem C38_lengths_before_setup (h : List (Call V)) (s : State V) (hr : run State.init h = .ok s)
    (hno : NeverSetUp State.init h) : outputLength s = .die ∧ inputLength s = .ub := by
  obtain ⟨e1, e2, e3⟩ := run_noSetup_frame init_wf hno hr
  constructor
  · unfold outputLength; rw [e1]; rfl
  · unfold inputLength; rw [e2]; rfl

/-- **C38 (after setup).** After a successful setup with `v`, and whatever else is called except another successful
setup, `xcfun_input_length` returns the length of `v`. -/
theorem C38_input_length_after_setup (h₁ h₂ : List (Call V)) (s₁ s₂ s₃ : State V) (v : Vars) (m o : Int)
    (hr : run State.init h₁ = .ok s₁) (hset : evalSetup s₁ v.code m o = .ok (0, s₂))
    (hno : NeverSetUp s₂ h₂) (hr₂ : run s₂ h₂ = .ok s₃) : inputLength s₃ = .ok v.len := by
  have hs₁ := run_wf init_wf hr
  obtain ⟨v', hv', e, -⟩ := evalSetup_zero hset
  rw [ofCode_code] at hv'
  cases hv'
  have hs₂ : s₂.WF := by rw [e]; exact ⟨hs₁.nodup, hs₁.lt, hs₁.dep⟩
  obtain ⟨-, e2, -⟩ := run_noSetup_frame hs₂ hno hr₂
  unfold inputLength
  rw [e2, e]

example : NeverSetUp (State.init : State Rat) [.set "pbe" 1, .evalSetup 2 1 1, .isGga] := by
  refine ⟨id, ?_⟩
  rintro s' h
  cases h
  refine ⟨?_, ?_⟩
  · rintro ⟨s', h⟩; cases h
  · rintro s' h; exact ⟨id, fun _ _ => trivial⟩

end XCFun.Props
