import Verif.Proofs.Set

/-!
# Invariants over call histories
-/

set_option linter.unusedSectionVars false

namespace XCFun
open Spec

variable {V : Type _} [Add V] [Mul V] [Lit V]

theorem evalSetupVars_frame (s : State V) (v : Vars) (m o : Int) :
    (evalSetupVars s v m o).2.active = s.active ∧ (evalSetupVars s v m o).2.depends = s.depends ∧
    (evalSetupVars s v m o).2.settings = s.settings := by
  unfold evalSetupVars
  split
  · exact ⟨rfl, rfl, rfl⟩
  split
  · exact ⟨rfl, rfl, rfl⟩
  split
  · exact ⟨rfl, rfl, rfl⟩
  split <;> exact ⟨rfl, rfl, rfl⟩

theorem evalSetup_frame {s : State V} {v m o : Int} {r : Int × State V} (h : evalSetup s v m o = .ok r) :
    r.2.active = s.active ∧ r.2.depends = s.depends ∧ r.2.settings = s.settings := by
  unfold evalSetup at h
  split at h
  · cases h; exact evalSetupVars_frame _ _ _ _
  · cases h

theorem userEvalSetup_eq {s : State V} {o : Int} {f d m l k c e : Nat} {r : Int × State V}
    (h : userEvalSetup s o f d m l k c e = .ok r) :
    ∃ v mo, whichVars f d l k c e = .ok v ∧ whichMode m = .ok mo ∧ evalSetup s v.code mo o = .ok r := by
  unfold userEvalSetup at h
  obtain ⟨v, hv, h⟩ := Outcome.bind_eq_ok.1 h
  obtain ⟨mo, hm, h⟩ := Outcome.bind_eq_ok.1 h
  exact ⟨v, mo, hv, hm, h⟩

/-- A call other than `set` leaves weights, active list and dependencies alone. -/
theorem step_frame {s s' : State V} {c : Call V} (hc : ∀ n v, c ≠ .set n v) (h : c.step s = .ok s') :
    s'.active = s.active ∧ s'.depends = s.depends ∧ s'.settings = s.settings := by
  cases c with
  | set n v => exact absurd rfl (hc n v)
  | get n => cases h; exact ⟨rfl, rfl, rfl⟩
  | isGga => cases h; exact ⟨rfl, rfl, rfl⟩
  | isMetagga => cases h; exact ⟨rfl, rfl, rfl⟩
  | evalSetup v m o =>
    obtain ⟨r, hr, h⟩ := Outcome.bind_eq_ok.1 h
    cases h; exact evalSetup_frame hr
  | userEvalSetup o f d m l k c e =>
    obtain ⟨r, hr, h⟩ := Outcome.bind_eq_ok.1 h
    cases h
    obtain ⟨v, mo, _, _, hr⟩ := userEvalSetup_eq hr
    exact evalSetup_frame hr
  | inputLength => obtain ⟨r, hr, h⟩ := Outcome.bind_eq_ok.1 h; cases h; exact ⟨rfl, rfl, rfl⟩
  | outputLength => obtain ⟨r, hr, h⟩ := Outcome.bind_eq_ok.1 h; cases h; exact ⟨rfl, rfl, rfl⟩
  | eval run => obtain ⟨r, hr, h⟩ := Outcome.bind_eq_ok.1 h; cases h; exact ⟨rfl, rfl, rfl⟩

theorem step_set {s s' : State V} (hs : s.WF) {n : String} {v : V} (h : (Call.set n v).step s = .ok s') :
    s' = pureSet s n v := by
  simp only [Call.step, xcfunSet_eq hs, Outcome.ok_bind, Outcome.pure_eq] at h
  cases h; rfl

theorem step_wf {s s' : State V} (hs : s.WF) {c : Call V} (h : c.step s = .ok s') : s'.WF := by
  by_cases hc : ∃ n v, c = .set n v
  · obtain ⟨n, v, rfl⟩ := hc
    rw [step_set hs h]; exact pureSet_wf hs n v
  · obtain ⟨h1, h2, h3⟩ := step_frame (fun n v e => hc ⟨n, v, e⟩) h
    exact ⟨h1 ▸ hs.nodup, h1 ▸ hs.lt, by rw [h1, h2]; exact hs.dep⟩

theorem run_cons_ok {s s' : State V} {c : Call V} {cs : List (Call V)} (h : run s (c :: cs) = .ok s') :
    ∃ s₁, c.step s = .ok s₁ ∧ run s₁ cs = .ok s' :=
  Outcome.bind_eq_ok.1 h

theorem run_append {s : State V} (as bs : List (Call V)) :
    run s (as ++ bs) = (run s as >>= fun s' => run s' bs) := by
  induction as generalizing s with
  | nil => rfl
  | cons a as ih =>
    show (a.step s >>= fun s₁ => run s₁ (as ++ bs)) = ((a.step s >>= fun s₁ => run s₁ as) >>= fun s' => run s' bs)
    cases a.step s <;> simp [ih]

theorem run_wf {h : List (Call V)} : ∀ {s s' : State V}, s.WF → run s h = .ok s' → s'.WF := by
  induction h with
  | nil => intro s s' hs h; cases h; exact hs
  | cons c cs ih =>
    intro s s' hs h
    obtain ⟨s₁, h1, h2⟩ := run_cons_ok h
    exact ih (step_wf hs h1) h2

theorem sets_cons_set (n : String) (v : V) (cs : List (Call V)) : sets (.set n v :: cs) = (n, v) :: sets cs := rfl

theorem sets_cons_other {c : Call V} (hc : ∀ n v, c ≠ .set n v) (cs : List (Call V)) : sets (c :: cs) = sets cs := by
  cases c with
  | set n v => exact absurd rfl (hc n v)
  | _ => rfl

theorem run_settings_fun {i : Nat} (hi : i < NR_FUNCTIONALS) {h : List (Call V)} :
    ∀ {s s' : State V}, s.WF → run s h = .ok s' →
    s'.settings i = (contributions i h).foldl (· + ·) (s.settings i) := by
  induction h with
  | nil => intro s s' hs h; cases h; rfl
  | cons c cs ih =>
    intro s s' hs h
    obtain ⟨s₁, h1, h2⟩ := run_cons_ok h
    rw [ih (step_wf hs h1) h2]
    by_cases hc : ∃ n v, c = .set n v
    · obtain ⟨n, v, rfl⟩ := hc
      rw [step_set hs h1, pureSet_settings_fun _ _ _ hi]
      simp [contributions, sets_cons_set]
    · have hc' : ∀ n v, c ≠ .set n v := fun n v e => hc ⟨n, v, e⟩
      rw [(step_frame hc' h1).2.2]
      simp [contributions, sets_cons_other hc']

theorem run_settings_param {i : Nat} (hi : NR_FUNCTIONALS ≤ i) {h : List (Call V)} :
    ∀ {s s' : State V}, s.WF → run s h = .ok s' →
    s'.settings i = ((writesTo i h).getLast?).getD (s.settings i) := by
  induction h with
  | nil => intro s s' hs h; cases h; rfl
  | cons c cs ih =>
    intro s s' hs h
    obtain ⟨s₁, h1, h2⟩ := run_cons_ok h
    rw [ih (step_wf hs h1) h2]
    by_cases hc : ∃ n v, c = .set n v
    · obtain ⟨n, v, rfl⟩ := hc
      rw [step_set hs h1, pureSet_settings_param _ _ _ hi]
      simp only [writesTo, sets_cons_set, List.flatMap_cons, List.getLast?_append]
      cases (List.flatMap (fun c => paramWrites i c.1 c.2) (sets cs)).getLast? <;> rfl
    · have hc' : ∀ n v, c ≠ .set n v := fun n v e => hc ⟨n, v, e⟩
      rw [(step_frame hc' h1).2.2]
      simp [writesTo, sets_cons_other hc']

theorem run_mem_active (i : Nat) {h : List (Call V)} :
    ∀ {s s' : State V}, s.WF → run s h = .ok s' →
    (i ∈ s'.active ↔ i ∈ s.active ∨ ∃ c ∈ sets h, Mentions c.1 i) := by
  induction h with
  | nil => intro s s' hs h; cases h; simp [sets]
  | cons c cs ih =>
    intro s s' hs h
    obtain ⟨s₁, h1, h2⟩ := run_cons_ok h
    rw [ih (step_wf hs h1) h2]
    by_cases hc : ∃ n v, c = .set n v
    · obtain ⟨n, v, rfl⟩ := hc
      rw [step_set hs h1, pureSet_mem_active, sets_cons_set]
      simp [or_assoc]
    · have hc' : ∀ n v, c ≠ .set n v := fun n v e => hc ⟨n, v, e⟩
      rw [(step_frame hc' h1).1, sets_cons_other hc']

theorem foldl_or_testBit (l : List Nat) (d k : Nat) :
    (l.foldl (fun d i => d ||| dependsOf i) d).testBit k = true
      ↔ d.testBit k = true ∨ ∃ i ∈ l, (dependsOf i).testBit k = true := by
  induction l generalizing d with
  | nil => simp
  | cons a l ih => rw [List.foldl_cons, ih]; simp [Nat.testBit_or, or_assoc]

theorem WF.depends_testBit {s : State V} (hs : s.WF) (k : Nat) :
    s.depends.testBit k = true ↔ ∃ i ∈ s.active, (dependsOf i).testBit k = true := by
  rw [hs.dep, foldl_or_testBit]; simp

/-- Calls of `set` on a well-formed object never fail to return. -/
theorem run_sets_ok (l : List (String × V)) : ∀ {s : State V}, s.WF →
    ∃ s', run s (l.map fun c => Call.set c.1 c.2) = .ok s' := by
  induction l with
  | nil => intro s _; exact ⟨s, rfl⟩
  | cons c l ih =>
    intro s hs
    obtain ⟨s', h'⟩ := ih (pureSet_wf hs c.1 c.2)
    refine ⟨s', ?_⟩
    simp only [List.map_cons, run, Call.step, xcfunSet_eq hs, Outcome.ok_bind, Outcome.pure_eq]
    exact h'

end XCFun
