/-
C23, C43, C44: independence of objects, their lifecycle, and the lazily filled tables.
-/
import Verif.Proofs.Process
import Verif.Model.Threads
import Verif.Model.RatLit

namespace XCFun.Props
open XCFun Spec

section
variable {V : Type} [Zero V] [One V] [Add V] [Sub V] [Mul V] [Lit V]

/-! ## C23 -/

omit [Zero V] [One V] [Add V] [Sub V] [Mul V] [Lit V] in
theorem eventsAt_const {a : ℕ} {o : Op V} (h : target o = none) (os : List (Op V)) :
    eventsAt a (o :: os) = eventsAt a os := by
  simp [eventsAt, h]

omit [Zero V] [One V] [Add V] [Sub V] [Mul V] [Lit V] in
theorem eventsAt_same {a : ℕ} {e : Event V} {o : Op V} (h : target o = some (a, e)) (os : List (Op V)) :
    eventsAt a (o :: os) = e :: eventsAt a os := by
  simp [eventsAt, h]

omit [Zero V] [One V] [Add V] [Sub V] [Mul V] [Lit V] in
theorem eventsAt_other {a b : ℕ} {e : Event V} {o : Op V} (h : target o = some (b, e)) (hab : b ≠ a)
    (os : List (Op V)) : eventsAt a (o :: os) = eventsAt a os := by
  simp [eventsAt, h, hab]

omit [Zero V] [One V] [Add V] [Sub V] [Mul V] [Lit V] in
theorem resultsAt_const {a : ℕ} {o : Op V} (h : target o = none) (os : List (Op V)) (r : Ret V) (rs : List (Ret V)) :
    resultsAt a (o :: os) (r :: rs) = resultsAt a os rs := by
  simp [resultsAt, h]

omit [Zero V] [One V] [Add V] [Sub V] [Mul V] [Lit V] in
theorem resultsAt_same {a : ℕ} {e : Event V} {o : Op V} (h : target o = some (a, e)) (os : List (Op V)) (r : Ret V)
    (rs : List (Ret V)) : resultsAt a (o :: os) (r :: rs) = r :: resultsAt a os rs := by
  simp [resultsAt, h]

omit [Zero V] [One V] [Add V] [Sub V] [Mul V] [Lit V] in
theorem resultsAt_other {a b : ℕ} {e : Event V} {o : Op V} (h : target o = some (b, e)) (hab : b ≠ a)
    (os : List (Op V)) (r : Ret V) (rs : List (Ret V)) : resultsAt a (o :: os) (r :: rs) = resultsAt a os rs := by
  simp [resultsAt, h, hab]

theorem independent_core (K : Kernel V) (ops : List (Op V)) : ∀ (w : Proc V), w.tabs.Consistent →
    ∀ (rs : List (Ret V)) (heap : ℕ → Option (State V)),
    (∃ t, t.Consistent ∧ opRun K w ops = .ok (rs, ⟨t, heap⟩)) ↔
      rs.length = ops.length ∧
      (∀ a, slotRun K a (w.heap a) (eventsAt a ops) = .ok (resultsAt a ops rs, heap a)) ∧
      ∀ x ∈ ops.zip rs, target x.1 = none → constStep x.1 = .ok x.2 := by
  induction ops with
  | nil =>
    intro w hw rs heap
    simp only [opRun, Outcome.ok.injEq, Prod.mk.injEq, List.length_nil, List.length_eq_zero_iff]
    constructor
    · rintro ⟨t, -, h1, h2⟩
      subst h2
      exact ⟨h1.symm, fun a => by simp [eventsAt, resultsAt, slotRun], by simp⟩
    · rintro ⟨h1, h2, -⟩
      refine ⟨w.tabs, hw, h1.symm, ?_⟩
      have : w.heap = heap := by
        funext a
        have := h2 a
        simp only [eventsAt, List.filterMap_nil, slotRun, Outcome.ok.injEq, Prod.mk.injEq] at this
        exact this.2
      rw [← this]
  | cons o os ih =>
    intro w hw rs heap
    cases rs with
    | nil =>
      constructor
      · rintro ⟨t, -, h⟩
        rw [opRun] at h
        obtain ⟨r, -, h⟩ := Outcome.bind_eq_ok.1 h
        obtain ⟨q, -, h⟩ := Outcome.bind_eq_ok.1 h
        simp at h
      · rintro ⟨h, -⟩; simp at h
    | cons r rs =>
      have hun : ∀ t, opRun K w (o :: os) = .ok (r :: rs, ⟨t, heap⟩) ↔
          ∃ w', opStep K w o = .ok (r, w') ∧ opRun K w' os = .ok (rs, ⟨t, heap⟩) := by
        intro t
        rw [opRun, Outcome.bind_eq_ok]
        constructor
        · rintro ⟨⟨r', w'⟩, h1, h2⟩
          obtain ⟨⟨q1, q2⟩, h3, h4⟩ := Outcome.bind_eq_ok.1 h2
          simp only [Outcome.pure_eq, Outcome.ok.injEq, Prod.mk.injEq, List.cons.injEq] at h4
          obtain ⟨⟨rfl, rfl⟩, rfl⟩ := h4
          exact ⟨w', h1, h3⟩
        · rintro ⟨w', h1, h2⟩
          exact ⟨(r, w'), h1, by simp only [h2]; rfl⟩
      simp only [hun]
      cases htg : target o with
      | none =>
        obtain ⟨t', ht', he⟩ := opStep_const K hw htg
        simp only [he, eventsAt_const htg, resultsAt_const htg, List.zip_cons_cons, List.mem_cons, forall_eq_or_imp,
          htg, true_implies, List.length_cons, Nat.add_right_cancel_iff]
        have hih := ih ⟨t', w.heap⟩ ht' rs heap
        constructor
        · rintro ⟨t, ht, w', h1, h2⟩
          obtain ⟨r', h3, h4⟩ := Outcome.bind_eq_ok.1 h1
          simp only [Outcome.ok.injEq, Prod.mk.injEq] at h4
          obtain ⟨rfl, rfl⟩ := h4
          obtain ⟨g1, g2, g3⟩ := hih.1 ⟨t, ht, h2⟩
          exact ⟨g1, g2, h3, g3⟩
        · rintro ⟨g1, g2, h3, g3⟩
          obtain ⟨t, ht, h2⟩ := hih.2 ⟨g1, g2, g3⟩
          exact ⟨t, ht, _, by rw [h3]; rfl, h2⟩
      | some be =>
        obtain ⟨b, e⟩ := be
        obtain ⟨t', ht', he⟩ := opStep_target K hw htg
        simp only [he, List.zip_cons_cons, List.mem_cons, forall_eq_or_imp, htg, List.length_cons,
          Nat.add_right_cancel_iff, reduceCtorEq, false_implies, true_and]
        constructor
        · rintro ⟨t, ht, w', h1, h2⟩
          obtain ⟨⟨r', x'⟩, h3, h4⟩ := Outcome.bind_eq_ok.1 h1
          simp only [Outcome.ok.injEq, Prod.mk.injEq] at h4
          obtain ⟨rfl, rfl⟩ := h4
          obtain ⟨g1, g2, g3⟩ := (ih _ ht' rs heap).1 ⟨t, ht, h2⟩
          refine ⟨g1, fun a => ?_, g3⟩
          by_cases hab : b = a
          · subst hab
            rw [eventsAt_same htg, resultsAt_same htg, slotRun, h3]
            have := g2 b
            simp only [upd, if_true] at this
            simp only [Outcome.ok_bind, this]
            rfl
          · rw [eventsAt_other htg hab, resultsAt_other htg hab]
            have := g2 a
            simp only [upd, if_neg (Ne.symm hab)] at this
            exact this
        · rintro ⟨g1, g2, g3⟩
          have hb := g2 b
          rw [eventsAt_same htg, resultsAt_same htg, slotRun] at hb
          obtain ⟨⟨r', x'⟩, h3, h4⟩ := Outcome.bind_eq_ok.1 hb
          obtain ⟨⟨q1, q2⟩, h5, h6⟩ := Outcome.bind_eq_ok.1 h4
          simp only [Outcome.pure_eq, Outcome.ok.injEq, Prod.mk.injEq, List.cons.injEq] at h6
          obtain ⟨⟨rfl, rfl⟩, rfl⟩ := h6
          obtain ⟨t, ht, h2⟩ := (ih ⟨t', upd w.heap b x'⟩ ht' rs heap).2 ⟨g1, fun a => by
            by_cases hab : b = a
            · subst hab
              simpa only [upd, if_true] using h5
            · have := g2 a
              rw [eventsAt_other htg hab, resultsAt_other htg hab] at this
              simpa only [upd, if_neg (Ne.symm hab)] using this, g3⟩
          exact ⟨t, ht, _, by rw [h3]; rfl, h2⟩

theorem progress_core (K : Kernel V) (ops : List (Op V)) : ∀ (w : Proc V), w.tabs.Consistent →
    (∀ a, ∃ q, slotRun K a (w.heap a) (eventsAt a ops) = .ok q) →
    (∀ o ∈ ops, target o = none → ∃ r, constStep o = .ok r) →
    ∃ rs t heap, t.Consistent ∧ opRun K w ops = .ok (rs, ⟨t, heap⟩) := by
  induction ops with
  | nil => intro w hw _ _; exact ⟨[], w.tabs, w.heap, hw, rfl⟩
  | cons o os ih =>
    intro w hw h1 h2
    cases htg : target o with
    | none =>
      obtain ⟨t', ht', he⟩ := opStep_const K hw htg
      obtain ⟨r, hr⟩ := h2 o (by simp) htg
      obtain ⟨rs, t, heap, ht, hrun⟩ := ih ⟨t', w.heap⟩ ht' (fun a => by
        obtain ⟨q, hq⟩ := h1 a
        rw [eventsAt_const htg] at hq
        exact ⟨q, hq⟩) (fun o ho => h2 o (by simp [ho]))
      exact ⟨r :: rs, t, heap, ht, by rw [opRun, he, hr]; simp only [Outcome.ok_bind, hrun]; rfl⟩
    | some be =>
      obtain ⟨b, e⟩ := be
      obtain ⟨t', ht', he⟩ := opStep_target K hw htg
      obtain ⟨q, hq⟩ := h1 b
      rw [eventsAt_same htg, slotRun] at hq
      obtain ⟨⟨r, x⟩, h3, h4⟩ := Outcome.bind_eq_ok.1 hq
      obtain ⟨q', h5, -⟩ := Outcome.bind_eq_ok.1 h4
      obtain ⟨rs, t, heap, ht, hrun⟩ := ih ⟨t', upd w.heap b x⟩ ht' (fun a => by
        by_cases hab : b = a
        · subst hab; exact ⟨q', by simpa only [upd, if_true] using h5⟩
        · obtain ⟨q, hq⟩ := h1 a
          rw [eventsAt_other htg hab] at hq
          exact ⟨q, by simpa only [upd, if_neg (Ne.symm hab)] using hq⟩) (fun o ho => h2 o (by simp [ho]))
      exact ⟨r :: rs, t, heap, ht, by rw [opRun, he, h3]; simp only [Outcome.ok_bind, hrun]; rfl⟩

/-- **C23, C44.** A run of the whole process from program start returns normally with results `rs` and heap `heap` if
and only if the events at every address, taken alone and with constant tables, return normally with the corresponding
results and final object, and every call that works on no object returns its constant.  No object influences another,
and no call can tell when or by whom the tables were filled. -/
theorem C23_objects_independent (K : Kernel V) (ops : List (Op V)) (rs : List (Ret V)) (heap : ℕ → Option (State V)) :
    (∃ t, opRun K Proc.start ops = .ok (rs, ⟨t, heap⟩)) ↔
      rs.length = ops.length ∧
      (∀ a, slotRun K a none (eventsAt a ops) = .ok (resultsAt a ops rs, heap a)) ∧
      ∀ x ∈ ops.zip rs, target x.1 = none → constStep x.1 = .ok x.2 := by
  have h := independent_core K ops Proc.start (Or.inl rfl) rs heap
  refine Iff.trans ⟨fun ⟨t, ht⟩ => ?_, fun ⟨t, _, ht⟩ => ⟨t, ht⟩⟩ h
  have hp : ∀ (ops : List (Op V)) (w : Proc V), w.tabs.Consistent → ∀ q, opRun K w ops = .ok q → q.2.tabs.Consistent := by
    intro ops
    induction ops with
    | nil => intro w hw q hq; cases hq; exact hw
    | cons o os ih =>
      intro w hw q hq
      rw [opRun] at hq
      obtain ⟨⟨r, w'⟩, h1, h2⟩ := Outcome.bind_eq_ok.1 hq
      obtain ⟨q', h3, h4⟩ := Outcome.bind_eq_ok.1 h2
      cases h4
      refine ih w' ?_ q' h3
      cases htg : target o with
      | none =>
        obtain ⟨t', ht', he⟩ := opStep_const K hw htg
        rw [he] at h1
        obtain ⟨_, -, h⟩ := Outcome.bind_eq_ok.1 h1
        cases h; exact ht'
      | some be =>
        obtain ⟨t', ht', he⟩ := opStep_target K hw htg
        rw [he] at h1
        obtain ⟨_, -, h⟩ := Outcome.bind_eq_ok.1 h1
        cases h; exact ht'
  exact ⟨t, hp ops _ (Or.inl rfl) _ ht, ht⟩

/-- **C23, interleavings.** Two sequences of calls with the same events, in the same order, at every address (that is:
two interleavings of the same per-object sequences; calls on no object may be inserted, dropped or moved as long as they
occur in the first sequence) have the same effect: if one returns normally so does the other, with the same results for
every object and the same objects left. -/
theorem C23_interleavings (K : Kernel V) (ops₁ ops₂ : List (Op V)) (hev : ∀ a, eventsAt a ops₁ = eventsAt a ops₂)
    (hc : ∀ o ∈ ops₂, target o = none → o ∈ ops₁) (rs₁ : List (Ret V)) (w₁ : Proc V)
    (h : opRun K Proc.start ops₁ = .ok (rs₁, w₁)) :
    ∃ rs₂ w₂, opRun K Proc.start ops₂ = .ok (rs₂, w₂) ∧ w₂.heap = w₁.heap ∧
      ∀ a, resultsAt a ops₂ rs₂ = resultsAt a ops₁ rs₁ := by
  obtain ⟨l1, s1, c1⟩ := (C23_objects_independent K ops₁ rs₁ w₁.heap).1 ⟨w₁.tabs, h⟩
  obtain ⟨rs₂, t, heap, -, hrun⟩ := progress_core K ops₂ Proc.start (Or.inl rfl)
    (fun a => ⟨_, by rw [← hev a]; exact s1 a⟩) (fun o ho ht => by
      obtain ⟨i, hi, rfl⟩ := List.getElem_of_mem (hc o ho ht)
      exact ⟨rs₁[i]'(by omega), c1 (ops₁[i], rs₁[i]'(by omega)) (by
        refine List.mem_iff_getElem.2 ⟨i, by simp; omega, by simp⟩) ht⟩)
  obtain ⟨l2, s2, c2⟩ := (C23_objects_independent K ops₂ rs₂ heap).1 ⟨t, hrun⟩
  have key : ∀ a, resultsAt a ops₂ rs₂ = resultsAt a ops₁ rs₁ ∧ heap a = w₁.heap a := by
    intro a
    have := s2 a
    rw [← hev a, s1 a] at this
    simp only [Outcome.ok.injEq, Prod.mk.injEq] at this
    exact ⟨this.1.symm, this.2.symm⟩
  exact ⟨rs₂, ⟨t, heap⟩, hrun, funext fun a => (key a).2, fun a => (key a).1⟩

/-- Calls that are documented not to modify the object. -/
def IsQuery : ObjCall V → Prop
  | .set _ _ | .evalSetup _ _ _ | .userEvalSetup _ _ _ _ _ _ _ _ => False
  | _ => True

/-- **C23, purity.** `xcfun_get`, the queries and the evaluations leave every object as it was. -/
theorem C23_queries_pure (K : Kernel V) (w w' : Proc V) (p : ℕ) (c : ObjCall V) (hq : IsQuery c) (r : Ret V)
    (h : opStep K w (.call (some p) c) = .ok (r, w')) : w'.heap = w.heap := by
  rw [opStep] at h
  cases hp : w.heap p with
  | none => rw [hp] at h; cases h
  | some s =>
    simp only [hp] at h
    obtain ⟨⟨r', s', t'⟩, h1, h2⟩ := Outcome.bind_eq_ok.1 h
    cases h2
    have : s' = s := by
      cases c <;> first | exact hq.elim | skip
      case isGga => cases h1; rfl
      case isMetagga => cases h1; rfl
      all_goals
        obtain ⟨_, -, h3⟩ := Outcome.bind_eq_ok.1 h1
        cases h3; rfl
    subst this
    rw [← hp]; exact upd_self _ _

/-- Two objects in use at once, one of them deleted and its address used again. -/
def sampleOps : List (Op Rat) :=
  [.new (some 0), .new (some 1), .call (some 0) (.set "pbe0" 2), .call (some 1) (.get "pbex"), .whichMode 1,
    .call (some 1) (.set "SLATERX" 3), .delete (some 0), .new (some 0), .call (some 0) (.get "pbex"),
    .call (some 1) (.get "slaterx")]

/-- The same per-object sequences in another order. -/
def sampleOps' : List (Op Rat) :=
  [.new (some 1), .call (some 1) (.get "pbex"), .call (some 1) (.set "SLATERX" 3), .new (some 0),
    .call (some 0) (.set "pbe0" 2), .delete (some 0), .call (some 1) (.get "slaterx"), .new (some 0),
    .call (some 0) (.get "pbex")]

example : (opRun (V := Rat) ⟨fun _ => none, fun _ _ _ _ ρ => ρ 0⟩ Proc.start sampleOps >>= fun q => pure q.1) = .ok
    [.ptr (some 0), .ptr (some 1), .code 0, .value 0 (some 0), .code 1, .code 0, .unit, .ptr (some 0),
      .value 0 (some 0), .value 0 (some 3)] := by
  decide +kernel

example (a : ℕ) : eventsAt a sampleOps = eventsAt a sampleOps' := by
  by_cases h0 : 0 = a
  · subst h0; rfl
  · by_cases h1 : 1 = a
    · subst h1; rfl
    · simp [eventsAt, sampleOps, sampleOps', target, h0, h1]

/-! ## C43 -/

/-- **C43, creation.** Whatever happened before, `xcfun_new` returns an object in the documented initial state and touches
no other object. -/
theorem C43_new (K : Kernel V) (ops : List (Op V)) (rs : List (Ret V)) (w : Proc V)
    (h : opRun K Proc.start ops = .ok (rs, w)) (a : ℕ) (ha : w.heap a = none) :
    ∃ w' s, opStep K w (.new (some a)) = .ok (.ptr (some a), w') ∧ w'.heap a = some s ∧
      (∀ b ≠ a, w'.heap b = w.heap b) ∧
      s.active = [] ∧ s.depends = 0 ∧ s.mode = MODE_UNSET ∧ s.vars = none ∧ s.order = -1 ∧
      (∀ i < 78, s.settings i = lit 0 0) ∧
      s.settings 78 = lit 4 1 ∧ s.settings 79 = lit 0 0 ∧ s.settings 80 = lit 19 2 ∧ s.settings 81 = lit 46 2 := by
  have hc : w.tabs.Consistent := by
    obtain ⟨t, ht, hr⟩ := (independent_core K ops Proc.start (Or.inl rfl) rs w.heap).2
      ((C23_objects_independent K ops rs w.heap).1 ⟨w.tabs, h⟩)
    rw [h] at hr
    cases w
    simp only [Outcome.ok.injEq, Prod.mk.injEq, Proc.mk.injEq] at hr
    rw [hr.2.1]; exact ht
  obtain ⟨t', -, he⟩ := opStep_target K hc (o := .new (some a)) rfl
  rw [ha] at he
  refine ⟨_, State.init, he, by simp [upd], fun b hb => by simp [upd, hb], rfl, rfl, rfl, rfl, rfl, fun i hi => ?_, rfl, rfl,
    rfl, rfl⟩
  have hi : i < NR_FUNCTIONALS := hi
  simp only [State.init]
  rw [if_pos hi]

/-- **C43, deletion.** Deleting a null pointer does nothing; deleting an object removes exactly that object. -/
theorem C43_delete (K : Kernel V) (w : Proc V) :
    opStep K w (.delete none) = .ok (.unit, w) ∧
    ∀ p s, w.heap p = some s → ∃ w', opStep K w (.delete (some p)) = .ok (.unit, w') ∧ w'.heap p = none ∧
      ∀ b ≠ p, w'.heap b = w.heap b := by
  refine ⟨rfl, fun p s hp => ⟨⟨w.tabs, upd w.heap p none⟩, ?_, by simp [upd], fun b hb => by simp [upd, hb]⟩⟩
  rw [opStep, hp]

/-- **C43, after deletion.** Until the address is handed out again, every use of a deleted (or never created) object is
undefined, and so is deleting it again. -/
theorem C43_use_after_delete (K : Kernel V) (w : Proc V) (p : ℕ) (s : State V) (hp : w.heap p = some s) :
    ∃ w', opStep K w (.delete (some p)) = .ok (.unit, w') ∧ opStep K w' (.delete (some p)) = .ub ∧
      (∀ c, opStep K w' (.call (some p) c) = .ub) ∧
      ∀ os, (∀ o ∈ os, (target o).map Prod.fst ≠ some p) → ∀ rs w'', opRun K w' os = .ok (rs, w'') →
        ∀ c, opStep K w'' (.call (some p) c) = .ub := by
  have frame : ∀ (os : List (Op V)) (w : Proc V), (∀ o ∈ os, (target o).map Prod.fst ≠ some p) → ∀ rs w'',
      opRun K w os = .ok (rs, w'') → w''.heap p = w.heap p := by
    intro os
    induction os with
    | nil => intro w _ rs w'' h; cases h; rfl
    | cons o os ih =>
      intro w ho rs w'' h
      rw [opRun] at h
      obtain ⟨⟨r, w1⟩, h1, h2⟩ := Outcome.bind_eq_ok.1 h
      obtain ⟨⟨q1, q2⟩, h3, h4⟩ := Outcome.bind_eq_ok.1 h2
      cases h4
      rw [ih w1 (fun o h => ho o (by simp [h])) _ _ h3]
      have hne := ho o (by simp)
      clear ih h h2 h3
      cases o with
      | new a =>
        cases a with
        | none => cases h1
        | some a =>
          have hne : p ≠ a := by simpa [target, eq_comm] using hne
          rw [opStep] at h1
          cases ha : w.heap a with
          | none => simp only [ha] at h1; cases h1; simp [upd, hne]
          | some s => simp only [ha] at h1; cases h1
      | delete a =>
        cases a with
        | none => cases h1; rfl
        | some a =>
          have hne : p ≠ a := by simpa [target, eq_comm] using hne
          rw [opStep] at h1
          cases ha : w.heap a with
          | none => simp only [ha] at h1; cases h1
          | some s => simp only [ha] at h1; cases h1; simp [upd, hne]
      | call a c =>
        cases a with
        | none => cases h1
        | some a =>
          have hne : p ≠ a := by simpa [target, eq_comm] using hne
          rw [opStep] at h1
          cases ha : w.heap a with
          | none => simp only [ha] at h1; cases h1
          | some s =>
            simp only [ha] at h1
            obtain ⟨r', -, h5⟩ := Outcome.bind_eq_ok.1 h1
            cases h5; simp [upd, hne]
      | enumerateAliases n => cases h1; rfl
      | info => cases h1; rfl
      | enumerateParameters n => obtain ⟨_, -, h5⟩ := Outcome.bind_eq_ok.1 h1; cases h5; rfl
      | describeShort n => obtain ⟨_, -, h5⟩ := Outcome.bind_eq_ok.1 h1; cases h5; rfl
      | describeLong n => obtain ⟨_, -, h5⟩ := Outcome.bind_eq_ok.1 h1; cases h5; rfl
      | whichVars f d l k c e => obtain ⟨_, -, h5⟩ := Outcome.bind_eq_ok.1 h1; cases h5; rfl
      | whichMode m => obtain ⟨_, -, h5⟩ := Outcome.bind_eq_ok.1 h1; cases h5; rfl
  have hdead : ∀ w : Proc V, w.heap p = none → ∀ c, opStep K w (.call (some p) c) = .ub := by
    intro w hw c
    rw [opStep, hw]
  refine ⟨⟨w.tabs, upd w.heap p none⟩, by rw [opStep, hp], ?_, hdead _ (by simp [upd]), fun os ho rs w'' hr =>
    hdead _ ((frame os _ ho rs w'' hr).trans (by simp [upd]))⟩
  simp [opStep, upd]

/-- **C43, the only lifecycle errors.** In a reachable process an entry point is undefined only if it gets a pointer to no
live object (or the allocator hands out storage in use), or if the same call on that object alone is undefined, or if
it works on no object and is undefined by its arguments. -/
theorem C43_only_errors (K : Kernel V) (ops : List (Op V)) (rs : List (Ret V)) (w : Proc V)
    (h : opRun K Proc.start ops = .ok (rs, w)) (o : Op V) (hub : opStep K w o = .ub) :
    (∃ p, o = .delete (some p) ∧ w.heap p = none) ∨
    (∃ p c, o = .call (some p) c ∧ w.heap p = none) ∨ (∃ c, o = .call none c) ∨
    (∃ p s, o = .new (some p) ∧ w.heap p = some s) ∨
    (∃ p c s, o = .call (some p) c ∧ w.heap p = some s ∧ alone K s c = .ub) ∨
    (∃ n, o = .enumerateParameters n ∧ n < 0) := by
  have hc : w.tabs.Consistent := by
    obtain ⟨t, ht, hr⟩ := (independent_core K ops Proc.start (Or.inl rfl) rs w.heap).2
      ((C23_objects_independent K ops rs w.heap).1 ⟨w.tabs, h⟩)
    rw [h] at hr
    cases w
    simp only [Outcome.ok.injEq, Prod.mk.injEq, Proc.mk.injEq] at hr
    rw [hr.2.1]; exact ht
  cases htg : target o with
  | some be =>
    obtain ⟨a, e⟩ := be
    obtain ⟨t', -, he⟩ := opStep_target K hc htg
    rw [he] at hub
    have hs : slotStep K a (w.heap a) e = .ub := by
      cases hx : slotStep K a (w.heap a) e <;> rw [hx] at hub <;> first | rfl | cases hub
    unfold target at htg
    split at htg <;> cases htg
    · cases hh : w.heap a with
      | none => rw [hh] at hs; cases hs
      | some s => exact Or.inr (Or.inr (Or.inr (Or.inl ⟨a, s, rfl, hh⟩)))
    · cases hh : w.heap a with
      | none => exact Or.inl ⟨a, rfl, hh⟩
      | some s => rw [hh] at hs; cases hs
    · rename_i c
      cases hh : w.heap a with
      | none => exact Or.inr (Or.inl ⟨a, c, rfl, hh⟩)
      | some s =>
        refine Or.inr (Or.inr (Or.inr (Or.inr (Or.inl ⟨a, c, s, rfl, hh, ?_⟩))))
        rw [hh] at hs
        simp only [slotStep] at hs
        cases hx : alone K s c <;> rw [hx] at hs <;> first | rfl | cases hs
  | none =>
    obtain ⟨t', -, he⟩ := opStep_const K hc htg
    rw [he] at hub
    have hs : constStep o = .ub := by
      cases hx : constStep o <;> rw [hx] at hub <;> first | rfl | cases hub
    clear hub he
    cases o with
    | new a => cases hs
    | delete a => cases hs
    | call a c =>
      cases a with
      | none => exact Or.inr (Or.inr (Or.inl ⟨c, rfl⟩))
      | some a => cases htg
    | enumerateAliases n => cases hs
    | info => cases hs
    | describeShort n => cases hs
    | describeLong n => cases hs
    | enumerateParameters n =>
      refine Or.inr (Or.inr (Or.inr (Or.inr (Or.inr ⟨n, rfl, ?_⟩))))
      simp only [constStep, enumerateParameters] at hs
      split at hs
      · cases hs
      · split at hs
        · split at hs
          · assumption
          · cases hs
        · cases hs
    | whichVars f d l k c e =>
      simp only [constStep, whichVars] at hs
      split at hs
      · cases hs
      · split at hs <;> cases hs
    | whichMode m =>
      simp only [constStep, whichMode] at hs
      split at hs
      · cases hs
      · split at hs
        · cases hs
        · split at hs
          · cases hs
          · split at hs <;> cases hs

/-! ## C44 -/

/-- **C44, contents.** After any sequence of calls the tables are still empty or completely filled: every functional at its
number, every parameter at its number, nothing else. -/
theorem C44_table_contents (K : Kernel V) (ops : List (Op V)) (rs : List (Ret V)) (w : Proc V)
    (h : opRun K Proc.start ops = .ok (rs, w)) :
    (w.tabs.isSetup = false ∧ (∀ i, w.tabs.funTab i = none) ∧ ∀ i, w.tabs.parTab i = none) ∨
    (w.tabs.isSetup = true ∧ (∀ i, w.tabs.funTab i = funs[i]?) ∧
      (∀ i, w.tabs.parTab (78 + i) = params[i]?) ∧ ∀ i < 78, w.tabs.parTab i = none) := by
  have hc : w.tabs.Consistent := by
    obtain ⟨t, ht, hr⟩ := (independent_core K ops Proc.start (Or.inl rfl) rs w.heap).2
      ((C23_objects_independent K ops rs w.heap).1 ⟨w.tabs, h⟩)
    rw [h] at hr
    cases w
    simp only [Outcome.ok.injEq, Prod.mk.injEq, Proc.mk.injEq] at hr
    rw [hr.2.1]; exact ht
  rcases hc with hc | hc <;> rw [hc]
  · exact Or.inl ⟨rfl, fun _ => rfl, fun _ => rfl⟩
  · refine Or.inr ⟨rfl, fun i => by rw [filled_fun], fun i => ?_, fun i hi => ?_⟩
    · rw [filled_par, if_pos (show NR_FUNCTIONALS ≤ 78 + i from Nat.le_add_right _ _)]
      rw [show 78 + i - NR_FUNCTIONALS = i from Nat.add_sub_cancel_left _ _]
    · rw [filled_par, if_neg (show ¬ NR_FUNCTIONALS ≤ i from not_le.2 hi)]

end

/-- **C44, the recursive filling.** `retarded_helper` visits every functional number once, in order. -/
theorem C44_visits : visit 0 78 = List.range 78 := by
  rw [visit_eq _ _ (by decide), List.range_eq_range']

/-- **C44, idempotence.** Filling filled tables changes nothing, and filling is not redone. -/
theorem C44_idempotent (t : Tables) : assureSetup (assureSetup t) = assureSetup t := by
  by_cases h : t.isSetup
  · have : assureSetup t = t := by rw [assureSetup, if_pos h]
    rw [this, this]
  · have : (assureSetup t).isSetup = true := by rw [assureSetup, if_neg h]
    rw [assureSetup, if_pos this]

/-! ### Threads -/

/-- Two accesses of different threads to one object, at least one of them a write.  The library synchronises nothing, so
unless the caller orders the two calls this is a data race. -/
def Conflict (x y : Access) : Prop := x.thread ≠ y.thread ∧ x.loc = y.loc ∧ (x.write = true ∨ y.write = true)

/-- What is known about a state of the threads reached from unfilled tables. -/
structure _root_.XCFun.Threads.Inv (m : Threads) : Prop where
  read : ∀ i, m.pc i ≠ .start → ∃ x ∈ m.trace, x.thread = i ∧ x.loc = .flag
  set : m.tabs.isSetup = true → ∃ x ∈ m.trace, x.loc = .flag ∧ x.write = true
  fin : ∀ i, m.pc i = .done → m.tabs.isSetup = true
  ix : ∀ i k, m.pc i = .fill k → k < setupWrites.length

theorem setupWrites_eq : setupWrites = (List.range 78).map .funEntry ++ (List.range' 78 4).map .parEntry ++ [.flag] := by
  rw [setupWrites, visit_eq _ _ (by decide), List.range_eq_range']
  rfl

theorem setupWrites_length : setupWrites.length = 83 := by
  rw [setupWrites_eq]
  simp

theorem setupWrites_flag (k : ℕ) (l : Loc) (h : setupWrites[k]? = some l) : l = .flag ↔ k = 82 := by
  have hk : k < 83 := by
    have := (List.getElem?_eq_some_iff.1 h).1
    rwa [setupWrites_length] at this
  have : ∀ k : Fin 83, setupWrites[k.val]? = some .flag ↔ k.val = 82 := by
    rw [setupWrites_eq]
    decide +kernel
  rw [← this ⟨k, hk⟩]
  simp [h]

theorem writeLoc_flag (t : Tables) (l : Loc) : (writeLoc t l).isSetup = (t.isSetup || decide (l = .flag)) := by
  cases l <;> simp [writeLoc]

theorem threadStep_inv (m : Threads) (i : ℕ) (h : m.Inv) : (threadStep m i).Inv := by
  unfold threadStep
  split
  · rename_i hpc
    constructor
    · intro j hj
      by_cases hij : j = i
      · subst hij; exact ⟨⟨j, .flag, false⟩, by simp, rfl, rfl⟩
      · simp only [upd, if_neg hij] at hj
        obtain ⟨x, hx, h1⟩ := h.read j hj
        exact ⟨x, by simp [hx], h1⟩
    · intro hs
      obtain ⟨x, hx, h1⟩ := h.set hs
      exact ⟨x, by simp [hx], h1⟩
    · intro j hj
      by_cases hij : j = i
      · subst hij
        simp only [upd, if_true] at hj
        by_contra hn
        simp [hn] at hj
      · simp only [upd, if_neg hij] at hj
        exact h.fin j hj
    · intro j k hj
      by_cases hij : j = i
      · subst hij
        simp only [upd, if_true] at hj
        split at hj
        · cases hj
        · cases hj; rw [setupWrites_length]; omega
      · simp only [upd, if_neg hij] at hj
        exact h.ix j k hj
  · rename_i k hpc
    split
    · rename_i l hl
      constructor
      · intro j hj
        by_cases hij : j = i
        · subst hij
          obtain ⟨x, hx, h1⟩ := h.read j (by rw [hpc]; simp)
          exact ⟨x, by simp [hx], h1⟩
        · simp only [upd, if_neg hij] at hj
          obtain ⟨x, hx, h1⟩ := h.read j hj
          exact ⟨x, by simp [hx], h1⟩
      · intro hs
        simp only [writeLoc_flag, Bool.or_eq_true, decide_eq_true_eq] at hs
        rcases hs with hs | hs
        · obtain ⟨x, hx, h1⟩ := h.set hs
          exact ⟨x, by simp [hx], h1⟩
        · exact ⟨⟨i, l, true⟩, by simp, hs, rfl⟩
      · intro j hj
        by_cases hij : j = i
        · subst hij
          have hk := h.ix j k hpc
          simp only [upd, if_true] at hj
          have : k = 82 := by
            rw [setupWrites_length] at hj hk
            split at hj
            · cases hj
            · omega
          simp [writeLoc_flag, (setupWrites_flag k l hl).2 this]
        · simp only [upd, if_neg hij] at hj
          simp [writeLoc_flag, h.fin j hj]
      · intro j k' hj
        by_cases hij : j = i
        · subst hij
          simp only [upd, if_true] at hj
          split at hj
          · cases hj; assumption
          · cases hj
        · simp only [upd, if_neg hij] at hj
          exact h.ix j k' hj
    · exact h
  · exact h

theorem threadRun_inv (sched : List ℕ) : ∀ (m : Threads), m.Inv → (threadRun m sched).Inv := by
  induction sched with
  | nil => exact fun m h => h
  | cons i is ih => exact fun m h => ih _ (threadStep_inv m i h)

/-- **C44, concurrent first calls.** In every schedule in which two threads complete their first library call without any
call having completed before, two accesses to the shared flag conflict: concurrent first calls are a data race. -/
theorem C44_first_calls_race (sched : List ℕ) (i j : ℕ) (hij : i ≠ j)
    (hi : (threadRun (.init .zero) sched).pc i = .done) (hj : (threadRun (.init .zero) sched).pc j = .done) :
    ∃ x ∈ (threadRun (.init .zero) sched).trace, ∃ y ∈ (threadRun (.init .zero) sched).trace, Conflict x y := by
  have h := threadRun_inv sched (.init .zero) ⟨fun i hi => absurd rfl hi, fun h => (by cases h), fun i h => (by cases h),
    fun i k h => (by cases h)⟩
  obtain ⟨x, hx, hxl, hxw⟩ := h.set (h.fin i hi)
  by_cases hxi : x.thread = i
  · obtain ⟨y, hy, hyt, hyl⟩ := h.read j (by rw [hj]; simp)
    exact ⟨x, hx, y, hy, by rw [hxi, hyt]; exact hij, by rw [hxl, hyl], Or.inl hxw⟩
  · obtain ⟨y, hy, hyt, hyl⟩ := h.read i (by rw [hi]; simp)
    exact ⟨x, hx, y, hy, by rw [hyt]; exact hxi, by rw [hxl, hyl], Or.inl hxw⟩

/-- **C44, afterwards.** Once the tables are filled, no schedule of any number of threads writes to them, so none has a
conflict. -/
theorem C44_later_calls_do_not_race (t : Tables) (ht : t.isSetup = true) (sched : List ℕ) :
    (∀ x ∈ (threadRun (.init t) sched).trace, x.write = false) ∧ (threadRun (.init t) sched).tabs = t := by
  have key : ∀ (m : Threads), m.tabs = t → (∀ i, m.pc i = .start ∨ m.pc i = .done) → (∀ x ∈ m.trace, x.write = false) →
      (∀ x ∈ (threadRun m sched).trace, x.write = false) ∧ (threadRun m sched).tabs = t := by
    induction sched with
    | nil => exact fun m h1 _ h3 => ⟨h3, h1⟩
    | cons i is ih =>
      intro m h1 h2 h3
      rw [threadRun, List.foldl_cons]
      refine ih (threadStep m i) ?_ ?_ ?_
      · rcases h2 i with h | h <;> simp [threadStep, h, h1]
      · rcases h2 i with h | h
        · intro j
          by_cases hij : j = i
          · simp [threadStep, h, h1, ht, upd, hij]
          · simpa [threadStep, h, upd, hij] using h2 j
        · simpa [threadStep, h] using h2
      · rcases h2 i with h | h
        · intro x hx
          simp only [threadStep, h, List.mem_append, List.mem_singleton] at hx
          rcases hx with hx | rfl
          · exact h3 x hx
          · rfl
        · simpa [threadStep, h] using h3
  exact key (.init t) rfl (fun _ => Or.inl rfl) (by simp [Threads.init])

/-- **C44, one thread.** A thread running alone through these accesses does what `xcint_assure_setup` does in the sequential
model. -/
theorem C44_single_thread (i : ℕ) :
    (threadRun (.init .zero) (List.replicate 84 i)).tabs = assureSetup .zero ∧
    (threadRun (.init .zero) (List.replicate 84 i)).pc i = .done := by
  have key : ∀ n (m : Threads) k, k + n = 82 → m.pc i = .fill k →
      (threadRun m (List.replicate (n + 1) i)).tabs = (setupWrites.drop k).foldl writeLoc m.tabs ∧
      (threadRun m (List.replicate (n + 1) i)).pc i = .done := by
    intro n
    induction n with
    | zero =>
      intro m k hk hpc
      have hlt : k < setupWrites.length := by rw [setupWrites_length]; omega
      rw [List.drop_eq_getElem_cons hlt, List.drop_eq_nil_of_le (by rw [setupWrites_length]; omega)]
      simp [threadRun, threadStep, hpc, List.getElem?_eq_getElem hlt, upd, setupWrites_length]
      omega
    | succ n ih =>
      intro m k hk hpc
      have hlt : k < setupWrites.length := by rw [setupWrites_length]; omega
      have hlt' : k + 1 < setupWrites.length := by rw [setupWrites_length]; omega
      have := ih (threadStep m i) (k + 1) (by omega) (by
        simp [threadStep, hpc, List.getElem?_eq_getElem hlt, upd, hlt'])
      rw [List.replicate_succ, threadRun, List.foldl_cons, List.drop_eq_getElem_cons hlt, List.foldl_cons]
      have ht : (threadStep m i).tabs = writeLoc m.tabs setupWrites[k] := by
        simp [threadStep, hpc, List.getElem?_eq_getElem hlt]
      rw [← ht]
      exact this
  have h0 : (threadStep (.init .zero) i).pc i = .fill 0 := by simp [threadStep, Threads.init, upd, Tables.zero]
  obtain ⟨h1, h2⟩ := key 82 _ 0 rfl h0
  have e : List.replicate 84 i = i :: List.replicate (82 + 1) i := List.replicate_succ
  have e' : ∀ m l, threadRun m (i :: l) = threadRun (threadStep m i) l := fun _ _ => rfl
  rw [e, e', h2, h1]
  refine ⟨?_, rfl⟩
  have hf : ∀ (l : List ℕ) (t : Tables), (l.map Loc.funEntry).foldl writeLoc t = { t with funTab := l.foldl fillFun t.funTab } := by
    intro l
    induction l with
    | nil => intro t; rfl
    | cons a l ih => intro t; rw [List.map_cons, List.foldl_cons, ih]; rfl
  rw [List.drop_zero, setupWrites, List.foldl_append, List.foldl_append, hf]
  rfl

/-- Two threads, the second entering while the first is filling: both complete. -/
example : (threadRun (.init .zero) (0 :: 1 :: (List.replicate 83 0 ++ List.replicate 83 1))).pc 0 = .done ∧
    (threadRun (.init .zero) (0 :: 1 :: (List.replicate 83 0 ++ List.replicate 83 1))).pc 1 = .done := by
  constructor <;> decide +kernel

end XCFun.Props
