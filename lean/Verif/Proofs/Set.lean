import Verif.Proofs.Names
import Mathlib.Data.List.Perm.Subperm

/-!
# `xcfun_set` in closed form
-/

set_option linter.unusedSectionVars false

namespace XCFun
open Spec

variable {V : Type _}

/-- Invariant of reachable objects. -/
structure State.WF (s : State V) : Prop where
  nodup : s.active.Nodup
  lt : ∀ i ∈ s.active, i < NR_FUNCTIONALS
  dep : s.depends = s.active.foldl (fun d i => d ||| dependsOf i) 0

theorem WF.length_le {s : State V} (h : s.WF) : s.active.length ≤ NR_FUNCTIONALS := by
  have := (h.nodup.subperm (l₂ := List.range NR_FUNCTIONALS) (fun i hi => List.mem_range.2 (h.lt i hi))).length_le
  simpa using this

theorem WF.length_lt {s : State V} (h : s.WF) {i : Nat} (hi : i < NR_FUNCTIONALS) (hm : i ∉ s.active) :
    s.active.length < NR_FUNCTIONALS := by
  have hn : (i :: s.active).Nodup := List.nodup_cons.2 ⟨hm, h.nodup⟩
  have := (hn.subperm (l₂ := List.range NR_FUNCTIONALS) (by
    intro j hj
    rcases List.mem_cons.1 hj with rfl | hj
    · exact List.mem_range.2 hi
    · exact List.mem_range.2 (h.lt j hj))).length_le
  exact Nat.lt_of_succ_le (by simpa using this)

section
variable [Add V]

/-- `setFunctional` when it is defined. -/
def addFun (s : State V) (i : Nat) (v : V) : State V where
  active := if i ∈ s.active then s.active else s.active ++ [i]
  order := s.order
  depends := if i ∈ s.active then s.depends else s.depends ||| dependsOf i
  mode := s.mode
  vars := s.vars
  settings := upd s.settings i (s.settings i + v)

theorem setFunctional_eq {s : State V} (h : s.WF) {i : Nat} (hi : i < NR_FUNCTIONALS) (v : V) :
    setFunctional s i v = .ok (addFun s i v) := by
  unfold setFunctional addFun
  by_cases hm : i ∈ s.active
  · simp [hm]
  · simp [hm, WF.length_lt h hi hm]

theorem addFun_wf {s : State V} (h : s.WF) {i : Nat} (hi : i < NR_FUNCTIONALS) (v : V) : (addFun s i v).WF := by
  by_cases hm : i ∈ s.active
  · exact ⟨by simpa [addFun, hm] using h.nodup, by simpa [addFun, hm] using h.lt, by simpa [addFun, hm] using h.dep⟩
  · refine ⟨?_, ?_, ?_⟩
    · simp only [addFun, hm, if_false]
      rw [List.nodup_append]
      refine ⟨h.nodup, by simp, ?_⟩
      intro a ha b hb
      simp only [List.mem_singleton] at hb
      subst hb
      rintro rfl
      exact hm ha
    · simp only [addFun, hm, if_false]
      intro j hj
      rcases List.mem_append.1 hj with hj | hj
      · exact h.lt j hj
      · simp only [List.mem_singleton] at hj; subst hj; exact hi
    · simp only [addFun, hm, if_false, List.foldl_append, List.foldl_cons, List.foldl_nil, ← h.dep]

theorem setParameter_wf {s : State V} (h : s.WF) (i : Nat) (v : V) : (setParameter s i v).WF :=
  ⟨h.nodup, h.lt, h.dep⟩

/-- The effect of setting an elementary name (identity for other names). -/
def elemSet (s : State V) (name : String) (v : V) : State V :=
  match lookupFunctional name with
  | some i => addFun s i v
  | none =>
    match lookupParameter name with
    | some i => setParameter s i v
    | none => s

theorem elemSet_wf {s : State V} (h : s.WF) (name : String) (v : V) : (elemSet s name v).WF := by
  unfold elemSet
  split
  · exact addFun_wf h (lookupFunctional_lt ‹_›) v
  · split
    · exact setParameter_wf h _ v
    · exact h

variable [Mul V] [Lit V]

theorem setFuel_elem {s : State V} (h : s.WF) (n : Nat) {name : String}
    (he : (lookupFunctional name).isSome ∨ (lookupParameter name).isSome) (v : V) :
    xcfunSetFuel (n + 1) s name v = .ok (0, elemSet s name v) := by
  unfold xcfunSetFuel elemSet
  cases hf : lookupFunctional name with
  | some i => simp [setFunctional_eq h (lookupFunctional_lt hf)]
  | none =>
    cases hp : lookupParameter name with
    | some i => rfl
    | none => simp [hf, hp] at he

/-- The effect of `xcfun_set` as a pure function. -/
def pureSet (s : State V) (name : String) (v : V) : State V :=
  if IsElementary name then elemSet s name v
  else (aliasTerms name).foldl (fun s t => elemSet s t.name (v * lit t.mant t.exp)) s

theorem foldl_elemSet_wf (ts : List AliasTerm) (v : V) : ∀ {s : State V}, s.WF →
    (ts.foldl (fun s t => elemSet s t.name (v * lit t.mant t.exp)) s).WF := by
  induction ts with
  | nil => intro s h; exact h
  | cons t ts ih => intro s h; exact ih (elemSet_wf h _ _)

theorem pureSet_wf {s : State V} (h : s.WF) (name : String) (v : V) : (pureSet s name v).WF := by
  unfold pureSet
  split
  · exact elemSet_wf h _ _
  · exact foldl_elemSet_wf _ v h

theorem foldlM_terms (n : Nat) (v : V) (ts : List AliasTerm)
    (hts : ∀ t ∈ ts, (lookupFunctional t.name).isSome ∨ (lookupParameter t.name).isSome) :
    ∀ {s : State V}, s.WF →
    (ts.foldlM (init := s) fun s t => do
            let (rc, s) ← xcfunSetFuel (n + 1) s t.name (v * lit t.mant t.exp)
            if rc ≠ 0 then Outcome.die else pure s)
      = .ok (ts.foldl (fun s t => elemSet s t.name (v * lit t.mant t.exp)) s) := by
  induction ts with
  | nil => intro s _; rfl
  | cons t ts ih =>
    intro s h
    rw [List.foldlM_cons, setFuel_elem h n (hts t (by simp))]
    simp only [Outcome.ok_bind, ne_eq, not_true_eq_false, if_false, Outcome.pure_eq]
    exact ih (fun t' ht' => hts t' (by simp [ht'])) (elemSet_wf h _ _)

theorem aliasTerms_of_unknown {name : String} (h : ¬ IsKnown name) : aliasTerms name = [] := by
  unfold aliasTerms
  split
  · rfl
  · have : aliases.find? (fun a => decide (SameName name a.name)) = none := by
      rw [List.find?_eq_none]
      intro a ha
      simp only [decide_eq_true_eq]
      intro hs
      exact h (Or.inr ⟨a, ha, hs⟩)
    rw [this]

/-- Closed form of `xcfun_set` on well-formed objects, for every amount of fuel from two on. -/
theorem setFuel_eq {s : State V} (h : s.WF) (n : Nat) (name : String) (v : V) :
    xcfunSetFuel (n + 2) s name v = .ok (if IsKnown name then 0 else -1, pureSet s name v) := by
  by_cases he : IsElementary name
  · rw [setFuel_elem h (n + 1) (isElementary_iff.1 he)]
    simp [pureSet, he, IsKnown]
  · have hf : lookupFunctional name = none := by
      rw [lookupFunctional_eq_none]; exact fun h => he (Or.inl h)
    have hp : lookupParameter name = none := by
      rw [lookupParameter_eq_none]; exact fun h => he (Or.inr h)
    cases ha : lookupAlias name with
    | none =>
      have hk : ¬ IsKnown name := by
        rintro (h | h)
        · exact he h
        · exact lookupAlias_eq_none.1 ha h
      unfold xcfunSetFuel
      simp only [hf, hp, ha, pureSet, he, if_false, aliasTerms_of_unknown hk, hk, List.foldl_nil]
      rfl
    | some item =>
      obtain ⟨e, a, ham, hat⟩ := aliasTerms_eq hf hp ha
      have hk : IsKnown name := by
        right
        by_contra hc
        rw [lookupAlias_eq_none.2 hc] at ha
        cases ha
      unfold xcfunSetFuel
      simp only [hf, hp, ha, e]
      rw [← hat, alias_terms_take ham, foldlM_terms n v a.terms (alias_terms_elementary a ham) h, hat]
      simp [pureSet, he, hk]

theorem xcfunSet_eq {s : State V} (h : s.WF) (name : String) (v : V) :
    xcfunSet s name v = .ok (if IsKnown name then 0 else -1, pureSet s name v) :=
  setFuel_eq h 0 name v

theorem init_wf : (State.init : State V).WF := ⟨by simp [State.init], by simp [State.init], rfl⟩

/-! ## Frame facts -/

theorem elemSet_frame (s : State V) (name : String) (v : V) :
    (elemSet s name v).order = s.order ∧ (elemSet s name v).mode = s.mode ∧ (elemSet s name v).vars = s.vars := by
  unfold elemSet
  split
  · exact ⟨rfl, rfl, rfl⟩
  · split <;> exact ⟨rfl, rfl, rfl⟩

theorem foldl_elemSet_frame (ts : List AliasTerm) (v : V) : ∀ (s : State V),
    let s' := ts.foldl (fun s t => elemSet s t.name (v * lit t.mant t.exp)) s
    s'.order = s.order ∧ s'.mode = s.mode ∧ s'.vars = s.vars := by
  induction ts with
  | nil => intro s; exact ⟨rfl, rfl, rfl⟩
  | cons t ts ih =>
    intro s
    have h1 := ih (elemSet s t.name (v * lit t.mant t.exp))
    have h2 := elemSet_frame s t.name (v * lit t.mant t.exp)
    exact ⟨h1.1.trans h2.1, h1.2.1.trans h2.2.1, h1.2.2.trans h2.2.2⟩

theorem pureSet_frame (s : State V) (name : String) (v : V) :
    (pureSet s name v).order = s.order ∧ (pureSet s name v).mode = s.mode ∧ (pureSet s name v).vars = s.vars := by
  unfold pureSet
  split
  · exact elemSet_frame _ _ _
  · exact foldl_elemSet_frame _ _ _

/-! ## Settings -/

theorem elemSet_settings_fun (s : State V) (name : String) (v : V) {i : Nat} (hi : i < NR_FUNCTIONALS) :
    (elemSet s name v).settings i
      = if NamesFunctional name i then s.settings i + v else s.settings i := by
  unfold elemSet
  cases hf : lookupFunctional name with
  | some j =>
    by_cases hij : i = j
    · subst hij
      simp [addFun, upd, lookupFunctional_eq_some.1 hf]
    · have : ¬ NamesFunctional name i := by
        intro hn
        have := lookupFunctional_eq_some.2 hn
        rw [hf] at this; cases this; exact hij rfl
      simp [addFun, upd, hij, this]
  | none =>
    have hn : ¬ NamesFunctional name i := by
      intro hn
      have := lookupFunctional_eq_some.2 hn
      rw [hf] at this; cases this
    simp only [hn, if_false]
    cases hp : lookupParameter name with
    | some j =>
      have := (lookupParameter_range hp).1
      have hij : i ≠ j := by omega
      simp [setParameter, upd, hij]
    | none => rfl

theorem elemSet_settings_param (s : State V) (name : String) (v : V) {i : Nat} (hi : NR_FUNCTIONALS ≤ i) :
    (elemSet s name v).settings i
      = if NamesParameter name i then v else s.settings i := by
  unfold elemSet
  cases hf : lookupFunctional name with
  | some j =>
    have := lookupFunctional_lt hf
    have hij : i ≠ j := by omega
    have hn : ¬ NamesParameter name i := fun hn => functional_parameter_disjoint (lookupFunctional_eq_some.1 hf) hn
    simp [addFun, upd, hij, hn]
  | none =>
    cases hp : lookupParameter name with
    | some j =>
      by_cases hij : i = j
      · subst hij
        simp [setParameter, upd, lookupParameter_eq_some.1 hp]
      · have : ¬ NamesParameter name i := by
          intro hn
          have := lookupParameter_eq_some.2 hn
          rw [hp] at this; cases this; exact hij rfl
        simp [setParameter, upd, hij, this]
    | none =>
      have hn : ¬ NamesParameter name i := by
        intro hn
        have := lookupParameter_eq_some.2 hn
        rw [hp] at this; cases this
      simp [hn]

theorem foldl_settings_fun (ts : List AliasTerm) (v : V) {i : Nat} (hi : i < NR_FUNCTIONALS) : ∀ (s : State V),
    (ts.foldl (fun s t => elemSet s t.name (v * lit t.mant t.exp)) s).settings i
      = ((ts.filter (fun t => NamesFunctional t.name i)).map (fun t => v * lit t.mant t.exp)).foldl (· + ·)
          (s.settings i) := by
  induction ts with
  | nil => intro s; rfl
  | cons t ts ih =>
    intro s
    rw [List.foldl_cons, ih, elemSet_settings_fun _ _ _ hi]
    by_cases hn : NamesFunctional t.name i
    · simp [hn]
    · simp [hn]

theorem foldl_settings_param (ts : List AliasTerm) (v : V) {i : Nat} (hi : NR_FUNCTIONALS ≤ i) : ∀ (s : State V),
    (ts.foldl (fun s t => elemSet s t.name (v * lit t.mant t.exp)) s).settings i
      = (((ts.filter (fun t => NamesParameter t.name i)).map (fun t => v * lit t.mant t.exp)).getLast?).getD
          (s.settings i) := by
  induction ts with
  | nil => intro s; rfl
  | cons t ts ih =>
    intro s
    rw [List.foldl_cons, ih, elemSet_settings_param _ _ _ hi]
    by_cases hn : NamesParameter t.name i
    · simp only [hn, if_true, decide_true, List.filter_cons_of_pos, List.map_cons, List.getLast?_cons]
      cases (List.map (fun t : AliasTerm => v * lit t.mant t.exp) (ts.filter fun t => decide (NamesParameter t.name i))).getLast? <;> rfl
    · simp [hn]

theorem namesFunctional_isElementary {name : String} {i : Nat} (h : NamesFunctional name i) : IsElementary name := by
  obtain ⟨f, hf, hs⟩ := h
  exact Or.inl ⟨f, List.mem_of_getElem? hf, hs⟩

theorem namesParameter_isElementary {name : String} {i : Nat} (h : NamesParameter name i) : IsElementary name := by
  obtain ⟨_, f, hf, hs⟩ := h
  exact Or.inr ⟨f, List.mem_of_getElem? hf, hs⟩

theorem aliasTerms_of_elementary {name : String} (h : IsElementary name) : aliasTerms name = [] := by
  simp [aliasTerms, h]

theorem pureSet_settings_fun (s : State V) (name : String) (v : V) {i : Nat} (hi : i < NR_FUNCTIONALS) :
    (pureSet s name v).settings i = (contribution i name v).foldl (· + ·) (s.settings i) := by
  unfold pureSet contribution
  by_cases he : IsElementary name
  · rw [if_pos he, elemSet_settings_fun _ _ _ hi]
    by_cases hn : NamesFunctional name i
    · simp [hn]
    · simp [hn, aliasTerms_of_elementary he]
  · rw [if_neg he, foldl_settings_fun _ _ hi]
    have hn : ¬ NamesFunctional name i := fun h => he (namesFunctional_isElementary h)
    simp [hn]

theorem pureSet_settings_param (s : State V) (name : String) (v : V) {i : Nat} (hi : NR_FUNCTIONALS ≤ i) :
    (pureSet s name v).settings i = ((paramWrites i name v).getLast?).getD (s.settings i) := by
  unfold pureSet paramWrites
  by_cases he : IsElementary name
  · rw [if_pos he, elemSet_settings_param _ _ _ hi]
    by_cases hn : NamesParameter name i
    · simp [hn]
    · simp [hn, aliasTerms_of_elementary he]
  · rw [if_neg he, foldl_settings_param _ _ hi]
    have hn : ¬ NamesParameter name i := fun h => he (namesParameter_isElementary h)
    simp [hn]

/-! ## Active list -/

theorem elemSet_mem_active (s : State V) (name : String) (v : V) (i : Nat) :
    i ∈ (elemSet s name v).active ↔ i ∈ s.active ∨ NamesFunctional name i := by
  unfold elemSet
  cases hf : lookupFunctional name with
  | some j =>
    have hj : NamesFunctional name i ↔ i = j := by
      rw [← lookupFunctional_eq_some, hf]
      constructor
      · intro h; cases h; rfl
      · rintro rfl; rfl
    by_cases hm : j ∈ s.active
    · simp only [addFun, hm, if_true, hj]
      constructor
      · exact Or.inl
      · rintro (h | rfl) <;> assumption
    · simp [addFun, hm, hj]
  | none =>
    have hn : ¬ NamesFunctional name i := by
      intro hn
      have := lookupFunctional_eq_some.2 hn
      rw [hf] at this; cases this
    cases hp : lookupParameter name <;> simp [hn, setParameter]

theorem foldl_mem_active (ts : List AliasTerm) (v : V) (i : Nat) : ∀ (s : State V),
    i ∈ (ts.foldl (fun s t => elemSet s t.name (v * lit t.mant t.exp)) s).active
      ↔ i ∈ s.active ∨ ∃ t ∈ ts, NamesFunctional t.name i := by
  induction ts with
  | nil => intro s; simp
  | cons t ts ih =>
    intro s
    rw [List.foldl_cons, ih, elemSet_mem_active]
    simp [or_assoc]

theorem pureSet_mem_active (s : State V) (name : String) (v : V) (i : Nat) :
    i ∈ (pureSet s name v).active ↔ i ∈ s.active ∨ Mentions name i := by
  unfold pureSet Mentions
  by_cases he : IsElementary name
  · rw [if_pos he, elemSet_mem_active, aliasTerms_of_elementary he]; simp
  · rw [if_neg he, foldl_mem_active]
    have hn : ¬ NamesFunctional name i := fun h => he (namesFunctional_isElementary h)
    simp [hn]

end

end XCFun
