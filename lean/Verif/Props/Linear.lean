/-
C24: results are linear in the weights and independent of the order of `xcfun_set` calls.
-/
import Verif.Proofs.Linear

namespace XCFun.Props
open XCFun Spec

/-! ## Linearity -/

/-- The object with other weights; parameters and configuration unchanged. -/
def withWeights (s : State ℝ) (w : ℕ → ℝ) : State ℝ :=
  { s with settings := fun i => if i < 78 then w i else s.settings i }

/-- Weight one for one functional, zero for all others. -/
def unitWeight (id : ℕ) : ℕ → ℝ := fun i => if i = id then 1 else 0

theorem formal_withWeights {s : State ℝ} (hs : s.WF) (w : ℕ → ℝ) (v : Vars) :
    formal (withWeights s w) v = fun N ρ => (s.active.map fun id =>
      CT.const N (w id) * (fullExpr s.settings v id).evalCT ρ).sum := by
  funext N ρ
  unfold formal energyOn
  refine congrArg List.sum (List.map_congr_left fun id hid => ?_)
  have hlt : id < 78 := hs.lt id hid
  have e : (withWeights s w).settings id = w id := if_pos hlt
  rw [e, fullExpr_settings (par' := s.settings)]
  intro p hp
  exact if_neg (by omega)

theorem linear_zero {φ : Formal → ℝ} (h : IsLinear φ) : φ (fun _ _ => 0) = 0 := by
  have := h 0 0 (fun _ _ => 0) (fun _ _ => 0)
  simpa using this

theorem linear_weighted {φ : Formal → ℝ} (h : IsLinear φ) (l : List ℕ) (w : ℕ → ℝ) (E : ℕ → Formal) :
    φ (fun N ρ => (l.map fun id => CT.const N (w id) * E id N ρ).sum) = (l.map fun id => w id * φ (E id)).sum := by
  induction l with
  | nil => simpa using linear_zero h
  | cons a l ih =>
    have := h (w a) 1 (E a) (fun N ρ => (l.map fun id => CT.const N (w id) * E id N ρ).sum)
    simp only [List.map_cons, List.sum_cons]
    have e : ∀ N, CT.const N (1 : ℝ) = 1 := fun N => rfl
    simp only [e, one_mul, ih] at this
    exact this

/-- A list sum picks out one element. -/
theorem sum_unit (l : List ℕ) (hn : l.Nodup) (id : ℕ) (hid : id ∈ l) {R : Type} [AddCommMonoid R] (f : ℕ → R) :
    (l.map fun i => if i = id then f i else 0).sum = f id := by
  induction l with
  | nil => simp at hid
  | cons a l ih =>
    rw [List.nodup_cons] at hn
    simp only [List.map_cons, List.sum_cons]
    rcases List.mem_cons.1 hid with rfl | hid
    · have : (l.map fun i => if i = id then f i else 0) = l.map fun _ => 0 :=
        List.map_congr_left fun i hi => if_neg (by rintro rfl; exact hn.1 hi)
      rw [if_pos rfl, this]; simp
    · rw [if_neg (by rintro rfl; exact hn.1 hid), zero_add]; exact ih hn.2 hid

/-- **C24, linearity.** For every accepted configuration in every mode, in exact arithmetic: the values written by
`xcfun_eval`, as a function of the weights of the object, are linear, and are the weighted sums of the values obtained
for each active functional alone with weight one. -/
theorem C24_linear_in_weights (h : List (Call ℝ)) (s₀ s : State ℝ) (hr : run State.init h = .ok s₀) (v : Vars) (m o : ℤ)
    (hset : evalSetup s₀ v.code m o = .ok (0, s)) (hcan : ¬ CannotEvaluate v m o) (j : (N : ℕ) → ℕ → CT ℝ N)
    (input : List ℝ) (hin : needIn v m o ≤ input.length) :
    ∃ (val : (ℕ → ℝ) → List ℝ) (n : ℕ), n ≤ needOut v m o ∧ (∀ w, (val w).length = n) ∧
      (∀ w output, needOut v m o ≤ output.length →
        xcfunEval codeKernel (some j) (withWeights s w) input output = .ok (val w ++ output.drop n)) ∧
      (∀ output, needOut v m o ≤ output.length →
        xcfunEval codeKernel (some j) s input output = .ok (val s.settings ++ output.drop n)) ∧
      (∀ c₁ c₂ w₁ w₂ k, (val fun i => c₁ * w₁ i + c₂ * w₂ i).getD k 0 =
        c₁ * (val w₁).getD k 0 + c₂ * (val w₂).getD k 0) ∧
      ∀ w k, (val w).getD k 0 = (s.active.map fun id => w id * (val (unitWeight id)).getD k 0).sum := by
  obtain ⟨e, hwf, hord, hsuf, hpot⟩ := setup_facts hr hset
  obtain ⟨φs, -, hlin, hlen, hev⟩ := readout_core v m o hord hcan s.depends (fun hV hg =>
    (hpot hV).2.2 ((needs_iff hwf 1).2 ((and_gradient _).1 hg))) j input hin
  have hs : withWeights s s.settings = s := by
    have : (fun i => if i < 78 then s.settings i else s.settings i) = s.settings := by funext i; simp
    rw [withWeights, this]
  have hsum : ∀ φ ∈ φs, ∀ w, φ (formal (withWeights s w) v) =
      (s.active.map fun id => w id * φ (fun _ ρ => (fullExpr s.settings v id).evalCT ρ)).sum := by
    intro φ hφ w
    rw [formal_withWeights hwf]
    exact linear_weighted (hlin φ hφ) s.active w fun id _ ρ => (fullExpr s.settings v id).evalCT ρ
  have hget : ∀ w k, (φs.map (· (formal (withWeights s w) v))).getD k 0 =
      (φs[k]?.map fun φ => φ (formal (withWeights s w) v)).getD 0 := by
    intro w k
    rw [List.getD_eq_getElem?_getD, List.getElem?_map]
  refine ⟨fun w => φs.map (· (formal (withWeights s w) v)), φs.length, hlen, fun w => by simp, fun w output hout =>
    hev (withWeights s w) (by rw [withWeights, e]) (by rw [withWeights, e]) (by rw [withWeights, e]) rfl output hout, fun output hout => ?_, ?_, ?_⟩
  · show _ = Outcome.ok (φs.map (· (formal (withWeights s s.settings) v)) ++ _)
    rw [hs]
    exact hev s (by rw [e]) (by rw [e]) (by rw [e]) rfl output hout
  · intro c₁ c₂ w₁ w₂ k
    simp only [hget]
    cases hk : φs[k]? with
    | none => simp
    | some φ =>
      have hφ := List.mem_of_getElem? hk
      simp only [Option.map_some, Option.getD_some, hsum φ hφ]
      induction s.active with
      | nil => simp
      | cons a l ih => simp only [List.map_cons, List.sum_cons, ih]; ring
  · intro w k
    simp only [hget]
    cases hk : φs[k]? with
    | none => simp
    | some φ =>
      have hφ := List.mem_of_getElem? hk
      simp only [Option.map_some, Option.getD_some]
      rw [hsum φ hφ]
      refine congrArg List.sum (List.map_congr_left fun id hid => ?_)
      rw [hsum φ hφ]
      congr 1
      have := sum_unit s.active hwf.nodup id hid fun i => φ (fun _ ρ => (fullExpr s.settings v i).evalCT ρ)
      rw [← this]
      refine congrArg List.sum (List.map_congr_left fun i _ => ?_)
      unfold unitWeight
      split <;> simp

/-- PBE0-like weights on three functionals, second derivatives. -/
example (j : (N : ℕ) → ℕ → CT ℝ N) (input : List ℝ) (hi : input.length = 5) : ∃ s : State ℝ,
    ∃ (val : (ℕ → ℝ) → List ℝ) (n : ℕ), s.active = [5, 4] ∧
      (∀ w output, 21 ≤ output.length →
        xcfunEval codeKernel (some j) (withWeights s w) input output = .ok (val w ++ output.drop n)) ∧
      ∀ w k, (val w).getD k 0 = w 5 * (val (unitWeight 5)).getD k 0 + w 4 * (val (unitWeight 4)).getD k 0 := by
  obtain ⟨val, n, -, -, h1, -, -, h2⟩ := C24_linear_in_weights [.set "pbe0" 1] _ _ rfl .A_B_GAA_GAB_GBB
    PARTIAL_DERIVATIVES 2 rfl (by simp [CannotEvaluate, Unsupported]) j input (by rw [hi]; decide)
  refine ⟨_, val, n, rfl, h1, fun w k => ?_⟩
  have hact : ∀ s' : State ℝ, s'.active = [5, 4] → (s'.active.map fun id => w id * (val (unitWeight id)).getD k 0).sum =
      w 5 * (val (unitWeight 5)).getD k 0 + w 4 * (val (unitWeight 4)).getD k 0 := by
    intro s' h; rw [h]; simp
  exact (h2 w k).trans (hact _ rfl)

/-! ## Order of calls -/

/-- Objects that differ at most in the order of their list of active functionals. -/
structure SameButOrder (s t : State ℝ) : Prop where
  settings : s.settings = t.settings
  active : s.active.Perm t.active
  depends : s.depends = t.depends
  order : s.order = t.order
  mode : s.mode = t.mode
  vars : s.vars = t.vars

theorem sameButOrder_formal {s t : State ℝ} (h : SameButOrder s t) (v : Vars) : formal s v = formal t v := by
  funext N ρ
  unfold formal energyOn
  rw [h.settings]
  exact (h.active.map _).sum_eq

/-- Nothing a caller can observe distinguishes the two objects. -/
theorem sameButOrder_observe {s t : State ℝ} (h : SameButOrder s t) :
    (∀ name, xcfunGet s name = xcfunGet t name) ∧ isGga s = isGga t ∧ isMetagga s = isMetagga t ∧
    inputLength s = inputLength t ∧ outputLength s = outputLength t ∧
    ∀ junk input output, xcfunEval codeKernel junk s input output = xcfunEval codeKernel junk t input output := by
  refine ⟨fun name => ?_, ?_, ?_, ?_, ?_, fun junk input output =>
    xcfunEval_formal h.vars h.mode h.order (Or.inr h.depends) (sameButOrder_formal h) junk input output⟩
  · simp only [xcfunGet, h.settings]
  · simp only [isGga, h.depends]
  · simp only [isMetagga, h.depends]
  · simp only [inputLength, h.vars]
  · simp only [outputLength, h.vars, h.mode, h.order]

/-- Two well-formed objects with the same weights, members and configuration. -/
theorem sameButOrder_of {s t : State ℝ} (hs : s.WF) (ht : t.WF) (h1 : s.settings = t.settings)
    (h2 : ∀ i, i ∈ s.active ↔ i ∈ t.active) (h3 : s.order = t.order) (h4 : s.mode = t.mode) (h5 : s.vars = t.vars) :
    SameButOrder s t := by
  have hp : s.active.Perm t.active := (List.perm_ext_iff_of_nodup hs.nodup ht.nodup).2 h2
  refine ⟨h1, hp, Nat.eq_of_testBit_eq fun k => ?_, h3, h4, h5⟩
  rw [Bool.eq_iff_iff, WF.depends_testBit hs, WF.depends_testBit ht]
  simp only [h2]

theorem step_same {s t s' : State ℝ} (hs : s.WF) (ht : t.WF) (h : SameButOrder s t) {c : Call ℝ}
    (hc : ∀ r, c ≠ .eval r) (hstep : c.step s = .ok s') : ∃ t', c.step t = .ok t' ∧ SameButOrder s' t' := by
  cases c with
  | set n v =>
    have e := step_set hs hstep
    refine ⟨pureSet t n v, by simp only [Call.step, xcfunSet_eq ht, Outcome.ok_bind, Outcome.pure_eq], ?_⟩
    have f1 := pureSet_frame s n v
    have f2 := pureSet_frame t n v
    subst e
    refine sameButOrder_of (pureSet_wf hs n v) (pureSet_wf ht n v) ?_ ?_ ?_ ?_ ?_
    · funext i
      by_cases hi : i < NR_FUNCTIONALS
      · rw [pureSet_settings_fun _ _ _ hi, pureSet_settings_fun _ _ _ hi, h.settings]
      · rw [pureSet_settings_param _ _ _ (not_lt.1 hi), pureSet_settings_param _ _ _ (not_lt.1 hi), h.settings]
    · intro i
      rw [pureSet_mem_active, pureSet_mem_active, h.active.mem_iff]
    · rw [f1.1, f2.1, h.order]
    · rw [f1.2.1, f2.2.1, h.mode]
    · rw [f1.2.2, f2.2.2, h.vars]
  | get n => cases hstep; exact ⟨t, rfl, h⟩
  | isGga => cases hstep; exact ⟨t, rfl, h⟩
  | isMetagga => cases hstep; exact ⟨t, rfl, h⟩
  | inputLength =>
    obtain ⟨r, hr, h'⟩ := Outcome.bind_eq_ok.1 hstep
    cases h'
    refine ⟨t, ?_, h⟩
    have := (sameButOrder_observe h).2.2.2.1
    simp only [Call.step, ← this, hr]; rfl
  | outputLength =>
    obtain ⟨r, hr, h'⟩ := Outcome.bind_eq_ok.1 hstep
    cases h'
    refine ⟨t, ?_, h⟩
    have := (sameButOrder_observe h).2.2.2.2.1
    simp only [Call.step, ← this, hr]; rfl
  | eval r => exact absurd rfl (hc r)
  | evalSetup v m o => exact setup_same h hstep
  | userEvalSetup o f d m l k c e =>
    obtain ⟨r, hr, h'⟩ := Outcome.bind_eq_ok.1 hstep
    cases h'
    obtain ⟨v, mo, h1, h2, h3⟩ := userEvalSetup_eq hr
    have hst : (Call.evalSetup v.code mo o).step s = .ok r.2 := by simp only [Call.step, h3]; rfl
    obtain ⟨t', ht', hsame⟩ := setup_same h hst
    refine ⟨t', ?_, hsame⟩
    simp only [Call.step, userEvalSetup, h1, h2, Outcome.ok_bind] at ht' ⊢
    exact ht'
where
  setup_same {s t s' : State ℝ} (h : SameButOrder s t) {v m o : ℤ} (hstep : (Call.evalSetup v m o).step s = .ok s') :
      ∃ t', (Call.evalSetup v m o).step t = .ok t' ∧ SameButOrder s' t' := by
    obtain ⟨r, hr, h'⟩ := Outcome.bind_eq_ok.1 hstep
    cases h'
    unfold evalSetup at hr
    cases hv : Vars.ofCode v with
    | none => rw [hv] at hr; cases hr
    | some w =>
      rw [hv] at hr
      cases hr
      refine ⟨(evalSetupVars t w m o).2, by simp only [Call.step, evalSetup, hv]; rfl, ?_⟩
      unfold evalSetupVars
      rw [h.depends]
      split
      · exact h
      split
      · exact h
      split
      · exact h
      split
      · exact h
      · exact ⟨h.settings, h.active, rfl, rfl, rfl, rfl⟩

theorem run_same {q : List (Call ℝ)} (hq : ∀ c ∈ q, ∀ r, c ≠ .eval r) : ∀ {s t s' : State ℝ}, s.WF → t.WF →
    SameButOrder s t → run s q = .ok s' → ∃ t', run t q = .ok t' ∧ SameButOrder s' t' := by
  induction q with
  | nil => intro s t s' _ _ h hr; cases hr; exact ⟨t, rfl, h⟩
  | cons c cs ih =>
    intro s t s' hs ht h hr
    obtain ⟨s₁, h1, h2⟩ := run_cons_ok hr
    obtain ⟨t₁, h3, h4⟩ := step_same hs ht h (hq c (by simp)) h1
    obtain ⟨t', h5, h6⟩ := ih (fun c hc => hq c (by simp [hc])) (step_wf hs h1) (step_wf ht h3) h4 h2
    exact ⟨t', by rw [run, h3]; exact h5, h6⟩

/-- The name stands for functionals only: neither it nor a term of the alias it names is a parameter. -/
def FunctionalsOnly (name : String) : Prop :=
  ∀ i, ¬ NamesParameter name i ∧ ∀ t ∈ aliasTerms name, ¬ NamesParameter t.name i

/-- The calls `xcfun_set` of a list. -/
def setCalls (l : List (String × ℝ)) : List (Call ℝ) := l.map fun c => .set c.1 c.2

theorem sets_setCalls (l : List (String × ℝ)) : sets (setCalls l) = l := by
  induction l with
  | nil => rfl
  | cons a l ih => simp only [setCalls, List.map_cons] at ih ⊢; rw [sets_cons_set, ih]

theorem run_setCalls_frame (l : List (String × ℝ)) : ∀ {s t : State ℝ}, s.WF → run s (setCalls l) = .ok t →
    t.order = s.order ∧ t.mode = s.mode ∧ t.vars = s.vars := by
  induction l with
  | nil => intro s t _ h; cases h; exact ⟨rfl, rfl, rfl⟩
  | cons a l ih =>
    intro s t hs h
    obtain ⟨s₁, h1, h2⟩ := run_cons_ok h
    have e := step_set hs h1
    subst e
    obtain ⟨a1, a2, a3⟩ := ih (pureSet_wf hs _ _) h2
    obtain ⟨b1, b2, b3⟩ := pureSet_frame s a.1 a.2
    exact ⟨a1.trans b1, a2.trans b2, a3.trans b3⟩

theorem foldl_add_sum (l : List ℝ) (a : ℝ) : l.foldl (· + ·) a = a + l.sum := by
  induction l generalizing a with
  | nil => simp
  | cons b l ih => rw [List.foldl_cons, ih, List.sum_cons]; ring

theorem no_writes {l : List (String × ℝ)} (hf : ∀ c ∈ l, FunctionalsOnly c.1) (i : ℕ) : writesTo i (setCalls l) = [] := by
  unfold writesTo
  rw [sets_setCalls, List.flatMap_eq_nil_iff]
  intro c hc
  have := hf c hc i
  rw [paramWrites, if_neg this.1, List.map_eq_nil_iff, List.filter_eq_nil_iff]
  intro t ht
  simpa using this.2 t ht

/-- Lists of set calls on functionals with the same total contribution and the same functionals mentioned. -/
theorem setCalls_same {l₁ l₂ : List (String × ℝ)} (h1 : ∀ c ∈ l₁, FunctionalsOnly c.1) (h2 : ∀ c ∈ l₂, FunctionalsOnly c.1)
    (hsum : ∀ i, (contributions i (setCalls l₁)).sum = (contributions i (setCalls l₂)).sum)
    (hmen : ∀ i, (∃ c ∈ l₁, Mentions c.1 i) ↔ ∃ c ∈ l₂, Mentions c.1 i) {s s₁ : State ℝ} (hs : s.WF)
    (hr : run s (setCalls l₁) = .ok s₁) : ∃ s₂, run s (setCalls l₂) = .ok s₂ ∧ SameButOrder s₁ s₂ := by
  obtain ⟨s₂, hr2⟩ := run_sets_ok l₂ hs
  have hr2 : run s (setCalls l₂) = .ok s₂ := hr2
  refine ⟨s₂, hr2, ?_⟩
  obtain ⟨a1, a2, a3⟩ := run_setCalls_frame l₁ hs hr
  obtain ⟨b1, b2, b3⟩ := run_setCalls_frame l₂ hs hr2
  refine sameButOrder_of (run_wf hs hr) (run_wf hs hr2) ?_ ?_ (by rw [a1, b1]) (by rw [a2, b2]) (by rw [a3, b3])
  · funext i
    by_cases hi : i < NR_FUNCTIONALS
    · rw [run_settings_fun hi hs hr, run_settings_fun hi hs hr2, foldl_add_sum, foldl_add_sum, hsum]
    · rw [run_settings_param (not_lt.1 hi) hs hr, run_settings_param (not_lt.1 hi) hs hr2, no_writes h1, no_writes h2]
  · intro i
    rw [run_mem_active i hs hr, run_mem_active i hs hr2, sets_setCalls, sets_setCalls, hmen]

/-- What `SameButOrder` means to a caller, spelled out. -/
def Indistinguishable (s t : State ℝ) : Prop :=
  (∀ name, xcfunGet s name = xcfunGet t name) ∧ isGga s = isGga t ∧ isMetagga s = isMetagga t ∧
  inputLength s = inputLength t ∧ outputLength s = outputLength t ∧
  ∀ junk input output, xcfunEval codeKernel junk s input output = xcfunEval codeKernel junk t input output

/-- **C24, order of calls.** In exact arithmetic, permuting consecutive `xcfun_set` calls on functionals (or on aliases that
stand for functionals only), at any point of any history, changes no result: the rest of the history runs in the same
way and leaves an indistinguishable object.  (`eval` calls are left out of the rest only because they do not change
the object, see C23.) -/
theorem C24_order_of_sets (p q : List (Call ℝ)) (hq : ∀ c ∈ q, ∀ r, c ≠ .eval r) (l₁ l₂ : List (String × ℝ))
    (hp : l₁.Perm l₂) (hf : ∀ c ∈ l₁, FunctionalsOnly c.1) (s₁ : State ℝ)
    (h : run State.init (p ++ setCalls l₁ ++ q) = .ok s₁) :
    ∃ s₂, run State.init (p ++ setCalls l₂ ++ q) = .ok s₂ ∧ Indistinguishable s₁ s₂ := by
  rw [run_append, run_append] at h
  obtain ⟨s', h1, h2⟩ := Outcome.bind_eq_ok.1 h
  obtain ⟨s, h3, h4⟩ := Outcome.bind_eq_ok.1 h1
  have hs := run_wf init_wf h3
  obtain ⟨t', h5, h6⟩ := setCalls_same (l₂ := l₂) hf (fun c hc => hf c (hp.mem_iff.2 hc)) (fun i => by
    simp only [contributions, sets_setCalls]
    exact (hp.flatMap_right _).sum_eq) (fun i => by simp only [hp.mem_iff]) hs h4
  obtain ⟨s₂, h7, h8⟩ := run_same hq (run_wf hs h4) (run_wf hs h5) h6 h2
  refine ⟨s₂, ?_, sameButOrder_observe h8⟩
  rw [run_append, run_append, h3, Outcome.ok_bind, h5, Outcome.ok_bind, h7]

/-- **C24, repeated calls.** Setting a name that stands for functionals twice equals setting the sum once. -/
theorem C24_set_twice (p q : List (Call ℝ)) (hq : ∀ c ∈ q, ∀ r, c ≠ .eval r) (name : String)
    (hf : FunctionalsOnly name) (u v : ℝ) (s₁ : State ℝ)
    (h : run State.init (p ++ [.set name u, .set name v] ++ q) = .ok s₁) :
    ∃ s₂, run State.init (p ++ [.set name (u + v)] ++ q) = .ok s₂ ∧ Indistinguishable s₁ s₂ := by
  rw [run_append, run_append] at h
  obtain ⟨s', h1, h2⟩ := Outcome.bind_eq_ok.1 h
  obtain ⟨s, h3, h4⟩ := Outcome.bind_eq_ok.1 h1
  have hs := run_wf init_wf h3
  have hsum : ∀ i, (contributions i (setCalls [(name, u), (name, v)])).sum =
      (contributions i (setCalls [(name, u + v)])).sum := by
    intro i
    simp only [contributions, sets_setCalls, List.flatMap_cons, List.flatMap_nil, List.append_nil, List.sum_append,
      contribution]
    split
    · simp
    · generalize (aliasTerms name).filter _ = ts
      induction ts with
      | nil => simp
      | cons t ts ih => simp only [List.map_cons, List.sum_cons, ← ih]; ring
  obtain ⟨t', h5, h6⟩ := setCalls_same (l₁ := [(name, u), (name, v)]) (l₂ := [(name, u + v)]) (by simpa using hf)
    (by simpa using hf) hsum (fun i => by simp) hs h4
  obtain ⟨s₂, h7, h8⟩ := run_same hq (run_wf hs h4) (run_wf hs h5) h6 h2
  refine ⟨s₂, ?_, sameButOrder_observe h8⟩
  rw [run_append, run_append, h3, Outcome.ok_bind]
  have h5 : run s [.set name (u + v)] = .ok t' := h5
  rw [h5, Outcome.ok_bind, h7]

theorem functionalsOnly_of (name : String)
    (h : lookupParameter name = none ∧ ∀ t ∈ aliasTerms name, lookupParameter t.name = none) : FunctionalsOnly name :=
  fun i => ⟨fun hn => Option.some_ne_none i ((lookupParameter_eq_some.2 hn).symm.trans h.1),
    fun t ht hn => Option.some_ne_none i ((lookupParameter_eq_some.2 hn).symm.trans (h.2 t ht))⟩

/-- `blyp`, `LDA` and `pbex` stand for functionals only; `b3lyp` does not (it sets `EXX`). -/
example : FunctionalsOnly "blyp" ∧ FunctionalsOnly "LDA" ∧ FunctionalsOnly "pbex" ∧ ¬ FunctionalsOnly "b3lyp" := by
  refine ⟨functionalsOnly_of _ (by decide +kernel), functionalsOnly_of _ (by decide +kernel),
    functionalsOnly_of _ (by decide +kernel), fun h => ?_⟩
  have h1 : ∃ t ∈ aliasTerms "b3lyp", NamesParameter t.name 79 := by decide +kernel
  obtain ⟨t, h1, h2⟩ := h1
  exact (h 79).2 t h1 h2

/-- **C24, zero weight.** A functional whose weight is zero contributes nothing: removing it from the active list changes no
value.  In potential mode this is stated for objects that need the same quantities, because there the set of needed
quantities decides which inputs are read. -/
theorem C24_zero_weight (s t : State ℝ) (hs : t.settings = s.settings)
    (ha : t.active = s.active.filter fun id => s.settings id ≠ 0) (ho : t.order = s.order) (hm : t.mode = s.mode)
    (hv : t.vars = s.vars) (hd : t.mode ≠ POTENTIAL ∨ t.depends = s.depends) (junk : Junk ℝ) (input output : List ℝ) :
    xcfunEval codeKernel junk t input output = xcfunEval codeKernel junk s input output := by
  refine xcfunEval_formal hv hm ho hd (fun v => ?_) junk input output
  funext N ρ
  unfold formal energyOn
  rw [hs, ha]
  induction s.active with
  | nil => rfl
  | cons a l ih =>
    rw [List.filter_cons]
    by_cases h : s.settings a = 0
    · have h0 : CT.const N (0 : ℝ) = 0 := rfl
      rw [if_neg (by simp [h]), ih, List.map_cons, List.sum_cons, h, h0, zero_mul, zero_add]
    · rw [if_pos (by simp [h]), List.map_cons, List.sum_cons, ih, List.map_cons, List.sum_cons]

/-- `slaterx` with weight 2 and `pbex` with weight 0. -/
def zeroWeightSample : State ℝ :=
  { active := [5, 0], order := 2, depends := 3, mode := 1, vars := some .A_B_GAA_GAB_GBB,
    settings := fun i => if i = 0 then 2 else 0 }

example (junk : Junk ℝ) (input output : List ℝ) :
    xcfunEval codeKernel junk { zeroWeightSample with active := [0], depends := 1 } input output =
      xcfunEval codeKernel junk zeroWeightSample input output := by
  have h1 : ({ zeroWeightSample with active := [0], depends := 1 } : State ℝ).active =
      zeroWeightSample.active.filter fun id => zeroWeightSample.settings id ≠ 0 := by
    simp [zeroWeightSample]
  have h2 : (1 : ℤ) ≠ POTENTIAL := by decide
  exact C24_zero_weight zeroWeightSample { zeroWeightSample with active := [0], depends := 1 } rfl h1 rfl rfl rfl
    (Or.inl h2) junk input output

end XCFun.Props
