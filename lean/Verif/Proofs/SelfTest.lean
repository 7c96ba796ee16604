/-
Lemmas for `Props/SelfTest`.
-/
import Verif.Spec.SelfTest
import Verif.Proofs.Process
import Verif.Proofs.Setup
import Verif.Props.Output

namespace XCFun
open Spec

/-- Every functional is found under its own name. -/
theorem own_name : ∀ f < 78, (funs[f]?).any fun fd => lookupFunctional fd.name == some f := by decide +kernel

/-- The data of functional `f` agree with the entry of `tested`, and the object can be set up. -/
def rowOk (f : ℕ) : Bool :=
  match testTable[f]? with
  | none => false
  | some d =>
    match tested.filter fun t => t.id == f with
    | [] => d.mode == MODE_UNSET
    | [t] => d.mode == PARTIAL_DERIVATIVES && d.vars == t.vars.code && d.order == (t.order : ℤ) && decide (t.order ≤ 3) &&
        (DV.reads t.vars).isSome && (dependsOf f &&& t.vars.provides) == dependsOf f && d.input.length == t.vars.len &&
        decide (d.output.length ≤ 128) && (match taylorlen t.vars.len t.order with | .ok n => decide (n ≤ 128) | _ => false) && (funs[f]?).map FunData.name == some t.name
    | _ => false

theorem rows_ok : ∀ f < 78, rowOk f = true := by decide +kernel


section
variable {V : Type} [Zero V] [One V] [Add V] [Sub V] [Mul V] [Lit V]

omit [Zero V] [One V] [Add V] [Sub V] [Mul V] in
theorem padded_get (n : ℕ) (l : List Dec) (i : ℕ) (hi : i < n) :
    (padded n l : List V)[i]? = some ((l.map fun d => (lit d.1 d.2 : V)).getD i (lit 0 0)) := by
  unfold padded
  by_cases h : i < l.length
  · rw [List.getElem?_append_left (by simpa using h)]
    simp [List.getD, h]
  · rw [List.getElem?_append_right (by simpa using h)]
    simp only [List.length_map]
    rw [List.getElem?_replicate, if_pos (by omega)]
    simp [List.getD, h]

omit [Zero V] [One V] [Add V] [Sub V] [Mul V] in
theorem countErrors_pos (far : V → V → V → Bool) (thr : V) (out : List V) (l : List Dec) (m : ℕ) (h : out.length ≤ m) :
    ∃ c, countErrors far thr out (padded m l) out.length = .ok c ∧
      (0 < c ↔ Deviates far thr out (l.map fun d => (lit d.1 d.2 : V))) := by
  obtain ⟨c, h1, h2⟩ := forLoop_inv (body := fun i nerr => do
    let o ← rdBuf out i
    let r ← rdBuf (padded m l) i
    pure (if far o r thr then nerr + 1 else nerr))
    (I := fun i c => 0 < c ↔ ∃ j < i, ∃ o, out[j]? = some o ∧ far o ((l.map fun d => (lit d.1 d.2 : V)).getD j (lit 0 0)) thr = true)
    out.length 0 0 (by simp) (by
      intro i c _ hi hI
      have e1 : rdBuf out i = .ok (out[i]'(by omega)) := by simp [rdBuf, show i < out.length by omega]
      have e2 := padded_get (V := V) m l i (by omega)
      generalize hr : (l.map fun d => (lit d.1 d.2 : V)).getD i (lit 0 0) = r at e2
      have e3 : rdBuf (padded m l) i = .ok r := by rw [rdBuf, e2]
      refine ⟨if far (out[i]'(by omega)) r thr then c + 1 else c, by rw [e1, e3]; rfl, ?_⟩
      have hget : out[i]? = some (out[i]'(by omega)) := List.getElem?_eq_getElem _
      by_cases hf : far (out[i]'(by omega)) r thr = true
      · rw [if_pos hf]
        exact ⟨fun _ => ⟨i, by omega, _, hget, by rw [hr]; exact hf⟩, fun _ => by omega⟩
      · rw [if_neg hf, hI]
        constructor
        · rintro ⟨j, hj, h⟩; exact ⟨j, by omega, h⟩
        · rintro ⟨j, hj, o, ho, h⟩
          rcases Nat.lt_succ_iff_lt_or_eq.1 hj with hj | rfl
          · exact ⟨j, hj, o, ho, h⟩
          · rw [hget] at ho; cases ho; rw [hr] at h; exact absurd h hf)
  refine ⟨c, h1, h2.trans ⟨?_, ?_⟩⟩
  · rintro ⟨j, _, h⟩; exact ⟨j, h⟩
  · rintro ⟨j, o, ho, h⟩
    exact ⟨j, by have := (List.getElem?_eq_some_iff.1 ho).1; omega, o, ho, h⟩

/-- The object after `xcfun_new` and `xcfun_set(f, name, 1.0)`. -/
def afterSet (f : ℕ) : State V :=
  { (State.init : State V) with
    settings := upd State.init.settings f (State.init.settings f + lit 1 0), active := [f], depends := dependsOf f }

omit [Zero V] [One V] [Sub V] in
theorem set_own {f : ℕ} {fd : FunData} (h : lookupFunctional fd.name = some f) :
    xcfunSet State.init fd.name (lit 1 0 : V) = .ok (0, afterSet f) := by
  rw [xcfunSet, xcfunSetFuel, h]
  simp only [setFunctional]
  rw [if_neg (by simp [State.init]), if_pos (by simp [State.init, NR_FUNCTIONALS])]
  simp [State.init, afterSet]

omit [Zero V] [One V] [Add V] [Sub V] [Mul V] [Lit V] in
theorem upd_upd {α : Type} (g : ℕ → α) (a : ℕ) (x y : α) : upd (upd g a x) a y = upd g a y := by
  funext i; unfold upd; split <;> rfl

omit [Zero V] [One V] [Add V] [Sub V] [Mul V] [Lit V] in
theorem upd_same {α : Type} (g : ℕ → α) (a : ℕ) (x : α) : upd g a x a = x := by simp [upd]

/-- The object of functional `f` set up for its test. -/
def afterSetup (f : ℕ) (t : Tested) : State V :=
  { (afterSet f : State V) with mode := PARTIAL_DERIVATIVES, vars := some t.vars, order := t.order }

/-- What the table says about a functional with data. -/
theorem row_of {f : ℕ} (hf : f < 78) : ∃ d fd, testTable[f]? = some d ∧ funs[f]? = some fd ∧ lookupFunctional fd.name = some f ∧
    ((tested.filter (fun t => t.id == f) = [] ∧ d.mode = MODE_UNSET) ∨
     ∃ t, tested.filter (fun t => t.id == f) = [t] ∧ d.mode = PARTIAL_DERIVATIVES ∧ d.vars = t.vars.code ∧ d.order = t.order ∧
      t.order ≤ 3 ∧ DV.reads t.vars ≠ none ∧ (dependsOf f &&& t.vars.provides) = dependsOf f ∧ d.input.length = t.vars.len ∧
      (∀ n, taylorlen t.vars.len t.order = .ok n → n ≤ 128) ∧ fd.name = t.name) := by
  have h1 := own_name f hf
  have h2 := rows_ok f hf
  unfold rowOk at h2
  cases hd : testTable[f]? with
  | none => simp [hd] at h2
  | some d =>
    cases hfd : funs[f]? with
    | none => simp [hfd] at h1
    | some fd =>
      refine ⟨d, fd, rfl, rfl, by simpa [hfd] using h1, ?_⟩
      rw [hd] at h2
      simp only at h2
      split at h2
      · rename_i he
        exact Or.inl ⟨he, by simpa using h2⟩
      · rename_i t he
        refine Or.inr ⟨t, he, ?_⟩
        simp only [hfd, Bool.and_eq_true, beq_iff_eq, decide_eq_true_eq, Option.map_some, Option.some.injEq] at h2
        obtain ⟨⟨⟨⟨⟨⟨⟨⟨⟨a1, a2⟩, a3⟩, a4⟩, a5⟩, a6⟩, a7⟩, -⟩, a9⟩, a10⟩ := h2
        exact ⟨a1, a2, a3, a4, fun h => by simp [h] at a5, a6, a7, fun n hn => by rw [hn] at a9; simpa using a9, a10⟩
      · cases h2

omit [Zero V] [One V] [Sub V] [Mul V] in
theorem setup_own {f : ℕ} {t : Tested} (a4 : t.order ≤ 3) (a6 : (dependsOf f &&& t.vars.provides) = dependsOf f) :
    evalSetup (afterSet f : State V) t.vars.code PARTIAL_DERIVATIVES t.order = .ok (0, afterSetup f t) := by
  rw [evalSetup, ofCode_code]
  simp only [evalSetupVars]
  have hd : (afterSet f : State V).depends = dependsOf f := by simp [afterSet]
  rw [hd, if_neg (by simpa using a6), if_neg (by simp only [MAX_ORDER]; omega), if_neg (by simp [PARTIAL_DERIVATIVES, POTENTIAL]),
    if_neg (by simp [PARTIAL_DERIVATIVES, POTENTIAL])]
  rfl

/-- The object of functional `f` set up for its test returns what the user gets. -/
theorem user_values (K : Kernel V) (hK : K.Local) (hr : K.reads = DV.reads) {f : ℕ} {fd : FunData} {t : Tested} {d : TestData}
    (hl : lookupFunctional fd.name = some f) (a4 : t.order ≤ 3) (a5 : DV.reads t.vars ≠ none)
    (a6 : (dependsOf f &&& t.vars.provides) = dependsOf f) (a7 : d.input.length = t.vars.len) :
    ∃ res : List V, evalSetup (afterSet f : State V) t.vars.code PARTIAL_DERIVATIVES t.order = .ok (0, afterSetup f t) ∧
      outputLength (afterSetup f t : State V) = .ok (res.length : ℤ) ∧
      (∀ rest output junk, res.length ≤ output.length →
        xcfunEval K junk (afterSetup f t) ((d.input.map fun c => (lit c.1 c.2 : V)) ++ rest) output = .ok (res ++ output.drop res.length)) ∧
      UserValues K fd.name t.vars t.order (d.input.map fun c => lit c.1 c.2) res := by
  obtain ⟨res, h1, h2⟩ := Props.C14_writes_exactly K hK (afterSetup f t : State V) t.vars rfl rfl
    ⟨by show (0 : ℤ) ≤ (t.order : ℤ); omega, by show (t.order : ℤ) ≤ 3; omega⟩ (by rw [hr]; exact a5)
    (d.input.map fun c => (lit c.1 c.2 : V)) (by simpa using a7)
  have hs := setup_own (V := V) a4 a6
  refine ⟨res, hs, h1, h2, afterSet f, afterSetup f t, ?_, hs, h1, h2⟩
  show (Call.step State.init (.set fd.name (lit 1 0)) >>= fun s => run s []) = _
  rw [Call.step, set_own hl]
  rfl

theorem testIter_ok (K : Kernel V) (hK : K.Local) (hr : K.reads = DV.reads) (far : V → V → V → Bool) {f : ℕ} (hf : f < 78) :
    ∃ res : List V, (∀ t ∈ tested, t.id = f → UserValues K t.name t.vars t.order (refPoint f) res) ∧
      ∀ (junk : Junk V) (buf : ℕ → V) (a : ℕ) (w : Proc V), w.tabs.Consistent → w.heap a = none →
        ∃ b : Bool, testIter K far junk buf (some a) f w = .ok (b, ⟨.filled, w.heap⟩) ∧
          (b = true ↔ (∃ t ∈ tested, t.id = f) ∧ Deviates far (refThreshold f) res (refValues f)) := by
  obtain ⟨d, fd, h1, h2, h3, h4⟩ := row_of hf
  have start : ∀ (junk : Junk V) (buf : ℕ → V) (a : ℕ) (w : Proc V), w.tabs.Consistent → w.heap a = none →
      testIter K far junk buf (some a) f w =
        (testOne K far junk buf a d ⟨.filled, upd w.heap a (some (afterSet f))⟩ >>= fun b =>
          opStep K b.2 (.delete (some a)) >>= fun e => pure (b.1, e.2)) := by
    intro junk buf a w hw ha
    have e1 : opStep K w (.new (some a)) = .ok (.ptr (some a), ⟨.filled, upd w.heap a (some State.init)⟩) := by
      rw [opStep, assure_consistent hw, ha]; simp only; rw [filled_construct]
    have e2 : opStep K ⟨.filled, upd w.heap a (some State.init)⟩ (.call (some a) (.set fd.name (lit 1 0))) =
        .ok (.code 0, ⟨.filled, upd w.heap a (some (afterSet f))⟩) := by
      rw [opStep]; simp only [upd_same]
      simp only [objStep]
      rw [setFuel_consistent 2 filled_consistent]
      have := set_own (V := V) h3
      rw [xcfunSet] at this
      rw [this]
      simp only [Outcome.ok_bind, Outcome.pure_eq, upd_upd]
    rw [testIter, e1]
    simp only [Outcome.ok_bind]
    rw [h1, filled_fun]
    simp only [h2]
    rw [e2]
    rfl
  have fin : ∀ (a : ℕ) (w : Proc V) (s : State V), w.heap a = none →
      opStep K ⟨.filled, upd w.heap a (some s)⟩ (.delete (some a)) = .ok (.unit, ⟨.filled, w.heap⟩) := by
    intro a w s ha
    rw [opStep]; simp only [upd_same]
    simp only [upd_upd]
    rw [← ha, upd_self]
  rcases h4 with ⟨he, hm⟩ | ⟨t, he, a1, a2, a3, a4, a5, a6, a7, a9, a10⟩
  · have hno : ∀ t ∈ tested, t.id ≠ f := by
      intro t ht h
      have : t ∈ tested.filter (fun t => t.id == f) := by simp [ht, h]
      rw [he] at this; cases this
    refine ⟨[], fun t ht h => absurd h (hno t ht), fun junk buf a w hw ha => ⟨false, ?_, ?_⟩⟩
    · rw [start junk buf a w hw ha, testOne, if_neg (by simp [hm])]
      simp only [Outcome.pure_eq, Outcome.ok_bind]
      rw [fin a w _ ha]
      rfl
    · simp only [Bool.false_eq_true, false_iff, not_and]
      rintro ⟨t, ht, h⟩; exact absurd h (hno t ht)
  · have hone : ∀ u ∈ tested, u.id = f → u = t := by
      intro u hu h
      have : u ∈ tested.filter (fun t => t.id == f) := by simp [hu, h]
      rw [he] at this; simpa using this
    have htt : t ∈ tested ∧ t.id = f := by
      have : t ∈ tested.filter (fun t => t.id == f) := by rw [he]; simp
      simpa using this
    obtain ⟨res, b1, b2, b3, b4⟩ := user_values K hK hr (d := d) h3 a4 a5 a6 a7
    have hp : (refPoint f : List V) = d.input.map fun c => lit c.1 c.2 := by simp [refPoint, h1]
    refine ⟨res, fun u hu h => by rw [hone u hu h, ← a10, hp]; exact b4, fun junk buf a w hw ha => ?_⟩
    have hlen : res.length ≤ 128 := by
      have hol : outputLength (afterSetup f t : State V) = taylorlen t.vars.len t.order := by
        have x1 : ¬ (PARTIAL_DERIVATIVES = MODE_UNSET) := by decide
        have x2 : ¬ ((t.order : ℤ) = -1) := by omega
        simp only [outputLength, afterSetup, x1, x2, if_false, if_true]
      rw [hol] at b2
      have := a9 _ b2
      omega
    obtain ⟨c, c1, c2⟩ := countErrors_pos far (d.testThreshold : V) res d.output 128 hlen
    refine ⟨decide (0 < c), ?_, ?_⟩
    · rw [start junk buf a w hw ha, testOne, if_pos (by rw [a1]; decide), a1, a2, a3]
      have e1 : ∀ s : State V, opStep K ⟨.filled, upd w.heap a (some (afterSet f))⟩ (.call (some a) (.evalSetup t.vars.code PARTIAL_DERIVATIVES t.order)) =
          .ok (.code 0, ⟨.filled, upd w.heap a (some (afterSetup f t))⟩) := by
        intro s
        rw [opStep]; simp only [upd_same]
        simp only [objStep, b1, Outcome.ok_bind, Outcome.pure_eq, upd_upd]
      have e2 : opStep K ⟨.filled, upd w.heap a (some (afterSetup f t))⟩ (.call (some a) .outputLength) =
          .ok (.code res.length, ⟨.filled, upd w.heap a (some (afterSetup f t))⟩) := by
        rw [opStep]; simp only [upd_same]
        simp only [objStep, b2, Outcome.ok_bind, Outcome.pure_eq, upd_upd]
      have e3 : opStep K ⟨.filled, upd w.heap a (some (afterSetup f t))⟩
            (.call (some a) (.eval junk d.testIn ((List.range (res.length : ℤ).toNat).map buf))) =
          .ok (.buffer res, ⟨.filled, upd w.heap a (some (afterSetup f t))⟩) := by
        rw [opStep]; simp only [upd_same]
        simp only [objStep]
        rw [TestData.testIn, padded, b3 _ _ _ (by simp)]
        simp [upd_upd]
      rw [e1 (afterSet f)]
      simp only [Outcome.ok_bind]
      rw [e2]
      simp only [Outcome.ok_bind]
      rw [if_neg (by omega), e3]
      simp only [Outcome.ok_bind, Int.toNat_natCast]
      rw [TestData.testOut, c1]
      simp only [Outcome.ok_bind, Outcome.pure_eq]
      rw [fin a w _ ha]
      rfl
    · have hv : (refValues f : List V) = d.output.map fun c => lit c.1 c.2 := by simp [refValues, h1]
      have ht : (refThreshold f : V) = d.testThreshold := by simp [refThreshold, h1, TestData.testThreshold]
      rw [decide_eq_true_eq, c2, hv, ht]
      exact ⟨fun h => ⟨⟨t, htt⟩, h⟩, fun h => h.2⟩

theorem tested_ids : tested.map Tested.id = (List.range 78).filter fun f => f ∈ tested.map Tested.id := by decide +kernel

theorem xcfunTest_ok (K : Kernel V) (hK : K.Local) (hr : K.reads = DV.reads) (far : V → V → V → Bool) :
    ∃ res : ℕ → List V, (∀ t ∈ tested, UserValues K t.name t.vars t.order (refPoint t.id) (res t.id)) ∧
      ∀ (junk : ℕ → Junk V) (buf : ℕ → ℕ → V) (addr : ℕ → ℕ) (w : Proc V), w.tabs.Consistent → (∀ f, w.heap (addr f) = none) →
        xcfunTest K far junk buf (fun f => some (addr f)) w = .ok ((open Classical in
          (tested.filter fun t => Deviates far (refThreshold t.id) (res t.id) (refValues t.id)).length), ⟨.filled, w.heap⟩) := by
  classical
  have hall : ∀ f : ℕ, ∃ res : List V, f < 78 → (∀ t ∈ tested, t.id = f → UserValues K t.name t.vars t.order (refPoint f) res) ∧
      ∀ (junk : Junk V) (buf : ℕ → V) (a : ℕ) (w : Proc V), w.tabs.Consistent → w.heap a = none →
        ∃ b : Bool, testIter K far junk buf (some a) f w = .ok (b, ⟨.filled, w.heap⟩) ∧
          (b = true ↔ (∃ t ∈ tested, t.id = f) ∧ Deviates far (refThreshold f) res (refValues f)) := by
    intro f
    by_cases hf : f < 78
    · obtain ⟨res, h⟩ := testIter_ok K hK hr far hf
      exact ⟨res, fun _ => h⟩
    · exact ⟨[], fun h => absurd h hf⟩
  choose res hres using hall
  have h78 : ∀ t ∈ tested, t.id < 78 := by
    intro t ht
    have : t.id ∈ tested.map Tested.id := List.mem_map_of_mem ht
    rw [tested_ids] at this
    simpa using (List.mem_filter.1 this).1
  refine ⟨res, fun t ht => (hres t.id (h78 t ht)).1 t ht rfl, fun junk buf addr w hw ha => ?_⟩
  set Q : ℕ → Bool := fun f => decide ((f ∈ tested.map Tested.id) ∧ Deviates far (refThreshold f) (res f) (refValues f)) with hQ
  obtain ⟨⟨n, w'⟩, h1, h2, h3, h4⟩ := forLoop_inv (body := fun f (st : ℕ × Proc V) => do
      let r ← testIter K far (junk f) (buf f) (some (addr f)) f st.2
      pure (if r.1 then st.1 + 1 else st.1, r.2))
    (I := fun f st => st.1 = ((List.range f).filter Q).length ∧ st.2.heap = w.heap ∧ (if f = 0 then st.2.tabs = w.tabs else st.2.tabs = .filled))
    NR_FUNCTIONALS 0 (0, w) (by simp) (by
      rintro f ⟨n, u⟩ _ hf ⟨i1, i2, i3⟩
      have hf : f < 78 := by rw [Nat.zero_add] at hf; exact hf
      simp only at i1 i2 i3
      have hu : u.tabs.Consistent := by
        by_cases h0 : f = 0
        · rw [if_pos h0] at i3; rw [i3]; exact hw
        · rw [if_neg h0] at i3; rw [i3]; exact filled_consistent
      obtain ⟨b, e1, e2⟩ := (hres f hf).2 (junk f) (buf f) (addr f) u hu (by rw [i2]; exact ha f)
      refine ⟨(if b then n + 1 else n, ⟨.filled, u.heap⟩), by simp only [e1, Outcome.ok_bind, Outcome.pure_eq], ?_, i2, by simp⟩
      have hb : Q f = b := by
        have : (∃ t ∈ tested, t.id = f) ↔ f ∈ tested.map Tested.id := by simp
        rw [this] at e2
        rw [hQ, Bool.eq_iff_iff, decide_eq_true_eq]
        exact e2.symm
      rw [List.range_succ, List.filter_append, List.length_append, ← i1]
      simp only [List.filter_cons, List.filter_nil, hb]
      cases b <;> simp)
  have hw' : w' = ⟨.filled, w.heap⟩ := by
    cases w'
    rw [if_neg (by decide)] at h4
    simp only at h3 h4
    rw [h3, h4]
  rw [xcfunTest, h1, hw']
  congr 2
  simp only at h2
  rw [h2]
  have hq : Q = fun f => decide (Deviates far (refThreshold f) (res f) (refValues f)) && decide (f ∈ tested.map Tested.id) := by
    funext f; rw [hQ]; simp [and_comm]
  have := tested_ids
  rw [hq, ← List.filter_filter, show (0 + NR_FUNCTIONALS) = 78 from rfl, ← tested_ids, List.filter_map, List.length_map]
  rfl

/-! ### The values of the user -/

set_option linter.unusedSectionVars false

/-- The values of the user are determined. -/
theorem user_values_unique {K : Kernel V} {name : String} {v : Vars} {o : ℤ} {x r r' : List V} (h : UserValues K name v o x r)
    (h' : UserValues K name v o x r') : r = r' := by
  obtain ⟨s₀, s, a1, a2, a3, a4⟩ := h
  obtain ⟨s₀', s', b1, b2, b3, b4⟩ := h'
  rw [a1] at b1; cases b1
  rw [a2] at b2; cases b2
  rw [a3] at b3
  have hl : r.length = r'.length := by
    have := Outcome.ok.inj b3
    omega
  have h1 := a4 [] r none le_rfl
  have h2 := b4 [] r none (by omega)
  rw [h1] at h2
  simpa [hl] using h2

theorem accumulate_kernel {K K' : Kernel V} {s : State V} (hr : K.reads = K'.reads)
    (h : ∀ v st id N x, id ∈ s.active → K.fp v st id N x = K'.fp v st id N x) (v : Vars) {N : ℕ} (m : Slots V N) (out : CT V N) :
    accumulate K s v m out = accumulate K' s v m out := by
  unfold accumulate
  rw [hr]
  cases K'.reads v with
  | none => rfl
  | some sl =>
    simp only
    split
    · congr 1
      refine List.foldl_ext _ _ _ fun o id hid => ?_
      rw [h v s.settings id N _ hid]
    · rfl

theorem xcfunEval_kernel {K K' : Kernel V} {s : State V} (hr : K.reads = K'.reads)
    (h : ∀ v st id N x, id ∈ s.active → K.fp v st id N x = K'.fp v st id N x) (hm : s.mode = PARTIAL_DERIVATIVES) (ho : 0 ≤ s.order)
    {v : Vars} (hv : s.vars = some v) (junk : Junk V) (input output : List V) :
    xcfunEval K junk s input output = xcfunEval K' junk s input output := by
  rw [Props.xcfunEval_partial hv hm ho, Props.xcfunEval_partial hv hm ho]
  have ha := fun {N : ℕ} (m : Slots V N) out => accumulate_kernel (s := s) hr h v m out
  have h1 : order1Body K s v input = order1Body K' s v input := by funext j st; simp only [order1Body, ha]
  have h2 : order2Body K s v = order2Body K' s v := by funext j st; simp only [order2Body, ha]
  have h3 : order3Body K s v = order3Body K' s v := by funext j st; simp only [order3Body, ha]
  simp only [evalPartial, evalOrder0, evalOrder1, evalOrder2, evalOrder3, order1Last, h1, h2, h3, ha]

/-- The state in `UserValues` for a functional with data. -/
theorem tested_state {t : Tested} (ht : t ∈ tested) {s₀ s : State V} (h₀ : run State.init [.set t.name (lit 1 0)] = .ok s₀)
    (h : evalSetup s₀ t.vars.code PARTIAL_DERIVATIVES t.order = .ok (0, s)) :
    s.active = [t.id] ∧ s.mode = PARTIAL_DERIVATIVES ∧ s.order = t.order ∧ s.vars = some t.vars ∧
      s.settings t.id = lit 0 0 + lit 1 0 ∧ DV.reads t.vars ≠ none ∧ t.order ≤ 3 := by
  have h78 : t.id < 78 := by
    have : t.id ∈ tested.map Tested.id := List.mem_map_of_mem ht
    rw [tested_ids] at this
    simpa using (List.mem_filter.1 this).1
  obtain ⟨d, fd, h1, h2, h3, ⟨he, -⟩ | ⟨u, he, a1, a2, a3, a4, a5, a6, a7, a9, a10⟩⟩ := row_of h78
  · have : t ∈ tested.filter fun u => u.id == t.id := by simp [ht]
    rw [he] at this; cases this
  · have hu : t = u := by
      have : t ∈ tested.filter fun u => u.id == t.id := by simp [ht]
      rw [he] at this; simpa using this
    subst hu
    rw [← a10] at h₀
    have e : run State.init [.set fd.name (lit 1 0 : V)] = .ok (afterSet t.id) := by
      show (Call.step State.init (.set fd.name (lit 1 0)) >>= fun s => run s []) = _
      rw [Call.step, set_own h3]; rfl
    rw [e] at h₀
    cases h₀
    rw [setup_own a4 a6] at h
    cases h
    refine ⟨rfl, rfl, rfl, rfl, ?_, a5, a4⟩
    show upd _ _ _ _ = _
    rw [upd_same]
    simp only [State.init]
    rw [if_pos (show t.id < NR_FUNCTIONALS from h78)]

end
end XCFun
