/-
The lazily filled tables are constants as far as any entry point can tell; objects do not interact.
-/
import Verif.Spec.Process
import Verif.Proofs.Names
import Mathlib.Tactic.IntervalCases
import Mathlib.Order.Basic

namespace XCFun
open Spec

theorem visit_eq (n : ℕ) : ∀ f, 1 ≤ n → visit f n = List.range' f n := by
  induction n using Nat.strong_induction_on with
  | _ n ih =>
    intro f hn
    rw [visit]
    by_cases h : n ≤ 1
    · have : n = 1 := by omega
      subst this; simp
    · rw [if_neg h, ih (n / 2) (by omega) _ (by omega), ih ((n + 1) / 2) (by omega) _ (by omega)]
      have := List.range'_append (s := f) (m := n / 2) (n := (n + 1) / 2) (step := 1)
      rw [Nat.one_mul, show n / 2 + (n + 1) / 2 = n by omega] at this
      exact this

/-- The tables after the first `xcint_assure_setup`. -/
def Tables.filled : Tables := assureSetup .zero

theorem foldl_fill (l : List ℕ) : ∀ (tab : ℕ → Option FunData) (i : ℕ),
    (l.foldl fillFun tab) i = if i ∈ l then funs[i]? else tab i := by
  induction l with
  | nil => intro tab i; simp
  | cons a l ih =>
    intro tab i
    rw [List.foldl_cons, ih]
    by_cases h : i ∈ l
    · simp [h]
    · by_cases h' : i = a
      · subst h'; simp [h, fillFun, upd]
      · simp [h, h', fillFun, upd]

theorem filled_fun : Tables.filled.funTab = fun i => funs[i]? := by
  funext i
  show ((visit 0 NR_FUNCTIONALS).foldl fillFun fun _ => none) i = _
  rw [foldl_fill, visit_eq _ _ (by decide)]
  by_cases h : i < NR_FUNCTIONALS
  · rw [if_pos (by simp [List.mem_range']; exact h)]
  · rw [if_neg (by simp [List.mem_range']; exact not_lt.1 h), List.getElem?_eq_none (by rw [funs_length]; omega)]

theorem filled_par (i : ℕ) : Tables.filled.parTab i =
    if NR_FUNCTIONALS ≤ i then params[i - NR_FUNCTIONALS]? else none := by
  show fillParams (fun _ => none) 4 78 i = _
  simp only [fillParams, upd]
  by_cases h : NR_FUNCTIONALS ≤ i
  · rw [if_pos h]
    obtain ⟨k, rfl⟩ := Nat.exists_eq_add_of_le h
    have h78 : NR_FUNCTIONALS = 78 := rfl
    by_cases hk : k < 4
    · interval_cases k <;> rfl
    · rw [if_neg (by omega), if_neg (by omega), if_neg (by omega), if_neg (by omega),
        List.getElem?_eq_none (by rw [params_length]; omega)]
  · have h78 : NR_FUNCTIONALS = 78 := rfl
    rw [if_neg (by omega), if_neg (by omega), if_neg (by omega), if_neg (by omega), if_neg h]

/-- The only contents the tables ever have. -/
def Tables.Consistent (t : Tables) : Prop := t = .zero ∨ t = .filled

theorem assure_consistent {t : Tables} (h : t.Consistent) : assureSetup t = .filled := by
  rcases h with rfl | rfl
  · rfl
  · have : Tables.filled.isSetup = true := rfl
    rw [assureSetup, if_pos this]

theorem filled_consistent : Tables.filled.Consistent := Or.inr rfl

theorem scan_list (names : ℕ → Option String) (l : List String) (name : String) : ∀ i,
    (∀ j, (h : j < l.length) → names (i + j) = some l[j]) →
    scan names name l.length i = .ok ((l.findIdx? (strcaseEq name)).map (· + i)) := by
  induction l with
  | nil => intro i _; rfl
  | cons a l ih =>
    intro i h
    have h0 : names i = some a := h 0 (by simp)
    rw [List.length_cons, scan, h0]
    simp only
    rw [List.findIdx?_cons]
    by_cases hs : strcaseEq name a = true
    · rw [if_pos hs, if_pos hs]; simp
    · rw [if_neg hs, if_neg hs, ih (i + 1) fun j hj => by
        have := h (j + 1) (by simp; omega)
        rw [show i + 1 + j = i + (j + 1) by omega, this]; rfl]
      cases l.findIdx? (strcaseEq name) <;> simp; omega

theorem filled_lookupFun (name : String) : Tables.filled.lookupFun name = .ok (lookupFunctional name) := by
  have := scan_list (fun i => (Tables.filled.funTab i).map FunData.name) (funs.map FunData.name) name 0 (by
    intro j hj
    rw [filled_fun]
    simp only [List.length_map] at hj
    simp [List.getElem?_eq_getElem hj])
  rw [List.length_map, funs_length] at this
  rw [Tables.lookupFun, this]
  simp [lookupFunctional, List.findIdx?_map, Function.comp_def]

theorem filled_lookupPar (name : String) : Tables.filled.lookupPar name = .ok (lookupParameter name) := by
  have := scan_list (fun i => (Tables.filled.parTab i).map ParamData.name) (params.map ParamData.name) name
    NR_FUNCTIONALS (by
    intro j hj
    rw [filled_par, if_pos (by omega)]
    simp only [List.length_map] at hj
    simp [List.getElem?_eq_getElem hj])
  rw [List.length_map, params_length] at this
  rw [Tables.lookupPar, show NR_PARAMETERS_AND_FUNCTIONALS - NR_FUNCTIONALS = 4 by decide, this]
  simp [lookupParameter, List.findIdx?_map, Function.comp_def]

section
variable {V : Type} [Zero V] [One V] [Add V] [Sub V] [Mul V] [Lit V]

omit [Zero V] [One V] [Add V] [Sub V] [Mul V] in
theorem filled_construct : (Tables.filled.construct : State V) = State.init := by
  unfold Tables.construct State.init
  congr 1
  funext i
  by_cases h : i < NR_FUNCTIONALS
  · rw [if_pos h, if_pos h]
  · rw [if_neg h, if_neg h, filled_par, if_pos (not_lt.1 h)]
    rfl

omit [Zero V] [One V] [Sub V] [Mul V] [Lit V] in
theorem filled_setFunctional (s : State V) (item : ℕ) (v : V) :
    Tables.filled.setFunctional s item v = setFunctional s item v := by
  unfold Tables.setFunctional setFunctional dependsOf
  rw [filled_fun]

omit [Zero V] [One V] [Sub V] in
theorem setFuel_consistent (n : ℕ) : ∀ {t : Tables}, t.Consistent → ∀ (s : State V) (name : String) (v : V),
    Tables.setFuel n t s name v = (xcfunSetFuel n s name v >>= fun r => .ok (r.1, r.2, Tables.filled)) := by
  induction n with
  | zero => intro t _ s name v; rfl
  | succ n ih =>
    intro t ht s name v
    rw [Tables.setFuel, xcfunSetFuel, assure_consistent ht, filled_lookupFun]
    simp only [Outcome.ok_bind]
    cases lookupFunctional name with
    | some item =>
      simp only [filled_setFunctional]
      cases setFunctional s item v <;> rfl
    | none =>
      simp only [filled_lookupPar, Outcome.ok_bind]
      cases lookupParameter name with
      | some item => rfl
      | none =>
        simp only
        cases lookupAlias name with
        | none => rfl
        | some item =>
          simp only
          have key : ∀ (l : List AliasTerm) (s : State V),
              (l.foldlM (init := (s, Tables.filled)) fun st a => do
                let (rc, s, t) ← Tables.setFuel n st.2 st.1 a.name (v * lit a.mant a.exp)
                if rc ≠ 0 then .die else pure (s, t)) =
              ((l.foldlM (init := s) fun s a => do
                let (rc, s) ← xcfunSetFuel n s a.name (v * lit a.mant a.exp)
                if rc ≠ 0 then .die else pure s) >>= fun s => Outcome.ok (s, Tables.filled)) := by
            intro l
            induction l with
            | nil => intro s; rfl
            | cons a l ihl =>
              intro s
              rw [List.foldlM_cons, List.foldlM_cons, ih filled_consistent]
              cases hx : xcfunSetFuel n s a.name (v * lit a.mant a.exp) with
              | ok r =>
                simp only [Outcome.ok_bind]
                by_cases h0 : r.1 = 0
                · simp only [h0, ne_eq, not_true, if_false, Outcome.pure_eq, Outcome.ok_bind]
                  exact ihl r.2
                · simp only [h0, ne_eq, not_false_eq_true, if_true, Outcome.die_bind]
              | die => rfl
              | ub => rfl
              | diverge => rfl
          rw [key]
          cases (List.foldlM (m := Outcome) _ s _) <;> rfl

omit [Zero V] [One V] [Add V] [Sub V] [Mul V] [Lit V] in
theorem get_consistent {t : Tables} (ht : t.Consistent) (s : State V) (name : String) :
    t.get s name = .ok (xcfunGet s name, Tables.filled) := by
  rw [Tables.get, assure_consistent ht, xcfunGet, filled_lookupFun]
  simp only [Outcome.ok_bind]
  cases lookupFunctional name with
  | some item => rfl
  | none =>
    simp only [filled_lookupPar, Outcome.ok_bind]
    cases lookupParameter name <;> rfl

theorem enumerate_consistent {t : Tables} (ht : t.Consistent) (n : ℤ) :
    t.enumerateParameters n = (enumerateParameters n >>= fun r => .ok (r, Tables.filled)) := by
  rw [Tables.enumerateParameters, assure_consistent ht, enumerateParameters, filled_fun]
  simp only
  split
  · rfl
  · split
    · split
      · rfl
      · rw [filled_par, if_pos]
        · rfl
        · rename_i h1 h2 h3
          simp only [not_and, not_lt] at h1
          have := h1 (not_lt.1 h3)
          omega
    · rfl

theorem describe_consistent {t : Tables} (ht : t.Consistent) (long : Bool) (name : String) :
    t.describe long name = .ok (if long then describeLong name else describeShort name, Tables.filled) := by
  rw [Tables.describe, assure_consistent ht, describeLong, describeShort, filled_lookupFun]
  simp only [Outcome.ok_bind]
  cases lookupFunctional name with
  | some item => cases long <;> rfl
  | none =>
    simp only [filled_lookupPar, Outcome.ok_bind]
    cases lookupParameter name <;> cases long <;> rfl

/-- A call on an object does not depend on when the tables were filled. -/
theorem objStep_consistent (K : Kernel V) {t : Tables} (ht : t.Consistent) (s : State V) (c : ObjCall V) :
    ∃ t' : Tables, t'.Consistent ∧ objStep K t s c = (alone K s c >>= fun r => .ok (r.1, r.2, t')) := by
  cases c with
  | set name v =>
    refine ⟨_, filled_consistent, ?_⟩
    rw [objStep, alone, setFuel_consistent 2 ht, xcfunSet]
    cases xcfunSetFuel 2 s name v <;> rfl
  | get name => exact ⟨_, filled_consistent, by rw [objStep, alone, get_consistent ht]; rfl⟩
  | isGga => exact ⟨t, ht, rfl⟩
  | isMetagga => exact ⟨t, ht, rfl⟩
  | evalSetup v m o => refine ⟨t, ht, ?_⟩; rw [objStep, alone]; cases evalSetup s v m o <;> rfl
  | userEvalSetup o f d m l k c e =>
    refine ⟨t, ht, ?_⟩; rw [objStep, alone]; cases userEvalSetup s o f d m l k c e <;> rfl
  | inputLength => refine ⟨t, ht, ?_⟩; rw [objStep, alone]; cases inputLength s <;> rfl
  | outputLength => refine ⟨t, ht, ?_⟩; rw [objStep, alone]; cases outputLength s <;> rfl
  | eval junk i o => refine ⟨t, ht, ?_⟩; rw [objStep, alone]; cases xcfunEval K junk s i o <;> rfl
  | evalVec junk n d db dp r rb rp =>
    refine ⟨t, ht, ?_⟩; rw [objStep, alone]; cases xcfunEvalVec K junk s n d db dp r rb rp <;> rfl

omit [Zero V] [One V] [Add V] [Sub V] [Mul V] [Lit V] in
theorem upd_self (f : ℕ → Option (State V)) (a : ℕ) : upd f a (f a) = f := by
  funext i; unfold upd; split
  · rename_i h; rw [h]
  · rfl

theorem opStep_target (K : Kernel V) {w : Proc V} (hw : w.tabs.Consistent) {o : Op V} {a : ℕ} {e : Event V}
    (h : target o = some (a, e)) : ∃ t' : Tables, t'.Consistent ∧
      opStep K w o = (slotStep K a (w.heap a) e >>= fun r => .ok (r.1, ⟨t', upd w.heap a r.2⟩)) := by
  unfold target at h
  split at h <;> cases h
  · refine ⟨_, filled_consistent, ?_⟩
    rw [opStep, assure_consistent hw]
    cases hh : w.heap a with
    | none => simp only; rw [filled_construct]; rfl
    | some s => rfl
  · refine ⟨w.tabs, hw, ?_⟩
    rw [opStep]
    cases hh : w.heap a <;> rfl
  · rename_i c
    cases hh : w.heap a with
    | none => exact ⟨w.tabs, hw, by rw [opStep, hh]; rfl⟩
    | some s =>
      obtain ⟨t', ht', e⟩ := objStep_consistent K hw s c
      refine ⟨t', ht', ?_⟩
      rw [opStep, hh]
      simp only [e, slotStep]
      cases alone K s c <;> rfl

theorem opStep_const (K : Kernel V) {w : Proc V} (hw : w.tabs.Consistent) {o : Op V} (h : target o = none) :
    ∃ t' : Tables, t'.Consistent ∧ opStep K w o = (constStep o >>= fun r => .ok (r, ⟨t', w.heap⟩)) := by
  cases o with
  | new a => cases a with
    | none => exact ⟨w.tabs, hw, rfl⟩
    | some a => cases h
  | delete a => cases a with
    | none => exact ⟨w.tabs, hw, rfl⟩
    | some a => cases h
  | call a c => cases a with
    | none => exact ⟨w.tabs, hw, rfl⟩
    | some a => cases h
  | enumerateParameters n =>
    refine ⟨_, filled_consistent, ?_⟩
    rw [opStep, constStep, enumerate_consistent hw]
    cases enumerateParameters n <;> rfl
  | enumerateAliases n => exact ⟨w.tabs, hw, rfl⟩
  | describeShort n => exact ⟨_, filled_consistent, by rw [opStep, constStep, describe_consistent hw]; rfl⟩
  | describeLong n => exact ⟨_, filled_consistent, by rw [opStep, constStep, describe_consistent hw]; rfl⟩
  | whichVars f d l k c e =>
    refine ⟨w.tabs, hw, ?_⟩
    rw [opStep, constStep]; cases whichVars f d l k c e <;> rfl
  | whichMode m => refine ⟨w.tabs, hw, ?_⟩; rw [opStep, constStep]; cases whichMode m <;> rfl
  | info => exact ⟨w.tabs, hw, rfl⟩

end
end XCFun
