/-
C45: the enumerations of C, Fortran and Python.
-/
import Mathlib.Tactic.ByContra
import Mathlib.Data.Nat.Cast.Basic
import Verif.Model.Enums

namespace XCFun.Props
open XCFun

/-- The values the C compiler gives to the modes and variable sets. -/
def cModes : List (String × ℤ) := enumerate 0 headerModes
def cVars : List (String × ℤ) := enumerate 0 headerVars

/-- **C45, the header.** Each name has one value and each value one name. -/
theorem C45_header_injective : (cModes.map (·.1)).Nodup ∧ (cModes.map (·.2)).Nodup ∧ (cVars.map (·.1)).Nodup ∧
    (cVars.map (·.2)).Nodup := by decide +kernel

/-- **C45, the internal table** `xcint_vars`. Its rows and the header's enumerators correspond: row `i` carries the name of the enumerator
whose value is `i`; the only other enumerators are `XC_VARS_UNSET = -1` and `XC_NR_VARS`, the number of rows. -/
theorem C45_internal_table (name : String) (i : ℤ) :
    (name, i) ∈ cVars ↔ (0 ≤ i ∧ (varsTable[i.toNat]?).map (·.symbol) = some name) ∨ (name, i) = ("XC_VARS_UNSET", -1) ∨
      (name, i) = ("XC_NR_VARS", (varsTable.length : ℤ)) := by
  have h1 : cVars = ("XC_VARS_UNSET", -1) ::
      ((List.range varsTable.length).map fun j : ℕ => (((varsTable[j]?).map (·.symbol)).getD "", (j : ℤ))) ++
        [("XC_NR_VARS", (varsTable.length : ℤ))] := by decide +kernel
  rw [h1]
  simp only [List.cons_append, List.mem_cons, List.mem_append, List.mem_map, List.mem_range, List.not_mem_nil, or_false]
  constructor
  · rintro (h | ⟨j, hj, h⟩ | h)
    · exact .inr (.inl h)
    · obtain ⟨rfl, rfl⟩ := Prod.mk.inj h
      refine .inl ⟨Int.natCast_nonneg j, ?_⟩
      rw [Int.toNat_natCast, List.getElem?_eq_getElem hj]
      rfl
    · exact .inr (.inr h)
  · rintro (⟨h0, h⟩ | h | h)
    · refine .inr (.inl ⟨i.toNat, ?_, ?_⟩)
      · by_contra hc
        rw [List.getElem?_eq_none (not_lt.1 hc)] at h
        cases h
      · rw [h, Option.getD_some, Int.toNat_of_nonneg h0]
    · exact .inl h
    · exact .inr (.inr h)

/-- `XC_N_2ND_TAYLOR` is 29. -/
example : ("XC_N_2ND_TAYLOR", 29) ∈ cVars := by
  rw [C45_internal_table]
  exact .inl ⟨by decide, by decide +kernel⟩

/-- **C45, the model.** The codes used throughout are those of the header. -/
theorem C45_model_codes (v : Vars) : (v.data.symbol, (v.code : ℤ)) ∈ cVars := by
  cases v <;> decide +kernel

theorem C45_model_modes : ("XC_MODE_UNSET", MODE_UNSET) ∈ cModes ∧ ("XC_PARTIAL_DERIVATIVES", PARTIAL_DERIVATIVES) ∈ cModes ∧
    ("XC_POTENTIAL", POTENTIAL) ∈ cModes ∧ ("XC_CONTRACTED", CONTRACTED) ∈ cModes := by decide +kernel

/-- **C45, Fortran.** The Fortran module gives the modes the values of the header, and the variable sets too; only the constant
`XC_NR_VARS` is missing. -/
theorem C45_fortran (name : String) (i : ℤ) :
    ((name, i) ∈ enumerate 0 fortranModes ↔ (name, i) ∈ cModes) ∧
    ((name, i) ∈ enumerate 0 fortranVars ↔ (name, i) ∈ cVars ∧ name ≠ "XC_NR_VARS") := by
  have h1 : enumerate 0 fortranModes = cModes := by decide +kernel
  have h2 : cVars = enumerate 0 fortranVars ++ [("XC_NR_VARS", 31)] := by decide +kernel
  have h3 : ∀ p ∈ enumerate 0 fortranVars, p.1 ≠ "XC_NR_VARS" := by decide +kernel
  refine ⟨by rw [h1], ?_⟩
  rw [h2, List.mem_append, List.mem_singleton]
  constructor
  · exact fun h => ⟨.inl h, h3 _ h⟩
  · rintro ⟨h | h, hn⟩
    · exact h
    · exact absurd (Prod.mk.inj h).1 hn

example : ("XC_A_B_AX_AY_AZ_BX_BY_BZ", 20) ∈ enumerate 0 fortranVars := by
  rw [(C45_fortran _ _).2]
  decide +kernel

/-- The value the Python module gives to a name. -/
def pythonValue (exported : List (String × String)) (c : List (String × ℤ)) (name : String) : Option ℤ :=
  (exported.lookup name).bind fun e => c.lookup e

/-- **C45, Python.** Every mode and every variable set exported has the value of the enumerator of that name in the header. All modes are exported;
of the variable sets exactly `XC_N_GNN` and `XC_A_B_GAA_GAB_GBB` are not. -/
theorem C45_python (name : String) :
    pythonValue pythonModes cModes name = cModes.lookup name ∧
    pythonValue pythonVars cVars name =
      if name = "XC_N_GNN" ∨ name = "XC_A_B_GAA_GAB_GBB" then none else cVars.lookup name := by
  have key : ∀ (l : List (String × String)) (c : List (String × ℤ)) (missing : List String),
      (∀ p ∈ l, p.1 = p.2) → (∀ p ∈ c, p.1 ∈ l.map (·.1) ∨ p.1 ∈ missing) → (∀ m ∈ missing, m ∉ l.map (·.1)) →
      pythonValue l c name = if name ∈ missing then none else c.lookup name := by
    intro l c missing h1 h2 h3
    have look : ∀ l : List (String × String), (∀ p ∈ l, p.1 = p.2) →
        l.lookup name = if name ∈ l.map (·.1) then some name else none := by
      intro l
      induction l with
      | nil => intro _; rfl
      | cons p l ih =>
        intro h
        obtain ⟨a, b⟩ := p
        have hab : a = b := h _ List.mem_cons_self
        subst hab
        rw [List.lookup_cons]
        by_cases e : name = a
        · subst e; simp
        · rw [ih fun q hq => h q (List.mem_cons_of_mem _ hq)]
          have : (name == a) = false := by simpa using e
          simp only [this, List.map_cons, List.mem_cons, e, false_or]
    have look2 : ∀ c : List (String × ℤ), name ∉ c.map (·.1) → c.lookup name = none := by
      intro c
      induction c with
      | nil => intro _; rfl
      | cons p c ih =>
        intro h
        rw [List.map_cons, List.mem_cons, not_or] at h
        rw [List.lookup_cons, ih h.2]
        have : (name == p.1) = false := by simpa using h.1
        simp [this]
    rw [pythonValue, look l h1]
    by_cases hm : name ∈ missing
    · rw [if_pos hm, if_neg (h3 _ hm)]; rfl
    · rw [if_neg hm]
      by_cases hl : name ∈ l.map (·.1)
      · rw [if_pos hl]; rfl
      · rw [if_neg hl, look2 c]
        · rfl
        · intro hc
          obtain ⟨p, hp, rfl⟩ := List.mem_map.1 hc
          rcases h2 p hp with h | h
          · exact hl h
          · exact hm h
  constructor
  · have := key pythonModes cModes [] (by decide +kernel) (by decide +kernel) (by decide +kernel)
    rwa [if_neg List.not_mem_nil] at this
  · have := key pythonVars cVars ["XC_N_GNN", "XC_A_B_GAA_GAB_GBB"] (by decide +kernel) (by decide +kernel) (by decide +kernel)
    simpa only [List.mem_cons, List.not_mem_nil, or_false] using this

example : pythonValue pythonVars cVars "XC_N_S_GNN_GNS_GSS" = some 7 ∧ pythonValue pythonVars cVars "XC_N_GNN" = none ∧
    cVars.lookup "XC_N_GNN" = some 5 := by decide +kernel

end XCFun.Props
