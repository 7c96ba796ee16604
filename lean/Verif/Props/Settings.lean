import Verif.Proofs.History
import Verif.Model.RatLit
import Mathlib.Data.Nat.Bitwise

/-!
# Properties C01-C08: settings, names, active functionals
-/

set_option linter.unusedSectionVars false

namespace XCFun.Props
open Spec

variable {V : Type _} [Add V] [Mul V] [Lit V]

/-! ## C01 -/

/-- **C01.** After any history of API calls on a fresh object, `xcfun_get` on (any spelling of) a functional's name
returns the sum, in call order and starting from the initial `0`, of all contributions made to that functional. -/
theorem C01_weights_accumulate (h : List (Call V)) (s : State V) (hr : run State.init h = .ok s)
    (name : String) (i : Nat) (hn : NamesFunctional name i) :
    xcfunGet s name = (0, some ((contributions i h).foldl (· + ·) (lit 0 0))) := by
  have hl := lookupFunctional_eq_some.2 hn
  have hi := lookupFunctional_lt hl
  have := run_settings_fun hi init_wf hr
  simp only [xcfunGet, hl, this]
  simp [State.init, hi]

/-- Every history of `set` calls runs to completion, so C01 and C02 apply to all of them. -/
theorem C01_applicable (l : List (String × V)) :
    ∃ s, run State.init (l.map fun c => Call.set c.1 c.2) = .ok s :=
  run_sets_ok l init_wf

/-- A history mixing an alias, direct sets, a parameter and an unknown name: SLATERX receives 0.8, 2, 0.5. -/
example : contributions (V := Rat) 0
      [.set "b3lyp" 1, .set "SlaterX" 2, .set "exx" 5, .isGga, .set "no-such" 7, .set "LDA" (mkRat 1 2)]
    = [mkRat 8 10, 2, mkRat 1 2] := by decide +kernel

example : NamesFunctional "sLaTeRx" 0 := by decide +kernel

/-! ## C02 -/

/-- The documented defaults: `RANGESEP_MU` 0.4, `EXX` 0, `CAM_ALPHA` 0.19, `CAM_BETA` 0.46. -/
def documentedDefault (i : Nat) : V :=
  if i = RANGESEP_MU then lit 4 1
  else if i = EXX then lit 0 0
  else if i = CAM_ALPHA then lit 19 2
  else lit 46 2

/-- **C02.** After any history, `xcfun_get` on a parameter returns the last value written to it (through an alias:
`value * weight`), or its documented default if there was no write. -/
theorem C02_last_write_wins (h : List (Call V)) (s : State V) (hr : run State.init h = .ok s)
    (name : String) (i : Nat) (hn : NamesParameter name i) :
    xcfunGet s name = (0, some (((writesTo i h).getLast?).getD (documentedDefault i))) := by
  have hl := lookupParameter_eq_some.2 hn
  have hi := lookupParameter_range hl
  have hf : lookupFunctional name = none := by
    cases hf : lookupFunctional name with
    | none => rfl
    | some j => exact (functional_parameter_disjoint (lookupFunctional_eq_some.1 hf) hn).elim
  have := run_settings_param hi.1 init_wf hr
  simp only [xcfunGet, hf, hl, this]
  congr 3
  have h82 : i = 78 ∨ i = 79 ∨ i = 80 ∨ i = 81 := by
    have := hi.1; have := hi.2
    simp only [NR_FUNCTIONALS, NR_PARAMETERS_AND_FUNCTIONALS] at *
    omega
  rcases h82 with rfl | rfl | rfl | rfl <;> rfl

example : NamesParameter "Exx" EXX := by decide +kernel

/-- `pbe0` with value 2 writes 0.5 to EXX; a later direct write replaces it; an unrelated alias leaves it. -/
example : writesTo (V := Rat) EXX [.set "pbe0" 2, .set "EXX" 3, .set "blyp" 1] = [mkRat 1 2, 3] := by decide +kernel

/-! ## C03 -/

/-- **C03.** On every reachable object and for every string, `xcfun_set` returns `0` if the string names a functional,
parameter or alias and `-1` otherwise; it never aborts, is never undefined and never recurses forever; when it
returns `-1` the object is unchanged. -/
theorem C03_set_total (h : List (Call V)) (s : State V) (hr : run State.init h = .ok s) (name : String) (v : V) :
    ∃ s', xcfunSet s name v = .ok (if IsKnown name then 0 else -1, s') ∧ (¬ IsKnown name → s' = s) := by
  have hs := run_wf init_wf hr
  refine ⟨pureSet s name v, xcfunSet_eq hs name v, fun hk => ?_⟩
  have he : ¬ IsElementary name := fun h => hk (Or.inl h)
  simp [pureSet, he, aliasTerms_of_unknown hk]

/-- The recursion of `xcfun_set` has depth at most two: any larger bound on the depth gives the same outcome. -/
theorem C03_set_terminates (h : List (Call V)) (s : State V) (hr : run State.init h = .ok s) (name : String) (v : V)
    (n : Nat) : xcfunSetFuel (n + 2) s name v = xcfunSet s name v := by
  have hs := run_wf init_wf hr
  rw [xcfunSet_eq hs, setFuel_eq hs]

/-- `xcfun_get` returns `0` exactly for functionals and parameters, and otherwise `-1` without storing a value. -/
theorem C03_get (s : State V) (name : String) :
    ((xcfunGet s name).1 = 0 ↔ IsElementary name) ∧
    (¬ IsElementary name → xcfunGet s name = (-1, none)) := by
  rw [isElementary_iff]
  unfold xcfunGet
  cases lookupFunctional name <;> cases lookupParameter name <;> simp

example : ¬ IsKnown "b4lyp" ∧ ¬ IsKnown "" ∧ IsKnown "B3LYP" ∧ ¬ IsElementary "b3lyp" := by decide +kernel

/-! ## C04 -/

/-- **C04.** If `name` spells the alias `a` and is not itself the name of a functional or parameter, then setting it
on a reachable object returns `0` and leaves exactly the object obtained by setting the alias' terms one after the
other with `v * weight`. -/
theorem C04_alias_is_its_terms (h : List (Call V)) (s : State V) (hr : run State.init h = .ok s)
    (name : String) (v : V) (a : AliasData) (ha : a ∈ aliases) (hn : SameName name a.name)
    (he : ¬ IsElementary name) :
    ∃ s', xcfunSet s name v = .ok (0, s') ∧
      run s (a.terms.map fun t => Call.set t.name (v * lit t.mant t.exp)) = .ok s' := by
  have hs := run_wf init_wf hr
  have hk : IsKnown name := Or.inr ⟨a, ha, hn⟩
  refine ⟨pureSet s name v, by rw [xcfunSet_eq hs]; simp [hk], ?_⟩
  have hat : aliasTerms name = a.terms := by
    unfold aliasTerms
    rw [if_neg he]
    have huniq : ∀ b ∈ aliases, ∀ c ∈ aliases, fold b.name = fold c.name → b = c := by decide +kernel
    cases hfd : aliases.find? (fun a => decide (SameName name a.name)) with
    | none =>
      rw [List.find?_eq_none] at hfd
      exact absurd (by simpa using hn) (hfd a ha)
    | some b =>
      have hb := List.find?_some hfd
      have hbm := List.mem_of_find?_eq_some hfd
      have hb' : SameName name b.name := by simpa using hb
      rw [huniq b hbm a ha ((hb'.symm.trans hn).fold_eq)]
  have hts := alias_terms_elementary a ha
  have key : ∀ (ts : List AliasTerm), (∀ t ∈ ts, (lookupFunctional t.name).isSome ∨ (lookupParameter t.name).isSome) →
      ∀ {s : State V}, s.WF → run s (ts.map fun t => Call.set t.name (v * lit t.mant t.exp))
        = .ok (ts.foldl (fun s t => elemSet s t.name (v * lit t.mant t.exp)) s) := by
    intro ts
    induction ts with
    | nil => intro _ s _; rfl
    | cons t ts ih =>
      intro hts s hs
      have ht := hts t (by simp)
      simp only [List.map_cons, run, Call.step, xcfunSet]
      rw [setFuel_elem hs 1 ht]
      exact ih (fun t' h' => hts t' (by simp [h'])) (elemSet_wf hs _ _)
  rw [key a.terms hts hs]
  simp [pureSet, he, hat]

/-- Which aliases are reachable by name: all except the four whose name is also a functional's. -/
theorem C04_shadowed_aliases : ∀ a ∈ aliases,
    (IsElementary a.name ↔ a.name ∈ ["PBEX", "OPTX", "tfk", "tw"]) := by decide +kernel

example : ∃ a ∈ aliases, SameName "CamB3LYP" a.name ∧ ¬ IsElementary "CamB3LYP" ∧ a.terms.length = 7 := by
  decide +kernel

/-! ## C05 -/

/-- **C05.** Spellings that differ only in ASCII letter case are interchangeable in every call taking a name. -/
theorem C05_case_insensitive (a b : String) (hab : SameName a b) (s : State V) (v : V) :
    xcfunSet s a v = xcfunSet s b v ∧ xcfunGet s a = xcfunGet s b ∧
    describeShort a = describeShort b ∧ describeLong a = describeLong b := by
  have h1 := lookupFunctional_congr hab
  have h2 := lookupParameter_congr hab
  have h3 := lookupAlias_congr hab
  refine ⟨?_, ?_, ?_, ?_⟩
  · unfold xcfunSet xcfunSetFuel; rw [h1, h2, h3]
  · unfold xcfunGet; rw [h1, h2]
  · unfold describeShort; rw [h1, h2, h3]
  · unfold describeLong; rw [h1, h2, h3]

example : SameName "CAMb3LYP" "camB3lyp" ∧ ¬ SameName "pbe" "pbe0" := by decide +kernel

/-! ## C06 -/

/-- **C06 (enumeration).** For every int: the functional names in order for 0..77, the parameter names for 78..81, null
from 82 on; negative arguments read outside the table. -/
theorem C06_enumerate (n : Int) :
    (n < 0 → enumerateParameters n = .ub) ∧
    (∀ k : Nat, n = k → k < 78 → ∃ f, funs[k]? = some f ∧ enumerateParameters n = .ok (some f.name)) ∧
    (∀ k : Nat, n = 78 + k → k < 4 → ∃ p, params[k]? = some p ∧ enumerateParameters n = .ok (some p.name)) ∧
    (82 ≤ n → enumerateParameters n = .ok none) := by
  refine ⟨fun h => ?_, ?_, ?_, fun h => ?_⟩
  · unfold enumerateParameters NR_FUNCTIONALS NR_PARAMETERS_AND_FUNCTIONALS
    rw [if_neg (by omega), if_pos (by omega), if_pos h]
  · rintro k rfl hk
    have hl : k < funs.length := by rw [funs_length]; exact hk
    refine ⟨funs[k], List.getElem?_eq_getElem hl, ?_⟩
    unfold enumerateParameters NR_FUNCTIONALS
    rw [if_pos (by omega)]
    simp [List.getElem?_eq_getElem hl]
  · rintro k rfl hk
    have hl : k < params.length := by rw [params_length]; exact hk
    refine ⟨params[k], List.getElem?_eq_getElem hl, ?_⟩
    unfold enumerateParameters NR_FUNCTIONALS NR_PARAMETERS_AND_FUNCTIONALS
    rw [if_neg (by omega), if_pos (by omega), if_neg (by omega)]
    have : ((78 : Int) + (k : Int)).toNat - 78 = k := by omega
    simp [this, List.getElem?_eq_getElem hl]
  · unfold enumerateParameters NR_FUNCTIONALS NR_PARAMETERS_AND_FUNCTIONALS
    rw [if_neg (by omega), if_neg (by omega)]

theorem enumerate_lookup {n : Int} {a : String} (h : enumerateParameters n = .ok (some a)) :
    0 ≤ n ∧ (lookupFunctional a = some n.toNat ∨
      (lookupParameter a = some n.toNat)) := by
  have hc := C06_enumerate n
  have h0 : 0 ≤ n := by
    by_contra hn
    rw [hc.1 (by omega)] at h; cases h
  have h82 : n < 82 := by
    by_contra hn
    rw [hc.2.2.2 (by omega)] at h; cases h
  refine ⟨h0, ?_⟩
  by_cases h78 : n < 78
  · left
    obtain ⟨f, hf, he⟩ := hc.2.1 n.toNat (by omega) (by omega)
    rw [he] at h; cases h
    exact lookupFunctional_eq_some.2 ⟨f, hf, rfl⟩
  · right
    obtain ⟨p, hp, he⟩ := hc.2.2.1 (n.toNat - 78) (by omega) (by omega)
    rw [he] at h; cases h
    refine lookupParameter_eq_some.2 ⟨?_, p, ?_, rfl⟩
    · simp only [NR_FUNCTIONALS]; omega
    · simpa [NR_FUNCTIONALS] using hp

/-- **C06 (no two enumerated names coincide).** -/
theorem C06_enumerate_injective (n m : Int) (a b : String) (ha : enumerateParameters n = .ok (some a))
    (hb : enumerateParameters m = .ok (some b)) (hab : SameName a b) : n = m := by
  obtain ⟨hn, h1⟩ := enumerate_lookup ha
  obtain ⟨hm, h2⟩ := enumerate_lookup hb
  rw [lookupFunctional_congr hab, lookupParameter_congr hab] at h1
  rcases h1 with h1 | h1 <;> rcases h2 with h2 | h2
  · rw [h1] at h2; simp only [Option.some.injEq] at h2; omega
  · exact (functional_parameter_disjoint (lookupFunctional_eq_some.1 h1) (lookupParameter_eq_some.1 h2)).elim
  · exact (functional_parameter_disjoint (lookupFunctional_eq_some.1 h2) (lookupParameter_eq_some.1 h1)).elim
  · rw [h1] at h2; simp only [Option.some.injEq] at h2; omega

/-- **C06 (enumeration covers lookup, and conversely).** A name is accepted by `xcfun_get` exactly when some spelling of
it is enumerated; such a name is accepted by `xcfun_set` on every reachable object and has descriptions. -/
theorem C06_enumerated_iff_accepted (h : List (Call V)) (s : State V) (hr : run State.init h = .ok s) (name : String) :
    ((∃ n a, enumerateParameters n = .ok (some a) ∧ SameName name a) ↔ (xcfunGet s name).1 = 0) ∧
    ((xcfunGet s name).1 = 0 → (∀ v, ∃ s', xcfunSet s name v = .ok (0, s')) ∧
      (describeShort name).isSome ∧ (describeLong name).isSome) := by
  have hs := run_wf init_wf hr
  rw [(C03_get s name).1]
  refine ⟨⟨?_, ?_⟩, fun he => ⟨fun v => ?_, ?_, ?_⟩⟩
  · rintro ⟨n, a, hn, hsn⟩
    rw [isElementary_iff, lookupFunctional_congr hsn, lookupParameter_congr hsn]
    rcases (enumerate_lookup hn).2 with h | h <;> simp [h]
  · intro he
    rcases isElementary_iff.1 he with h | h
    · obtain ⟨i, hi⟩ := Option.isSome_iff_exists.1 h
      have hlt := lookupFunctional_lt hi
      obtain ⟨f, hf, hs⟩ := lookupFunctional_eq_some.1 hi
      obtain ⟨f', hf', he⟩ := (C06_enumerate (i : Int)).2.1 i rfl hlt
      rw [hf] at hf'; cases hf'
      exact ⟨i, f.name, he, hs⟩
    · obtain ⟨i, hi⟩ := Option.isSome_iff_exists.1 h
      obtain ⟨h1, h2⟩ := lookupParameter_range hi
      obtain ⟨_, f, hf, hs⟩ := lookupParameter_eq_some.1 hi
      simp only [NR_FUNCTIONALS, NR_PARAMETERS_AND_FUNCTIONALS] at h1 h2 hf
      obtain ⟨f', hf', he⟩ := (C06_enumerate (i : Int)).2.2.1 (i - 78) (by omega) (by omega)
      rw [hf] at hf'; cases hf'
      exact ⟨i, f.name, he, hs⟩
  · exact ⟨_, by rw [xcfunSet_eq hs]; simp [IsKnown, he]; rfl⟩
  · unfold describeShort
    rcases isElementary_iff.1 he with h | h
    · obtain ⟨i, hi⟩ := Option.isSome_iff_exists.1 h; simp [hi]
    · obtain ⟨i, hi⟩ := Option.isSome_iff_exists.1 h
      cases lookupFunctional name <;> simp [hi]
  · unfold describeLong
    rcases isElementary_iff.1 he with h | h
    · obtain ⟨i, hi⟩ := Option.isSome_iff_exists.1 h; simp [hi]
    · obtain ⟨i, hi⟩ := Option.isSome_iff_exists.1 h
      cases lookupFunctional name <;> simp [hi]

/-- **C06 (aliases).** `xcfun_enumerate_aliases` yields the aliases in order for 0..45 and null for every other int; each
enumerated alias is accepted by `xcfun_set` on every reachable object. -/
theorem C06_aliases (h : List (Call V)) (s : State V) (hr : run State.init h = .ok s) (n : Int) :
    (∀ k : Nat, n = k → k < 46 → ∃ a, aliases[k]? = some a ∧ enumerateAliases n = some a.name) ∧
    (n < 0 ∨ 46 ≤ n → enumerateAliases n = none) ∧
    (∀ a v, enumerateAliases n = some a → ∃ s', xcfunSet s a v = .ok (0, s')) := by
  have hlen : aliases.length = 46 := by decide
  refine ⟨?_, ?_, ?_⟩
  · rintro k rfl hk
    have hl : k < aliases.length := by rw [hlen]; exact hk
    refine ⟨aliases[k], List.getElem?_eq_getElem hl, ?_⟩
    unfold enumerateAliases MAX_ALIASES
    rw [if_pos (by omega)]
    simp [List.getElem?_eq_getElem hl]
  · intro hn
    unfold enumerateAliases MAX_ALIASES
    split
    · rw [List.getElem?_eq_none (by rw [hlen]; omega)]; rfl
    · rfl
  · intro a v ha
    have hs := run_wf init_wf hr
    refine ⟨pureSet s a v, ?_⟩
    have : IsKnown a := by
      unfold enumerateAliases at ha
      split at ha
      · obtain ⟨b, hb, rfl⟩ := Option.map_eq_some_iff.1 ha
        exact Or.inr ⟨b, List.mem_of_getElem? hb, rfl⟩
      · cases ha
    rw [xcfunSet_eq hs]; simp [this]

example : enumerateParameters 5 = .ok (some "PBEX") ∧ enumerateParameters 81 = .ok (some "CAM_BETA") ∧
    enumerateParameters 82 = .ok none ∧ enumerateParameters (-1) = .ub ∧
    enumerateAliases 10 = some "b3lyp" := by decide +kernel

/-! ## C07 -/

/-- **C07.** In every reachable object the active functionals are pairwise distinct, they are exactly the functionals
some `set` of the history named (directly or through an alias), and they fit into the array. -/
theorem C07_active_list (h : List (Call V)) (s : State V) (hr : run State.init h = .ok s) :
    s.active.Nodup ∧ s.active.length ≤ NR_FUNCTIONALS ∧
    ∀ i, i ∈ s.active ↔ ∃ c ∈ sets h, Mentions c.1 i := by
  have hs := run_wf init_wf hr
  refine ⟨hs.nodup, WF.length_le hs, fun i => ?_⟩
  rw [run_mem_active i init_wf hr]
  simp [State.init]

example : Mentions "b3p86" 57 ∧ Mentions "P86CORRC" 57 ∧ ¬ Mentions "b3p86" 56 ∧ ¬ Mentions "exx" 0 := by
  have h : aliasTerms "b3p86" = [⟨"slaterx", 8, 1⟩, ⟨"beckecorrx", 72, 2⟩, ⟨"p86corrc", 81, 2⟩, ⟨"vwn5c", 1, 0⟩,
    ⟨"exx", 2, 1⟩] := by decide +kernel
  have h' : aliasTerms "exx" = [] := by decide +kernel
  unfold Mentions
  rw [h, h']
  decide +kernel

/-! ## C08 -/

/-- Some `set` of the history named a functional whose declared dependencies contain bit `k`
(1: gradient, 2: Laplacian, 3: kinetic energy density). -/
def NamedNeeding (h : List (Call V)) (k : Nat) : Prop :=
  ∃ c ∈ sets h, ∃ i f, Mentions c.1 i ∧ funs[i]? = some f ∧ f.depends.testBit k = true

theorem dependsOf_testBit {i k : Nat} :
    (dependsOf i).testBit k = true ↔ ∃ f, funs[i]? = some f ∧ f.depends.testBit k = true := by
  unfold dependsOf
  cases h : funs[i]? <;> simp

theorem run_depends_testBit {h : List (Call V)} {s : State V} (hr : run State.init h = .ok s) (k : Nat) :
    s.depends.testBit k = true ↔ NamedNeeding h k := by
  rw [WF.depends_testBit (run_wf init_wf hr)]
  unfold NamedNeeding
  constructor
  · rintro ⟨i, hi, hk⟩
    obtain ⟨c, hc, hm⟩ := ((C07_active_list h s hr).2.2 i).1 hi
    obtain ⟨f, hf, hk⟩ := dependsOf_testBit.1 hk
    exact ⟨c, hc, i, f, hm, hf, hk⟩
  · rintro ⟨c, hc, i, f, hm, hf, hk⟩
    exact ⟨i, ((C07_active_list h s hr).2.2 i).2 ⟨c, hc, hm⟩, dependsOf_testBit.2 ⟨f, hf, hk⟩⟩

theorem and_two_ne_zero (d : Nat) : ((d &&& GRADIENT) != 0) = true ↔ d.testBit 1 = true := by
  have : d &&& GRADIENT = d &&& 2 ^ 1 := rfl
  rw [this, Nat.and_two_pow]
  cases d.testBit 1 <;> simp

theorem and_twelve_ne_zero (d : Nat) :
    ((d &&& (LAPLACIAN ||| KINETIC)) != 0) = true ↔ (d.testBit 2 = true ∨ d.testBit 3 = true) := by
  have : d &&& (LAPLACIAN ||| KINETIC) = (d &&& 2 ^ 2) ||| (d &&& 2 ^ 3) := by
    rw [← Nat.and_or_distrib_left]; rfl
  rw [this, Nat.and_two_pow, Nat.and_two_pow]
  cases d.testBit 2 <;> cases d.testBit 3 <;> simp

/-- **C08.** `xcfun_is_gga` is true exactly when some functional named so far declares a gradient dependence, and
`xcfun_is_metagga` exactly when one declares a Laplacian or kinetic-energy dependence.  The right-hand sides do not
mention weights, nor the order of the calls. -/
theorem C08_classification (h : List (Call V)) (s : State V) (hr : run State.init h = .ok s) :
    (isGga s = true ↔ NamedNeeding h 1) ∧
    (isMetagga s = true ↔ NamedNeeding h 2 ∨ NamedNeeding h 3) := by
  refine ⟨?_, ?_⟩
  · unfold isGga
    rw [and_two_ne_zero, run_depends_testBit hr]
  · unfold isMetagga
    rw [and_twelve_ne_zero, run_depends_testBit hr, run_depends_testBit hr]

/-- **C08 (monotone).** Once true, the answers stay true whatever is called afterwards. -/
theorem C08_monotone (h h' : List (Call V)) (s s' : State V) (hr : run State.init h = .ok s)
    (hr' : run s h' = .ok s') :
    (isGga s = true → isGga s' = true) ∧ (isMetagga s = true → isMetagga s' = true) := by
  have hrr : run State.init (h ++ h') = .ok s' := by rw [run_append, hr]; exact hr'
  have mono : ∀ k, NamedNeeding h k → NamedNeeding (h ++ h') k := by
    rintro k ⟨c, hc, r⟩
    refine ⟨c, ?_, r⟩
    unfold sets at *
    rw [List.filterMap_append]
    exact List.mem_append_left _ hc
  rw [(C08_classification h s hr).1, (C08_classification h s hr).2, (C08_classification _ s' hrr).1,
    (C08_classification _ s' hrr).2]
  exact ⟨mono 1, fun hh => hh.imp (mono 2) (mono 3)⟩

/-- **C08 (weights and order are irrelevant).** Two histories whose `set` calls name the same things, in any order and
with any values, are classified alike. -/
theorem C08_order_independent (h h' : List (Call V)) (s s' : State V) (hr : run State.init h = .ok s)
    (hr' : run State.init h' = .ok s')
    (hsame : ∀ n, n ∈ (sets h).map Prod.fst ↔ n ∈ (sets h').map Prod.fst) :
    isGga s = isGga s' ∧ isMetagga s = isMetagga s' := by
  have key : ∀ k, NamedNeeding h k ↔ NamedNeeding h' k := by
    have imp : ∀ (a b : List (Call V)), (∀ n, n ∈ (sets a).map Prod.fst → n ∈ (sets b).map Prod.fst) → ∀ k,
        NamedNeeding a k → NamedNeeding b k := by
      rintro a b hab k ⟨c, hc, i, f, hm, hf, hk⟩
      obtain ⟨c', hc', e⟩ := List.mem_map.1 (hab c.1 (List.mem_map.2 ⟨c, hc, rfl⟩))
      exact ⟨c', hc', i, f, e ▸ hm, hf, hk⟩
    exact fun k => ⟨imp h h' (fun n => (hsame n).1) k, imp h' h (fun n => (hsame n).2) k⟩
  constructor
  · rw [Bool.eq_iff_iff, (C08_classification h s hr).1, (C08_classification h' s' hr').1, key]
  · rw [Bool.eq_iff_iff, (C08_classification h s hr).2, (C08_classification h' s' hr').2, key, key]

/-- A weight that returns to zero still counts: `pbex` set to 1 and then to -1. -/
example : NamedNeeding (V := Rat) [.set "pbex" 1, .set "PBEX" (-1)] 1 :=
  ⟨("pbex", 1), by simp [sets], 5, ⟨"PBEX", DENSITY ||| GRADIENT⟩, Or.inl (by decide +kernel), by decide, by decide⟩

end XCFun.Props
