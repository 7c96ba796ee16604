/-
**C87.** The table of functionals in the documentation.
-/
import Verif.Props.Settings
import Verif.Spec.DocNames

namespace XCFun.Props
open XCFun Spec

variable {V : Type} [Add V] [Mul V] [Lit V]

theorem documented_functional : ∀ name ∈ documentedFunctionals, ∃ i < NR_FUNCTIONALS, NamesFunctional name i := by decide +kernel

theorem documented_parameter : ∀ name ∈ documentedParameters, ∃ i < NR_FUNCTIONALS + 4, NamesParameter name i := by decide +kernel

/-- **C87.** Every name in the table is accepted by `xcfun_set` and `xcfun_get` on every reachable object, the functionals as functionals (weights add up) and the
parameters as parameters (the last value holds). -/
theorem C87_accepted (h : List (Call V)) (s : State V) (hr : run State.init h = .ok s) (v : V) :
    (∀ name ∈ documentedFunctionals, ∃ i, NamesFunctional name i ∧ (∃ s', xcfunSet s name v = .ok (0, s')) ∧
      xcfunGet s name = (0, some ((contributions i h).foldl (· + ·) (lit 0 0)))) ∧
    (∀ name ∈ documentedParameters, ∃ i, NamesParameter name i ∧ (∃ s', xcfunSet s name v = .ok (0, s')) ∧
      xcfunGet s name = (0, some (((writesTo i h).getLast?).getD (documentedDefault i)))) := by
  refine ⟨fun name hn => ?_, fun name hn => ?_⟩
  · obtain ⟨i, -, hi⟩ := documented_functional name hn
    have g := C01_weights_accumulate h s hr name i hi
    exact ⟨i, hi, ((C06_enumerated_iff_accepted h s hr name).2 (by rw [g])).1 v, g⟩
  · obtain ⟨i, -, hi⟩ := documented_parameter name hn
    have g := C02_last_write_wins h s hr name i hi
    exact ⟨i, hi, ((C06_enumerated_iff_accepted h s hr name).2 (by rw [g])).1 v, g⟩

/-- **C87 (negation).** The table says that it lists the functionals that are implemented; it lists 39 of 78, all different, and 2 of 4 parameters. -/
theorem C87_incomplete : documentedFunctionals.Nodup ∧ documentedFunctionals.length = 39 ∧ funs.length = 78 ∧
    (funs.filter fun f => f.name ∉ documentedFunctionals).length = 39 ∧ (params.filter fun p => p.name ∉ documentedParameters).length = 2 := by decide +kernel

/-- On an object that already holds a functional. -/
example : ∃ s s' : State Rat, run State.init [.set "LYPC" 2] = .ok s ∧ xcfunSet s "LYPC" 1 = .ok (0, s') ∧ (xcfunGet s "LYPC").1 = 0 := by
  obtain ⟨s, hr⟩ : ∃ s : State Rat, run State.init [.set "LYPC" 2] = .ok s := ⟨_, rfl⟩
  obtain ⟨i, -, ⟨s', h⟩, g⟩ := (C87_accepted _ s hr 1).1 "LYPC" (by decide)
  exact ⟨s, s', hr, h, by rw [g]⟩

/-- Functionals that are not in the table: VWN3C and SCANX. -/
example : "VWN3C" ∉ documentedFunctionals ∧ "SCANX" ∉ documentedFunctionals ∧ (∃ f ∈ funs, f.name = "VWN3C") ∧ ∃ f ∈ funs, f.name = "SCANX" := by decide +kernel

end XCFun.Props
