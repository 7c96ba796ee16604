import Verif.Props.Settings
import Verif.Props.Setup
import Verif.Props.Process
import Verif.Props.Accepted
import Verif.Props.Vec
import Verif.Props.Output
import Verif.Props.Modes
import Verif.Props.Fortran
import Verif.Props.GradedOrder
import Verif.Props.Python
import Verif.Props.Linear
import Verif.Props.Programs
import Verif.Props.ErfCorr
import Verif.Props.CorrSign
import Verif.Props.Scaling
import Verif.Props.Literature
import Verif.Props.Depends
import Verif.Props.Densvars
import Verif.Props.SpinScaling
import Verif.Props.Smooth

/-! # The theorems applied to concrete cases: the interface and the functionals

As in `Cases.lean`, for theorems without an instance of their own. -/

namespace XCFun.Props

open XCFun Spec

/-! ## C01-C09, C11, C13 -/

example : ∃ s : State ℚ, run State.init [.set "pbe0" 2, .set "SlaterX" 3, .set "slaterx" (-1)] = .ok s ∧
    xcfunGet s "SLATERX" = (0, some 2) ∧ xcfunGet s "pbex" = (0, some (3 / 2)) := by
  obtain ⟨s, hs⟩ : ∃ s : State ℚ, run State.init [.set "pbe0" 2, .set "SlaterX" 3, .set "slaterx" (-1)] = .ok s := ⟨_, rfl⟩
  exact ⟨s, hs, (C01_weights_accumulate _ s hs "SLATERX" 0 (by decide +kernel)).trans (by decide +kernel),
    (C01_weights_accumulate _ s hs "pbex" 5 (by decide +kernel)).trans (by decide +kernel)⟩

example : ∃ s s' : State ℚ, run State.init [.set "pbe0" 2] = .ok s ∧ xcfunSet s "b4lyp" 1 = .ok (-1, s') ∧ s' = s := by
  obtain ⟨s', h1, h2⟩ := C03_set_total [.set "pbe0" 2] (_ : State ℚ) rfl "b4lyp" 1
  have hk : ¬ IsKnown "b4lyp" := by decide +kernel
  exact ⟨_, s', rfl, by simpa [hk] using h1, h2 hk⟩

example : ∃ s : State ℚ, run State.init [.set "pbe0" 2] = .ok s ∧ xcfunSetFuel 2 s "camb3lyp" 1 = xcfunSet s "camb3lyp" 1 :=
  ⟨_, rfl, C03_set_terminates [.set "pbe0" 2] _ rfl "camb3lyp" 1 0⟩

example : ∃ s s' : State ℚ, run State.init [.set "slaterx" 1] = .ok s ∧ xcfunSet s "PBE" 2 = .ok (0, s') ∧ 5 ∈ s'.active := by
  obtain ⟨a, ha, hn⟩ : ∃ a ∈ aliases, SameName "PBE" a.name := by decide +kernel
  obtain ⟨s', h, -⟩ := C04_alias_is_its_terms [.set "slaterx" 1] (_ : State ℚ) rfl "PBE" 2 a ha hn (by decide +kernel)
  refine ⟨_, s', rfl, h, ?_⟩
  cases h; decide +kernel

example : enumerateParameters 82 = .ok none ∧ enumerateParameters (-1) = .ub :=
  ⟨(C06_enumerate 82).2.2.2 le_rfl, (C06_enumerate (-1)).1 (by norm_num)⟩

example (m : ℤ) (b : String) (hb : enumerateParameters m = .ok (some b)) (h : SameName "PBEX" b) : 5 = m :=
  C06_enumerate_injective 5 m "PBEX" b (by decide +kernel) hb h

example : ∃ s : State ℚ, run State.init [.set "pbe0" 2] = .ok s ∧ (xcfunGet s "pbe0").1 ≠ 0 ∧
    ∃ n a, enumerateParameters n = .ok (some a) ∧ SameName "pbec" a := by
  refine ⟨_, rfl, by decide +kernel, (C06_enumerated_iff_accepted [.set "pbe0" 2] (_ : State ℚ) rfl "pbec").1.2 (by decide +kernel)⟩

example : ∃ s : State ℚ, run State.init [.set "slaterx" 1, .set "tpssx" 0] = .ok s ∧ isMetagga s = true ∧ isGga s = true := by
  obtain ⟨s, hs⟩ : ∃ s : State ℚ, run State.init [.set "slaterx" 1, .set "tpssx" 0] = .ok s := ⟨_, rfl⟩
  have h := C08_classification _ s hs
  have hn : ∀ k, k = 1 ∨ k = 3 → NamedNeeding (V := ℚ) [.set "slaterx" 1, .set "tpssx" 0] k := by
    rintro k (rfl | rfl) <;>
    exact ⟨("tpssx", 0), by simp [sets], 42, ⟨"TPSSX", DENSITY ||| GRADIENT ||| KINETIC⟩, Or.inl (by decide +kernel), by decide, by decide⟩
  exact ⟨s, hs, h.2.2 (.inr (hn 3 (.inr rfl))), h.1.2 (hn 1 (.inl rfl))⟩

example : ∃ s s' : State ℚ, run State.init [.set "pbex" 1] = .ok s ∧ run s [.set "pbex" (-1), .set "slaterx" 1] = .ok s' ∧ isGga s' = true :=
  ⟨_, _, rfl, rfl, (C08_monotone [.set "pbex" 1] [.set "pbex" (-1), .set "slaterx" 1] (_ : State ℚ) _ rfl rfl).1 (by decide +kernel)⟩

/-- The gradient is missing from the variables: refused with the code for the variables, the object unchanged. -/
example : ∃ s s' : State ℚ, run State.init [.set "pbe0" 1] = .ok s ∧ evalSetup s Vars.A_B.code PARTIAL_DERIVATIVES 1 = .ok (EVARS, s') ∧ s' = s := by
  obtain ⟨rc, s', h, -, h1, -, -, -, h2, -⟩ := C09_decision_table [.set "pbe0" 1] (_ : State ℚ) rfl .A_B PARTIAL_DERIVATIVES 1
  have hrc : rc = EVARS := by
    have := h.symm.trans (rfl : _ = Outcome.ok (EVARS, _)); cases this; rfl
  subst hrc
  exact ⟨_, s', rfl, h, h2 (by decide)⟩

example : ∃ s : State ℚ, run State.init [.set "tpssx" 1] = .ok s ∧
    ∀ rc s', evalSetup s Vars.A_B_2ND_TAYLOR.code POTENTIAL 1 = .ok (rc, s') → rc ≠ EMODE :=
  ⟨_, rfl, fun rc s' => C09_emode_alone_never [.set "tpssx" 1] (_ : State ℚ) rfl .A_B_2ND_TAYLOR POTENTIAL 1 rc s'⟩

example : ∃ v, whichVars 1 2 0 0 0 0 = .ok v ∧ Carries v 1 ∧ ¬ Carries v 3 := by
  refine ⟨_, rfl, ?_⟩
  obtain ⟨-, h1, h3, -⟩ := C11_faithful 1 2 0 0 0 0 _ rfl
  exact ⟨h1.2 le_rfl, fun h => by simpa using h3.1 h⟩

example (f d l k c e : ℕ) (h : whichVars f d l k c e = .ok .A_B_GAA_GAB_GBB) : (f, d, l, k, c, e) = (1, 2, 0, 0, 0, 0) :=
  C11_injective f d l k c e 1 2 0 0 0 0 _ h rfl

example : taylorlen 7 3 = .ok 120 := by
  obtain ⟨h1, h2⟩ := C13_taylorlen 7 3 (by decide) (by decide)
  exact h1.trans (by rw [h2]; rfl)

example : ∃ s : State ℚ, run State.init [.set "pbe0" 1] = .ok s ∧ outputLength s = .die ∧ inputLength s = .ub :=
  ⟨_, rfl, C38_lengths_before_setup [.set "pbe0" 1] (_ : State ℚ) rfl ⟨by simp [SetupSucceeds], fun _ _ => trivial⟩⟩

/-! ## C14, C15, C17, C22, C46 -/

example (junk : Junk ℝ) : ∃ s₀ s : State ℝ, run State.init [.set "pbex" 1] = .ok s₀ ∧
    evalSetup s₀ Vars.A_B_GAA_GAB_GBB.code PARTIAL_DERIVATIVES 0 = .ok (0, s) ∧ xcfunEval codeKernel junk s [1, 2, 3, 4, 5] [] = .ub ∧
      ∀ output, xcfunEval codeKernel junk s [] output = .ub :=
  ⟨_, _, rfl, rfl, C14_short_buffer_undefined codeKernel codeKernel_local _ .A_B_GAA_GAB_GBB rfl rfl rfl (by decide) _ rfl junk,
    fun output => C14_short_input_undefined codeKernel _ .A_B_GAA_GAB_GBB rfl rfl ⟨le_rfl, by norm_num⟩ output junk⟩

example (x : ℕ → ℝ) (junk : Junk ℝ) : ∃ s₀ s : State ℝ, run State.init [.set "pbex" 1, .set "pbec" 1] = .ok s₀ ∧
    evalSetup s₀ Vars.A_B_GAA_GAB_GBB.code PARTIAL_DERIVATIVES 1 = .ok (0, s) ∧
    xcfunEval codeKernel junk s ((List.range 5).map x) [0, 0, 0, 0, 0, 0, 9] = .ok
      (layout 5 1 (energyAt s .A_B_GAA_GAB_GBB x) (fun i => (energyOn s .A_B_GAA_GAB_GBB (seed1 x (some i))).get 1)
        (fun i j => (energyOn s .A_B_GAA_GAB_GBB (seed2 x (some i) (some j))).get 3)
        (fun i j k => (energyOn s .A_B_GAA_GAB_GBB (seed3 x (some i) (some j) (some k))).get 7) ++ [9]) := by
  obtain ⟨s₀, s, h1, h2, hv, hm, ho, hl⟩ : ∃ s₀ s : State ℝ, run State.init [.set "pbex" 1, .set "pbec" 1] = .ok s₀ ∧
      evalSetup s₀ Vars.A_B_GAA_GAB_GBB.code PARTIAL_DERIVATIVES 1 = .ok (0, s) ∧ s.vars = some .A_B_GAA_GAB_GBB ∧
      s.mode = PARTIAL_DERIVATIVES ∧ s.order = (1 : ℕ) ∧ outputLength s = .ok ((6 : ℕ) : ℤ) := ⟨_, _, rfl, rfl, rfl, rfl, rfl, rfl⟩
  have h := C15_order_of_derivatives s .A_B_GAA_GAB_GBB hv hm 1 ho (by norm_num) (by decide) x [] [0, 0, 0, 0, 0, 0, 9] junk 6 hl (by simp)
  rw [List.append_nil] at h
  exact ⟨s₀, s, h1, h2, h⟩

example (y : ℕ → ℝ) (junk : Junk ℝ) : ∃ s₀ s : State ℝ, run State.init [.set "pbex" 1, .set "pbec" 1] = .ok s₀ ∧
    evalSetup s₀ Vars.A_B_GAA_GAB_GBB.code CONTRACTED 2 = .ok (0, s) ∧
    xcfunEval codeKernel junk s ((List.range 20).map y) [0, 0, 0, 0] = .ok
      ((List.range 4).map fun S => (energyOn s .A_B_GAA_GAB_GBB fun i => CT.ofFn 2 fun S => y (i * 2 ^ 2 + S)).get S) := by
  obtain ⟨s₀, s, h1, h2, hv, hm, ho⟩ : ∃ s₀ s : State ℝ, run State.init [.set "pbex" 1, .set "pbec" 1] = .ok s₀ ∧
      evalSetup s₀ Vars.A_B_GAA_GAB_GBB.code CONTRACTED 2 = .ok (0, s) ∧ s.vars = some .A_B_GAA_GAB_GBB ∧
      s.mode = CONTRACTED ∧ s.order = (2 : ℕ) := ⟨_, _, rfl, rfl, rfl, rfl, rfl⟩
  have h := C17_contracted_expansion s .A_B_GAA_GAB_GBB hv hm 2 ho (by norm_num) (by decide) y [] [0, 0, 0, 0] junk (by simp)
  rw [List.append_nil] at h
  exact ⟨s₀, s, h1, h2, h.trans (by simp)⟩

example (input output : List ℝ) (hi : input.length = 5) (ho : output.length = 6) :
    ∃ s₀ s : State ℝ, run State.init [.set "pbex" 1] = .ok s₀ ∧
      evalSetup s₀ Vars.A_B_GAA_GAB_GBB.code PARTIAL_DERIVATIVES 1 = .ok (0, s) ∧ xcfunEval codeKernel none s input output ≠ .ub := by
  refine ⟨_, _, rfl, rfl, ?_⟩
  exact (C46_nothing_uninitialised_read codeKernel codeKernel_local rfl [.set "pbex" 1] _ _ rfl .A_B_GAA_GAB_GBB PARTIAL_DERIVATIVES 1 rfl
    (fun h => by simp [UnrestrictedGga] at h) none input output (by rw [hi]; decide) (by rw [ho]; decide)).2

example (input output : List ℝ) (hi : input.length = 20) (ho : output.length = 3) :
    ∃ s₀ s : State ℝ, run State.init [.set "pbex" 1] = .ok s₀ ∧
      evalSetup s₀ Vars.A_B_2ND_TAYLOR.code POTENTIAL 1 = .ok (0, s) ∧ xcfunEval codeKernel none s input output = .ub := by
  refine ⟨_, _, rfl, rfl, ?_⟩
  exact C46_unrestricted_gga_undefined codeKernel codeKernel_local rfl [.set "pbex" 1] _ _ rfl POTENTIAL 1 rfl
    ⟨rfl, rfl, 5, by simp, _, rfl, by decide⟩ input output hi.ge ho.ge

/-! ## C43, C44, C23 -/

/-- An object is created and deleted: it starts in the initial state, and after its deletion every use is undefined. -/
example (K : Kernel ℚ) : ∃ w w' s, opStep K Proc.start (.new (some 3)) = .ok (.ptr (some 3), w) ∧ w.heap 3 = some s ∧ s.active = [] ∧
    opStep K w (.delete (some 3)) = .ok (.unit, w') ∧ w'.heap 3 = none ∧ opStep K w' (.call (some 3) (.get "pbex")) = .ub := by
  obtain ⟨w, s, h1, h2, -, h3, -⟩ := C43_new K [] [] Proc.start rfl 3 rfl
  obtain ⟨w', h4, h5, -⟩ := (C43_delete K w).2 3 s h2
  obtain ⟨w'', h6, -, h7, -⟩ := C43_use_after_delete K w 3 s h2
  have := h4.symm.trans h6; cases this
  exact ⟨w, w', s, h1, h2, h3, h4, h5, h7 _⟩

/-- A call through a null pointer is undefined, and the classification puts it in the right class. -/
example (K : Kernel ℚ) (o : Op ℚ) (hub : opStep K Proc.start o = .ub) : (∀ p, o ≠ .new (some p)) := by
  rintro p rfl
  rcases C43_only_errors K [] [] Proc.start rfl _ hub with ⟨p, h, -⟩ | ⟨p, c, h, -⟩ | ⟨c, h⟩ | ⟨q, s, h, h'⟩ | ⟨p, c, s, h, -⟩ | ⟨n, h, -⟩
  all_goals first | cases h
  cases h'

example (K : Kernel ℚ) : ∃ rs w, opRun K Proc.start [.new (some 3)] = .ok (rs, w) ∧ w.tabs.funTab 5 = funs[5]? := by
  refine ⟨_, _, rfl, ?_⟩
  rcases C44_table_contents K [.new (some 3)] _ _ rfl with ⟨h, -⟩ | ⟨-, h, -⟩
  · exact absurd h (by decide +kernel)
  · exact h 5

example : let m := threadRun (.init .zero) (0 :: 1 :: (List.replicate 83 0 ++ List.replicate 83 1))
    ∃ x ∈ m.trace, ∃ y ∈ m.trace, Conflict x y :=
  C44_first_calls_race _ 0 1 (by norm_num) (by decide +kernel) (by decide +kernel)

example (sched : List ℕ) : (threadRun (.init (assureSetup .zero)) sched).tabs = assureSetup .zero :=
  (C44_later_calls_do_not_race _ (by decide +kernel) sched).2

/-! ## C24, C35, C47, C48, C84 -/

example : ∃ s₁ s₂ : State ℝ, run State.init [.set "pbex" 1, .set "pbec" 2, .set "pbec" 3] = .ok s₁ ∧
    run State.init [.set "pbec" 3, .set "pbex" 1, .set "pbec" 2] = .ok s₂ ∧ Indistinguishable s₁ s₂ := by
  obtain ⟨s₂, h, hi⟩ := C24_order_of_sets [] [] (by simp) [("pbex", 1), ("pbec", 2), ("pbec", 3)] [("pbec", 3), ("pbex", 1), ("pbec", 2)]
    (by
      refine ((List.Perm.swap _ _ _).cons _).trans (List.Perm.swap _ _ _)) (by
      intro c hc
      have : c.1 = "pbex" ∨ c.1 = "pbec" := by
        simp only [List.mem_cons, List.not_mem_nil, or_false] at hc; rcases hc with rfl | rfl | rfl <;> simp
      rcases this with h | h <;> rw [h] <;> exact functionalsOnly_of _ (by decide +kernel)) _ rfl
  exact ⟨_, s₂, rfl, h, hi⟩

example : ∃ s₁ s₂ : State ℝ, run State.init [.set "pbe" 1, .set "pbe" 2] = .ok s₁ ∧ run State.init [.set "pbe" (1 + 2)] = .ok s₂ ∧
    Indistinguishable s₁ s₂ := by
  obtain ⟨s₂, h, hi⟩ := C24_set_twice [] [] (by simp) "pbe" (functionalsOnly_of _ (by decide +kernel)) 1 2 _ rfl
  exact ⟨_, s₂, rfl, h, hi⟩

example (s : State ℝ) (x : ℕ → ℝ) : energyAt s .A_GAA (Function.update x 0 5) = energyAt s .A_GAA x := C35_density_ignored (.inr rfl) s x 5

example (s : State ℝ) (ins : ℕ → CT ℝ 1) : energyOn s .A (Function.update ins 0 (CT.node (CT.leaf 3) (CT.leaf 1))) = energyOn s .A ins :=
  C35_seeds_ignored (.inl rfl) s ins _

example : ∃ s : State ℚ, run State.init [.set "pbe0" 1] = .ok s ∧ pyType s = 1 := by
  obtain ⟨s, hs, hd⟩ : ∃ s : State ℚ, run State.init [.set "pbe0" 1] = .ok s ∧ s.depends = 3 := ⟨_, rfl, by decide +kernel⟩
  have hw := run_wf init_wf hs
  refine ⟨s, hs, (C47_type [.set "pbe0" 1] s hs).2.1.2 ?_⟩
  rw [needs_iff hw, needs_iff hw, needs_iff hw, hd]
  decide

example (a : NdArray ℝ) : ∃ s₀ s : State ℝ, run State.init [.set "pbex" 1] = .ok s₀ ∧
    evalSetup s₀ Vars.A_B_GAA_GAB_GBB.code CONTRACTED 1 = .ok (0, s) ∧ pyEval codeKernel none (fun _ => 0) s a = .die :=
  ⟨_, _, rfl, rfl, C47_contracted _ (v := .A_B_GAA_GAB_GBB) rfl rfl none _ a⟩

example : textHandler true (some "PBEX   ".toList) 7 = .ub := C48_text_handler_undefined _ 7 (by norm_num)

example : ¬ ((List.range 3).flatMap (multisets (List.range 5))).Pairwise fun t u => GrevLt 5 (fun i => t.count i) (fun i => u.count i) :=
  C84_first_greatest (by norm_num : 2 ≤ 5) (by norm_num : 1 ≤ 2)

end XCFun.Props

namespace XCFun.Props

open XCFun Spec Lit Filter Topology

/-! ## C39, C50, C52, C75, C78 -/

private theorem gas_case (g : Gas) (ha : threshold ≤ g.a) (hb : threshold ≤ g.b) :
    IsGas (memberR (fun _ => 0) .A_B_GAA_GAB_GBB_TAUA_TAUB (inputOf g)) g := isGas_input _ _ ha hb

example : Fun.tw.evalR (scaleField 2 fun _ => 1) = 2 ^ 13 * Fun.tw.evalR fun _ => 1 :=
  (C39_tw (by norm_num) (by norm_num) (by norm_num) (by norm_num)).2

example : Fun.revtpssx.evalR (memberR (fun _ => 0) .A_B_GAA_GAB_GBB_TAUA_TAUB (inputOf ⟨1, 8, 4, -2, 1, 3, 5⟩)) = revtpssXCode ⟨1, 8, 4, -2, 1, 3, 5⟩ :=
  (C52_revtpssx (gas_case _ (by norm_num [threshold]) (by norm_num [threshold])) (by norm_num) (by norm_num)).1

example : Fun.pbec.evalR (caseVars 4) < 0 ∧ Fun.vwn5c.evalR (caseVars 4) < 0 ∧ Fun.pz81c.evalR (caseVars 0) < 0 :=
  ⟨C50_negative (id := 4) (by decide) rfl (case_sound (by norm_num)), C50_negative (id := 3) (by decide) rfl (case_sound (by norm_num)),
    C50_pz81 (case_sound le_rfl) case_consistent⟩

example : Fun.pbec.evalR (caseVars 1) < Fun.pbec.evalR (caseVars 4) :=
  C75_increasing (id := 4) (by decide) rfl (case_sound (by norm_num)) (case_sound (by norm_num)) (case_same (by norm_num) (by norm_num))
    (by rw [case_gnn (by norm_num), case_gnn (by norm_num)]; norm_num)

example : Tendsto (fun k : ℕ => Fun.pbec.evalR (caseVars k)) atTop (𝓝 0) :=
  C75_rapid (id := 4) (by decide) rfl (case_sound le_rfl) (fun k : ℕ => case_sound (Nat.cast_nonneg k)) (fun k => case_same le_rfl (Nat.cast_nonneg k))
    case_tendsto

example : Tendsto (fun k : ℕ => Fun.spbec.evalR (caseVars k)) atTop (𝓝 ((1 - 0.066725 ^ 2 / 0.031091) * Fun.vwn5c.evalR (caseVars 0))) :=
  C75_rapid_spbec (case_sound le_rfl) (fun k : ℕ => case_sound (Nat.cast_nonneg k)) (fun k => case_same le_rfl (Nat.cast_nonneg k)) case_tendsto

example : HasDerivWithinAt (fun g => Fun.pbec.evalR (Function.update (caseVars 0) .gnn g))
    (caseVars 0 .n * (pbeBeta 4 * Lit.phi (caseVars 0 .zeta) ^ 3 * Lit.tSq (caseVars 0 .n) (caseVars 0 .zeta) 1)) (Set.Ici 0) 0 :=
  C75_slow (id := 4) (by decide) rfl (case_sound le_rfl) case_consistent

example : Tendsto (fun μ => Fun.ldaerfc.evalR (withMu (caseVars 0) μ)) atTop (𝓝 0) ∧ Fun.ldaerfc_jt.evalR (withMu (caseVars 0) 3) < 0 ∧
    ∀ᶠ μ in atTop, Fun.pw92c.evalR (caseVars 0) < Fun.ldaerfc.evalR (withMu (caseVars 0) μ) :=
  ⟨(C78_vanish (case_sound le_rfl) case_consistent).1, C78_jt_negative (case_sound le_rfl) case_consistent (by norm_num),
    (C78_erf_sign (case_sound le_rfl) case_consistent).2.mono fun _ h => h.1⟩

end XCFun.Props
