import Verif.Props.Settings
import Verif.Props.Setup
import Verif.Props.Output
import Verif.Props.Modes
import Verif.Props.Depends
import Verif.Props.Potential
import Verif.Props.Accepted
import Verif.Props.Vec
import Verif.Props.Process
import Verif.Props.Densvars
import Verif.Props.Smooth
import Verif.Props.SpinScaling
import Verif.Props.Rounding

/-! # The theorems applied to concrete cases: settings, evaluation, potentials

The examples beside the theorems show that their hypotheses can be met; here theorems without an instance of their own
are applied to explicit arguments. -/

namespace XCFun.Props

open XCFun Spec
open scoped ContDiff

/-! ## C02-C10, C13, C38 -/

/-- Setting an alias, then the parameter it contains, then a functional: the parameter has the value written last. -/
example : ∃ s : State Rat, run State.init [.set "pbe0" 1, .set "EXX" 3, .set "slaterx" 1] = .ok s ∧ xcfunGet s "exx" = (0, some 3) := by
  obtain ⟨s, hs⟩ : ∃ s : State Rat, run State.init [.set "pbe0" 1, .set "EXX" 3, .set "slaterx" 1] = .ok s := ⟨_, rfl⟩
  refine ⟨s, hs, ?_⟩
  rw [C02_last_write_wins _ s hs "exx" EXX (by decide +kernel)]
  decide +kernel

example (s : State Rat) : xcfunSet s "CAMb3LYP" 2 = xcfunSet s "camB3lyp" 2 := (C05_case_insensitive _ _ (by decide +kernel) s 2).1

/-- The alias number 45 can be set on a used object; there is none with number 46. -/
example : ∃ s : State Rat, run State.init [.set "pbe0" 1] = .ok s ∧ enumerateAliases 46 = none ∧
    ∃ a s', enumerateAliases 45 = some a ∧ xcfunSet s a 1 = .ok (0, s') := by
  obtain ⟨s, hs⟩ : ∃ s : State Rat, run State.init [.set "pbe0" 1] = .ok s := ⟨_, rfl⟩
  obtain ⟨a, -, ha⟩ := (C06_aliases _ s hs 45).1 45 rfl (by norm_num)
  obtain ⟨s', h⟩ := (C06_aliases _ s hs 45).2.2 _ 1 ha
  exact ⟨s, hs, (C06_aliases _ s hs 46).2.1 (.inr le_rfl), _, s', ha, h⟩

private theorem mentions_b3p86 : Mentions "b3p86" 57 ∧ ¬ Mentions "b3p86" 56 ∧ ¬ Mentions "exx" 56 := by
  have h : aliasTerms "b3p86" = [⟨"slaterx", 8, 1⟩, ⟨"beckecorrx", 72, 2⟩, ⟨"p86corrc", 81, 2⟩, ⟨"vwn5c", 1, 0⟩,
    ⟨"exx", 2, 1⟩] := by decide +kernel
  have h' : aliasTerms "exx" = [] := by decide +kernel
  unfold Mentions
  rw [h, h']
  decide +kernel

/-- Functional 57 is active after its alias has been set, 56 is not. -/
example : ∃ s : State Rat, run State.init [.set "b3p86" 1, .set "exx" 2] = .ok s ∧ 57 ∈ s.active ∧ 56 ∉ s.active := by
  obtain ⟨s, hs⟩ : ∃ s : State Rat, run State.init [.set "b3p86" 1, .set "exx" 2] = .ok s := ⟨_, rfl⟩
  have h := (C07_active_list _ s hs).2.2
  refine ⟨s, hs, (h 57).2 ⟨("b3p86", 1), by decide +kernel, mentions_b3p86.1⟩, fun hc => ?_⟩
  obtain ⟨c, hc, hm⟩ := (h 56).1 hc
  simp only [sets] at hc
  fin_cases hc
  exacts [mentions_b3p86.2.1 hm, mentions_b3p86.2.2 hm]

/-- The order of the settings and their values do not matter for the kind of the functional. -/
example : ∃ s s' : State Rat, run State.init [.set "pbex" 1, .set "pbec" 1] = .ok s ∧ run State.init [.set "pbec" 2, .set "pbex" 3] = .ok s' ∧
    isGga s = isGga s' ∧ isMetagga s = isMetagga s' := by
  obtain ⟨s, hs⟩ : ∃ s : State Rat, run State.init [.set "pbex" 1, .set "pbec" 1] = .ok s := ⟨_, rfl⟩
  obtain ⟨s', hs'⟩ : ∃ s : State Rat, run State.init [.set "pbec" 2, .set "pbex" 3] = .ok s := ⟨_, rfl⟩
  refine ⟨s, s', hs, hs', C08_order_independent _ _ s s' hs hs' fun n => ?_⟩
  simp [sets, or_comm]

example (s : State Rat) : evalSetup s 31 1 1 = .ub ∧ evalSetup s (-1) 1 1 = .ub :=
  ⟨C09_invalid_vars s 31 1 1 (by intro v; cases v <;> decide), C09_invalid_vars s (-1) 1 1 (by intro v; cases v <;> decide)⟩

/-- After the set-up of PBEX, setting it again does not spoil it. -/
example : ∃ s₁ s₂ s₃ : State Rat, run State.init [.set "pbex" 1] = .ok s₁ ∧ evalSetup s₁ (Vars.A_B_GAA_GAB_GBB.code : ℕ) 1 2 = .ok (0, s₂) ∧
    run s₂ [.set "PBEX" 3] = .ok s₃ ∧ (∃ w, s₃.vars = some w ∧ Sufficient s₃ w) ∧ inputLength s₃ = .ok 5 := by
  obtain ⟨s₁, s₂, s₃, h₁, h₂, h₃, ha⟩ : ∃ s₁ s₂ s₃ : State Rat, run State.init [.set "pbex" 1] = .ok s₁ ∧
    evalSetup s₁ (Vars.A_B_GAA_GAB_GBB.code : ℕ) 1 2 = .ok (0, s₂) ∧ run s₂ [.set "PBEX" 3] = .ok s₃ ∧ s₁.active = [5] := ⟨_, _, _, rfl, rfl, rfl, rfl⟩
  have hm : ∀ i, Mentions "PBEX" i → i = 5 := by
    intro i hi
    have h : aliasTerms "PBEX" = [] := by decide +kernel
    unfold Mentions at hi
    rw [h] at hi
    rcases hi with hi | ⟨t, ht, -⟩
    · have key : ∀ i < NR_FUNCTIONALS, NamesFunctional "PBEX" i → i = 5 := by decide +kernel
      exact key i (by obtain ⟨f, hf, -⟩ := hi; exact (List.getElem?_eq_some_iff.1 hf).1) hi
    · simp at ht
  refine ⟨s₁, s₂, s₃, h₁, h₂, h₃, C10_sufficiency _ _ s₁ s₂ s₃ _ 1 2 h₁ h₂ h₃ fun c hc i hi => ?_,
    C38_input_length_after_setup _ [.set "PBEX" 3] s₁ s₂ s₃ .A_B_GAA_GAB_GBB 1 2 h₁ h₂ ⟨id, fun _ _ => trivial⟩ h₃⟩
  obtain rfl : c = ("PBEX", 3) := by simpa [sets] using hc
  rw [ha, hm i hi]
  simp

/-- 21 derivatives up to second order in five variables. -/
example : ∃ s : State Rat, run State.init [.set "pbex" 1, .evalSetup (Vars.A_B_GAA_GAB_GBB.code : ℕ) 1 2] = .ok s ∧ outputLength s = .ok 21 := by
  obtain ⟨s, hs, hv, ho, hm⟩ : ∃ s : State Rat, run State.init [.set "pbex" 1, .evalSetup (Vars.A_B_GAA_GAB_GBB.code : ℕ) 1 2] = .ok s ∧
    s.vars = some .A_B_GAA_GAB_GBB ∧ s.order = 2 ∧ s.mode = PARTIAL_DERIVATIVES := ⟨_, rfl, rfl, rfl, rfl⟩
  obtain ⟨n, d, h1, h2, h3⟩ := C13_output_length _ s hs hm
  obtain rfl : d = 2 := by rw [ho] at h2; exact_mod_cast h2.symm
  obtain rfl : n = 5 := by
    unfold inputLength at h1
    rw [hv] at h1
    exact (Int.ofNat.inj (Outcome.ok.inj h1)).symm
  exact ⟨s, hs, h3⟩

/-! ## C16, C18-C20, C42 -/

/-- Slater exchange and VWN5 as an object on the two spin densities. -/
private noncomputable def ldaState (m o : ℤ) : State ℝ :=
  { active := [0, 3], order := o, depends := 1, mode := m, vars := some .A_B, settings := fun i => if i = 0 ∨ i = 3 then 1 else 0 }

example (junk : Junk ℝ) (input output : List ℝ) :
    xcfunEval codeKernel junk (setParameter (ldaState 1 2) 79 7) input output = xcfunEval codeKernel junk (ldaState 1 2) input output :=
  C42_exx_never_matters (ldaState 1 2) (by intro id hid; simp only [ldaState, List.mem_cons, List.not_mem_nil, or_false] at hid; omega) 7 junk input output

private theorem lda_regular (m o : ℤ) (x : ℕ → ℝ) (hx : ∀ i < 2, threshold < x i) : RegularAt (ldaState m o) .A_B x :=
  C49_regular _ (by decide) (by decide) ⟨by
    intro y hy
    simp only [densities, densSlots, List.map_cons, List.map_nil, List.mem_cons, List.not_mem_nil, or_false] at hy
    rcases hy with rfl | rfl
    exacts [hx 0 (by norm_num), hx 1 (by norm_num)], by norm_num [given, spinFields], by norm_num [given, spinFields], by norm_num [given, spinFields]⟩ (by
    intro id hid
    simp only [ldaState, List.mem_cons, List.not_mem_nil, or_false] at hid
    rcases hid with rfl | rfl <;> trivial)

/-- The potential of the local density approximation at densities 1 and 8. -/
example (junk : Junk ℝ) : xcfunEval codeKernel junk (ldaState POTENTIAL 1) [1, 8] [0, 0, 0] = .ok
    [energyAt (ldaState POTENTIAL 1) .A_B (fun i => [1, 8].getD i 0), pderiv 0 (energyAt (ldaState POTENTIAL 1) .A_B) (fun i => [1, 8].getD i 0),
      pderiv 1 (energyAt (ldaState POTENTIAL 1) .A_B) (fun i => [1, 8].getD i 0)] :=
  C19_lda_potential_exact (ldaState POTENTIAL 1) (v := .A_B) (.inl rfl) rfl rfl rfl (fun i => [1, 8].getD i 0)
    (lda_regular _ _ _ (by intro i hi; interval_cases i <;> norm_num [threshold])) [] [0, 0, 0] junk (by decide)

/-- With `XC_N` three numbers are announced but two written. -/
example (junk : Junk ℝ) : ∃ e p, xcfunEval codeKernel junk { ldaState POTENTIAL 1 with vars := some .N } [3] [7, 8, 9] = .ok [e, p, 9] :=
  (C19_closed_shell_output_length { ldaState POTENTIAL 1 with vars := some .N } rfl rfl (by simp [ldaState]) rfl 3 7 8 9 junk).2

/-! ## C22, C23 -/

/-- Two points of Slater exchange, the second result written one place after the first, over its end. -/
example (j : (N : ℕ) → ℕ → CT ℝ N) : ∃ s₀ s, run State.init [.set "slaterx" (1 : ℝ)] = .ok s₀ ∧
    evalSetup s₀ Vars.A_B.code PARTIAL_DERIVATIVES 1 = .ok (0, s) ∧ ∃ out a b : List ℝ,
      xcfunEvalVec codeKernel (some j) s 2 [1, 2, 3, 4] 0 2 [0, 0, 0, 9] 0 1 = .ok out ∧ out.length = 4 ∧
      xcfunEval codeKernel (some j) s [1, 2, 3, 4] [0, 0, 0] = .ok (a ++ [0, 0, 0].drop a.length) ∧
      xcfunEval codeKernel (some j) s [3, 4] [0, 0, 0] = .ok (b ++ [0, 0, 0].drop b.length) ∧
      (0 < a.length → out[0]? = a[0]?) ∧ ∀ p < b.length, out[1 + p]? = b[p]? := by
  have c1 : needIn .A_B PARTIAL_DERIVATIVES 1 = 2 := by decide
  have c2 : needOut .A_B PARTIAL_DERIVATIVES 1 = 3 := by decide
  obtain ⟨s₀, s, hr, hset⟩ : ∃ s₀ s, run State.init [.set "slaterx" (1 : ℝ)] = .ok s₀ ∧
    evalSetup s₀ Vars.A_B.code PARTIAL_DERIVATIVES 1 = .ok (0, s) := ⟨_, _, rfl, rfl⟩
  obtain ⟨res, out, h1, h2, h3, h4⟩ := C22_eval_vec codeKernel codeKernel_local rfl [.set "slaterx" (1 : ℝ)] s₀ s hr
    .A_B PARTIAL_DERIVATIVES 1 hset (by simp [CannotEvaluate, Unsupported]) j 2 [1, 2, 3, 4] 0 2 [0, 0, 0, 9] 0 1
    (fun i hi => by
      rw [c1]
      have : i < 2 := by omega
      interval_cases i <;> simp [inInt])
    (fun i hi => by
      rw [c2]
      have : i < 2 := by omega
      interval_cases i <;> simp [inInt])
  refine ⟨s₀, s, hr, hset, out, res 0, res 1, h2, h3, (h1 0 (by norm_num)).2 [0, 0, 0] (by rw [c2]; simp),
    (h1 1 (by norm_num)).2 [0, 0, 0] (by rw [c2]; simp), fun ha => ?_, fun p hp => ?_⟩
  · have := (h4 0).1 0 (by norm_num) (by norm_num) (by push_cast; omega) (by intro i' h1 h2; omega)
    simpa using this
  · have := (h4 (1 + p)).1 1 (by norm_num) (by push_cast; omega) (by push_cast; omega) (by intro i' h1 h2; omega)
    simpa using this

example (s : State ℝ) (junk : Junk ℝ) (density result : List ℝ) : xcfunEvalVec codeKernel junk s (-3) density 0 2 result 0 3 = .ok result :=
  C22_no_points codeKernel junk s (-3) (by norm_num) density 0 2 result 0 3

/-- The two interleavings of C23 give every object the same results. -/
example (K : Kernel Rat) (rs : List (Ret Rat)) (w : Proc Rat) (h : opRun K Proc.start sampleOps = .ok (rs, w)) :
    ∃ rs' w', opRun K Proc.start sampleOps' = .ok (rs', w') ∧ w'.heap = w.heap ∧ ∀ a, resultsAt a sampleOps' rs' = resultsAt a sampleOps rs :=
  C23_interleavings K sampleOps sampleOps' (fun a => by
    by_cases h0 : 0 = a
    · subst h0; rfl
    · by_cases h1 : 1 = a
      · subst h1; rfl
      · simp [eventsAt, sampleOps, sampleOps', target, h0, h1]) (by
    intro o ho ht
    simp only [sampleOps', List.mem_cons, List.not_mem_nil, or_false] at ho
    rcases ho with rfl | rfl | rfl | rfl | rfl | rfl | rfl | rfl | rfl <;> simp [target] at ht) rs w h

/-- Reading a setting leaves all objects as they are. -/
example (K : Kernel Rat) (w w' : Proc Rat) (r : Ret Rat) (h : opStep K w (.call (some 3) (.get "pbex")) = .ok (r, w')) : w'.heap = w.heap :=
  C23_queries_pure K w w' 3 (.get "pbex") trivial r h

/-! ## C32-C34, C61 -/

/-- Second derivatives of the energy of two spin densities with gradients, through components and through invariants. -/
example (s : State ℝ) (ρ : ℕ → CT ℝ 2) : energyOn s .A_B_AX_AY_AZ_BX_BY_BZ ρ = energyOn s .A_B_GAA_GAB_GBB (spinInvariants ρ) :=
  C32_energy s ρ _ (List.mem_cons_self ..)

/-- Rotation by a right angle about the third axis. -/
example (s : State ℝ) (ρ : ℕ → CT ℝ 1) :
    energyOn s .N_NX_NY_NZ (rotate ((!![0, -1, 0; 1, 0, 0; 0, 0, 1] : Matrix (Fin 3) (Fin 3) ℝ).map (CT.const 1)) .N_NX_NY_NZ ρ) =
      energyOn s .N_NX_NY_NZ ρ :=
  C32_rotation s .N_NX_NY_NZ (by decide) (by simp) _ (by ext i j; fin_cases i <;> fin_cases j <;> simp [Matrix.mul_apply, Fin.sum_univ_three]) ρ

/-- A closed shell of density 3. -/
example (s : State ℝ) : energyOn s .N_GNN (fun i => CT.const 1 (if i = 0 then 3 else 5)) =
    energyOn s .A_B_GAA_GAB_GBB (openInvariants (CT.const 1 (1 / 2)) fun i => CT.const 1 (if i = 0 then 3 else 5)) :=
  C33_energy s _ _ (List.mem_cons_of_mem _ (List.mem_cons_self ..)) (by simp) (by
    show (2e-14 : ℝ) ≤ if (0 : ℕ) = 0 then 3 else 5
    norm_num)

/-- Density 3 and spin density 1. -/
example (s : State ℝ) : energyOn s .N_S_NX_NY_NZ_SX_SY_SZ (fun i => CT.const 1 (if i = 0 then 3 else i)) =
    energyOn s .A_B_AX_AY_AZ_BX_BY_BZ (spinComponents (CT.const 1 (1 / 2)) fun i => CT.const 1 (if i = 0 then 3 else i)) :=
  C34_energy s _ _ (List.mem_cons_self ..)
    (by show (1e-14 : ℝ) ≤ 1 / 2 * ((if (0 : ℕ) = 0 then 3 else ((0 : ℕ) : ℝ)) + if (1 : ℕ) = 0 then 3 else ((1 : ℕ) : ℝ)); norm_num)
    (by show (1e-14 : ℝ) ≤ 1 / 2 * ((if (0 : ℕ) = 0 then 3 else ((0 : ℕ) : ℝ)) - if (1 : ℕ) = 0 then 3 else ((1 : ℕ) : ℝ)); norm_num)

/-- Half of Becke exchange along any perturbation up to third order. -/
example (ρ : ℕ → CT ℝ 3) (junk : Junk ℝ) := C61_contracted { ldaState CONTRACTED 3 with active := [6] } (v := .A_B_GAA_GAB_GBB) (by decide) (by decide)
  (by decide) (by norm_num) ρ junk (output := List.replicate 8 0) (by simp)

/-! ## C49 -/

/-- Second-order contracted derivatives of the local density approximation. -/
example (rest : List ℝ) (junk : Junk ℝ) : xcfunEval codeKernel junk (ldaState CONTRACTED 2) ((List.range 8).map (fun i : ℕ => (i : ℝ) + 1) ++ rest) [0, 0, 0, 0] = .ok
    ((List.range 4).map fun S => pderivs (bits 2 S) (fun e => energyAt (ldaState CONTRACTED 2) .A_B (pathAt 2 (fun i => (i : ℝ) + 1) e)) fun _ => 0) := by
  have := C49_contracted (ldaState CONTRACTED 2) (v := .A_B) (by decide) (by decide) rfl rfl 2 rfl (by norm_num) (fun i => (i : ℝ) + 1) ⟨by
    intro y hy
    simp only [densities, densSlots, List.map_cons, List.map_nil, List.mem_cons, List.not_mem_nil, or_false] at hy
    rcases hy with rfl | rfl <;> norm_num [threshold], by norm_num [given, spinFields], by norm_num [given, spinFields], by norm_num [given, spinFields]⟩ (by
    intro id hid
    simp only [ldaState, List.mem_cons, List.not_mem_nil, or_false] at hid
    rcases hid with rfl | rfl <;> trivial) rest [0, 0, 0, 0] junk (by norm_num)
  simpa [show Vars.A_B.len = 2 by decide] using this

/-- PBE for a closed shell, potential. -/
example (ρ : Space → ℝ) (r : Space) (hρ : ContDiffAt ℝ ∞ ρ r) (h0 : threshold < ρ r) (junk : Junk ℝ) :
    ∃ s₀ s : State ℝ, run State.init [.set "pbe" 1] = .ok s₀ ∧ evalSetup s₀ Vars.N_2ND_TAYLOR.code POTENTIAL 1 = .ok (0, s) ∧
      xcfunEval codeKernel junk s ((List.range 10).map (expansion ρ r)) [0, 0] = .ok
        [energyAt s .N_2ND_TAYLOR (expansion ρ r), functionalDerivative (energyAt s .N_2ND_TAYLOR) (expansion ρ) 0 r] := by
  refine ⟨_, _, rfl, rfl, ?_⟩
  have := C49_restricted_potential [.set "pbe" 1] _ _ rfl 1 rfl (show 44 ∉ [5, 4] by decide) ρ r hρ h0 (fun id hid => by
    have hid : id ∈ [5, 4] := hid
    simp only [List.mem_cons, List.not_mem_nil, or_false] at hid
    rcases hid with rfl | rfl <;> trivial) [] [0, 0] junk (by simp)
  simpa using this

end XCFun.Props

namespace XCFun.Props

open XCFun Spec Lit
open scoped ContDiff

/-- The mixed derivatives of the local density approximation in the two modes. -/
example : ∃ P C2 : List ℝ, xcfunEval codeKernel none (ldaState PARTIAL_DERIVATIVES 3) [1, 8] (List.replicate 10 0) = .ok P ∧
    xcfunEval codeKernel none (ldaState CONTRACTED 2) ((List.range 8).map (unitInput 2 (fun i => [1, 8].getD i 0) 0 1 1)) [0, 0, 0, 0] = .ok C2 ∧
    C2.map some = [P[0]?, P[1]?, P[2]?, P[4]?] := by
  obtain ⟨P, C1, C2, C3, h1, -, h2, -, hl, -, h3, -⟩ := C18_modes_agree (ldaState PARTIAL_DERIVATIVES 3) .A_B rfl (by decide) (fun i => [1, 8].getD i 0)
    (i := 0) (j := 1) (k := 1) (by decide) (by decide) (by decide)
  have hP : P.length = 10 := by
    have : outputLength { ldaState PARTIAL_DERIVATIVES 3 with mode := PARTIAL_DERIVATIVES, order := 3 } = .ok 10 := by decide
    rw [this] at hl
    have := Outcome.ok.inj hl
    omega
  exact ⟨P, C2, h1 _ none (by simp [hP]), h2 _ none rfl, h3⟩

/-- The first derivatives of the local density approximation are those of the function that order 0 returns. -/
example : ∃ F : (ℕ → ℝ) → ℝ, (∀ a b junk, xcfunEval codeKernel junk (ldaState PARTIAL_DERIVATIVES 0) [a, b] [0] = .ok [F fun i => [a, b].getD i 0]) ∧
    ∀ junk, xcfunEval codeKernel junk (ldaState PARTIAL_DERIVATIVES 1) [1, 8] [0, 0, 0] = .ok
      [F fun i => [1, 8].getD i 0, pderiv 0 F fun i => [1, 8].getD i 0, pderiv 1 F fun i => [1, 8].getD i 0] := by
  obtain ⟨F, h1, h2⟩ := C16_exact_partial_derivatives (ldaState PARTIAL_DERIVATIVES 1) .A_B rfl rfl (by decide)
  refine ⟨F, fun a b junk => h1 (fun i => [a, b].getD i 0) [] 0 [] junk, fun junk => ?_⟩
  exact h2 (fun i => [1, 8].getD i 0) (lda_regular _ _ _ (by intro i hi; interval_cases i <;> norm_num [threshold])) 1 rfl (by norm_num) [] [0, 0, 0] junk 3
    rfl (by simp)

/-- PBE in potential mode for a closed shell: what the work array holds before does not matter. -/
example (j j' : (N : ℕ) → ℕ → CT ℝ N) (input : List ℝ) (hi : input.length = 10) : ∃ s₀ s : State ℝ, run State.init [.set "pbe" 1] = .ok s₀ ∧
    evalSetup s₀ Vars.N_2ND_TAYLOR.code POTENTIAL 1 = .ok (0, s) ∧
      xcfunEval codeKernel (some j) s input [0, 0, 0] = xcfunEval codeKernel (some j') s input [0, 0, 0] :=
  ⟨_, _, rfl, rfl, C46_contents_irrelevant [.set "pbe" 1] _ _ rfl .N_2ND_TAYLOR POTENTIAL 1 rfl j j' input [0, 0, 0]
    (by rw [hi]; decide) (by decide)⟩

/-! ## C59 -/

/-- Multiplication in place of expansions in three variables with 53 bits. -/
example (m : Mem (Bits 53)) := C59_product_in_place (Bits.rounded 53) 3 0 8 m (by unfold Apart; omega) 7 (by norm_num)

/-- Composition in three variables with 53 bits. -/
example (m : Mem (Bits 53)) := C59_compose (Bits.rounded 53) 3 0 8 16 m (by unfold Apart; omega) (by unfold Apart; omega) 7 (by norm_num)

end XCFun.Props
