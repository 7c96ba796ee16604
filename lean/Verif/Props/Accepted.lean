/-
C21, C46 and the evaluation part of C38: what accepted configurations evaluate to, and uninitialised storage.
-/
import Verif.Spec.Accepted
import Verif.Proofs.EvalDie
import Verif.Proofs.Gga
import Verif.Props.Modes
import Verif.Props.Setup

namespace XCFun.Props
open XCFun Spec

/-! ## C38, evaluation -/

section
variable {V : Type _} [Zero V] [One V] [Add V] [Sub V] [Mul V] [Lit V]

/-- **C38 (evaluation).** On every object that was never successfully set up `xcfun_eval` aborts with a message,
whatever the buffers and the uninitialised storage contain: no configuration is read. -/
theorem C38_eval_before_setup (K : Kernel V) (h : List (Call V)) (s : State V) (hr : run State.init h = .ok s)
    (hno : NeverSetUp State.init h) (junk : Junk V) (input output : List V) :
    xcfunEval K junk s input output = .die := by
  obtain ⟨e1, e2, e3⟩ := run_noSetup_frame init_wf hno hr
  unfold xcfunEval
  rw [e1]; rfl

/-- An object with functionals set whose only setup attempt failed (PBE with `XC_A_B`). -/
example (K : Kernel ℚ) (junk : Junk ℚ) (input output : List ℚ) : ∃ s,
    run State.init [.set "pbe" 1, .evalSetup 2 1 1] = .ok s ∧ xcfunEval K junk s input output = .die :=
  ⟨_, rfl, rfl⟩

/-! ## C21 -/

theorem unsupported_iff (v : Vars) : Unsupported v ↔ DV.reads v = none := by
  cases v <;> simp [Unsupported, DV.reads]

theorem unsupported_len {v : Vars} (h : Unsupported v) : 2 ≤ v.len := by
  revert h; cases v <;> decide

/-- What a successful setup leaves behind. -/
theorem setup_facts {h : List (Call V)} {s₀ s : State V} (hr : run State.init h = .ok s₀) {v : Vars} {m o : ℤ}
    (hset : evalSetup s₀ v.code m o = .ok (0, s)) :
    s = { s₀ with mode := m, vars := some v, order := o } ∧ s.WF ∧ OrderOk m o ∧ Sufficient s v ∧
      (m = POTENTIAL → ¬ Needs s 2 ∧ ¬ Needs s 3 ∧ (Needs s 1 → HessianVars v)) := by
  obtain ⟨rc, s', he, h0, -, -, -, -, -, h1⟩ := C09_decision_table h s₀ hr v m o
  rw [hset] at he
  simp only [Outcome.ok.injEq, Prod.mk.injEq] at he
  obtain ⟨rfl, rfl⟩ := he
  obtain ⟨a, b, c⟩ := h0.1 rfl
  have e := h1 rfl
  have w := run_wf init_wf hr
  subst e
  exact ⟨rfl, ⟨w.nodup, w.lt, w.dep⟩, b, a, c⟩

theorem numMonomials_layout (v : Vars) {k : ℕ} (hk : k ≤ 3) (e : V) (d1 d2 d3) :
    numMonomials v.len k = (layout v.len k e d1 d2 d3).length := by
  have h1 := outlen_eq v hk e d1 d2 d3
  have h2 := (C13_taylorlen v.len k (by
    have hl := len_le v
    have c1 : (v.len + k).choose k ≤ (20 + k).choose k := Nat.choose_le_choose _ (by omega)
    have c2 : (20 + k).choose k ≤ 10626 := by
      have : ∀ d ≤ 3, (20 + d).choose d ≤ 10626 := by decide
      exact this k hk
    calc v.len * (v.len + k).choose k ≤ 20 * 10626 := Nat.mul_le_mul hl (c1.trans c2)
      _ < 2 ^ 31 := by norm_num) (by have := len_le v; omega)).1
  rw [h1] at h2
  have := Outcome.ok.inj h2
  omega

theorem accepted_core (K : Kernel V) (hK : K.Local) (hKr : K.reads = DV.reads)
    (h : List (Call V)) (s₀ s : State V) (hr : run State.init h = .ok s₀) (v : Vars) (m o : ℤ)
    (hset : evalSetup s₀ v.code m o = .ok (0, s)) (j : (N : ℕ) → ℕ → CT V N) (input : List V)
    (hin : needIn v m o ≤ input.length) :
    (CannotEvaluate v m o → ∀ output, needOut v m o ≤ output.length → ∀ junk, xcfunEval K junk s input output = .die) ∧
    (¬ CannotEvaluate v m o → ∃ res : List V, res.length ≤ needOut v m o ∧
      ∀ output, needOut v m o ≤ output.length → ∀ junk, ¬ UnrestrictedGga s v m ∨ junk = some j →
        xcfunEval K junk s input output = .ok (res ++ output.drop res.length)) := by
  obtain ⟨e, hwf, hord, hsuf, hpot⟩ := setup_facts hr hset
  have hvars : s.vars = some v := by rw [e]
  have hmode : s.mode = m := by rw [e]
  have horder : s.order = o := by rw [e]
  have hl := len_le v
  have hp := len_pos v
  obtain ⟨k, rfl⟩ : ∃ k : ℕ, o = k := ⟨o.toNat, by have := hord.1; omega⟩
  have hin' : v.len ≤ input.length := by
    unfold needIn at hin
    split at hin
    · exact (Nat.le_mul_of_pos_right _ (by positivity)).trans hin
    · exact hin
  have hget : ∀ n ≤ input.length, ∀ i < n, input[i]? = some (input.getD i 0) := fun n hn i hi => by
    simp [List.getD, List.getElem?_eq_getElem (show i < input.length by omega)]
  have hx := hget v.len hin'
  by_cases hP : m = PARTIAL_DERIVATIVES
  · have hk4 := hord.2.2 hP
    simp only [xcfunEval_partial hvars (hmode.trans hP) (show 0 ≤ s.order by omega)]
    have hc : CannotEvaluate v m k ↔ Unsupported v ∨ k = 4 := by
      simp only [CannotEvaluate, hP, true_and, ne_eq, not_true, false_and, or_false]
      exact or_congr_right (by omega)
    by_cases hk : k = 4
    · subst hk
      refine ⟨fun _ output _ junk => ?_, fun hn => absurd (hc.2 (Or.inr rfl)) hn⟩
      simp [evalPartial, horder]
    · by_cases hu : Unsupported v
      · refine ⟨fun _ output _ junk => ?_, fun hn => absurd (hc.2 (Or.inl hu)) hn⟩
        have hd : K.reads v = none := by rw [hKr]; exact (unsupported_iff v).1 hu
        have : k = 0 ∨ k = 1 ∨ k = 2 ∨ k = 3 := by omega
        rcases this with rfl | rfl | rfl | rfl <;>
          simp [evalPartial, horder, evalOrder0_die hd hl hx, evalOrder1_die hd hl hp hx _ _ _ (unsupported_len hu),
            evalOrder2_die hd hl hp hx, evalOrder3_die hd hl hp hx]
      · refine ⟨fun hn => ?_, fun _ => ?_⟩
        · rcases hc.1 hn with h1 | h1
          · exact absurd h1 hu
          · exact absurd h1 hk
        · have hsup : K.reads v ≠ none := by rw [hKr, ne_eq, ← unsupported_iff]; exact hu
          obtain ⟨res, h1, h2⟩ := C14_writes_exactly K hK s v hvars (hmode.trans hP) (by omega) hsup
            (input.take v.len) (by simp [hin'])
          have hlen : res.length = needOut v m k := by
            have h1' : outputLength s = taylorlen v.len k := by
              have g1 : ¬ (PARTIAL_DERIVATIVES = MODE_UNSET) := by decide
              have g2 : ¬ ((k : ℤ) = -1) := by omega
              simp only [outputLength, hmode, hP, g1, hvars, horder, g2, if_false, if_true]
            have h3 := outlen_eq v (show k ≤ 3 by omega) (0 : V) (fun _ => 0) (fun _ _ => 0) (fun _ _ _ => 0)
            rw [h1', h3] at h1
            have h4 := numMonomials_layout v (show k ≤ 3 by omega) (0 : V) (fun _ => 0) (fun _ _ => 0) (fun _ _ _ => 0)
            have h5 := Outcome.ok.inj h1
            simp only [needOut, hP, if_true, Int.toNat_natCast]
            omega
          refine ⟨res, hlen.le, fun output hout junk _ => ?_⟩
          have h3 := h2 (input.drop v.len) output junk (by omega)
          rw [List.take_append_drop, xcfunEval_partial hvars (hmode.trans hP) (by omega)] at h3
          exact h3
  by_cases hC : m = CONTRACTED
  · have hk6 : k ≤ 6 := by have := hord.2.1; omega
    simp only [xcfunEval_contracted hvars (hmode.trans hC) horder hk6]
    have hy := hget (v.len * 2 ^ k) (by simpa [needIn, hC] using hin)
    have hc : CannotEvaluate v m k ↔ Unsupported v := by
      have : ¬ (CONTRACTED = PARTIAL_DERIVATIVES) := by decide
      simp [CannotEvaluate, hC, this]
    by_cases hu : Unsupported v
    · refine ⟨fun _ output _ junk => ?_, fun hn => absurd (hc.2 hu) hn⟩
      have hd : K.reads v = none := by rw [hKr]; exact (unsupported_iff v).1 hu
      obtain ⟨m', h1, -⟩ := loadC_ok hl hy (fresh junk k)
      simp only [evalContractedN]
      rw [h1]
      simp [accumulate_die s hd]
    · refine ⟨fun hn => absurd (hc.1 hn) hu, fun _ => ?_⟩
      have hsup : K.reads v ≠ none := by rw [hKr, ne_eq, ← unsupported_iff]; exact hu
      obtain ⟨sl, hsl⟩ := Option.ne_none_iff_exists'.mp hsup
      have ho : needOut v m k = 2 ^ k := by
        have : ¬ (CONTRACTED = PARTIAL_DERIVATIVES) := by decide
        simp [needOut, hC, this]
      refine ⟨(List.range (2 ^ k)).map (total K s v 0 (seedC k fun i => input.getD i 0)).get, by simp [ho], fun output hout junk _ => ?_⟩
      rw [evalContractedN_ok hK hsl hl hy junk s (by omega), splice_zero]
  by_cases hV : m = POTENTIAL
  · simp only [xcfunEval_potential hvars (hmode.trans hV)]
    have hc : CannotEvaluate v m k ↔ Unsupported v := by
      simp [CannotEvaluate, hV, show ¬ (POTENTIAL = PARTIAL_DERIVATIVES) by decide]
    by_cases hu : Unsupported v
    · refine ⟨fun _ output _ junk => ?_, fun hn => absurd (hc.2 hu) hn⟩
      have hd : K.reads v = none := by rw [hKr]; exact (unsupported_iff v).1 hu
      simp [evalPotential, evalPotentialLda_die hd hl hp hx]
    · refine ⟨fun hn => absurd (hc.1 hn) hu, fun _ => ?_⟩
      have hsup : K.reads v ≠ none := by rw [hKr, ne_eq, ← unsupported_iff]; exact hu
      have ho : needOut v m k = 3 := by
        simp [needOut, hV, show ¬ (POTENTIAL = PARTIAL_DERIVATIVES) by decide,
          show ¬ (POTENTIAL = CONTRACTED) by decide]
      have hR : Ready K v input (fun i => input.getD i 0) := ⟨hK, Option.ne_none_iff_exists'.mp hsup, hl, hx⟩
      have hnp : (potentialShape v.len).1 ≤ 2 := by unfold potentialShape; split <;> simp
      have hnp1 := npot_pos v.len
      have hrl : (resPot K s v (fun i => input.getD i 0)).length = 1 + (potentialShape v.len).1 := by
        simp [resPot, Nat.add_comm]
      have hlda := fun junk (output : List V) (hout : needOut v m k ≤ output.length) =>
        evalPotentialLda_ok hR hp junk s (output := output) (by omega)
      simp only [evalPotential]
      by_cases hg : s.depends &&& GRADIENT ≠ 0
      · have hn1 : Needs s 1 := (needs_iff hwf 1).2 ((and_gradient _).1 hg)
        have hH := (hpot hV).2.2 hn1
        simp only [if_pos hg]
        rcases hH with rfl | rfl | rfl | rfl
        · exact absurd (by decide) hu
        · have hne : ¬ (Vars.A_B_2ND_TAYLOR = .A_2ND_TAYLOR ∨ Vars.A_B_2ND_TAYLOR = .N_2ND_TAYLOR) := by simp
          simp only [if_neg hne]
          have h2 : (potentialShape (Vars.len .A_B_2ND_TAYLOR)).1 = 2 := by decide
          obtain ⟨e0, e1, e2, hres⟩ : ∃ e0 e1 e2,
              resPot K s .A_B_2ND_TAYLOR (fun i => input.getD i 0) = [e0, e1, e2] := by
            rw [h2] at hrl
            match resPot K s .A_B_2ND_TAYLOR (fun i => input.getD i 0), hrl with
            | [a, b, c], _ => exact ⟨a, b, c, rfl⟩
          refine ⟨[e0, e1 - (ggaAB K s .A_B_2ND_TAYLOR (fun i => input.getD i 0) (j 2) 0).get 3,
              e2 - (ggaAB K s .A_B_2ND_TAYLOR (fun i => input.getD i 0) (j 2) 1).get 3], by simp [ho], ?_⟩
          rintro output hout junk (hn | rfl)
          · exact absurd ⟨hV, rfl, hn1⟩ hn
          · rw [hlda _ _ hout, Outcome.ok_bind, splice_zero, hres]
            exact evalPotentialGgaAB_ok (e1 := e1) (e2 := e2) hR (by decide) j s rfl rfl
        · have heq : Vars.N_2ND_TAYLOR = .A_2ND_TAYLOR ∨ Vars.N_2ND_TAYLOR = .N_2ND_TAYLOR := by simp
          have h2 : (potentialShape (Vars.len .N_2ND_TAYLOR)).1 = 1 := by decide
          obtain ⟨e0, e1, hres⟩ : ∃ e0 e1, resPot K s .N_2ND_TAYLOR (fun i => input.getD i 0) = [e0, e1] := by
            rw [h2] at hrl
            match resPot K s .N_2ND_TAYLOR (fun i => input.getD i 0), hrl with
            | [a, b], _ => exact ⟨a, b, rfl⟩
          exact ⟨[e0, e1 - (ggaN K s .N_2ND_TAYLOR (fun i => input.getD i 0)).get 3], by simp [ho],
            fun output hout junk _ => by
              rw [hlda _ _ hout, Outcome.ok_bind, splice_zero, hres]
              exact evalPotentialGgaN_ok (e1 := e1) hR (by decide) junk s rfl⟩
        · exact absurd (by decide) hu
      · simp only [if_neg hg]
        exact ⟨resPot K s v (fun i => input.getD i 0), by omega, fun output hout junk _ => by rw [hlda _ _ hout, Outcome.ok_bind, splice_zero]; rfl⟩
  · refine ⟨fun _ output _ junk => ?_, fun hn => absurd (Or.inr (Or.inr ⟨hP, hV, hC⟩)) hn⟩
    unfold xcfunEval
    rw [hmode, hvars]
    simp only [hP, hC, hV, if_false]
    split
    · rfl
    · split <;> rfl

/-- **C21, characterised.** After every successful `xcfun_eval_setup` on a reachable object, with buffers of sufficient
size and any contents of uninitialised storage, `xcfun_eval` aborts exactly for the configurations in
`CannotEvaluate`; otherwise it returns, having overwritten at most the first `needOut` entries of the output with values that do not depend
on what the output buffer contained.  No
algebraic law is assumed of the arithmetic. -/
theorem C21_accepted_configurations (K : Kernel V) (hK : K.Local) (hKr : K.reads = DV.reads)
    (h : List (Call V)) (s₀ s : State V) (hr : run State.init h = .ok s₀) (v : Vars) (m o : ℤ)
    (hset : evalSetup s₀ v.code m o = .ok (0, s)) (j : (N : ℕ) → ℕ → CT V N) (input : List V)
    (hin : needIn v m o ≤ input.length) :
    (CannotEvaluate v m o → ∀ output, needOut v m o ≤ output.length →
      xcfunEval K (some j) s input output = .die) ∧
    (¬ CannotEvaluate v m o → ∃ res : List V, res.length ≤ needOut v m o ∧
      ∀ output, needOut v m o ≤ output.length →
        xcfunEval K (some j) s input output = .ok (res ++ output.drop res.length)) := by
  obtain ⟨h1, h2⟩ := accepted_core K hK hKr h s₀ s hr v m o hset j input hin
  refine ⟨fun hc output ho => h1 hc output ho _, fun hc => ?_⟩
  obtain ⟨res, h3, h4⟩ := h2 hc
  exact ⟨res, h3, fun output ho => h4 output ho _ (Or.inr rfl)⟩

/-- An accepted configuration that evaluates: PBE exchange, second derivatives. -/
example (j : (N : ℕ) → ℕ → CT ℝ N) (input output : List ℝ) (hi : input.length = 5) (ho : output.length = 21) :
    ∃ s₀ s : State ℝ, run State.init [.set "pbex" 1] = .ok s₀ ∧
      evalSetup s₀ Vars.A_B_GAA_GAB_GBB.code PARTIAL_DERIVATIVES 2 = .ok (0, s) ∧
      ∃ out, xcfunEval codeKernel (some j) s input output = .ok out := by
  refine ⟨_, _, rfl, rfl, ?_⟩
  obtain ⟨res, -, h⟩ := (C21_accepted_configurations codeKernel codeKernel_local rfl [.set "pbex" 1] _ _ rfl
    .A_B_GAA_GAB_GBB PARTIAL_DERIVATIVES 2 rfl j input (by rw [hi]; decide)).2
    (by simp [CannotEvaluate, Unsupported])
  exact ⟨_, h output (by rw [ho]; decide)⟩

/-! ## C46 -/

/-- **C46, no indeterminate value is read** by an accepted configuration, except by the unrestricted GGA potential: the
outcome is the same whether reading uninitialised storage is treated as undefined behaviour (`none`) or yields
arbitrary values. -/
theorem C46_nothing_uninitialised_read (K : Kernel V) (hK : K.Local) (hKr : K.reads = DV.reads)
    (h : List (Call V)) (s₀ s : State V) (hr : run State.init h = .ok s₀) (v : Vars) (m o : ℤ)
    (hset : evalSetup s₀ v.code m o = .ok (0, s)) (hu : ¬ UnrestrictedGga s v m) (junk : Junk V)
    (input output : List V) (hin : needIn v m o ≤ input.length) (hout : needOut v m o ≤ output.length) :
    xcfunEval K junk s input output = xcfunEval K none s input output ∧
      xcfunEval K none s input output ≠ .ub := by
  obtain ⟨h1, h2⟩ := accepted_core K hK hKr h s₀ s hr v m o hset (fun N _ => CT.ofFn N fun _ => 0) input hin
  by_cases hc : CannotEvaluate v m o
  · rw [h1 hc _ hout, h1 hc _ hout]; exact ⟨rfl, by simp⟩
  · obtain ⟨res, -, h4⟩ := h2 hc
    rw [h4 _ hout _ (Or.inl hu), h4 _ hout _ (Or.inl hu)]; exact ⟨rfl, by simp⟩

/-- **C46, the exception.** The unrestricted GGA potential reads slots of its work array that were never assigned:
undefined behaviour by the rules of the language, on every input. -/
theorem C46_unrestricted_gga_undefined (K : Kernel V) (hK : K.Local) (hKr : K.reads = DV.reads)
    (h : List (Call V)) (s₀ s : State V) (hr : run State.init h = .ok s₀) (m o : ℤ)
    (hset : evalSetup s₀ Vars.A_B_2ND_TAYLOR.code m o = .ok (0, s)) (hu : UnrestrictedGga s .A_B_2ND_TAYLOR m)
    (input output : List V) (hin : 20 ≤ input.length) (hout : 3 ≤ output.length) :
    xcfunEval K none s input output = .ub := by
  obtain ⟨e, hwf, hord, hsuf, hpot⟩ := setup_facts hr hset
  have hvars : s.vars = some .A_B_2ND_TAYLOR := by rw [e]
  have hmode : s.mode = POTENTIAL := by rw [e]; exact hu.1
  have hl : Vars.len .A_B_2ND_TAYLOR = 20 := by decide
  have hx : ∀ i < Vars.len .A_B_2ND_TAYLOR, input[i]? = some (input.getD i 0) := fun i hi => by
    simp [List.getD, List.getElem?_eq_getElem (show i < input.length by omega)]
  have hR : Ready K .A_B_2ND_TAYLOR input (fun i => input.getD i 0) :=
    ⟨hK, ⟨_, by rw [hKr]; rfl⟩, by decide, hx⟩
  have hg : s.depends &&& GRADIENT ≠ 0 := (and_gradient _).2 ((needs_iff hwf 1).1 hu.2.2)
  have h2 : (potentialShape (Vars.len .A_B_2ND_TAYLOR)).1 = 2 := by decide
  rw [xcfunEval_potential hvars hmode, evalPotential,
    evalPotentialLda_ok hR (by decide) none s (by rw [h2]; omega), Outcome.ok_bind, if_pos hg, if_neg (by simp),
    evalPotentialGgaAB]
  obtain ⟨m1, e1, s1, r1⟩ := seed4_ok (x := fun i => input.getD i 0) hx (by decide) (fresh none 2) (off := 0)
    (k := dirX) (by decide) (by decide) (by decide) (by decide) (by decide)
  obtain ⟨m2, e2, s2, r2⟩ := seed4_ok (x := fun i => input.getD i 0) hx (by decide) m1 (off := 10)
    (k := dirX) (by decide) (by decide) (by decide) (by decide) (by decide)
  obtain ⟨m3, e3, s3, r3⟩ := zeroHessian_ok m2
  have e4 : putCoef m3 (1 + 10 * 0) VAR1 1 = .ok (upd m3 1 ((m3 1).set VAR1 (some 1))) := rfl
  have hk : ((upd m3 1 ((m3 1).set VAR1 (some 1))) 14).known = false := by
    have : upd m3 1 ((m3 1).set VAR1 (some (1 : V))) 14 = fresh (none : Junk V) 2 14 := by
      rw [show upd m3 1 ((m3 1).set VAR1 (some (1 : V))) 14 = m3 14 from rfl, r3 14 (by omega), r2 14 (by omega),
        r1 14 (by omega)]
    rw [this]; rfl
  have e5 : accumulate K s .A_B_2ND_TAYLOR (upd m3 1 ((m3 1).set VAR1 (some 1))) 0 = .ub := by
    rw [accumulate, hKr]
    simp only [DV.reads, List.all_cons, hk, Bool.false_and, Bool.and_false]
    rfl
  have e6 : ∀ o, ggaSpinBody K s .A_B_2ND_TAYLOR input 0 (fresh none 2, o) = .ub := by
    intro o
    simp only [ggaSpinBody, e1, e2, e3, e4, e5, Outcome.ok_bind, Outcome.ub_bind]
  rw [forLoop, e6]
  rfl

end

/-- **C21 is false as users expect it**: setup accepts these, evaluation aborts.  (Order 4 of partial derivatives;
fully polarised variables with gradient components; an undocumented mode.) -/
theorem C21_full_claim_false (j : (N : ℕ) → ℕ → CT ℝ N) :
    ∀ c ∈ [(Vars.A_B_GAA_GAB_GBB, PARTIAL_DERIVATIVES, (4 : ℤ)), (.A_AX_AY_AZ, PARTIAL_DERIVATIVES, 1),
        (.A_B_GAA_GAB_GBB, 4, 1)],
      ∃ s, evalSetup { (State.init : State ℝ) with active := [5], depends := 3 } c.1.code c.2.1 c.2.2 = .ok (0, s) ∧
        ∀ input output : List ℝ, 100 ≤ input.length → 200 ≤ output.length →
          xcfunEval codeKernel (some j) s input output = .die := by
  intro c hc
  have hx : ∀ (input : List ℝ), 100 ≤ input.length → ∀ n ≤ 20, ∀ i < n, input[i]? = some (input.getD i 0) := by
    intro input hi n hn i hin
    simp [List.getD, List.getElem?_eq_getElem (show i < input.length by omega)]
  simp only [List.mem_cons, List.not_mem_nil, or_false] at hc
  rcases hc with rfl | rfl | rfl
  · refine ⟨_, rfl, fun input output _ _ => ?_⟩
    simp [xcfunEval, evalPartial, PARTIAL_DERIVATIVES, MODE_UNSET]
  · refine ⟨_, rfl, fun input output hi _ => ?_⟩
    have := evalOrder1_die (K := codeKernel) (v := .A_AX_AY_AZ) rfl (by decide) (by decide)
      (hx input hi (Vars.len .A_AX_AY_AZ) (by decide)) (some j)
    simp only [xcfunEval, evalPartial, PARTIAL_DERIVATIVES, MODE_UNSET]
    simp [this _ _ (by decide)]
  · refine ⟨_, rfl, fun input output _ _ => ?_⟩
    simp [xcfunEval, PARTIAL_DERIVATIVES, CONTRACTED, POTENTIAL, MODE_UNSET]


theorem uses_any {v : Vars} {p : ℕ → Bool} {m : ℕ} {par : ℕ → ℝ}
    (hd : ∀ f, densvars par v = some f → ∀ fld, coveredB m fld = true → (f fld).usesOnly p = true)
    {id : ℕ} (hid : ∀ k < 5, (dependsOf id ||| 8).testBit k = true → m.testBit k = true) :
    (fullExpr par v id).usesOnly p = true := by
  unfold fullExpr
  cases hf : densvars par v with
  | none => rfl
  | some f =>
    cases he : Fun.energy id with
    | none => rfl
    | some e =>
      have hu : e.usesOnly (coveredB (dependsOf id ||| 8)) = true := by
        have := checkAll_spec (p := fun i => coveredB (dependsOf i ||| 8)) (i := 0) (k := id) he
          (by rw [declared_44]; simp)
        simpa using this
      refine Expr.usesOnly_subst (p := coveredB (dependsOf id ||| 8)) (fun fld hc => ?_) e hu
      refine hd f hf fld ?_
      unfold coveredB at hc ⊢
      cases hq : quantity fld with
      | none => rfl
      | some k =>
        rw [hq] at hc
        refine hid k ?_ hc
        cases fld <;> simp [quantity] at hq <;> omega

/-- **C46, the values read never matter.** In exact arithmetic, for every accepted configuration (including the
unrestricted GGA potential) the outcome does not depend on the contents of uninitialised storage. -/
theorem C46_contents_irrelevant (h : List (Call ℝ)) (s₀ s : State ℝ) (hr : run State.init h = .ok s₀) (v : Vars)
    (m o : ℤ) (hset : evalSetup s₀ v.code m o = .ok (0, s)) (j j' : (N : ℕ) → ℕ → CT ℝ N)
    (input output : List ℝ) (hin : needIn v m o ≤ input.length) (hout : needOut v m o ≤ output.length) :
    xcfunEval codeKernel (some j) s input output = xcfunEval codeKernel (some j') s input output := by
  by_cases hu : UnrestrictedGga s v m
  · obtain ⟨e, hwf, hord, hsuf, hpot⟩ := setup_facts hr hset
    obtain ⟨rfl, rfl, hn⟩ := hu
    have hvars : s.vars = some .A_B_2ND_TAYLOR := by rw [e]
    have hmode : s.mode = POTENTIAL := by rw [e]
    have hl : Vars.len .A_B_2ND_TAYLOR = 20 := by decide
    have hin' : 20 ≤ input.length := hin
    have hout' : 3 ≤ output.length := hout
    have hx : ∀ i < Vars.len .A_B_2ND_TAYLOR, input[i]? = some (input.getD i 0) := fun i hi => by
      simp [List.getD, List.getElem?_eq_getElem (show i < input.length by omega)]
    have hR : Ready codeKernel .A_B_2ND_TAYLOR input (fun i => input.getD i 0) :=
      ⟨codeKernel_local, ⟨_, rfl⟩, by decide, hx⟩
    have hg : s.depends &&& GRADIENT ≠ 0 := (and_gradient _).2 ((needs_iff hwf 1).1 hn)
    have h2 : (potentialShape (Vars.len .A_B_2ND_TAYLOR)).1 = 2 := by decide
    have hd : ∀ f, densvars s.settings .A_B_2ND_TAYLOR = some f → ∀ fld, coveredB 11 fld = true →
        (f fld).usesOnly slotsAB = true := by
      intro f hf fld hc
      simp only [densvars, DV.select, DV.selectFrom, Option.map_some, Option.some.injEq] at hf
      subst hf
      cases fld <;> first | rfl | exact absurd hc (by decide)
    have hU : (sumExpr s .A_B_2ND_TAYLOR).usesOnly slotsAB = true := by
      refine sumExpr_usesOnly fun id hid => uses_any hd fun k hk hb => ?_
      have hneed : ∀ k, (dependsOf id).testBit k = true → Needs s k := fun k hb =>
        (needs_iff hwf k).2 ((WF.depends_testBit hwf k).2 ⟨id, hid, hb⟩)
      rw [Nat.testBit_or, Bool.or_eq_true] at hb
      rcases hb with hb | hb
      · have hs := (carries_iff _ _).1 (hsuf k (hneed k hb))
        have h2 : k ≠ 2 := by rintro rfl; exact (hpot rfl).1 (hneed 2 hb)
        interval_cases k <;> first | rfl | exact absurd rfl h2 | exact absurd hs (by decide)
      · interval_cases k <;> first | rfl | exact absurd hb (by decide)
    have hgg : ∀ q (c1 c2 : ℕ → CT ℝ 2), ggaAB codeKernel s .A_B_2ND_TAYLOR (fun i => input.getD i 0) c1 q =
        ggaAB codeKernel s .A_B_2ND_TAYLOR (fun i => input.getD i 0) c2 q := by
      intro q c1 c2
      have hone : ∀ k g, (sumExpr s .A_B_2ND_TAYLOR).evalCT (seedAB (fun i => input.getD i 0) c1 k g) =
          (sumExpr s .A_B_2ND_TAYLOR).evalCT (seedAB (fun i => input.getD i 0) c2 k g) := by
        intro k g
        refine Expr.evalCT_congr (fun i hi => ?_) _ hU
        simp only [slotsAB, Bool.or_eq_true, Bool.and_eq_true, decide_eq_true_eq] at hi
        unfold seedAB
        rcases hi with hi | hi
        · rw [if_pos hi, if_pos hi]
        · rw [if_neg (by omega), if_neg (by omega), if_pos hi.2, if_neg (by omega), if_neg (by omega), if_pos hi.2]
      unfold ggaAB
      rw [total_add, total_add s _ (total codeKernel s _ 0 _), total_eq, total_eq, total_eq, hone, hone, hone,
        ← total_eq, ← total_eq, ← total_eq, ← total_add, ← total_add]
    have hrl : (resPot codeKernel s .A_B_2ND_TAYLOR (fun i => input.getD i 0)).length = 3 := by
      simp [resPot, h2]
    obtain ⟨e0, e1, e2, hres⟩ : ∃ e0 e1 e2,
        resPot codeKernel s .A_B_2ND_TAYLOR (fun i => input.getD i 0) = [e0, e1, e2] := by
      match resPot codeKernel s .A_B_2ND_TAYLOR (fun i => input.getD i 0), hrl with
      | [a, b, c], _ => exact ⟨a, b, c, rfl⟩
    have key : ∀ j, xcfunEval codeKernel (some j) s input output = .ok
        ((([e0, e1, e2] ++ output.drop [e0, e1, e2].length).set 1
          (e1 - (ggaAB codeKernel s .A_B_2ND_TAYLOR (fun i => input.getD i 0) (fun _ => 0) 0).get 3)).set 2
          (e2 - (ggaAB codeKernel s .A_B_2ND_TAYLOR (fun i => input.getD i 0) (fun _ => 0) 1).get 3)) := by
      intro j
      rw [xcfunEval_potential hvars hmode, evalPotential,
        evalPotentialLda_ok hR (by decide) (some j) s (by rw [h2]; omega), Outcome.ok_bind, if_pos hg, if_neg (by simp),
        splice_zero, hres, evalPotentialGgaAB_ok (e1 := e1) (e2 := e2) hR (by decide) j s rfl rfl,
        hgg 0 (j 2) (fun _ => 0), hgg 1 (j 2) (fun _ => 0)]
    rw [key j, key j']
  · rw [(C46_nothing_uninitialised_read codeKernel codeKernel_local rfl h s₀ s hr v m o hset hu (some j) input output
      hin hout).1, (C46_nothing_uninitialised_read codeKernel codeKernel_local rfl h s₀ s hr v m o hset hu (some j')
      input output hin hout).1]

/-- The exception occurs: PBE exchange, unrestricted potential. -/
example : ∃ s₀ s : State ℝ, run State.init [.set "pbex" 1] = .ok s₀ ∧
    evalSetup s₀ Vars.A_B_2ND_TAYLOR.code POTENTIAL 1 = .ok (0, s) ∧ UnrestrictedGga s .A_B_2ND_TAYLOR POTENTIAL := by
  refine ⟨_, _, rfl, rfl, rfl, rfl, 5, ?_, ?_⟩
  · simp
  · exact ⟨_, rfl, by decide⟩

end XCFun.Props
