/-
C35, C37, C42: what the results depend on.
-/
import Verif.Proofs.Depends
import Verif.Proofs.EvalReal
import Verif.Proofs.EvalSimp
import Verif.Props.Setup
import Verif.Props.Output

namespace XCFun.Props
open XCFun Spec

/-! ## C37 -/

/-- **C37**, for every functional except REVTPSSX (number 44), see `C37_revtpssx_undeclared`.
The energy of a functional and all its derivatives (any number `N` of variables of the expansion)
depend only on the density variables of the quantities that the functional declares. -/
theorem C37_declared_dependencies_partial {id : ℕ} (h44 : id ≠ 44) {e : Expr Field}
    (he : Fun.energy id = some e) {N : ℕ} (ρ ρ' : Field → CT ℝ N)
    (h : ∀ f, covered (dependsOf id) f → ρ f = ρ' f) : e.evalCT ρ = e.evalCT ρ' :=
  Expr.evalCT_congr (fun f hf => h f ((coveredB_iff _ _).mp hf)) e (declared_uses he h44)

/-- The hypotheses can be met by different arguments: PBEX (number 5) ignores the kinetic energy
density. -/
example (ρ : Field → CT ℝ 2) : ∃ e, Fun.energy 5 = some e ∧
    e.evalCT ρ = e.evalCT (fun f => if f = .taua then 1 else ρ f) := by
  refine ⟨_, rfl, C37_declared_dependencies_partial (id := 5) (by decide) rfl _ _ fun f hf => ?_⟩
  have : f ≠ .taua := by
    rintro rfl
    exact absurd ((coveredB_iff _ _).mpr hf) (by decide)
  rw [if_neg this]

/-- **C37**: a configuration accepted by setup never evaluates a functional on missing data.
Let `w`, `w'` be any two contents of the members of `densvars` before its constructor runs (the
code has zeros there).  If the variable set carries everything functional `id` declares, both
give the same energy and derivatives, so only members assigned from the input are used.
Exceptions: REVTPSSX, and `XC_A`, `XC_A_GAA` (`C35_fully_polarised_input_ignored`). -/
theorem C37_no_missing_data_partial {id : ℕ} (h44 : id ≠ 44) {e : Expr Field}
    (he : Fun.energy id = some e) {v : Vars} (hA : v ≠ .A ∧ v ≠ .A_GAA)
    (hs : ∀ k, (dependsOf id).testBit k = true → Carries v k)
    (w w' u u' : DV ℕ) (hu : DV.selectFrom w v = some u) (hu' : DV.selectFrom w' v = some u')
    (par : ℕ → ℝ) {N : ℕ} (ins : ℕ → CT ℝ N) :
    e.evalCT (fun f => (u.finish.field par f).evalCT ins) =
      e.evalCT (fun f => (u'.finish.field par f).evalCT ins) := by
  refine C37_declared_dependencies_partial h44 he _ _ fun f hf => ?_
  rw [selectFrom_assigned hu hu' par (f := f) (fun k hk => ?_) (fun h => absurd h (by tauto))]
  exact (carries_iff v k).mp (hs k (hf k hk))

/-- Non-trivial case: PBE exchange with `A_B_GAA_GAB_GBB`, whatever the kinetic energy member
contained. -/
example (ins : ℕ → CT ℝ 1) (x : ℝ) (par : ℕ → ℝ) : ∃ e, Fun.energy 5 = some e ∧
    ∀ u u', DV.selectFrom { taua := .lit x } .A_B_GAA_GAB_GBB = some u →
      DV.selectFrom {} .A_B_GAA_GAB_GBB = some u' →
      e.evalCT (fun f => (u.finish.field par f).evalCT ins) =
        e.evalCT (fun f => (u'.finish.field par f).evalCT ins) := by
  refine ⟨_, rfl, fun u u' hu hu' => C37_no_missing_data_partial (id := 5) (by decide) rfl
    (by decide) (fun k hk => ?_) _ _ _ _ hu hu' par ins⟩
  rw [carries_iff]
  have : dependsOf 5 = 3 := by decide
  have h2 : Vars.provides .A_B_GAA_GAB_GBB = 3 := by decide
  rw [h2]
  rwa [this] at hk

/-- **C37, REVTPSSX exactly.** REVTPSSX declares density and gradient; the one quantity it uses in addition is the kinetic energy density
(bit 3): its energy and all its derivatives depend on nothing else. -/
theorem C37_revtpssx_uses {N : ℕ} (ρ ρ' : Field → CT ℝ N)
    (h : ∀ f, covered (DENSITY ||| GRADIENT ||| KINETIC) f → ρ f = ρ' f) :
    Fun.energy 44 = some Fun.revtpssx ∧ Fun.revtpssx.evalCT ρ = Fun.revtpssx.evalCT ρ' := by
  refine ⟨rfl, Expr.evalCT_congr (fun f hf => h f ((coveredB_iff _ _).mp hf)) Fun.revtpssx ?_⟩
  have := checkAll_spec (p := fun i => coveredB (dependsOf i ||| 8)) (i := 0) (k := 44) (es := Fun.energies) (e := Fun.revtpssx) rfl
    (by rw [declared_44]; simp)
  exact this

/-- Different Laplacians give the same value. -/
example (ρ : Field → CT ℝ 2) : Fun.revtpssx.evalCT ρ = Fun.revtpssx.evalCT (fun f => if f = .lapa then 1 else ρ f) := by
  refine (C37_revtpssx_uses _ _ fun f hf => ?_).2
  have : f ≠ .lapa := by
    rintro rfl
    exact absurd ((coveredB_iff _ _).mpr hf) (by decide)
  rw [if_neg this]

/-- The constant `0.3 * (3 pi^2)^(2/3)` of the uniform kinetic energy density (revtpssx_eps.hpp:36). -/
noncomputable def cTau : ℝ := 0.3 * Fun.kF2

/-- Input of an open shell with density 1/2 in each spin, no gradient, and kinetic energy
densities `t`. -/
noncomputable def polInput (t : ℝ) (i : ℕ) : ℝ := if i < 2 then 1 / 2 else if i < 5 then 0 else t

/-- REVTPSSX declares density and gradient only. -/
theorem C37_revtpssx_declares : dependsOf 44 = DENSITY ||| GRADIENT := by decide

theorem kF2_pos : 0 < Fun.kF2 := by
  unfold Fun.kF2 Fun.PI2
  have := Real.pi_pos
  positivity

/-- The enhancement factor of REVTPSSX at density 1, no gradient and kinetic energy density
`cTau * k`. -/
theorem revtpssx_F (k : ℝ) (ρ : Field → ℝ) (x g t : Expr Field) (hx : x.evalR ρ = 1) (hg : g.evalR ρ = 0)
    (ht : t.evalR ρ = cTau * k) :
    (Fun.revtpssx_F_x x g t).evalR ρ =
      1 + 0.804 - 0.804 / (1 + 146 * (9 * (k - 1) / (20 * √(1 + 0.40 * k * (k - 1)))) ^ 2 / 2025 / 0.804) := by
  have hk := kF2_pos
  have e1 : cTau * k / (0.3 * Fun.kF2) = k := by
    unfold cTau
    field_simp
  simp only [Fun.revtpssx_F_x, Fun.revtpssx_x, Expr.evalR_add, Expr.evalR_sub, Expr.evalR_mul,
    Expr.evalR_div, Expr.evalR_lit, Expr.evalR_one, Expr.evalR_ofNat, Expr.evalR_sqrt,
    Expr.evalR_pow, Expr.evalR_pow2, Expr.evalR_pow3, hx, hg, ht, Real.one_rpow, zero_div, sub_zero,
    mul_one, zero_mul, mul_zero, e1, zero_add, add_zero, ne_eq, OfNat.ofNat_ne_zero,
    not_false_eq_true, zero_pow, div_one]

/-- **C37 is false of REVTPSSX**: two inputs that agree in everything REVTPSSX declares (densities
and gradients) and differ in the kinetic energy density give different energies. -/
theorem C37_revtpssx_undeclared (par : ℕ → ℝ) :
    (fullExpr par .A_B_GAA_GAB_GBB_TAUA_TAUB 44).evalR (polInput (cTau / 2)) ≠
      (fullExpr par .A_B_GAA_GAB_GBB_TAUA_TAUB 44).evalR (polInput cTau) := by
  have key : ∀ t k : ℝ, 2 * t = cTau * k →
      (fullExpr par .A_B_GAA_GAB_GBB_TAUA_TAUB 44).evalR (polInput t) =
        (-3) * cbrt (3 * Fun.PI2) / (4 * Real.pi) *
        (1 + 0.804 - 0.804 / (1 + 146 * (9 * (k - 1) / (20 * √(1 + 0.40 * k * (k - 1)))) ^ 2 / 2025 / 0.804)) := by
    intro t k htk
    have e : fullExpr par .A_B_GAA_GAB_GBB_TAUA_TAUB 44 = Fun.revtpssx.subst
        (((DV.caseABTau {}).caseABGrad.caseABAt 0 1).finish.field par) := rfl
    rw [e, Expr.evalR_subst']
    set ρ : Field → ℝ := fun i =>
      (((DV.caseABTau {}).caseABGrad.caseABAt 0 1).finish.field par i).evalR (polInput t) with hρ
    have ha : ρ .a = 1 / 2 := by
      show (if (1 / 2 : ℝ) < 1e-14 then (1e-14 : ℝ) else 1 / 2) = 1 / 2
      norm_num
    have hb : ρ .b = 1 / 2 := by
      show (if (1 / 2 : ℝ) < 1e-14 then (1e-14 : ℝ) else 1 / 2) = 1 / 2
      norm_num
    have hgaa : ρ .gaa = 0 := rfl
    have hgbb : ρ .gbb = 0 := rfl
    have hta : ρ .taua = t := rfl
    have htb : ρ .taub = t := rfl
    have f1 := revtpssx_F k ρ (2 * Fun.d.a) (4 * Fun.d.gaa) (2 * Fun.d.taua)
      (by show 2 * ρ .a = 1; rw [ha]; norm_num) (by show 4 * ρ .gaa = 0; rw [hgaa]; norm_num)
      (by show 2 * ρ .taua = _; rw [hta, htk])
    have f2 := revtpssx_F k ρ (2 * Fun.d.b) (4 * Fun.d.gbb) (2 * Fun.d.taub)
      (by show 2 * ρ .b = 1; rw [hb]; norm_num) (by show 4 * ρ .gbb = 0; rw [hgbb]; norm_num)
      (by show 2 * ρ .taub = _; rw [htb, htk])
    have d1 : Fun.d.a.evalR ρ = 1 / 2 := ha
    have d2 : Fun.d.b.evalR ρ = 1 / 2 := hb
    simp only [Fun.revtpssx, Expr.evalR_add, Expr.evalR_mul, f1, f2, Fun.revtpss_epsx_unif,
      Expr.evalR_div, Expr.evalR_cbrt, Expr.evalR_lit, Expr.evalR_ofNat, Expr.evalR_neg, d1, d2]
    rw [show (2 : ℝ) * (1 / 2) = 1 by norm_num, mul_one]
    ring
  rw [key (cTau / 2) 1 (by ring), key cTau 2 (by ring)]
  have h1 : (0.804 : ℝ) / (1 + 146 * (9 * (1 - 1) / (20 * √(1 + 0.40 * 1 * (1 - 1)))) ^ 2 / 2025 / 0.804) = 0.804 := by
    norm_num
  have h2 : (146 * (9 * (2 - 1) / (20 * √(1 + 0.40 * 2 * (2 - 1)))) ^ 2 / 2025 / 0.804 : ℝ) = 73 / 7236 := by
    have : √(1 + 0.40 * 2 * (2 - 1) : ℝ) ^ 2 = 1.8 := by rw [Real.sq_sqrt] <;> norm_num
    rw [div_pow, mul_pow, mul_pow, this]
    norm_num
  rw [h1, h2]
  have hc : (-3) * cbrt (3 * Fun.PI2) / (4 * Real.pi) ≠ 0 := by
    have hp := Real.pi_pos
    have h3 : (0 : ℝ) < 3 * Fun.PI2 := by unfold Fun.PI2; positivity
    have : 0 < cbrt (3 * Fun.PI2) := by
      rw [cbrt, if_pos h3.le]; positivity
    have h4 : (-3) * cbrt (3 * Fun.PI2) ≠ 0 := mul_ne_zero (by norm_num) this.ne'
    exact div_ne_zero h4 (by positivity)
  intro h
  have := mul_left_cancel₀ hc h
  norm_num at this

/-- ... and setup accepts REVTPSSX with a variable set without kinetic energy density. -/
theorem C37_revtpssx_accepted : ∃ s : State Rat,
    run State.init [.set "revtpssx" 1, .evalSetup Vars.A_B_GAA_GAB_GBB.code PARTIAL_DERIVATIVES 1] = .ok s ∧
    s.vars = some .A_B_GAA_GAB_GBB ∧ s.active = [44] ∧ ¬ Carries .A_B_GAA_GAB_GBB 3 := by
  refine ⟨_, rfl, rfl, by decide +kernel, fun h => ?_⟩
  rw [carries_iff] at h
  revert h; decide

/-! ## C35 -/

/-- The combined expression of `XC_A` and `XC_A_GAA` does not mention slot 0. -/
theorem polarised_uses {v : Vars} (hv : v = .A ∨ v = .A_GAA) (par : ℕ → ℝ) (id : ℕ) :
    (fullExpr par v id).usesOnly (fun i => i != 0) = true := by
  unfold fullExpr
  cases he : Fun.energy id with
  | none => rcases hv with rfl | rfl <;> rfl
  | some e =>
    rcases hv with rfl | rfl <;>
      exact Expr.usesOnly_subst (p := fun _ => true) (fun f _ => by cases f <;> rfl) e
        (Expr.usesOnly_true e)

theorem sumExpr_usesOnly {p : ℕ → Bool} {s : State ℝ} {v : Vars}
    (h : ∀ id ∈ s.active, (fullExpr s.settings v id).usesOnly p = true) : (sumExpr s v).usesOnly p = true := by
  unfold sumExpr
  have : ∀ (l : List ℕ) (e : Expr ℕ), (∀ id ∈ l, (fullExpr s.settings v id).usesOnly p = true) →
      e.usesOnly p = true →
      (l.foldl (fun out id => out.add (.mul (.lit (s.settings id)) (fullExpr s.settings v id)))
        e).usesOnly p = true := by
    intro l
    induction l with
    | nil => exact fun e _ he => he
    | cons a l ih =>
      intro e hl he
      exact ih _ (fun id hid => hl id (List.mem_cons_of_mem _ hid)) (by simp [Expr.usesOnly, he, hl a])
  exact this _ _ h rfl

/-- **C35 is false of the code**: with `XC_A` or `XC_A_GAA` the energy does not depend on the density
`x 0`, ... -/
theorem C35_density_ignored {v : Vars} (hv : v = .A ∨ v = .A_GAA) (s : State ℝ) (x : ℕ → ℝ) (t : ℝ) :
    energyAt s v (Function.update x 0 t) = energyAt s v x := by
  unfold energyAt
  refine congrArg _ (List.map_congr_left fun id _ => ?_)
  congr 1
  exact Expr.evalR_congr (p := fun i => i != 0)
    (fun i hi => by rw [Function.update_of_ne (by simpa using hi)]) _ (polarised_uses hv _ _)

/-- ... nor do the derivatives: changing the expansion given for the density (value and seeds) changes no
coefficient of the result, ... -/
theorem C35_seeds_ignored {v : Vars} (hv : v = .A ∨ v = .A_GAA) (s : State ℝ) {N : ℕ} (ins : ℕ → CT ℝ N)
    (t : CT ℝ N) : energyOn s v (Function.update ins 0 t) = energyOn s v ins := by
  unfold energyOn
  refine congrArg _ (List.map_congr_left fun id _ => ?_)
  congr 1
  exact Expr.evalCT_congr (p := fun i => i != 0)
    (fun i hi => by rw [Function.update_of_ne (by simpa using hi)]) _ (polarised_uses hv _ _)

/-- ... and two inputs that differ in the density give the same output of `xcfun_eval` in
partial-derivative mode, at every order, for every combination of functionals. -/
theorem C35_eval_ignores_density {v : Vars} (hv : v = .A ∨ v = .A_GAA) (s : State ℝ) (hs : s.vars = some v)
    (hm : s.mode = PARTIAL_DERIVATIVES) (ho : 0 ≤ s.order ∧ s.order ≤ 3) (x y : ℝ) (rest output : List ℝ)
    (junk : Junk ℝ) (hl : rest.length + 1 = v.len) (n : ℕ) (hn : outputLength s = .ok (n : ℤ))
    (hout : n ≤ output.length) :
    xcfunEval codeKernel junk s (x :: rest) output = xcfunEval codeKernel junk s (y :: rest) output := by
  have hsup : DV.reads v ≠ none := by rcases hv with rfl | rfl <;> simp [DV.reads]
  obtain ⟨k, hk⟩ : ∃ k : ℕ, s.order = k := ⟨s.order.toNat, by omega⟩
  have hk3 : k ≤ 3 := by omega
  have hx : ∀ (x : ℝ), ∀ i < v.len, (x :: rest)[i]? = some ((x :: rest).getD i 0) := fun x i hi => by
    simp [List.getD, List.getElem?_eq_getElem (show i < (x :: rest).length by simpa [hl] using hi)]
  have hu : ∀ i, (i != 0) = true → (x :: rest).getD i 0 = (y :: rest).getD i 0 := by
    intro i hi
    cases i with
    | zero => simp at hi
    | succ i => rfl
  set X := fun i => (x :: rest).getD i 0
  set Y := fun i => (y :: rest).getD i 0
  have hU : (sumExpr s v).usesOnly (fun i => i != 0) = true := sumExpr_usesOnly fun id _ => polarised_uses hv _ id
  have e0 : energyR s v X = energyR s v Y := Expr.evalR_congr hu _ hU
  have e1 : D1 s v X = D1 s v Y := by
    funext i
    exact congrArg (fun t => CT.get t 1) (Expr.evalCT_congr (fun j hj => by simp only [seed1, show X j = Y j from hu j hj]) _ hU)
  have e2 : D2 s v X = D2 s v Y := by
    funext i j
    exact congrArg (fun t => CT.get t 3) (Expr.evalCT_congr (fun j hj => by simp only [seed2, show X j = Y j from hu j hj]) _ hU)
  have e3 : D3 s v X = D3 s v Y := by
    funext i j k
    exact congrArg (fun t => CT.get t 7) (Expr.evalCT_congr (fun j hj => by simp only [seed3, seed2, show X j = Y j from hu j hj]) _ hU)
  have hlen : ∀ Z, (layout v.len k (energyR s v Z) (D1 s v Z) (D2 s v Z) (D3 s v Z)).length ≤
      output.length := by
    intro Z
    have h1 : ¬ (PARTIAL_DERIVATIVES = MODE_UNSET) := by decide
    have h2 : ¬ ((k : ℤ) = -1) := by omega
    simp only [outputLength, hm, h1, hs, hk, h2, if_false, if_true] at hn
    have := outlen_eq v hk3 (energyR s v Z) (D1 s v Z) (D2 s v Z) (D3 s v Z)
    rw [hn] at this
    have := Outcome.ok.inj this
    omega
  rw [xcfunEval_partial hs hm ho.1, xcfunEval_partial hs hm ho.1,
    evalPartial_layout junk hsup (hx x) hk hk3 (hlen X), evalPartial_layout junk hsup (hx y) hk hk3 (hlen Y),
    e0, e1, e2, e3]

/-- Slater exchange of the fully polarised densities 1 and 5. -/
example : xcfunEval codeKernel none { sampleState 1 1 .A with active := [0] } [1] [0, 0] =
    xcfunEval codeKernel none { sampleState 1 1 .A with active := [0] } [5] [0, 0] :=
  C35_eval_ignores_density (Or.inl rfl) _ rfl rfl (by simp [sampleState]) 1 5 [] [0, 0] none rfl 2 rfl
    (by decide)

/-! ## C42 -/

/-- **C42.** Changing the parameter `p` of an object in any way (`XC_RANGESEP_MU` = 78, `XC_EXX` = 79,
`XC_CAM_ALPHA` = 80, `XC_CAM_BETA` = 81) changes nothing in the outcome of `xcfun_eval`, in any mode, on
any buffers and whatever uninitialised memory contains, unless one of the functionals in `readers p`
is active.  In particular `XC_EXX` never matters. -/
theorem C42_parameter_locality (s : State ℝ) (hact : ∀ id ∈ s.active, id < 78) (p : ℕ) (hp : 78 ≤ p)
    (hr : ∀ id ∈ s.active, id ∉ readers p) (value : ℝ) (junk : Junk ℝ) (input output : List ℝ) :
    xcfunEval codeKernel junk (setParameter s p value) input output =
      xcfunEval codeKernel junk s input output := by
  refine (xcfunEval_congr (fun id hid => ?_) (fun id hid v N ins => ?_) junk input output).symm
  · have := hact id hid
    simp only [upd]
    rw [if_neg (by omega)]
  · show codeFp _ _ _ _ _ = codeFp _ _ _ _ _
    unfold codeFp densvars
    cases DV.select v with
    | none => rfl
    | some w =>
      cases he : Fun.energy id with
      | none => rfl
      | some e =>
        dsimp only [Option.map_some]
        refine Expr.evalCT_congr (fun f hf => ?_) e (param_uses he (hr id hid))
        cases f <;> try rfl
        rename_i q
        have hq : q ≠ p := by simpa using hf
        simp only [DV.field, upd, if_neg hq]

theorem C42_exx_never_matters (s : State ℝ) (hact : ∀ id ∈ s.active, id < 78) (value : ℝ) (junk : Junk ℝ)
    (input output : List ℝ) :
    xcfunEval codeKernel junk (setParameter s 79 value) input output =
      xcfunEval codeKernel junk s input output :=
  C42_parameter_locality s hact 79 (by decide) (fun _ _ => by simp [readers]) value junk input output

example (input output : List ℝ) :
    xcfunEval codeKernel none (setParameter (sampleState 2 1 .A_B_GAA_GAB_GBB) 78 0.7) input output =
      xcfunEval codeKernel none (sampleState 2 1 .A_B_GAA_GAB_GBB) input output :=
  C42_parameter_locality _ (by simp [sampleState]) 78 (by decide) (by simp [sampleState, readers]) _ _ _ _

end XCFun.Props
