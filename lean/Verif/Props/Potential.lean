/-
C20: the GGA potential.
-/
import Verif.Proofs.Regular
import Verif.Props.Accepted

namespace XCFun.Props
open XCFun Spec
open scoped ContDiff

/-- Which slots the energy of an object set up for potentials can read. -/
theorem potential_uses {h : List (Call ℝ)} {s₀ s : State ℝ} (hr : run State.init h = .ok s₀) {v : Vars} {o : ℤ}
    (hset : evalSetup s₀ v.code POTENTIAL o = .ok (0, s)) (h44 : 44 ∉ s.active)
    (h4 : v.provides.testBit 4 = false) {m : ℕ} {p : ℕ → Bool} (h0 : m.testBit 0 = true)
    (h1 : Needs s 1 → m.testBit 1 = true)
    (hd : ∀ f, densvars s.settings v = some f → ∀ fld, coveredB m fld = true → (f fld).usesOnly p = true) :
    (sumExpr s v).usesOnly p = true := by
  obtain ⟨e, hwf, hord, hsuf, hpot⟩ := setup_facts hr hset
  refine sumExpr_usesOnly fun id hid => full_uses hd (by rintro rfl; exact h44 hid) fun k hk hb => ?_
  have hn : Needs s k := (needs_iff hwf k).2 ((WF.depends_testBit hwf k).2 ⟨id, hid, hb⟩)
  have hs := (carries_iff _ _).1 (hsuf k hn)
  interval_cases k
  · exact h0
  · exact h1 hn
  · exact absurd hn (hpot rfl).1
  · exact absurd hn (hpot rfl).2.1
  · rw [h4] at hs; cases hs

/-- The same including REVTPSSX (id 44), which reads the kinetic energy without declaring it: enough when the
kinetic energy of the variables is a constant. -/
theorem potential_uses_any {h : List (Call ℝ)} {s₀ s : State ℝ} (hr : run State.init h = .ok s₀) {v : Vars} {o : ℤ}
    (hset : evalSetup s₀ v.code POTENTIAL o = .ok (0, s))
    (h4 : v.provides.testBit 4 = false) {m : ℕ} {p : ℕ → Bool} (h0 : m.testBit 0 = true)
    (h1 : Needs s 1 → m.testBit 1 = true) (h3 : m.testBit 3 = true)
    (hd : ∀ f, densvars s.settings v = some f → ∀ fld, coveredB m fld = true → (f fld).usesOnly p = true) :
    (sumExpr s v).usesOnly p = true := by
  obtain ⟨e, hwf, hord, hsuf, hpot⟩ := setup_facts hr hset
  refine sumExpr_usesOnly fun id hid => uses_any hd fun k hk hb => ?_
  rw [Nat.testBit_or, Bool.or_eq_true] at hb
  rcases hb with hb | hb
  · have hn : Needs s k := (needs_iff hwf k).2 ((WF.depends_testBit hwf k).2 ⟨id, hid, hb⟩)
    have hs := (carries_iff _ _).1 (hsuf k hn)
    interval_cases k
    · exact h0
    · exact h1 hn
    · exact absurd hn (hpot rfl).1
    · exact h3
    · rw [h4] at hs; cases hs
  · interval_cases k <;> first | exact h3 | exact absurd hb (by decide)

theorem resPot_N (s : State ℝ) (x : ℕ → ℝ) (hx : RegularAt s .N_2ND_TAYLOR x) :
    resPot codeKernel s .N_2ND_TAYLOR x =
      [energyAt s .N_2ND_TAYLOR x, pderiv 0 (energyAt s .N_2ND_TAYLOR) x] := by
  have h1 : potentialShape (Vars.len .N_2ND_TAYLOR) = (1, 0) := by decide
  have := coef1_pderiv (n := 20) (sumExpr_reg hx) (i := 0) (by omega)
  unfold resPot
  simp only [h1, total_eq]
  rw [← energyR_eq, energyAt_fun, ← this, run1_all]
  simp [run1_all]
  rfl

theorem resPot_AB (s : State ℝ) (x : ℕ → ℝ) (hx : RegularAt s .A_B_2ND_TAYLOR x) :
    resPot codeKernel s .A_B_2ND_TAYLOR x =
      [energyAt s .A_B_2ND_TAYLOR x, pderiv 0 (energyAt s .A_B_2ND_TAYLOR) x,
        pderiv 10 (energyAt s .A_B_2ND_TAYLOR) x] := by
  have h1 : potentialShape (Vars.len .A_B_2ND_TAYLOR) = (2, 10) := by decide
  have e0 := coef1_pderiv (n := 20) (sumExpr_reg hx) (i := 0) (by omega)
  have e1 := coef1_pderiv (n := 20) (sumExpr_reg hx) (i := 10) (by omega)
  unfold resPot
  simp only [h1, total_eq]
  rw [← energyR_eq, energyAt_fun, ← e0, ← e1, run1_all]
  simp [run1_all, List.range_succ]
  rfl

/-- **C20, restricted.** An object set up with `xcfun_eval_setup(XC_N_2ND_TAYLOR, XC_POTENTIAL, ·)`, evaluated on
the second-order expansion of a smooth density field `ρ` at `r`, writes the energy density and the functional
derivative `dE/dn - div (dE/d∇n)` of that field at `r`, and nothing else.  (REVTPSSX, id 44, reads a kinetic energy
that it does not declare and that this variable set takes from `d²n/dx²`: it is excluded.) -/
theorem C20_restricted_potential (h : List (Call ℝ)) (s₀ s : State ℝ) (hr : run State.init h = .ok s₀) (o : ℤ)
    (hset : evalSetup s₀ Vars.N_2ND_TAYLOR.code POTENTIAL o = .ok (0, s)) (h44 : 44 ∉ s.active)
    (ρ : Space → ℝ) (r : Space) (hρ : ContDiffAt ℝ ∞ ρ r) (hx : RegularAt s .N_2ND_TAYLOR (expansion ρ r))
    (rest output : List ℝ) (junk : Junk ℝ) (ho : 2 ≤ output.length) :
    xcfunEval codeKernel junk s ((List.range 10).map (expansion ρ r) ++ rest) output = .ok
      ([energyAt s .N_2ND_TAYLOR (expansion ρ r),
        functionalDerivative (energyAt s .N_2ND_TAYLOR) (expansion ρ) 0 r] ++ output.drop 2) := by
  obtain ⟨e, hwf, hord, hsuf, hpot⟩ := setup_facts hr hset
  have hvars : s.vars = some .N_2ND_TAYLOR := by rw [e]
  have hmode : s.mode = POTENTIAL := by rw [e]
  have hR : Ready codeKernel .N_2ND_TAYLOR ((List.range 10).map (expansion ρ r) ++ rest) (expansion ρ r) := by
    refine ⟨codeKernel_local, ⟨_, rfl⟩, by decide, fun i hi => ?_⟩
    have hi : i < 10 := hi
    rw [List.getElem?_append_left (by simpa using hi)]; simp [hi]
  have h1 : potentialShape (Vars.len .N_2ND_TAYLOR) = (1, 0) := by decide
  rw [xcfunEval_potential hvars hmode, evalPotential,
    evalPotentialLda_ok hR (by decide) junk s (by rw [h1]; omega), Outcome.ok_bind, splice_zero, resPot_N s _ hx]
  by_cases hg : s.depends &&& GRADIENT ≠ 0
  · have hu := potential_uses hr hset h44 (by decide) (m := 3) (by decide) (fun _ => by decide)
      (dens_slotsN s.settings)
    rw [if_pos hg, if_pos (Or.inr rfl), evalPotentialGgaN_ok hR (by decide) junk s rfl,
      ggaN_eq hu hρ (sumExpr_reg hx)]
    rfl
  · have hn : ¬ Needs s 1 := fun hn => hg ((and_gradient _).2 ((needs_iff hwf 1).1 hn))
    have hu := potential_uses hr hset h44 (by decide) (m := 1) (by decide) (fun h => absurd h hn)
      (dens_densN s.settings)
    rw [if_neg hg, energyAt_fun, div_unused hu (off := 0) (by decide)]
    rfl

/-- **C20, unrestricted.** The same with `XC_A_B_2ND_TAYLOR` and two smooth density fields: the energy density, the
functional derivative with respect to the alpha density and the one with respect to the beta density.  (By C46 the
code reads uninitialised storage on the way; the result does not depend on its contents `j`.) -/
theorem C20_unrestricted_potential (h : List (Call ℝ)) (s₀ s : State ℝ) (hr : run State.init h = .ok s₀) (o : ℤ)
    (hset : evalSetup s₀ Vars.A_B_2ND_TAYLOR.code POTENTIAL o = .ok (0, s))
    (a b : Space → ℝ) (r : Space) (ha : ContDiffAt ℝ ∞ a r) (hb : ContDiffAt ℝ ∞ b r)
    (hx : RegularAt s .A_B_2ND_TAYLOR (expansion2 a b r))
    (rest output : List ℝ) (j : (N : ℕ) → ℕ → CT ℝ N) (ho : 3 ≤ output.length) :
    xcfunEval codeKernel (some j) s ((List.range 20).map (expansion2 a b r) ++ rest) output = .ok
      ([energyAt s .A_B_2ND_TAYLOR (expansion2 a b r),
        functionalDerivative (energyAt s .A_B_2ND_TAYLOR) (expansion2 a b) 0 r,
        functionalDerivative (energyAt s .A_B_2ND_TAYLOR) (expansion2 a b) 10 r] ++ output.drop 3) := by
  obtain ⟨e, hwf, hord, hsuf, hpot⟩ := setup_facts hr hset
  have hvars : s.vars = some .A_B_2ND_TAYLOR := by rw [e]
  have hmode : s.mode = POTENTIAL := by rw [e]
  have hR : Ready codeKernel .A_B_2ND_TAYLOR ((List.range 20).map (expansion2 a b r) ++ rest)
      (expansion2 a b r) := by
    refine ⟨codeKernel_local, ⟨_, rfl⟩, by decide, fun i hi => ?_⟩
    have hi : i < 20 := hi
    rw [List.getElem?_append_left (by simpa using hi)]; simp [hi]
  have h1 : potentialShape (Vars.len .A_B_2ND_TAYLOR) = (2, 10) := by decide
  rw [xcfunEval_potential hvars hmode, evalPotential,
    evalPotentialLda_ok hR (by decide) (some j) s (by rw [h1]; omega), Outcome.ok_bind, splice_zero, resPot_AB s _ hx]
  by_cases hg : s.depends &&& GRADIENT ≠ 0
  · have hu := potential_uses_any hr hset (by decide) (m := 11) (p := slotsAB) (by decide) (fun _ => by decide)
      (by decide) (by
        intro f hf fld hc
        simp only [densvars, DV.select, DV.selectFrom, Option.map_some, Option.some.injEq] at hf
        subst hf
        cases fld <;> first | rfl | exact absurd hc (by decide))
    rw [if_pos hg, if_neg (by simp), evalPotentialGgaAB_ok hR (by decide) j s rfl rfl]
    have g0 := ggaAB_eq hu ha hb (sumExpr_reg hx) (j 2) 0
    have g1 := ggaAB_eq hu ha hb (sumExpr_reg hx) (j 2) 1
    simp only [Nat.mul_zero, Nat.mul_one] at g0 g1
    rw [g0, g1]
    rfl
  · have hn : ¬ Needs s 1 := fun hn => hg ((and_gradient _).2 ((needs_iff hwf 1).1 hn))
    have hu := potential_uses_any hr hset (by decide) (m := 9) (p := densAB) (by decide) (fun h => absurd h hn)
      (by decide) (by
        intro f hf fld hc
        simp only [densvars, DV.select, DV.selectFrom, Option.map_some, Option.some.injEq] at hf
        subst hf
        cases fld <;> first | rfl | exact absurd hc (by decide))
    rw [if_neg hg, energyAt_fun, div_unused hu (off := 0) (by decide), div_unused hu (off := 10) (by decide)]
    rfl

/-- The quadratic field with the given second-order expansion at the origin. -/
noncomputable def quadratic (x : ℕ → ℝ) (y : Space) : ℝ :=
  x 0 + x 1 * y 0 + x 2 * y 1 + x 3 * y 2 + x 4 / 2 * y 0 ^ 2 + x 5 * (y 0 * y 1) + x 6 * (y 0 * y 2) +
    x 7 / 2 * y 1 ^ 2 + x 8 * (y 1 * y 2) + x 9 / 2 * y 2 ^ 2

theorem deriv_quad (a b c t : ℝ) : deriv (fun u : ℝ => a + b * u + c * u ^ 2) t = b + 2 * c * t := by
  have h1 := ((hasDerivAt_id t).const_mul b).const_add a
  have h2 := ((hasDerivAt_id t).pow 2).const_mul c
  have h3 : HasDerivAt (fun u : ℝ => a + b * u + c * u ^ 2) _ t := h1.add h2
  rw [h3.deriv]
  simp; ring

theorem pderiv_quad {f : Space → ℝ} (i : Fin 3) (y : Space) (a b c : ℝ)
    (h : ∀ t, f (Function.update y i t) = a + b * t + c * t ^ 2) : pderiv i f y = b + 2 * c * y i := by
  unfold pderiv
  rw [show (fun t => f (Function.update y i t)) = fun t => a + b * t + c * t ^ 2 from funext h]
  exact deriv_quad a b c (y i)

theorem quadratic_expansion (x : ℕ → ℝ) : ∀ i < 10, expansion (quadratic x) 0 i = x i := by
  have p0 : pderiv 0 (quadratic x) = fun y => x 1 + x 4 * y 0 + x 5 * y 1 + x 6 * y 2 := by
    funext y
    rw [pderiv_quad 0 y (x 0 + x 2 * y 1 + x 3 * y 2 + x 7 / 2 * y 1 ^ 2 + x 8 * (y 1 * y 2) + x 9 / 2 * y 2 ^ 2)
      (x 1 + x 5 * y 1 + x 6 * y 2) (x 4 / 2)]
    · ring
    · intro t; simp [quadratic, Function.update]; ring
  have p1 : pderiv 1 (quadratic x) = fun y => x 2 + x 5 * y 0 + x 7 * y 1 + x 8 * y 2 := by
    funext y
    rw [pderiv_quad 1 y (x 0 + x 1 * y 0 + x 3 * y 2 + x 4 / 2 * y 0 ^ 2 + x 6 * (y 0 * y 2) + x 9 / 2 * y 2 ^ 2)
      (x 2 + x 5 * y 0 + x 8 * y 2) (x 7 / 2)]
    · ring
    · intro t; simp [quadratic, Function.update]; ring
  have p2 : pderiv 2 (quadratic x) = fun y => x 3 + x 6 * y 0 + x 8 * y 1 + x 9 * y 2 := by
    funext y
    rw [pderiv_quad 2 y (x 0 + x 1 * y 0 + x 2 * y 1 + x 4 / 2 * y 0 ^ 2 + x 5 * (y 0 * y 1) + x 7 / 2 * y 1 ^ 2)
      (x 3 + x 6 * y 0 + x 8 * y 1) (x 9 / 2)]
    · ring
    · intro t; simp [quadratic, Function.update]; ring
  have q : ∀ (i : Fin 3) (a b : ℝ) (f : Space → ℝ),
      (∀ t, f (Function.update 0 i t) = a + b * t + 0 * t ^ 2) → pderiv i f 0 = b := by
    intro i a b f h
    rw [pderiv_quad i 0 a b 0 h]; simp
  intro i hi
  interval_cases i
  · simp [expansion, quadratic]
  · simp [expansion, p0]
  · simp [expansion, p1]
  · simp [expansion, p2]
  · simp only [expansion, p0]; exact q 0 (x 1) _ _ (by intro t; simp [Function.update])
  · simp only [expansion, p1]; exact q 0 (x 2) _ _ (by intro t; simp [Function.update])
  · simp only [expansion, p2]; exact q 0 (x 3) _ _ (by intro t; simp [Function.update])
  · simp only [expansion, p1]; exact q 1 (x 2) _ _ (by intro t; simp [Function.update])
  · simp only [expansion, p2]; exact q 1 (x 3) _ _ (by intro t; simp [Function.update])
  · simp only [expansion, p2]; exact q 2 (x 3) _ _ (by intro t; simp [Function.update])

/-- Every input vector of potential mode is the expansion of a smooth field, so C20 speaks about all of them. -/
theorem C20_every_input_is_an_expansion (x : ℕ → ℝ) :
    ∃ (ρ : Space → ℝ) (r : Space), ContDiffAt ℝ ∞ ρ r ∧
      (List.range 10).map (expansion ρ r) = (List.range 10).map x := by
  refine ⟨quadratic x, 0, ?_, ?_⟩
  · have : ∀ i : Fin 3, ContDiff ℝ ∞ (fun y : Space => y i) := fun i => contDiff_apply ℝ ℝ i
    refine ContDiff.contDiffAt ?_
    unfold quadratic
    have h0 := this 0
    have h1 := this 1
    have h2 := this 2
    fun_prop
  · exact List.map_congr_left fun i hi => quadratic_expansion x i (by simpa using hi)

/-- The von Weizsäcker kinetic energy is regular wherever the density exceeds the threshold. -/
theorem vwk_regular (par : ℕ → ℝ) {x : ℕ → ℝ} (h0 : 1e-14 < x 0) :
    (fullExpr par .N_2ND_TAYLOR 59).Reg x := by
  have e : fullExpr par .N_2ND_TAYLOR 59 =
      Fun.vW.subst (((DV.caseN2nd {}).caseTauNAt 4).caseNXyz.caseN.finish.field par) := rfl
  rw [e]
  have hp : (0 : ℝ) < x 0 := lt_trans (by norm_num) h0
  refine Expr.Reg_subst (p := fun f => f == .a || f == .b || f == .gaa || f == .gbb) (fun i hi => ?_) _ rfl ?_
  · cases i <;> try cases hi
    all_goals simp [DV.field, DV.finish, DV.caseN, DV.caseNXyz, DV.closedGrad, h0]
  · simp [Fun.vW, Fun.vW_alpha, Fun.d, DV.field, DV.finish, DV.caseN, DV.caseNXyz, DV.closedGrad, not_lt.2 h0.le]
    exact ⟨by norm_num, hp.ne'⟩

/-- The von Weizsäcker functional through the API: for every smooth field above the threshold the hypotheses of C20
hold. -/
example (ρ : Space → ℝ) (r : Space) (hρ : ContDiffAt ℝ ∞ ρ r) (h0 : 1e-14 < ρ r) (junk : Junk ℝ) :
    ∃ s₀ s : State ℝ, run State.init [.set "vwk" 1] = .ok s₀ ∧
      evalSetup s₀ Vars.N_2ND_TAYLOR.code POTENTIAL 1 = .ok (0, s) ∧ Needs s 1 ∧
      xcfunEval codeKernel junk s ((List.range 10).map (expansion ρ r)) [0, 0] = .ok
        [energyAt s .N_2ND_TAYLOR (expansion ρ r),
          functionalDerivative (energyAt s .N_2ND_TAYLOR) (expansion ρ) 0 r] := by
  refine ⟨_, _, rfl, rfl, ⟨59, by simp, _, rfl, by decide⟩, ?_⟩
  have := C20_restricted_potential [.set "vwk" 1] _ _ rfl 1 rfl (by simp [State.init]) ρ r hρ (fun id hid => by
    obtain rfl : id = 59 := by simpa [State.init] using hid
    exact vwk_regular _ h0) [] [0, 0] junk (by simp)
  simpa using this

end XCFun.Props
