/-
**C52.** The energies of the functionals are those of the published formulas.

`Spec/Literature.lean` and `Spec/LiteratureMeta.lean` hold the formulas as they appear in the papers, `Spec/LiteratureTable.lean` lists them by
functional id, `Spec/Gas.lean` says which densities an input describes. 70 of the 78 functionals are covered. SPBEC, TW, REVTPSSC, REVTPSSX
and CSC evaluate something else than published (`Spec/LiteratureDiffer.lean`); BRX, BRC and BRXC are compared in C58.
-/
import Verif.Proofs.LitTable
import Verif.Proofs.LitDiffer
import Verif.Props.CorrSign
import Mathlib.Analysis.Real.Pi.Bounds

namespace XCFun.Props
open XCFun Spec Lit

theorem gasAt_pos {v : Vars} (hv : ¬ Unsupported v) (hA : v ≠ .A ∧ v ≠ .A_GAA) {x : ℕ → ℝ}
    (hx : ∀ y ∈ densities (1 / 2) x v, threshold ≤ y) : 0 < (gasAt v x).a ∧ 0 < (gasAt v x).b := by
  have ht : (0 : ℝ) < threshold := by norm_num [threshold]
  cases v <;> first
    | exact absurd (by decide) hv
    | exact absurd rfl hA.1
    | exact absurd rfl hA.2
    | (simp only [densities, densSlots, List.map_cons, List.map_nil, List.forall_mem_cons, List.not_mem_nil, false_imp_iff, implies_true, and_true] at hx
       simp only [gasAt, given, spinFields, withTotals]
       constructor <;> linarith)

/-- The density variables that `xcfun_eval` computes from input above the threshold are those of the gas described by the input. Variable sets with
total and spin density and without gradient components (`Doubled`) are excluded. -/
theorem memberR_isGas (par : ℕ → ℝ) {v : Vars} (hv : ¬ Unsupported v) (hA : v ≠ .A ∧ v ≠ .A_GAA) (hD : ¬ Doubled v) {x : ℕ → ℝ}
    (hx : ∀ y ∈ densities (1 / 2) x v, threshold ≤ y) : IsGas (memberR par v x) (gasAt v x) := by
  obtain ⟨ha, hb⟩ := gasAt_pos hv hA hx
  have e : ∀ f, IsDensity f ∨ IsOther f → memberR par v x f = given (1 / 2) x v f := fun f hf => memberR_given par hv hA hx hf
  obtain ⟨dz, dr, dm, da, db, -⟩ := memberR_derived par hv x
  have en : given (1 / 2) x v .n = given (1 / 2) x v .a + given (1 / 2) x v .b := (given_consistent hv hA hD x).sum.symm
  have es : given (1 / 2) x v .s = given (1 / 2) x v .a - given (1 / 2) x v .b := (given_consistent hv hA hD x).diff.symm
  have other : given (1 / 2) x v .gnn = given (1 / 2) x v .gaa + 2 * given (1 / 2) x v .gab + given (1 / 2) x v .gbb ∧
      given (1 / 2) x v .gns = given (1 / 2) x v .gaa - given (1 / 2) x v .gbb ∧
      given (1 / 2) x v .gss = given (1 / 2) x v .gaa - 2 * given (1 / 2) x v .gab + given (1 / 2) x v .gbb ∧
      given (1 / 2) x v .tau = given (1 / 2) x v .taua + given (1 / 2) x v .taub := by
    refine ⟨?_, ?_, ?_, ?_⟩ <;> cases v <;> first
      | exact absurd (by decide) hv
      | exact absurd rfl hA.1
      | exact absurd rfl hA.2
      | rfl
  obtain ⟨o1, o2, o3, o4⟩ := other
  constructor
  · exact ha
  · exact hb
  all_goals try simp only [dz, dr, dm, da, db]
  all_goals simp (discharger := simp [IsDensity, IsOther]) only [e, en, es, o1, o2, o3, o4]
  all_goals rfl

/-- Input for the variables with gradients and kinetic energy densities. -/
def inputOf (g : Gas) (i : ℕ) : ℝ := [g.a, g.b, g.gaa, g.gab, g.gbb, g.taua, g.taub].getD i 0

theorem isGas_input (par : ℕ → ℝ) (g : Gas) (ha : threshold ≤ g.a) (hb : threshold ≤ g.b) :
    IsGas (memberR par .A_B_GAA_GAB_GBB_TAUA_TAUB (inputOf g)) g := by
  refine memberR_isGas par (v := .A_B_GAA_GAB_GBB_TAUA_TAUB) (x := inputOf g) (by decide) (by decide) (by simp [Doubled]) fun y hy => ?_
  simp only [densities, densSlots, List.map_cons, List.map_nil, List.mem_cons, List.not_mem_nil, or_false] at hy
  rcases hy with rfl | rfl <;> assumption

/-- **C52.** Each functional with an entry in the table evaluates the published formula. -/
theorem C52_published {ρ : Field → ℝ} {g : Gas} (h : IsGas ρ g) {id : ℕ} {F : Formula} {e : Expr Field} (hF : published[id]? = some (some F))
    (he : Fun.energy id = some e) (hd : F.domain ⟨ρ (.param 78), ρ (.param 80), ρ (.param 81)⟩ g) :
    e.evalR ρ = F.energy ⟨ρ (.param 78), ρ (.param 80), ρ (.param 81)⟩ g := by
  have := Fun.energy_published h id hF hd
  rwa [he] at this

/-- PBE exchange for two different spin densities. -/
example : Fun.pbex.evalR (memberR (fun _ => 0) .A_B_GAA_GAB_GBB_TAUA_TAUB (inputOf ⟨1, 8, 4, -2, 1, 3, 5⟩)) = pbeX ⟨1, 8, 4, -2, 1, 3, 5⟩ :=
  C52_published (id := 5) (isGas_input _ _ (by norm_num [threshold]) (by norm_num [threshold])) rfl rfl trivial

/-- **C52, coverage.** Every functional id has an entry, and those without a formula are BRX, BRC, BRXC, SPBEC, TW, REVTPSSC, REVTPSSX and CSC. -/
theorem C52_coverage (id : ℕ) (hid : id < 78) :
    (∃ F e, published[id]? = some (some F) ∧ Fun.energy id = some e) ∨ id ∈ [10, 11, 12, 21, 25, 43, 44, 66] := by
  interval_cases id <;> first
    | exact .inl ⟨_, _, rfl, rfl⟩
    | exact .inr (by decide)

/-- The published energy of a functional, zero without entry. -/
noncomputable def publishedEnergy (q : Par) (g : Gas) (id : ℕ) : ℝ :=
  match published[id]? with
  | some (some F) => F.energy q g
  | _ => 0

/-- The settings that enter functionals: `rangesep_mu`, `cam_alpha`, `cam_beta`. -/
def parSet (s : State ℝ) : Par := ⟨s.settings 78, s.settings 80, s.settings 81⟩

/-- The published energy of an object: the weighted sum of those of its functionals. -/
noncomputable def publishedSum (s : State ℝ) (g : Gas) : ℝ := (s.active.map fun id => s.settings id * publishedEnergy (parSet s) g id).sum

/-- All functionals of the object have a published formula that covers the gas. -/
def Covered (s : State ℝ) (g : Gas) : Prop := ∀ id ∈ s.active, ∃ F, published[id]? = some (some F) ∧ F.domain (parSet s) g

theorem energyAt_published (s : State ℝ) {v : Vars} (hv : ¬ Unsupported v) (hA : v ≠ .A ∧ v ≠ .A_GAA) (hD : ¬ Doubled v) {x : ℕ → ℝ}
    (hx : ∀ y ∈ densities (1 / 2) x v, threshold ≤ y) (hs : Covered s (gasAt v x)) : energyAt s v x = publishedSum s (gasAt v x) := by
  rw [energyAt_members s hv]
  have hp := (memberR_derived s.settings hv x).2.2.2.2.2
  unfold publishedSum
  congr 1
  refine List.map_congr_left fun id hid => ?_
  obtain ⟨F, hF, hd⟩ := hs id hid
  have hq : Fun.parOf (memberR s.settings v x) = parSet s := by
    rw [Fun.parOf, hp, hp, hp]; rfl
  have := Fun.energy_published (memberR_isGas s.settings hv hA hD hx) id hF (by rw [hq]; exact hd)
  rw [this, hq, publishedEnergy, hF]

/-- **C52, `xcfun_eval`.** An object of covered functionals returns the weighted sum of the published energies of the gas described by the input;
the range separation and attenuation are those set in the object. -/
theorem C52_eval (s : State ℝ) {v : Vars} (hv : ¬ Unsupported v) (hA : v ≠ .A ∧ v ≠ .A_GAA) (hD : ¬ Doubled v)
    (hvs : s.vars = some v) (hm : s.mode = PARTIAL_DERIVATIVES) (ho : s.order = 0) {x : ℕ → ℝ}
    (hx : ∀ y ∈ densities (1 / 2) x v, threshold ≤ y) (hs : Covered s (gasAt v x)) (junk : Junk ℝ) (out : ℝ) :
    xcfunEval codeKernel junk s ((List.range v.len).map x) [out] = .ok [publishedSum s (gasAt v x)] := by
  rw [eval_order0 s hv hvs hm ho x junk out, energyAt_published s hv hA hD hx hs]

/-- A hybrid with range separation: short-range Becke exchange, LYP correlation and TPSS exchange, evaluated for a given gas. -/
example : ∃ s₀ s : State ℝ, run State.init [.set "beckesrx" 0.5, .set "lypc" 0.25, .set "tpssx" 2, .set "rangesep_mu" 3] = .ok s₀ ∧
    evalSetup s₀ Vars.A_B_GAA_GAB_GBB_TAUA_TAUB.code PARTIAL_DERIVATIVES 0 = .ok (0, s) ∧
    xcfunEval codeKernel none s [1, 8, 4, -2, 200, 3, 5] [0] = .ok [0.5 * b88srX ⟨1, 8, 4, -2, 200, 3, 5⟩ 3 +
      (0.25 * lypC ⟨1, 8, 4, -2, 200, 3, 5⟩ + 2 * tpssX ⟨1, 8, 4, -2, 200, 3, 5⟩)] := by
  obtain ⟨s₀, s, hr, hset⟩ : ∃ s₀ s : State ℝ, run State.init [.set "beckesrx" 0.5, .set "lypc" 0.25, .set "tpssx" 2, .set "rangesep_mu" 3] = .ok s₀ ∧
    evalSetup s₀ Vars.A_B_GAA_GAB_GBB_TAUA_TAUB.code PARTIAL_DERIVATIVES 0 = .ok (0, s) := ⟨_, _, rfl, rfl⟩
  refine ⟨s₀, s, hr, hset, ?_⟩
  obtain ⟨e, -⟩ := setup_facts hr hset
  have hl : (lit 0 0 : ℝ) = 0 := by simp [lit, XCFun.Lit.lit]
  have hs₀ : s₀.active = [8, 16, 42] ∧ s₀.settings 8 = lit 0 0 + 0.5 ∧ s₀.settings 16 = lit 0 0 + 0.25 ∧ s₀.settings 42 = lit 0 0 + 2 ∧
      s₀.settings 78 = 3 := by
    cases hr
    exact ⟨rfl, rfl, rfl, rfl, rfl⟩
  obtain ⟨i0, i1, i2, i3, i4⟩ := hs₀
  have hact : s.active = [8, 16, 42] := by rw [e]; exact i0
  have h8 : s.settings 8 = 0.5 := by rw [e]; refine i1.trans ?_; rw [hl, zero_add]
  have h16 : s.settings 16 = 0.25 := by rw [e]; refine i2.trans ?_; rw [hl, zero_add]
  have h42 : s.settings 42 = 2 := by rw [e]; refine i3.trans ?_; rw [hl, zero_add]
  have h78 : s.settings 78 = 3 := by rw [e]; exact i4
  have key := C52_eval s (v := .A_B_GAA_GAB_GBB_TAUA_TAUB) (x := inputOf ⟨1, 8, 4, -2, 200, 3, 5⟩) (by decide) (by decide) (by simp [Doubled])
    (by rw [e]) (by rw [e]) (by rw [e])
    (by
      intro y hy
      simp only [densities, densSlots, List.map_cons, List.map_nil, List.mem_cons, List.not_mem_nil, or_false] at hy
      rcases hy with rfl | rfl <;> norm_num [threshold, inputOf])
    (by
      unfold Covered; rw [hact]; intro id hid
      simp only [List.mem_cons, List.not_mem_nil, or_false] at hid
      rcases hid with rfl | rfl | rfl
      · refine ⟨_, rfl, ?_, ?_⟩
        · show (0.5 : ℝ) ≤ Lit.chiSq 1 4
          simp only [Lit.chiSq]; norm_num
        · show (0.5 : ℝ) ≤ Lit.chiSq 8 200
          have : ((8 : ℝ) ^ (4 / 3 : ℝ)) = 16 := by
            rw [show (8 : ℝ) = 2 ^ (3 : ℝ) by norm_num, ← Real.rpow_mul (by norm_num)]; norm_num
          simp only [Lit.chiSq, this]; norm_num
      · exact ⟨_, rfl, trivial⟩
      · exact ⟨_, rfl, ⟨show (0 : ℝ) ≤ 4 by norm_num, show (0 : ℝ) ≤ 200 by norm_num⟩, show (0 : ℝ) < 3 by norm_num, show (0 : ℝ) < 5 by norm_num⟩)
    none 0
  refine key.trans ?_
  rw [publishedSum, parSet, hact, List.map_cons, List.map_cons, List.map_cons, List.map_nil, List.sum_cons, List.sum_cons, List.sum_cons, List.sum_nil, add_zero, h8, h16,
    h42, h78]
  rfl

/-! ### Functionals that depart from the publication -/

/-- **C52, TW.** The code squares `gaa + gbb` where the von Weizsaecker energy has `|∇n|²`. -/
theorem C52_tw {ρ : Field → ℝ} {g : Gas} (h : IsGas ρ g) :
    Fun.tw.evalR ρ = twKCode g ∧ (Fun.tw.evalR ρ = twK g ↔ (g.gaa + g.gbb) ^ 2 = g.gnn) := ⟨Fun.lit_tw h, Fun.tw_iff h⟩

/-- Two equal spin densities: 1/32 where 1/8 is published. -/
example : Fun.tw.evalR (memberR (fun _ => 0) .A_B_GAA_GAB_GBB_TAUA_TAUB (inputOf ⟨1 / 2, 1 / 2, 1 / 4, 1 / 4, 1 / 4, 1, 1⟩)) = 1 / 32 ∧
    twK ⟨1 / 2, 1 / 2, 1 / 4, 1 / 4, 1 / 4, 1, 1⟩ = 1 / 8 := by
  rw [(C52_tw (isGas_input _ _ (by norm_num [threshold]) (by norm_num [threshold]))).1]
  norm_num [twKCode, twK, Lit.tauW, Gas.n, Gas.gnn]

/-- **C52, SPBEC.** The code exchanges `β` and `γ`, and has `β/γ` for `γ` in the exponent; the energies differ for small gradients. -/
theorem C52_spbec {ρ : Field → ℝ} {g : Gas} (h : IsGas ρ g) (ha : 0 ≤ g.gaa) (hb : 0 ≤ g.gbb) (hg : 0 < g.gnn) :
    Fun.spbec.evalR ρ = spbeC g 0.031091 0.066725 (0.031091 / 0.066725) 1.92366105093154 ∧
    ((0.066725 / 0.031091 / (Real.exp (-vwn5Eps g 1.92366105093154 / (0.031091 * Lit.phi g.zeta ^ 3)) - 1) + 0.066725 / 0.031091) *
      tSq g.n g.zeta g.gnn ≤ 1 → Fun.spbec.evalR ρ ≠ spbeC g 0.066725 0.031091 0.031091 1.92366105093154) :=
  ⟨Fun.lit_spbec h, fun hs => (Fun.spbec_lt h ha hb hg hs).ne⟩

/-- There are gradients that small, at any density. -/
example : ∃ u : ℝ, 0 < u ∧ Fun.spbec.evalR (memberR (fun _ => 0) .A_B_GAA_GAB_GBB_TAUA_TAUB (inputOf ⟨1, 1, u, u, u, 1, 1⟩)) ≠
    spbeC ⟨1, 1, u, u, u, 1, 1⟩ 0.066725 0.031091 0.031091 1.92366105093154 := by
  let c : ℝ := 0.066725 / 0.031091 / (Real.exp (-vwn5Eps ⟨1, 1, 0, 0, 0, 1, 1⟩ 1.92366105093154 / (0.031091 * Lit.phi 0 ^ 3)) - 1) + 0.066725 / 0.031091
  let K : ℝ := (2 * Lit.phi 0 * ks 2 * 2) ^ 2
  have hK : 0 < K := by
    have h1 : Lit.phi 0 = 1 := by norm_num [Lit.phi, pol]
    have : 0 < ks 2 := by unfold ks kF; positivity
    simp only [K, h1]; positivity
  have hu : 0 < K / (4 * (|c| + 1)) := by positivity
  refine ⟨K / (4 * (|c| + 1)), hu, ?_⟩
  set u := K / (4 * (|c| + 1)) with hu'
  refine (C52_spbec (isGas_input _ ⟨1, 1, u, u, u, 1, 1⟩ (by norm_num [threshold]) (by norm_num [threshold])) hu.le hu.le
    (show 0 < u + 2 * u + u by positivity)).2 ?_
  have hz : Gas.zeta ⟨1, 1, u, u, u, 1, 1⟩ = 0 := by norm_num [Gas.zeta]
  have hn : Gas.n ⟨1, 1, u, u, u, 1, 1⟩ = 2 := by norm_num [Gas.n]
  have hv : vwn5Eps ⟨1, 1, u, u, u, 1, 1⟩ 1.92366105093154 = vwn5Eps ⟨1, 1, 0, 0, 0, 1, 1⟩ 1.92366105093154 := rfl
  rw [hz, hn, hv]
  show c * tSq 2 0 (u + 2 * u + u) ≤ 1
  have ht : tSq 2 0 (u + 2 * u + u) = 1 / (|c| + 1) := by
    show (u + 2 * u + u) / K = _
    rw [hu']; field_simp; ring
  rw [ht, mul_one_div, div_le_one (by positivity)]
  have := le_abs_self c
  linarith

/-- **C52, REVTPSSC.** The code has the second power of `z = τ_W/τ` where the third is published; it returns more wherever `0 < τ_W < τ`. -/
theorem C52_revtpssc {ρ : Field → ℝ} {g : Gas} (h : IsGas ρ g) (ha : 0 ≤ g.gaa) (hb : 0 ≤ g.gbb) (hg : 0 < g.gnn) (hτ : Lit.tauW g.n g.gnn < g.tau) :
    Fun.revtpssc.evalR ρ = revtpssC g 2 ∧ revtpssC g 3 < Fun.revtpssc.evalR ρ :=
  ⟨Fun.lit_revtpssc h, Fun.revtpssc_lt h ha hb hg hτ⟩

example : revtpssC ⟨1, 1, 1, 1, 1, 1, 1⟩ 3 <
    Fun.revtpssc.evalR (memberR (fun _ => 0) .A_B_GAA_GAB_GBB_TAUA_TAUB (inputOf ⟨1, 1, 1, 1, 1, 1, 1⟩)) :=
  (C52_revtpssc (isGas_input _ _ (by norm_num [threshold]) (by norm_num [threshold])) (by norm_num) (by norm_num) (by norm_num [Gas.gnn])
    (by norm_num [Lit.tauW, Gas.n, Gas.gnn, Gas.tau])).2

/-- **C52, REVTPSSX.** What the code evaluates; it agrees with the publication without gradients. -/
theorem C52_revtpssx {ρ : Field → ℝ} {g : Gas} (h : IsGas ρ g) (ha : 0 ≤ g.gaa) (hb : 0 ≤ g.gbb) :
    Fun.revtpssx.evalR ρ = revtpssXCode g ∧ (g.gaa = 0 → g.gbb = 0 → Fun.revtpssx.evalR ρ = revtpssX g) :=
  ⟨Fun.lit_revtpssx h ha hb, Fun.revtpssx_zero h⟩

/-- **C52, CSC.** The code evaluates the Colle-Salvetti formula with all four parameters equal to 1 (cs.cpp:18-21) and without the Laplacians; the
published parameters are 0.04918, 0.132, 0.2533 and 0.349. -/
theorem C52_csc {ρ : Field → ℝ} {g : Gas} (h : IsGas ρ g) :
    Fun.energy 66 = some Fun.csc ∧ Fun.csc.evalR ρ = colleSalvetti 1 1 1 1 g 0 0 (ρ .jpaa) (ρ .jpbb) := by
  refine ⟨rfl, ?_⟩
  have ha := h.apos
  have hb := h.bpos
  have e : Fun.csc.evalR ρ = -1 * (2 * (1 - (ρ .a * ρ .a + ρ .b * ρ .b) / (ρ .n * ρ .n))) * (ρ .n + 2 * 1 * ρ .n ^ (-5 / 3 : ℝ) *
      (ρ .a * ρ .taua + ρ .b * ρ .taub - 1 / 8 * ρ .gnn - (ρ .jpaa + ρ .jpbb)) * Real.exp (-1 * ρ .n_m13)) / (1 + 1 * ρ .n_m13) := by
    simp only [Fun.csc, Expr.evalR_mul, Expr.evalR_add, Expr.evalR_sub, Expr.evalR_div, Expr.evalR_pow, Expr.evalR_exp, Expr.evalR_lit]
    rfl
  rw [e, h.a, h.b, h.n, h.taua, h.taub, h.gnn, h.n_m13]
  simp only [colleSalvetti, Gas.n, Gas.gnn]
  have hn : g.a + g.b ≠ 0 := by positivity
  have hm : 0 < (g.a + g.b) ^ (-1 / 3 : ℝ) := by positivity
  field_simp
  ring

/-- **C52, CSC, counterexample.** Without gradients, kinetic energy and current the code returns more than seven times the published energy. -/
theorem C52_csc_differs {ρ : Field → ℝ} {g : Gas} (h : IsGas ρ g) (h1 : g.taua = 0) (h2 : g.taub = 0) (h3 : g.gnn = 0) (h4 : ρ .jpaa = 0)
    (h5 : ρ .jpbb = 0) : Fun.csc.evalR ρ < 7 * colleSalvetti 0.04918 0.132 0.2533 0.349 g 0 0 0 0 ∧
      colleSalvetti 0.04918 0.132 0.2533 0.349 g 0 0 0 0 < 0 := by
  rw [(C52_csc h).2, h4, h5]
  have ha := h.apos
  have hb := h.bpos
  have hm : 0 < g.n ^ (-1 / 3 : ℝ) := Real.rpow_pos_of_pos h.npos _
  have hn := h.npos
  have hγ : 0 < 2 * (1 - (g.a ^ 2 + g.b ^ 2) / g.n ^ 2) := by
    have : (g.a ^ 2 + g.b ^ 2) / g.n ^ 2 < 1 := by
      rw [div_lt_one (by positivity)]
      show g.a ^ 2 + g.b ^ 2 < (g.a + g.b) ^ 2
      nlinarith
    linarith
  simp only [colleSalvetti, h1, h2, h3, zero_div, sub_zero, mul_zero, add_zero, zero_mul]
  generalize 2 * (1 - (g.a ^ 2 + g.b ^ 2) / g.n ^ 2) = γ at hγ
  generalize g.n ^ (-1 / 3 : ℝ) = x at hm
  have p1 : 0 < 1 + 1 * x := by linarith
  have p2 : 0 < 1 + 0.349 * x := by linarith
  have hc : 7 * (0.04918 / (1 + 0.349 * x)) < 1 / (1 + 1 * x) := by
    rw [← mul_div_assoc, div_lt_div_iff₀ p2 p1]
    linarith
  have hp : 0 < γ * g.n := by positivity
  constructor
  · have := mul_lt_mul_of_pos_right hc hp
    calc -1 * γ / (1 + 1 * x) * g.n = -(1 / (1 + 1 * x) * (γ * g.n)) := by ring
      _ < -(7 * (0.04918 / (1 + 0.349 * x)) * (γ * g.n)) := by linarith
      _ = _ := by ring
  · have : 0 < 0.04918 / (1 + 0.349 * x) * (γ * g.n) := by positivity
    have e : -0.04918 * γ / (1 + 0.349 * x) * g.n = -(0.04918 / (1 + 0.349 * x) * (γ * g.n)) := by ring
    linarith

/-- The point `a = 1, b = 2` without gradients. -/
example : Fun.csc.evalR (memberR (fun _ => 0) .A_B_GAA_GAB_GBB_TAUA_TAUB (inputOf ⟨1, 2, 0, 0, 0, 0, 0⟩)) <
    7 * colleSalvetti 0.04918 0.132 0.2533 0.349 ⟨1, 2, 0, 0, 0, 0, 0⟩ 0 0 0 0 := by
  have e : ∀ f, IsDensity f ∨ IsOther f → memberR (fun _ => 0) .A_B_GAA_GAB_GBB_TAUA_TAUB (inputOf ⟨1, 2, 0, 0, 0, 0, 0⟩) f =
      given (1 / 2) (inputOf ⟨1, 2, 0, 0, 0, 0, 0⟩) .A_B_GAA_GAB_GBB_TAUA_TAUB f := fun f hf =>
    memberR_given _ (by decide) (by decide) (by norm_num [densities, densSlots, threshold, inputOf]) hf
  exact (C52_csc_differs (isGas_input _ _ (by norm_num [threshold]) (by norm_num [threshold])) rfl rfl (by norm_num [Gas.gnn])
    (e _ (.inr (by simp [IsOther]))) (e _ (.inr (by simp [IsOther])))).1

/-- **C52, CSC, Laplacians.** The energy does not depend on the Laplacians, which the functional declares and the published formula contains. -/
theorem C52_csc_laplacian : (dependsOf 66).testBit 2 = true ∧
    (∀ (ρ : Field → ℝ) (la lb : ℝ), Fun.csc.evalR (fun f => if f = .lapa then la else if f = .lapb then lb else ρ f) = Fun.csc.evalR ρ) ∧
    ∀ (g : Gas) (a b c d ja jb : ℝ), 0 < g.a → 0 < g.b → 0 < a → 0 < b → 0 ≤ d →
      colleSalvetti a b c d g 1 1 ja jb ≠ colleSalvetti a b c d g 0 0 ja jb := by
  refine ⟨by decide, fun ρ la lb => rfl, fun g a b c d ja jb ha hb pa pb pd => ?_⟩
  have hn : 0 < g.n := add_pos ha hb
  have hx : 0 < g.n ^ (-1 / 3 : ℝ) := Real.rpow_pos_of_pos hn _
  have hγ : 0 < 2 * (1 - (g.a ^ 2 + g.b ^ 2) / g.n ^ 2) := by
    have : (g.a ^ 2 + g.b ^ 2) / g.n ^ 2 < 1 := by
      rw [div_lt_one (by positivity)]
      show g.a ^ 2 + g.b ^ 2 < (g.a + g.b) ^ 2
      nlinarith
    linarith
  have key : colleSalvetti a b c d g 1 1 ja jb - colleSalvetti a b c d g 0 0 ja jb =
      -(a * (2 * (1 - (g.a ^ 2 + g.b ^ 2) / g.n ^ 2)) / (1 + d * g.n ^ (-1 / 3 : ℝ)) *
        (2 * b * g.n ^ (-5 / 3 : ℝ) * (g.n / 8) * Real.exp (-c * g.n ^ (-1 / 3 : ℝ)))) := by
    simp only [colleSalvetti]
    have : g.a = g.n - g.b := by simp [Gas.n]
    rw [this]
    ring
  intro hc
  rw [hc, sub_self] at key
  have : 0 < a * (2 * (1 - (g.a ^ 2 + g.b ^ 2) / g.n ^ 2)) / (1 + d * g.n ^ (-1 / 3 : ℝ)) *
      (2 * b * g.n ^ (-5 / 3 : ℝ) * (g.n / 8) * Real.exp (-c * g.n ^ (-1 / 3 : ℝ))) := by positivity
  linarith

example : colleSalvetti 0.04918 0.132 0.2533 0.349 ⟨1, 1, 0, 0, 0, 1, 1⟩ 1 1 0 0 ≠ colleSalvetti 0.04918 0.132 0.2533 0.349 ⟨1, 1, 0, 0, 0, 1, 1⟩ 0 0 0 0 :=
  C52_csc_laplacian.2.2 _ _ _ _ _ _ _ (by norm_num) (by norm_num) (by norm_num) (by norm_num) (by norm_num)

/-- **C52, REVTPSSX, counterexample.** With gradients it does not agree. -/
theorem C52_revtpssx_differs : ∃ g : Gas, 0 < g.taua ∧ 0 < g.taub ∧ ∀ par,
    Fun.revtpssx.evalR (memberR par .A_B_GAA_GAB_GBB_TAUA_TAUB (inputOf g)) ≠ revtpssX g := by
  have hT : 0 < tauTF 1 := by unfold tauTF; positivity
  refine ⟨⟨1 / 2, 1 / 2, 1 / 4, 1 / 4, 1 / 4, (1 / 8 + tauTF 1) / 2, (1 / 8 + tauTF 1) / 2⟩, by positivity, by positivity, fun par => ?_⟩
  exact (Fun.revtpssx_lt (isGas_input _ _ (by norm_num [threshold]) (by norm_num [threshold])) rfl rfl rfl rfl rfl rfl).ne

/-! ### Constants of the code that stand for closed forms -/

theorem root3 {x y e : ℝ} (hx : 0 ≤ x) (hy : 0 ≤ y + e) (h1 : (y - e) ^ 3 ≤ x) (h2 : x ≤ (y + e) ^ 3) :
    |y - x ^ (1 / 3 : ℝ)| ≤ e := by
  have hz : (x ^ (1 / 3 : ℝ)) ^ 3 = x := by
    rw [← Real.rpow_natCast, ← Real.rpow_mul hx]; norm_num
  have hz0 : 0 ≤ x ^ (1 / 3 : ℝ) := by positivity
  rw [abs_le]
  constructor
  · have : x ^ (1 / 3 : ℝ) ≤ y + e := le_of_pow_le_pow_left₀ (n := 3) (by norm_num) hy (by rw [hz]; exact h2)
    linarith
  · have : y - e ≤ x ^ (1 / 3 : ℝ) := le_of_pow_le_pow_left₀ (n := 3) (by norm_num) hz0 (by rw [hz]; exact h1)
    linarith

/-- **C52, constants.** The decimal constants that stand in the table in place of closed forms: `μ` of PBEsol and PBEint, `1/(2^(4/3)-2)` of VWN,
the exchange constant of B97, `k_F` of LDAERFX, `2^(5/3)` of the M06 family, `2^(4/3)-2` of SCAN. -/
theorem C52_constants :
    |(0.123456790123 : ℝ) - 10 / 81| ≤ 5e-13 ∧
    |(1.92366105093154 : ℝ) - 1 / (2 ^ (4 / 3 : ℝ) - 2)| ≤ 4e-15 ∧
    |(0.9305257363491002 : ℝ) - 3 / 2 * (3 / (4 * Real.pi)) ^ (1 / 3 : ℝ)| ≤ 2e-16 ∧
    |(3.093667726280136 : ℝ) - (3 * Real.pi ^ 2) ^ (1 / 3 : ℝ)| ≤ 1e-16 ∧
    |(3.17480210393640 : ℝ) - 2 ^ (5 / 3 : ℝ)| ≤ 2e-15 ∧
    |(0.51984209978974632953442121455650 : ℝ) - (2 ^ (4 / 3 : ℝ) - 2)| ≤ 1e-30 := by
  have l := Real.pi_gt_d20
  have u := Real.pi_lt_d20
  have e43 : (2 : ℝ) ^ (4 / 3 : ℝ) = 16 ^ (1 / 3 : ℝ) := by
    rw [show (16 : ℝ) = 2 ^ (4 : ℝ) by norm_num, ← Real.rpow_mul (by norm_num)]; norm_num
  have e53 : (2 : ℝ) ^ (5 / 3 : ℝ) = 32 ^ (1 / 3 : ℝ) := by
    rw [show (32 : ℝ) = 2 ^ (5 : ℝ) by norm_num, ← Real.rpow_mul (by norm_num)]; norm_num
  have h43 : |(2.51984209978974632953442121455650 : ℝ) - 16 ^ (1 / 3 : ℝ)| ≤ 1e-30 :=
    root3 (by norm_num) (by norm_num) (by norm_num) (by norm_num)
  refine ⟨by norm_num [abs_le], ?_, ?_, ?_, ?_, ?_⟩
  · rw [e43]
    rw [abs_le] at h43
    have hp : (0 : ℝ) < 16 ^ (1 / 3 : ℝ) - 2 := by norm_num at h43 ⊢; linarith
    rw [abs_le]
    constructor
    · rw [neg_le_sub_iff_le_add, div_le_iff₀ hp]; norm_num at h43 ⊢; nlinarith
    · rw [sub_le_comm, le_div_iff₀ hp]; norm_num at h43 ⊢; nlinarith
  · have hp := Real.pi_pos
    have e : 3 / 2 * (3 / (4 * Real.pi)) ^ (1 / 3 : ℝ) = (81 / (32 * Real.pi)) ^ (1 / 3 : ℝ) := by
      rw [show 81 / (32 * Real.pi) = (3 / 2) ^ (3 : ℝ) * (3 / (4 * Real.pi)) by norm_num; ring, Real.mul_rpow (by positivity) (by positivity),
        ← Real.rpow_mul (by norm_num)]
      norm_num
    rw [e]
    apply root3 (by positivity) (by norm_num)
    · rw [le_div_iff₀ (by positivity)]; norm_num at u ⊢; linarith
    · rw [div_le_iff₀ (by positivity)]; norm_num at l ⊢; linarith
  · apply root3 (by positivity) (by norm_num)
    · norm_num at l ⊢; nlinarith
    · norm_num at u ⊢; nlinarith
  · rw [e53]
    exact root3 (by norm_num) (by norm_num) (by norm_num) (by norm_num)
  · rw [e43]
    rw [show (0.51984209978974632953442121455650 : ℝ) - (16 ^ (1 / 3 : ℝ) - 2) = 2.51984209978974632953442121455650 - 16 ^ (1 / 3 : ℝ) by
      norm_num; ring]
    exact h43

end XCFun.Props
