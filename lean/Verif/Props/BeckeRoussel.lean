/-
C56, C57, C58: the Becke-Roussel functionals.
-/
import Verif.Proofs.BRClose
import Verif.Props.Smooth
import Verif.Props.Literature
import Verif.Props.Accuracy

namespace XCFun.Props
open XCFun Spec
open scoped ContDiff

/-! ## C56 -/

/-- **C56, the equation.** The hole equation has exactly one positive solution for every right hand side. -/
theorem C56_unique_root (z : ℝ) : ∃! x : ℝ, 0 < x ∧ (x - 2) / x * Real.exp (2 / 3 * x) = z := by
  have e : ∀ x : ℝ, (x - 2) / x * Real.exp (2 / 3 * x) = holeCurve x := fun x => by rw [holeCurve]; congr 2; ring
  simp only [e]
  obtain ⟨x, hx, h⟩ := BR.exists_root z
  exact ⟨x, ⟨hx, h⟩, fun y hy => BR.root_unique hy.1 hx (hy.2.trans h.symm)⟩

/-- `holeRoot` is that solution. -/
theorem C56_holeRoot (z x : ℝ) : x = holeRoot z ↔ 0 < x ∧ (x - 2) / x * Real.exp (2 / 3 * x) = z := by
  have e : ∀ x : ℝ, (x - 2) / x * Real.exp (2 / 3 * x) = holeCurve x := fun x => by rw [holeCurve]; congr 2; ring
  rw [e]
  constructor
  · rintro rfl; exact BR.root_spec z
  · rintro ⟨h0, h⟩; exact BR.root_unique h0 (BR.root_pos z) (h.trans (BR.curve_root z).symm)

/-- **C56, the solver.** For every real `z` the numbers computed by the loop of `BR` are those of Newton's method for the hole equation.  The loop ends by
its stopping criterion in at most nine of its twenty rounds, so that the message "Not converged" is not printed, and its result is the solution with
relative error at most `1e-14`. -/
theorem C56_solver (z : ℝ) : ∃ (u : ℕ → ℝ) (n : ℕ), n < 9 ∧
    (∀ k, 0 < u k ∧ u (k + 1) = u k - (holeCurve (u k) - z) / deriv holeCurve (u k)) ∧
    (∀ m < n, 1e-15 * (1 + u (m + 1)) ≤ |u m - u (m + 1)|) ∧ |u n - u (n + 1)| < 1e-15 * (1 + u (n + 1)) ∧
    brSolve z = u (n + 1) ∧ |brSolve z - holeRoot z| ≤ 1e-14 * holeRoot z := by
  obtain ⟨h, n, hn, x₀, h1, h2, h3, h4⟩ := BR.brSolve_root (BR.root_pos z)
  rw [BR.curve_root] at h h1 h2 h3 h4
  refine ⟨BR.iter z x₀, n, hn, fun k => ⟨h4 k, ?_⟩, fun m hm => not_lt.1 (h3 m hm), h2, h1, h⟩
  have hk := h4 k
  rw [BR.iter_succ]
  generalize BR.iter z x₀ k = x at hk
  rw [(BR.hasDerivAt_curve hk).deriv, BR.next, brStep, holeCurve, show -2 / 3 * x = -(2 * x / 3) by ring, Real.exp_neg]
  have hE := Real.exp_pos (2 * x / 3)
  have hq : 0 < 2 * x ^ 2 - 4 * x + 6 := by nlinarith [sq_nonneg (x - 1)]
  have hq' : x * (2 * x - 4) + 6 ≠ 0 := by nlinarith [sq_nonneg (x - 1)]
  generalize Real.exp (2 * x / 3) = E at hE ⊢
  field_simp
  ring

/-- The right hand side 0 has the solution 2. -/
theorem holeRoot_zero : holeRoot 0 = 2 := ((C56_holeRoot 0 2).2 ⟨by norm_num, by norm_num⟩).symm

example : |brSolve 0 - 2| ≤ 2e-14 := by
  obtain ⟨_, _, _, _, _, _, _, h⟩ := C56_solver 0
  rw [holeRoot_zero] at h
  norm_num at h ⊢
  exact h

/-- A case from another branch of the starting values. -/
example : |brSolve (3 / 5 * Real.exp (10 / 3)) - 5| ≤ 5e-14 := by
  obtain ⟨_, _, _, _, _, _, _, h⟩ := C56_solver (3 / 5 * Real.exp (10 / 3))
  rw [← (C56_holeRoot (3 / 5 * Real.exp (10 / 3)) 5).2 ⟨by norm_num, by norm_num⟩] at h
  norm_num at h ⊢
  exact h

/-! ## C57 -/

/-- **C57, the series.** The solution depends smoothly on the right hand side, and the coefficients used by the functionals are, to sixth order, the
Taylor coefficients of the exact solution at the right hand side for which the number found by the solver is the exact solution. -/
theorem C57_series {N : ℕ} (hN : N ≤ 6) (z : ℝ) :
    ContDiff ℝ ∞ holeRoot ∧ IsTaylor holeRoot (holeCurve (brSolve z)) N (Prim.br.coef N z) :=
  ⟨contDiff_iff_contDiffAt.2 BR.root_smooth, BR.br_coef hN z (BR.brSolve_pos z)⟩

/-- The first coefficient is `dx/dz`. -/
example (z : ℝ) : Prim.br.coef 1 z 1 = deriv holeRoot (holeCurve (brSolve z)) := by
  have := (C57_series (N := 1) (by omega) z).2 1 le_rfl
  simpa using this

/-- **C57, domain.** Objects whose functionals are Becke-Roussel functionals, or others off their surfaces, meet the domain condition of the next theorems
at all densities above the threshold whose gradient squares are not negative. -/
theorem C57_regular (s : State ℝ) {v : Vars} (hv : ¬ Unsupported v) (hA : v ≠ .A ∧ v ≠ .A_GAA) {x : ℕ → ℝ} (h : PhysicalInput v x)
    (hs : ∀ id ∈ s.active, (id = 10 ∨ id = 11 ∨ id = 12) ∨ SmoothAt (s.settings 78) (given (1 / 2) x v) id) : RegularBR s v x := by
  refine regularBR_of_members s hv hA h.dens fun id hid e he => ?_
  have hS := memberR_sound s.settings hv hA h
  rcases hs id hid with hb | hb
  · refine Fun.br_members hS ?_
    rcases hb with rfl | rfl | rfl <;> cases he
    · exact .inl rfl
    · exact .inr (.inl rfl)
    · exact .inr (.inr rfl)
  · refine Expr.RegBR_of_Reg (Fun.smooth_all hS ?_ he)
    rw [(memberR_derived s.settings hv x).2.2.2.2.2]
    refine smoothAt_congr (fun f hf => ?_) hb
    refine (memberR_given s.settings hv hA (fun y hy => (h.dens y hy).le) ?_).symm
    simp only [List.mem_cons, List.not_mem_nil, or_false] at hf
    rcases hf with rfl | rfl | rfl | rfl | rfl | rfl | rfl | rfl | rfl | rfl | rfl | rfl <;> simp [IsDensity, IsOther]

/-- **C57, partial derivatives.** At `x` the value returned is that of `energyNear s v x`, the energy with the exact solution of the hole equation
(for arguments shifted by the residual of the solver at `x`), and every other entry returned at order `k ≤ 3` is the corresponding partial derivative of
this one function. -/
theorem C57_partial_derivatives (s : State ℝ) (v : Vars) (hv : s.vars = some v) (hm : s.mode = PARTIAL_DERIVATIVES) (hsup : DV.reads v ≠ none)
    {x : ℕ → ℝ} (hx : RegularBR s v x) (k : ℕ) (hk : s.order = k) (hk3 : k ≤ 3) (rest output : List ℝ) (junk : Junk ℝ) (len : ℕ)
    (hlen : outputLength s = .ok (len : ℤ)) (hout : len ≤ output.length) :
    energyNear s v x x = energyAt s v x ∧
    xcfunEval codeKernel junk s ((List.range v.len).map x ++ rest) output = .ok
      (layout v.len k (energyNear s v x x) (fun i => pderiv i (energyNear s v x) x) (fun i j => pderiv i (pderiv j (energyNear s v x)) x)
        (fun i j l => pderiv i (pderiv j (pderiv l (energyNear s v x))) x) ++ output.drop len) := by
  refine ⟨energyNear_self s v x, ?_⟩
  rw [C15_order_of_derivatives s v hv hm k hk hk3 hsup x rest output junk len hlen hout, energyNear_self]
  have hr := sumExpr_regBR hx
  have hF : energyNear s v x = fun ρ => (sumExpr s v).evalNear x ρ := by
    funext ρ; exact (sumExpr_near s v x ρ).symm
  congr 2
  have h1 : ∀ i < v.len, (energyOn s v (seed1 x (some i))).get 1 = pderiv i (energyNear s v x) x := by
    intro i hi
    rw [← sumExpr_evalCT, hF]; exact coef1_near hr hi
  have h2 : ∀ i < v.len, ∀ j < v.len, (energyOn s v (seed2 x (some i) (some j))).get 3 =
      pderiv i (pderiv j (energyNear s v x)) x := by
    intro i hi j hj
    rw [← sumExpr_evalCT, hF]; exact coef2_near hr hi hj
  have h3 : ∀ i < v.len, ∀ j < v.len, ∀ l < v.len,
      (energyOn s v (seed3 x (some i) (some j) (some l))).get 7 =
      pderiv i (pderiv j (pderiv l (energyNear s v x))) x := by
    intro i hi j hj l hl
    rw [← sumExpr_evalCT, hF]; exact coef3_near hr hi hj hl
  have e1 : (List.range v.len).map (fun i => (energyOn s v (seed1 x (some i))).get 1) =
      (List.range v.len).map (fun i => pderiv i (energyNear s v x) x) :=
    List.map_congr_left fun i hi => h1 i (by simpa using hi)
  have e2 : (pairs v.len).map (fun p => (energyOn s v (seed2 x (some p.1) (some p.2))).get 3) =
      (pairs v.len).map (fun p => pderiv p.1 (pderiv p.2 (energyNear s v x)) x) := by
    refine List.map_congr_left fun p hp => ?_
    simp only [pairs, List.mem_flatMap, List.mem_map, List.mem_range, List.mem_range'_1] at hp
    obtain ⟨i, hi, j, hj, rfl⟩ := hp
    exact h2 i hi j (by omega)
  have e3 : (triples v.len).map (fun p =>
        (energyOn s v (seed3 x (some p.1) (some p.2.1) (some p.2.2))).get 7) =
      (triples v.len).map (fun p => pderiv p.1 (pderiv p.2.1 (pderiv p.2.2 (energyNear s v x))) x) := by
    refine List.map_congr_left fun p hp => ?_
    simp only [triples, List.mem_flatMap, List.mem_map, List.mem_range, List.mem_range'_1] at hp
    obtain ⟨i, hi, j, hj, l, hl, rfl⟩ := hp
    exact h3 i hi j (by omega) l (by omega)
  simp only [layout, e1, e2, e3]

/-- **C57, contracted mode.** The same for the entries of contracted mode, `N ≤ 6`. -/
theorem C57_contracted (s : State ℝ) (v : Vars) (hv : s.vars = some v) (hm : s.mode = CONTRACTED) (N : ℕ) (ho : s.order = N) (hN : N ≤ 6)
    (hsup : DV.reads v ≠ none) (y : ℕ → ℝ) (hx : RegularBR s v (fun i => y (i * 2 ^ N))) (rest output : List ℝ) (junk : Junk ℝ)
    (hout : 2 ^ N ≤ output.length) :
    xcfunEval codeKernel junk s ((List.range (v.len * 2 ^ N)).map y ++ rest) output = .ok
      ((List.range (2 ^ N)).map (fun S =>
        pderivs (bits N S) (fun e => energyNear s v (fun i => y (i * 2 ^ N)) (pathAt N y e)) (fun _ => 0))
      ++ output.drop (2 ^ N)) := by
  rw [C17_contracted_expansion s v hv hm N ho hN hsup y rest output junk hout]
  congr 2
  refine List.map_congr_left fun S hS => ?_
  rw [← sumExpr_evalCT]
  have := path_near hN (sumExpr_regBR hx) (List.mem_range.1 hS)
  simp only [sumExpr_near] at this
  exact this

/-- Becke-Roussel exchange and correlation with PBE exchange, at a point with all inputs different: first, second and third derivatives. -/
example : ∃ s₀ s : State ℝ, run State.init [.set "brxc" 0.5, .set "pbex" 1] = .ok s₀ ∧
    evalSetup s₀ Vars.A_B_GAA_GAB_GBB_LAPA_LAPB_TAUA_TAUB_JPAA_JPBB.code PARTIAL_DERIVATIVES 3 = .ok (0, s) ∧
    RegularBR s .A_B_GAA_GAB_GBB_LAPA_LAPB_TAUA_TAUB_JPAA_JPBB (fun i => [1, 8, 2, 1, 3, 5, 7, -4, 6, 9, 10].getD i 0) := by
  refine ⟨_, _, rfl, rfl, C57_regular _ (by decide) (by decide) ?_ ?_⟩
  · constructor
    · intro y hy
      simp only [densities, densSlots, List.map_cons, List.map_nil, List.mem_cons, List.not_mem_nil, or_false] at hy
      rcases hy with rfl | rfl <;> norm_num [threshold]
    all_goals simp only [given, spinFields]; norm_num
  · intro id hid
    have hid : id ∈ [12, 5] := hid
    simp only [List.mem_cons, List.not_mem_nil, or_false] at hid
    rcases hid with rfl | rfl
    · exact .inl (by simp)
    · exact .inr trivial

/-! ## C58 -/

/-- The energies of the three functionals have the published form, with relative error of each contribution at most `exp (1e-13 (1 + X)) - 1`. -/
theorem C58_published {ρ : Field → ℝ} (ha : 0 < ρ .a) (hb : 0 < ρ .b) {X : ℝ}
    (hXa : holeX (ρ .a) (ρ .gaa) (ρ .lapa) (2 * ρ .taua) (ρ .jpaa) ≤ X) (hXb : holeX (ρ .b) (ρ .gbb) (ρ .lapb) (2 * ρ .taub) (ρ .jpbb) ≤ X)
    {id : ℕ} (hid : id = 10 ∨ id = 11 ∨ id = 12) {e : Expr Field} (he : Fun.energy id = some e) :
    |e.evalR ρ - (brParts ρ id).sum| ≤ (Real.exp (1e-13 * (1 + X)) - 1) * ((brParts ρ id).map fun p => |p|).sum :=
  Fun.br_energies_close ha hb hXa hXb hid he

theorem brParts_congr {ρ ρ' : Field → ℝ}
    (h : ∀ f ∈ [Field.a, .b, .gaa, .gbb, .lapa, .lapb, .taua, .taub, .jpaa, .jpbb], ρ f = ρ' f) (id : ℕ) : brParts ρ id = brParts ρ' id := by
  have h1 := h .a (by decide)
  have h2 := h .b (by decide)
  have h3 := h .gaa (by decide)
  have h4 := h .gbb (by decide)
  have h5 := h .lapa (by decide)
  have h6 := h .lapb (by decide)
  have h7 := h .taua (by decide)
  have h8 := h .taub (by decide)
  have h9 := h .jpaa (by decide)
  have h10 := h .jpbb (by decide)
  unfold brParts
  simp only [h1, h2, h3, h4, h5, h6, h7, h8, h9, h10]

/-- **C58, `xcfun_eval`.** An object of Becke-Roussel functionals returns the weighted sum of the published energies, each contribution with relative error
at most `exp (1e-13 (1 + X)) - 1`, where `X` bounds the solutions of the two hole equations. -/
theorem C58_eval (s : State ℝ) {v : Vars} (hv : ¬ Unsupported v) (hA : v ≠ .A ∧ v ≠ .A_GAA)
    (hvs : s.vars = some v) (hm : s.mode = PARTIAL_DERIVATIVES) (ho : s.order = 0) {x : ℕ → ℝ}
    (hx : ∀ y ∈ densities (1 / 2) x v, threshold ≤ y) (hs : ∀ id ∈ s.active, id = 10 ∨ id = 11 ∨ id = 12)
    {ρ : Field → ℝ} (hρ : ρ = given (1 / 2) x v) (ha : 0 < ρ .a) (hb : 0 < ρ .b) {X : ℝ}
    (hXa : holeX (ρ .a) (ρ .gaa) (ρ .lapa) (2 * ρ .taua) (ρ .jpaa) ≤ X) (hXb : holeX (ρ .b) (ρ .gbb) (ρ .lapb) (2 * ρ .taub) (ρ .jpbb) ≤ X)
    (junk : Junk ℝ) (out : ℝ) :
    ∃ E, xcfunEval codeKernel junk s ((List.range v.len).map x) [out] = .ok [E] ∧
      |E - (s.active.map fun id => s.settings id * (brParts ρ id).sum).sum| ≤
        (s.active.map fun id => |s.settings id| * ((Real.exp (1e-13 * (1 + X)) - 1) * ((brParts ρ id).map fun p => |p|).sum)).sum := by
  refine ⟨_, eval_order0 s hv hvs hm ho x junk out, ?_⟩
  rw [energyAt_members s hv]
  have hg : ∀ f, IsDensity f ∨ IsOther f → memberR s.settings v x f = ρ f := fun f hf => by
    rw [hρ]; exact memberR_given s.settings hv hA hx hf
  have h1 := hg .a (by simp [IsDensity, IsOther])
  have h2 := hg .b (by simp [IsDensity, IsOther])
  have h3 := hg .gaa (by simp [IsDensity, IsOther])
  have h4 := hg .gbb (by simp [IsDensity, IsOther])
  have h5 := hg .lapa (by simp [IsDensity, IsOther])
  have h6 := hg .lapb (by simp [IsDensity, IsOther])
  have h7 := hg .taua (by simp [IsDensity, IsOther])
  have h8 := hg .taub (by simp [IsDensity, IsOther])
  have h9 := hg .jpaa (by simp [IsDensity, IsOther])
  have h10 := hg .jpbb (by simp [IsDensity, IsOther])
  refine abs_sum_sub_le _ _ _ _ fun id hid => ?_
  rw [← mul_sub, abs_mul]
  refine mul_le_mul_of_nonneg_left ?_ (abs_nonneg _)
  obtain ⟨e, he⟩ : ∃ e, Fun.energy id = some e := by
    rcases hs id hid with rfl | rfl | rfl <;> exact ⟨_, rfl⟩
  have hb' : brParts ρ id = brParts (memberR s.settings v x) id := by
    refine brParts_congr (fun f hf => ?_) id
    simp only [List.mem_cons, List.not_mem_nil, or_false] at hf
    rcases hf with rfl | rfl | rfl | rfl | rfl | rfl | rfl | rfl | rfl | rfl | rfl | rfl <;> symm <;> assumption
  rw [hb', he]
  refine C58_published (by rwa [h1]) (by rwa [h2]) (by rwa [h1, h3, h5, h7, h9]) (by rwa [h2, h4, h6, h8, h10]) (hs id hid) he

/-- When the hole equation has the right hand side 0. -/
theorem holeU_of_zero {n g l t j : ℝ} (hn : 0 < n) (h : l = 2 * holeD n g t j) :
    holeX n g l t j = 2 ∧ holeU n g l t j = -((1 - 2 * Real.exp (-2)) / (Real.exp (-2) / (Real.pi * n)) ^ (1 / 3 : ℝ)) := by
  have hX : holeX n g l t j = 2 := by
    rw [holeX, holeQ, h, sub_self, zero_div, zero_div, holeRoot_zero]
  refine ⟨hX, ?_⟩
  rw [holeU, hX, holeB, show (2 : ℝ) ^ 3 * Real.exp (-2) / (8 * Real.pi * n) = Real.exp (-2) / (Real.pi * n) by
    have := Real.pi_pos
    field_simp
    norm_num, neg_div]
  congr 2
  ring

/-- Becke-Roussel exchange of two unequal spin densities with gradients, Laplacians, kinetic energies and currents; both hole equations have the
solution 2. -/
example : ∃ s₀ s : State ℝ, run State.init [.set "brx" 1] = .ok s₀ ∧
    evalSetup s₀ Vars.A_B_GAA_GAB_GBB_LAPA_LAPB_TAUA_TAUB_JPAA_JPBB.code PARTIAL_DERIVATIVES 0 = .ok (0, s) ∧
    ∃ E, xcfunEval codeKernel none s [1, 2, 4, 1, 4, 0, 2.5, 1, 1, 1, 0.5] [0] = .ok [E] ∧
      ∃ c, 0 < c ∧ c = (1 - 2 * Real.exp (-2)) / (Real.exp (-2) / (Real.pi * 1)) ^ (1 / 3 : ℝ) / 2 +
        (1 - 2 * Real.exp (-2)) / (Real.exp (-2) / (Real.pi * 2)) ^ (1 / 3 : ℝ) ∧ |E - -c| ≤ 4e-13 * c := by
  obtain ⟨s₀, s, hr, hset⟩ : ∃ s₀ s : State ℝ, run State.init [.set "brx" 1] = .ok s₀ ∧
    evalSetup s₀ Vars.A_B_GAA_GAB_GBB_LAPA_LAPB_TAUA_TAUB_JPAA_JPBB.code PARTIAL_DERIVATIVES 0 = .ok (0, s) := ⟨_, _, rfl, rfl⟩
  refine ⟨s₀, s, hr, hset, ?_⟩
  obtain ⟨e, -⟩ := setup_facts hr hset
  have hl : (lit 0 0 : ℝ) = 0 := by simp [lit, XCFun.Lit.lit]
  have hs₀ : s₀.active = [10] ∧ s₀.settings 10 = lit 0 0 + 1 := by cases hr; exact ⟨rfl, rfl⟩
  have hact : s.active = [10] := by rw [e]; exact hs₀.1
  have h6 : s.settings 10 = 1 := by rw [e]; refine hs₀.2.trans ?_; rw [hl, zero_add]
  obtain ⟨xa, ua⟩ := holeU_of_zero (n := 1) (g := 4) (l := 0) (t := 2 * 1) (j := 1) (by norm_num) (by norm_num [holeD])
  obtain ⟨xb, ub⟩ := holeU_of_zero (n := 2) (g := 4) (l := 2.5) (t := 2 * 1) (j := 0.5) (by norm_num) (by norm_num [holeD])
  obtain ⟨E, hE, hb⟩ := C58_eval s (v := .A_B_GAA_GAB_GBB_LAPA_LAPB_TAUA_TAUB_JPAA_JPBB)
    (x := fun i => [1, 2, 4, 1, 4, 0, 2.5, 1, 1, 1, 0.5].getD i 0) (X := 2) (by decide) (by decide)
    (by rw [e]) (by rw [e]) (by rw [e])
    (by
      intro y hy
      simp only [densities, densSlots, List.map_cons, List.map_nil, List.mem_cons, List.not_mem_nil, or_false] at hy
      rcases hy with rfl | rfl <;> norm_num [threshold])
    (by rw [hact]; simp) rfl (show (0 : ℝ) < 1 by norm_num) (show (0 : ℝ) < 2 by norm_num) (le_of_eq xa) (le_of_eq xb) none 0
  set A := (1 - 2 * Real.exp (-2)) / (Real.exp (-2) / (Real.pi * 1)) ^ (1 / 3 : ℝ)
  set B := (1 - 2 * Real.exp (-2)) / (Real.exp (-2) / (Real.pi * 2)) ^ (1 / 3 : ℝ)
  have hp := Real.pi_pos
  have h0 := Real.add_one_lt_exp (x := 2) (by norm_num)
  have h2 : Real.exp (-2) * Real.exp 2 = 1 := by rw [← Real.exp_add]; simp
  have h3 := Real.exp_pos (-2)
  have h4 : 0 < 1 - 2 * Real.exp (-2) := by nlinarith
  have hA : 0 < A := by positivity
  have hB : 0 < B := by positivity
  refine ⟨E, hE, _, by positivity, rfl, ?_⟩
  have hbr : brParts (given (1 / 2) (fun i => [1, 2, 4, 1, 4, 0, 2.5, 1, 1, 1, 0.5].getD i 0) .A_B_GAA_GAB_GBB_LAPA_LAPB_TAUA_TAUB_JPAA_JPBB) 10 =
      [-(A / 2), -B] := by
    show [brExchange 1 (holeU 1 4 0 (2 * 1) 1), brExchange 2 (holeU 2 4 2.5 (2 * 1) 0.5)] = _
    rw [ua, ub, brExchange, brExchange]
    congr 2 <;> ring
  rw [hact, List.map_cons, List.map_nil, List.map_cons, List.map_nil, List.sum_cons, List.sum_cons, List.sum_nil, add_zero, add_zero, h6,
    abs_one, one_mul, one_mul, hbr] at hb
  simp only [List.map_cons, List.map_nil, List.sum_cons, List.sum_nil, add_zero, abs_neg, abs_of_pos hB, abs_of_pos (half_pos hA)] at hb
  rw [neg_add]
  refine hb.trans (mul_le_mul_of_nonneg_right ?_ (by positivity))
  have := Real.abs_exp_sub_one_sub_id_le (x := 1e-13 * (1 + 2)) (by norm_num)
  have := (abs_le.1 this).2
  norm_num at this ⊢
  linarith

end XCFun.Props
