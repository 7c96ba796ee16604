/-
**C82.** The script tests/plot-functional.py: what its curves show.
-/
import Verif.Model.Plot
import Verif.Spec.Plot
import Verif.Props.CHost

namespace XCFun.Props
open XCFun Spec Lit

theorem kF_pos {n : ℝ} (hn : 0 < n) : 0 < kF n := by unfold kF; positivity

/-- The gas for a row of the input. -/
theorem row_gas {n s z : ℝ} (hn : 0 < n) (hs : s ≠ 0) (hz : 0 < z) {g : Gas} (h : HasSZ g n s z) :
    genGrad2Tau n s z = [n, s ^ 2 * (2 * kF n * n) ^ 2, s ^ 2 * (2 * kF n * n) ^ 2 / (8 * n) / z] ∧
      g = ⟨n / 2, n / 2, s ^ 2 * (2 * kF n * n) ^ 2 / 4, s ^ 2 * (2 * kF n * n) ^ 2 / 4, s ^ 2 * (2 * kF n * n) ^ 2 / 4,
        s ^ 2 * (2 * kF n * n) ^ 2 / (8 * n) / z / 2, s ^ 2 * (2 * kF n * n) ^ 2 / (8 * n) / z / 2⟩ := by
  have hk := kF_pos hn
  constructor
  · unfold genGrad2Tau
    rw [show (1.0 / 3.0 : ℝ) = 1 / 3 by norm_num]
    show [n, s ^ 2 * (2 * kF n * n) ^ 2, 1.0 / 8.0 * (s ^ 2 * (2 * kF n * n) ^ 2) / n / z] = _
    have : 1.0 / 8.0 * (s ^ 2 * (2 * kF n * n) ^ 2) / n / z = s ^ 2 * (2 * kF n * n) ^ 2 / (8 * n) / z := by
      rw [show (1.0 / 8.0 : ℝ) = 1 / 8 by norm_num]
      field_simp
    rw [this]
  · obtain ⟨a, b, gaa, gab, gbb, ta, tb⟩ := g
    obtain ⟨h1, h2, h3, h4, h5, h6, h7⟩ := h
    simp only at h1 h2 h3 h4 h5 h6 h7
    subst h1 h2 h3 h4 h6
    have hg : gbb = s ^ 2 * (2 * kF n * n) ^ 2 / 4 := by
      unfold Lit.sSq at h5
      rw [div_eq_iff (by positivity)] at h5
      linarith
    have hp : 0 < s ^ 2 * (2 * kF n * n) ^ 2 := by positivity
    have ht : tb = s ^ 2 * (2 * kF n * n) ^ 2 / (8 * n) / z / 2 := by
      have e : gbb + 2 * gbb + gbb = s ^ 2 * (2 * kF n * n) ^ 2 := by rw [hg]; ring
      rw [e, Lit.tauW] at h7
      have hne : tb + tb ≠ 0 := by
        intro h0
        rw [h0, div_zero] at h7
        exact hz.ne h7
      rw [div_eq_iff hne] at h7
      rw [h7]
      field_simp
      ring
    rw [hg, ht]

theorem m06l_line : ∃ s : State ℝ, run State.init [.set "m06l" 1] = .ok s ∧ Sufficient s .N_GNN_TAUN ∧ s.active = [39, 33] ∧ s.settings 39 = 1 ∧ s.settings 33 = 1 := by
  obtain ⟨s, hr, hd, ha, h1, h2⟩ : ∃ s : State ℝ, run State.init [.set "m06l" (1 : ℝ)] = .ok s ∧ s.depends = 11 ∧ s.active = [39, 33] ∧
      s.settings 39 = lit 0 0 + 1 * lit 1 0 ∧ s.settings 33 = lit 0 0 + 1 * lit 1 0 := ⟨_, rfl, rfl, rfl, rfl, rfl⟩
  exact ⟨s, hr, (sufficient_iff (run_wf init_wf hr) _).2 (by rw [hd]; decide), ha, by rw [h1]; norm_num [lit, XCFun.Lit.lit], by rw [h2]; norm_num [lit, XCFun.Lit.lit]⟩

theorem floats_rows (f : ℝ → ℝ) : ∀ rho : List ℝ, (rho.flatMap fun r => [Line.values [f r]]).mapM Line.floats = some (rho.map fun r => [f r])
  | [] => rfl
  | r :: rho => by
    have ih := floats_rows f rho
    rw [List.flatMap_cons, List.singleton_append, List.mapM_cons, ih]
    rfl

/-- **C82.** For any densities, any reduced gradient but zero and any positive iso-orbital indicator the script obtains, for each density, the energy of M06-L,
exchange and correlation, of the closed shell with these. -/
theorem C82_curve (E : FunevalEnv ℝ) (halloc : ∀ k, E.alloc k = true) (h0 : E.scanInt "0" = some 0) (h1 : E.scanNum "1.0" = some 1) (p : ℕ) (rho : List ℝ)
    (hrho : ∀ r ∈ rho, 2 * threshold ≤ r) {s z : ℝ} (hs : s ≠ 0) (hz : 0 < z) (g : ℝ → Gas) (hg : ∀ r ∈ rho, HasSZ (g r) r s z) :
    plotEval codeKernel E p rho s z = .ok (rho.map fun r => m06L cfCode (g r)) := by
  obtain ⟨st, hr, hsuf, ha, hw1, hw2⟩ := m06l_line
  have hc : CommandLine E [.quiet, .order 0, .density .N_GNN_TAUN, .weight "m06l" 1] plotArgs :=
    .cons .quiet (.cons (.order "0" 0 h0) (.cons .ngnntaun (.cons (.weight "m06l" "1.0" 1 (by simp [optionNames]) h1) .nil)))
  obtain ⟨nout, -, h⟩ := C73_funeval E halloc p _ _ hc (by simp) st _ hr .N_GNN_TAUN rfl hsuf 0 rfl (by omega) rfl (show (0 : ℤ) < 1 by decide)
    (rho.map fun r i => (genGrad2Tau r s z).getD i 0) [] (by decide)
  have hpos : ∀ r ∈ rho, 0 < r := fun r hr => lt_of_lt_of_le (by norm_num [threshold]) (hrho r hr)
  have hin : ((rho.map fun r i => (genGrad2Tau r s z).getD i 0).flatMap fun x => (List.range Vars.N_GNN_TAUN.len).map x) ++ [] =
      rho.flatMap fun r => genGrad2Tau r s z := by
    rw [List.append_nil, List.flatMap_map]
    rfl
  rw [hin] at h
  set s' : State ℝ := { st with mode := PARTIAL_DERIVATIVES, vars := some .N_GNN_TAUN, order := ((0 : ℕ) : ℤ) } with hs'
  have he : ∀ r ∈ rho, energyAt s' .N_GNN_TAUN (fun i => (genGrad2Tau r s z).getD i 0) = m06L cfCode (g r) := by
    intro r hr'
    have hk := kF_pos (hpos r hr')
    have hn := hpos r hr'
    obtain ⟨e1, e2⟩ := row_gas (hpos r hr') hs hz (hg r hr')
    have hga : gasAt .N_GNN_TAUN (fun i => (genGrad2Tau r s z).getD i 0) = g r := by
      rw [e2, e1]
      simp only [gasAt, given, spinFields, List.getD_cons_zero, List.getD_cons_succ]
      congr 1 <;> ring
    rw [energyAt_published s' (by decide) (by decide) (by simp [Doubled]), hga]
    · show (s'.active.map _).sum = _
      rw [show s'.active = [39, 33] from ha]
      simp only [List.map_cons, List.map_nil, List.sum_cons, List.sum_nil, add_zero]
      rw [show s'.settings 39 = 1 from hw1, show s'.settings 33 = 1 from hw2, one_mul, one_mul, m06L, add_comm]
      rfl
    · intro y hy
      simp only [densities, densSlots, List.map_cons, List.map_nil, List.mem_cons, List.not_mem_nil, or_false] at hy
      have := hrho r hr'
      rw [e1] at hy
      simp only [List.getD_cons_zero] at hy
      subst hy
      linarith
    · rw [hga]
      intro id hid
      rw [show s'.active = [39, 33] from ha] at hid
      have ht : 0 < (g r).taua ∧ 0 < (g r).taub := by rw [e2]; constructor <;> (show 0 < _ / _; positivity)
      simp only [List.mem_cons, List.not_mem_nil, or_false] at hid
      rcases hid with rfl | rfl <;> exact ⟨_, rfl, ht⟩
  unfold plotEval
  rw [h]
  simp only [Outcome.ok_bind, headerOf, rowsOf, isQuiet, List.any_cons, Bool.true_or, if_true, List.nil_append, Bool.not_true, Bool.false_and, Bool.false_eq_true,
    if_false, List.append_nil, List.flatMap_map]
  have hl : (rho.flatMap fun r => [Line.values (layout Vars.N_GNN_TAUN.len 0 (energyAt s' .N_GNN_TAUN fun i => (genGrad2Tau r s z).getD i 0)
      (fun i => (energyOn s' .N_GNN_TAUN (seed1 (fun i => (genGrad2Tau r s z).getD i 0) (some i))).get 1)
      (fun i j => (energyOn s' .N_GNN_TAUN (seed2 (fun i => (genGrad2Tau r s z).getD i 0) (some i) (some j))).get 3)
      (fun i j l => (energyOn s' .N_GNN_TAUN (seed3 (fun i => (genGrad2Tau r s z).getD i 0) (some i) (some j) (some l))).get 7))]) =
      rho.flatMap fun r => [Line.values [m06L cfCode (g r)]] :=
    List.flatMap_congr fun r hr' => by rw [he r hr']; rfl
  rw [hl, floats_rows]
  simp only [List.flatten_eq_flatMap, List.flatMap_map]
  congr 1
  exact (List.map_eq_flatMap ..).symm

/-- **C82, one orbital.** Where the indicator is 1, as it is for a single orbital, what is drawn has no correlation between electrons of the same spin. -/
theorem C82_one_orbital {g : Gas} {n s : ℝ} (hn : 0 < n) (hs : s ≠ 0) (h : HasSZ g n s 1) :
    m06L cfCode g = m06X g cfCode m06LXa m06LXd + stollOpp g * (mG 0.0031 m06LCc.1.1 (Lit.chiSq g.a g.gaa + Lit.chiSq g.b g.gbb) +
      vs98 m06LCc.1.2 0.00304966 (Lit.chiSq g.a g.gaa + Lit.chiSq g.b g.gbb) (mZ cfCode g.a g.taua + mZ cfCode g.b g.taub)) := by
  have hk := kF_pos hn
  have hD : mD g.a g.gaa g.taua = 0 ∧ mD g.b g.gbb g.taub = 0 := by
    rw [(row_gas hn hs one_pos h).2]
    simp only [mD, Lit.tauW]
    constructor <;> field_simp <;> ring
  rw [m06L, m06C, hD.1, hD.2]
  ring

theorem plotRho_ge : ∀ r ∈ plotRho, 2 * threshold ≤ r := by
  intro r hr
  simp only [plotRho, linspace, List.mem_map] at hr
  obtain ⟨i, -, rfl⟩ := hr
  have : (0 : ℝ) ≤ i := Nat.cast_nonneg i
  have h2 : (0 : ℝ) ≤ i * ((2e1 - 1e-6) / (((100 : ℕ) : ℝ) - 1)) := mul_nonneg this (by norm_num)
  have h3 : 2 * threshold ≤ (1e-6 : ℝ) := by norm_num [threshold]
  linarith

theorem zip_map_self (f : ℝ → ℝ) : ∀ l : List ℝ, l.zip (l.map f) = l.map fun n => (n, f n)
  | [] => rfl
  | a :: l => by rw [List.map_cons, List.zip_cons_cons, zip_map_self f l, List.map_cons]

theorem plotCurves_run (E : FunevalEnv ℝ) (halloc : ∀ k, E.alloc k = true) (h0 : E.scanInt "0" = some 0) (h1 : E.scanNum "1.0" = some 1) (p : ℕ)
    (G : ℝ → ℝ → ℝ → Gas) {z : ℝ} (hz : 0 < z) : ∀ ss : List ℝ, (∀ s ∈ ss, s ≠ 0) → (∀ s ∈ ss, ∀ n ∈ plotRho, HasSZ (G n s z) n s z) →
    plotCurves codeKernel E p z ss = .ok (ss.map fun s => ⟨s, plotRho.map fun n => (n, m06L cfCode (G n s z))⟩)
  | [], _, _ => rfl
  | s :: ss, hs, hg => by
    rw [plotCurves, C82_curve E halloc h0 h1 p plotRho plotRho_ge (hs s (by simp)) hz (fun n => G n s z) (hg s (by simp))]
    rw [Outcome.ok_bind, if_pos (by rw [List.length_map]),
      plotCurves_run E halloc h0 h1 p G hz ss (fun t ht => hs t (by simp [ht])) fun t ht => hg t (by simp [ht])]
    rw [Outcome.ok_bind, List.map_cons, zip_map_self]

/-- **C82, the drawing.** Three diagrams from bottom to top, with indicator 0.001, 0.5 and 1; in each, four curves, with reduced gradient 10⁻⁶, 0.1, 0.5 and 1; each with
the energies of M06-L at hundred densities from 10⁻⁶ to 20. The legend is in the diagram at the bottom. -/
theorem C82_plot (E : FunevalEnv ℝ) (halloc : ∀ k, E.alloc k = true) (h0 : E.scanInt "0" = some 0) (h1 : E.scanNum "1.0" = some 1) (p : ℕ)
    (G : ℝ → ℝ → ℝ → Gas) (hG : ∀ n s z, 0 < n → s ≠ 0 → 0 < z → HasSZ (G n s z) n s z) :
    plotMain codeKernel E p = .ok ([(3, 1e-3), (2, 0.5), (1, 1)].map fun q : ℤ × ℝ => ⟨q.1, q.2, [1e-6, 0.1, 0.5, 1].map fun s =>
      ⟨s, (List.range 100).map fun i : ℕ => (1e-6 + i * (19.999999 / 99), m06L cfCode (G (1e-6 + i * (19.999999 / 99)) s q.2))⟩, q.1 = 3⟩) := by
  have hp : ∀ n ∈ plotRho, 0 < n := fun n hn => lt_of_lt_of_le (by norm_num [threshold]) (plotRho_ge n hn)
  have hS : ∀ s ∈ plotS, s ≠ 0 := by
    intro s hs
    simp only [plotS, List.mem_cons, List.not_mem_nil, or_false] at hs
    rcases hs with rfl | rfl | rfl | rfl <;> norm_num
  have key : ∀ z : ℝ, 0 < z → plotCurves codeKernel E p z plotS = .ok ([1e-6, 0.1, 0.5, 1].map fun s =>
      ⟨s, (List.range 100).map fun i : ℕ => (1e-6 + i * (19.999999 / 99), m06L cfCode (G (1e-6 + i * (19.999999 / 99)) s z))⟩) := by
    intro z hz
    rw [plotCurves_run E halloc h0 h1 p G hz plotS hS fun s hs n hn => hG n s z (hp n hn) (hS s hs) hz]
    have e : ((2e1 - 1e-6) / (((100 : ℕ) : ℝ) - 1)) = 19.999999 / 99 := by norm_num
    have e1 : (1.0 : ℝ) = 1 := by norm_num
    simp only [plotRho, linspace, List.map_map, Function.comp_def, e, plotS, e1]
  unfold plotMain plotZ
  rw [plotPanels, key _ (by norm_num), plotPanels, key _ (by norm_num), plotPanels, key _ (by norm_num), plotPanels]
  simp only [Outcome.ok_bind, plotZ]
  rw [show (1.0 : ℝ) = 1 by norm_num]
  rfl

/-- The closed shell with given density, reduced gradient and indicator. -/
noncomputable def szGas (n s z : ℝ) : Gas :=
  ⟨n / 2, n / 2, s ^ 2 * (kF n * n) ^ 2, s ^ 2 * (kF n * n) ^ 2, s ^ 2 * (kF n * n) ^ 2, s ^ 2 * kF n ^ 2 * n / (4 * z), s ^ 2 * kF n ^ 2 * n / (4 * z)⟩

theorem szGas_has {n s z : ℝ} (hn : 0 < n) (hs : s ≠ 0) (hz : 0 < z) : HasSZ (szGas n s z) n s z := by
  have hk := kF_pos hn
  refine ⟨rfl, rfl, rfl, rfl, ?_, rfl, ?_⟩
  · simp only [Lit.sSq, szGas]
    field_simp
    ring
  · simp only [Lit.tauW, szGas]
    field_simp
    ring

/-- Surroundings with plenty of memory that know the numbers of the command line. -/
noncomputable def plotEnv : FunevalEnv ℝ where
  scanInt t := if t = "0" then some 0 else none
  scanNum t := if t = "1.0" then some 1 else none
  eof := true
  alloc _ := true
  out _ i := i
  m _ i := i + 17
  junk _ _ := none

/-- The drawing, and a curve of two points with indicator 1. -/
example (p : ℕ) : (∃ l, plotMain codeKernel plotEnv p = .ok l ∧ l.length = 3) ∧
    plotEval codeKernel plotEnv p [0.25, 3] 0.5 1 = .ok [m06L cfCode (szGas 0.25 0.5 1), m06L cfCode (szGas 3 0.5 1)] ∧
    m06L cfCode (szGas 3 0.5 1) = m06X (szGas 3 0.5 1) cfCode m06LXa m06LXd + stollOpp (szGas 3 0.5 1) *
      (mG 0.0031 m06LCc.1.1 (Lit.chiSq (3 / 2) (szGas 3 0.5 1).gaa + Lit.chiSq (3 / 2) (szGas 3 0.5 1).gbb) +
      vs98 m06LCc.1.2 0.00304966 (Lit.chiSq (3 / 2) (szGas 3 0.5 1).gaa + Lit.chiSq (3 / 2) (szGas 3 0.5 1).gbb)
        (mZ cfCode (3 / 2) (szGas 3 0.5 1).taua + mZ cfCode (3 / 2) (szGas 3 0.5 1).taub)) := by
  refine ⟨⟨_, C82_plot plotEnv (fun _ => rfl) (by simp [plotEnv]) (by simp [plotEnv]) p szGas fun n s z => szGas_has, rfl⟩, ?_,
    C82_one_orbital (by norm_num) (by norm_num) (szGas_has (by norm_num) (by norm_num) one_pos)⟩
  have hq : ∀ r ∈ ([0.25, 3] : List ℝ), 2 * threshold ≤ r ∧ 0 < r := by
    intro r hr
    simp only [List.mem_cons, List.not_mem_nil, or_false] at hr
    rcases hr with rfl | rfl <;> norm_num [threshold]
  exact C82_curve plotEnv (fun _ => rfl) (by simp [plotEnv]) (by simp [plotEnv]) p [0.25, 3] (fun r hr => (hq r hr).1) (by norm_num) one_pos
    (fun r => szGas r 0.5 1) fun r hr => szGas_has (hq r hr).2 (by norm_num) one_pos

end XCFun.Props
