/-
**C83.** The correlation energy of a single electron: there is nothing to correlate, so the exact value is zero. The functionals SCAN, LYP and TPSS and their relatives reach this value when the
density of the other spin disappears, PW92 and the PBE family do not.
-/
import Verif.Proofs.OneElectron

namespace XCFun.Props
open XCFun Spec Lit Filter Topology

/-! ## The SCAN family -/

/-- The ids of SCANC, RSCANC, RPPSCANC, R2SCANC and R4SCANC. -/
def scanCIds : List ℕ := [45, 47, 49, 51, 53]

/-- The published formula of each of the five when `τ = τ_W`, and that the gas is in its domain. -/
theorem scan_at {g : Gas} (hg : 0 ≤ g.gnn) (hτ : g.tau = Lit.tauW g.n g.gnn) {id : ℕ} (hid : id ∈ scanCIds) (q : Par) :
    ∃ F, published[id]? = some (some F) ∧ F.domain q g ∧ F.energy q g = g.n * ec0Scan (Lit.rs g.n) (Lit.sSq g.n g.gnn) g.zeta := by
  have hα : ∀ u, alphaScan g.tau (Lit.tauW g.n g.gnn) u = 0 := fun u => by simp [alphaScan, hτ]
  have hβ : ∀ u, alphaBar g.tau (Lit.tauW g.n g.gnn) u = 0 := fun u => by simp [alphaBar, hτ]
  have hr : alphaR 0 = 0 := by norm_num [alphaR]
  have hS : ScanC g := ⟨hg, .inl (by rw [hτ, sub_self])⟩
  have f0 : fScan 0.64 1.5 0.7 0 = 1 := by simp [fScan]
  have f1 : fR 0.64 1.5 0.7 cfc 0 = 1 := by
    unfold fR
    rw [if_neg (lt_irrefl _), if_pos (by norm_num)]
    simp [series, cfc, List.zipIdx]
  have hc : ∀ n e0 e1 : ℝ, scanCof n 1 e0 e1 = n * e0 := fun n e0 e1 => by unfold scanCof; ring
  simp only [scanCIds, List.mem_cons, List.not_mem_nil, or_false] at hid
  rcases hid with rfl | rfl | rfl | rfl | rfl
  · exact ⟨_, rfl, ⟨hS, by rw [hα]; norm_num⟩, by simp only [scanC, hα, f0, hc]⟩
  · exact ⟨_, rfl, ⟨hg, by rw [hα, hr]; exact .inl le_rfl⟩, by simp only [rscanC, hα, hr, f1, hc]⟩
  · exact ⟨_, rfl, ⟨hS, by rw [hβ]; exact .inl le_rfl⟩, by simp only [rppscanC, hβ, f1, hc]⟩
  · exact ⟨_, rfl, ⟨hS, by rw [hβ]; exact .inl le_rfl⟩, by simp only [r2scanC, hβ, f1, hc]⟩
  · exact ⟨_, rfl, ⟨hS, by rw [hβ]; exact .inl le_rfl⟩, by simp only [r2scanC, hβ, f1, hc]⟩

/-- **C83, SCAN.** Where the kinetic energy density is the von Weizsaecker value `|∇n|²/(8 n)`, that is, for densities of one orbital, the five correlation functionals of the SCAN family have the same energy
per volume `e`; `xcfun_eval` returns it times the sum of the weights. It is not positive, and not below `-0.69` times the density `b` of the minority spin, so that it
disappears with this density: a single electron has no correlation energy. -/
theorem C83_scan (s : State ℝ) {v : Vars} (hv : ¬ Unsupported v) (hA : v ≠ .A ∧ v ≠ .A_GAA) (hD : ¬ Doubled v) (hvs : s.vars = some v)
    (hm : s.mode = PARTIAL_DERIVATIVES) (ho : s.order = 0) (hact : ∀ id ∈ s.active, id ∈ scanCIds) {x : ℕ → ℝ}
    (hx : ∀ y ∈ densities (1 / 2) x v, threshold ≤ y) {g : Gas} (hgas : gasAt v x = g) (hg : 0 ≤ g.gaa + 2 * g.gab + g.gbb)
    (hτ : g.taua + g.taub = (g.gaa + 2 * g.gab + g.gbb) / (8 * (g.a + g.b))) (junk : Junk ℝ) (out : ℝ) :
    ∃ e, xcfunEval codeKernel junk s ((List.range v.len).map x) [out] = .ok [(s.active.map s.settings).sum * e] ∧
      -(0.69 * g.b) ≤ e ∧ e ≤ 0 ∧ e = (g.a + g.b) * ec0Scan (Lit.rs g.n) (Lit.sSq g.n g.gnn) g.zeta := by
  subst hgas
  set g := gasAt v x
  have hpos : 0 < g.a ∧ 0 < g.b := gasAt_pos hv hA hx
  have hn : 0 < g.n := add_pos hpos.1 hpos.2
  refine ⟨g.n * ec0Scan (Lit.rs g.n) (Lit.sSq g.n g.gnn) g.zeta, ?_, ?_, ?_, rfl⟩
  · have hF := fun id hid => scan_at (g := g) hg hτ (hact id hid) (parSet s)
    rw [C52_eval s hv hA hD hvs hm ho hx (fun id hid => by obtain ⟨F, h1, h2, -⟩ := hF id hid; exact ⟨F, h1, h2⟩) junk out, publishedSum]
    congr 2
    rw [← List.sum_map_mul_right]
    congr 1
    refine List.map_congr_left fun id hid => ?_
    obtain ⟨F, h1, -, h3⟩ := hF id hid
    rw [publishedEnergy, h1, ← h3]
  all_goals
    have hz1 : g.zeta ≤ 1 := by unfold Gas.zeta; rw [div_le_one hn]; unfold Gas.n; linarith [hpos.2]
    have hz0 : -1 ≤ g.zeta := by unfold Gas.zeta; rw [le_div_iff₀ hn]; unfold Gas.n; linarith [hpos.1]
    have hs : 0 ≤ Lit.sSq g.n g.gnn := by
      have : 0 ≤ g.gnn := hg
      unfold Lit.sSq; positivity
    obtain ⟨h1, h2⟩ := OneE.ec0_bound (OneE.rs_pos' hn).le hs hz0 hz1
  · have hb : g.n * (1 - g.zeta) = 2 * g.b := by
      unfold Gas.zeta
      rw [mul_sub, mul_one, mul_div_cancel₀ _ hn.ne']
      unfold Gas.n; ring
    have := mul_le_mul_of_nonneg_left h1 hn.le
    have e : g.n * -(0.0285764 * (12 * (1 - g.zeta))) = -(0.0285764 * 12 * (2 * g.b)) := by rw [← hb]; ring
    rw [e] at this
    refine le_trans ?_ this
    have := hpos.2
    norm_num
    linarith
  · exact mul_nonpos_of_nonneg_of_nonpos hn.le h2

/-! ## LYP -/

/-- **C83, LYP.** When the density `b` of the minority spin has no gradient, the energy of LYPC is bounded by `b` times a factor of the density and gradient of the other spin: it disappears with `b`. -/
theorem C83_lyp (s : State ℝ) {v : Vars} (hv : ¬ Unsupported v) (hA : v ≠ .A ∧ v ≠ .A_GAA) (hD : ¬ Doubled v) (hvs : s.vars = some v)
    (hm : s.mode = PARTIAL_DERIVATIVES) (ho : s.order = 0) (hact : s.active = [16]) {x : ℕ → ℝ}
    (hx : ∀ y ∈ densities (1 / 2) x v, threshold ≤ y) {g : Gas} (hgas : gasAt v x = g) (hg : 0 ≤ g.gaa) (hab : g.gab = 0) (hbb : g.gbb = 0)
    (junk : Junk ℝ) (out : ℝ) :
    ∃ e, xcfunEval codeKernel junk s ((List.range v.len).map x) [out] = .ok [s.settings 16 * e] ∧
      |e| ≤ g.b * (0.44 + 0.013 * (g.gaa / (g.a + g.b) ^ (8 / 3 : ℝ))) := by
  subst hgas
  refine ⟨lypC (gasAt v x), ?_, ?_⟩
  · rw [C52_eval s hv hA hD hvs hm ho hx (fun id hid => by rw [hact, List.mem_singleton] at hid; subst hid; exact ⟨_, rfl, trivial⟩) junk out, publishedSum, hact]
    simp only [List.map_cons, List.map_nil, List.sum_cons, List.sum_nil, add_zero]
    rfl
  · have hpos : 0 < (gasAt v x).a ∧ 0 < (gasAt v x).b := gasAt_pos hv hA hx
    exact OneE.lyp_bound hpos.1 hpos.2 hg hab hbb

/-! ## TPSS and the functionals it is built on -/

section
variable {ι : Type} {l : Filter ι} {g : ι → Gas} {n g2 : ℝ} {ρ : ι → Field → ℝ}

/-- **C83, TPSS.** The energies of TPSSC, REVTPSSC and TPSSLOCC tend to zero when the gas becomes that of a single electron. -/
theorem C83_tpss (h : ToOneElectron l g n g2) (hρ : ∀ i, IsGas (ρ i) (g i)) {id : ℕ} (hid : id ∈ [41, 43, 75]) {e : Expr Field} (he : Fun.energy id = some e) :
    Tendsto (fun i => e.evalR (ρ i)) l (𝓝 0) := by
  simp only [List.mem_cons, List.not_mem_nil, or_false] at hid
  have hC : ∀ c0 c1 c2 c3 : ℝ, 0 ≤ c0 → 0 ≤ c1 → 0 ≤ c2 → 0 ≤ c3 → ∀ i, |tpssCz (g i) c0 c1 c2 c3| ≤ c0 + c1 + c2 + c3 :=
    fun c0 c1 c2 c3 h0 h1 h2 h3 i => OneE.tpssCz_bound h0 h1 h2 h3 (h.a_pos i) (h.b_pos i) (h.mixed i)
  rcases hid with rfl | rfl | rfl <;> cases he
  · obtain ⟨h1, h2, h3, -⟩ := OneE.pbe_limits h (β := fun _ _ _ => 0.06672455060314922) (fun _ _ _ _ _ => by norm_num) tendsto_const_nhds tendsto_const_nhds
    refine (OneE.tpssLike_tendsto h (ε := pbeEps 0.06672455060314922) 2.8 3 (hC 0.53 0.87 0.50 2.26 (by norm_num) (by norm_num) (by norm_num) (by norm_num)) h1 h2 h3).congr fun i => ?_
    rw [Fun.lit_tpssc (hρ i)]; rfl
  · have hp : ∀ m : ℝ, 0 < m → 0 < betaRs (Lit.rs m) := fun m hm => by
      have := OneE.rs_pos' hm
      unfold betaRs; positivity
    obtain ⟨h1, h2, h3, -⟩ := OneE.pbe_limits h (β := fun m _ _ => betaRs (Lit.rs m)) (fun m _ _ hm _ => hp m hm)
      (OneE.betaRs_tendsto h.n_pos (OneE.n_tendsto h)) (OneE.betaRs_tendsto h.n_pos h.a)
    refine (OneE.tpssLike_tendsto h (ε := fun n z g2 => pbeEps (betaRs (Lit.rs n)) n z g2) 2.8 2
      (hC 0.59 0.9269 0.6225 2.1540 (by norm_num) (by norm_num) (by norm_num) (by norm_num)) h1 h2 h3).congr fun i => ?_
    rw [Fun.lit_revtpssc (hρ i)]; rfl
  · obtain ⟨h1, h2, h3, -⟩ := OneE.pbe_limits h (β := OneE.locBeta) (fun _ _ _ _ hg => OneE.locBeta_pos hg)
      (OneE.locBeta_tendsto h.n_pos (OneE.n_tendsto h) (OneE.zeta_tendsto h) (OneE.gnn_tendsto h)) (OneE.locBeta_tendsto h.n_pos h.a tendsto_const_nhds h.gaa)
    refine (OneE.tpssLike_tendsto h (ε := pbelocEps) 4.5 3 (hC 0.35 0.87 0.50 2.26 (by norm_num) (by norm_num) (by norm_num) (by norm_num)) h1 h2 h3).congr fun i => ?_
    rw [Fun.lit_tpsslocc (hρ i)]; rfl

/-- **C83, PW92 and PBE.** The energies of PW92C and of PBEC, APBEC, PBEINTC and PBELOCC do not: they tend to a negative value, that of the fully polarised density `n` with squared
gradient `g2`. -/
theorem C83_pbe (h : ToOneElectron l g n g2) (hρ : ∀ i, IsGas (ρ i) (g i)) {id : ℕ} (hid : id ∈ [4, 28, 67, 71, 73]) {e : Expr Field} (he : Fun.energy id = some e) :
    ∃ E < 0, Tendsto (fun i => e.evalR (ρ i)) l (𝓝 E) ∧
      E = n * match id with
        | 4 => pbeEps 0.06672455060314922 n 1 g2
        | 28 => pw92Eps n 1
        | 67 => pbeEps 0.079030523241 n 1 g2
        | 71 => pbeEps 0.052 n 1 g2
        | _ => pbelocEps n 1 g2 := by
  have hn := h.n_pos
  have hN := OneE.n_tendsto h
  have hpbe : ∀ β : ℝ, 0 < β → pbeEps β n 1 g2 < 0 ∧ Tendsto (fun i => (g i).n * pbeEps β (g i).n (g i).zeta (g i).gnn) l (𝓝 (n * pbeEps β n 1 g2)) := fun β hβ => by
    obtain ⟨h1, -, -, h4⟩ := OneE.pbe_limits h (β := fun _ _ _ => β) (fun _ _ _ _ _ => hβ) tendsto_const_nhds tendsto_const_nhds
    exact ⟨h4, hN.mul h1⟩
  simp only [List.mem_cons, List.not_mem_nil, or_false] at hid
  rcases hid with rfl | rfl | rfl | rfl | rfl <;> cases he
  · obtain ⟨h1, h2⟩ := hpbe 0.06672455060314922 (by norm_num)
    exact ⟨_, mul_neg_of_pos_of_neg hn h1, h2.congr fun i => (C52_published (id := 4) (hρ i) rfl rfl trivial).symm, rfl⟩
  · exact ⟨_, mul_neg_of_pos_of_neg hn (OneE.pw92Eps_one hn), (hN.mul (OneE.pw92Eps_tendsto hn hN (OneE.zeta_tendsto h))).congr fun i =>
      (C52_published (id := 28) (hρ i) rfl rfl trivial).symm, rfl⟩
  · obtain ⟨h1, h2⟩ := hpbe 0.079030523241 (by norm_num)
    exact ⟨_, mul_neg_of_pos_of_neg hn h1, h2.congr fun i => (C52_published (id := 67) (hρ i) rfl rfl trivial).symm, rfl⟩
  · obtain ⟨h1, h2⟩ := hpbe 0.052 (by norm_num)
    exact ⟨_, mul_neg_of_pos_of_neg hn h1, h2.congr fun i => (C52_published (id := 71) (hρ i) rfl rfl trivial).symm, rfl⟩
  · obtain ⟨h1, -, -, h4⟩ := OneE.pbe_limits h (β := OneE.locBeta) (fun _ _ _ _ hg => OneE.locBeta_pos hg)
      (OneE.locBeta_tendsto h.n_pos (OneE.n_tendsto h) (OneE.zeta_tendsto h) (OneE.gnn_tendsto h)) (OneE.locBeta_tendsto h.n_pos h.a tendsto_const_nhds h.gaa)
    exact ⟨_, mul_neg_of_pos_of_neg hn h4, (hN.mul h1).congr fun i => (C52_published (id := 73) (hρ i) rfl rfl trivial).symm, rfl⟩

end

/-! ## Cases -/

/-- One electron with density 1 and squared gradient 4, and `1/(k+1)` of the other spin. -/
noncomputable def nearOne (k : ℕ) : Gas := ⟨1, 1 / (k + 1), 4, 0, 0, 1 / 2, 0⟩

theorem nearOne_tends : ToOneElectron atTop nearOne 1 4 where
  n_pos := one_pos
  g2_pos := by norm_num
  a_pos _ := one_pos
  b_pos k := by show (0 : ℝ) < 1 / (k + 1); positivity
  gaa_nonneg _ := by show (0 : ℝ) ≤ 4; norm_num
  gbb_nonneg _ := le_rfl
  mixed k := by
    show (0 : ℝ) ≤ (1 / ((k : ℝ) + 1)) ^ 2 * 4 - 2 * 1 * (1 / ((k : ℝ) + 1)) * 0 + 1 ^ 2 * 0
    rw [mul_zero, mul_zero, sub_zero, add_zero]; positivity
  a := tendsto_const_nhds
  b := tendsto_one_div_add_atTop_nhds_zero_nat
  gaa := tendsto_const_nhds
  gab := tendsto_const_nhds
  gbb := tendsto_const_nhds
  tau := by
    have : (fun i => (nearOne i).taua + (nearOne i).taub) = fun _ => (4 : ℝ) / (8 * 1) := by funext i; norm_num [nearOne]
    rw [this]; exact tendsto_const_nhds

/-- Density variables of a gas. -/
noncomputable def fieldsOf (g : Gas) : Field → ℝ
  | .a => g.a | .b => g.b | .n => g.a + g.b | .s => g.a - g.b
  | .gaa => g.gaa | .gab => g.gab | .gbb => g.gbb | .gnn => g.gaa + 2 * g.gab + g.gbb | .gns => g.gaa - g.gbb | .gss => g.gaa - 2 * g.gab + g.gbb
  | .taua => g.taua | .taub => g.taub | .tau => g.taua + g.taub
  | .zeta => (g.a - g.b) / (g.a + g.b) | .r_s => (3 / ((g.a + g.b) * 4 * Real.pi)) ^ (1 / 3 : ℝ) | .n_m13 => (g.a + g.b) ^ (-1 / 3 : ℝ)
  | .a_43 => g.a ^ (4 / 3 : ℝ) | .b_43 => g.b ^ (4 / 3 : ℝ)
  | _ => 0

theorem nearOne_fields (k : ℕ) : IsGas (fieldsOf (nearOne k)) (nearOne k) := by
  constructor
  · exact nearOne_tends.a_pos k
  · exact nearOne_tends.b_pos k
  all_goals rfl

/-- TPSS correlation of these gases tends to zero, PBE correlation to a negative value. -/
example : Tendsto (fun k => Fun.tpssc.evalR (fieldsOf (nearOne k))) atTop (𝓝 0) ∧
    ∃ E < 0, Tendsto (fun k => Fun.pbec.evalR (fieldsOf (nearOne k))) atTop (𝓝 E) := by
  refine ⟨C83_tpss nearOne_tends nearOne_fields (id := 41) (by decide) rfl, ?_⟩
  obtain ⟨E, h1, h2, -⟩ := C83_pbe nearOne_tends nearOne_fields (id := 4) (by decide) rfl
  exact ⟨E, h1, h2⟩

/-- SCAN and r²SCAN correlation together, for a density of one electron with the least other density the library does not raise. -/
example : ∃ s₀ s : State ℝ, run State.init [.set "scanc" 1, .set "r2scanc" 1] = .ok s₀ ∧
    evalSetup s₀ Vars.A_B_GAA_GAB_GBB_TAUA_TAUB.code PARTIAL_DERIVATIVES 0 = .ok (0, s) ∧
    ∃ E, xcfunEval codeKernel none s [1 - 1e-14, 1e-14, 8, 0, 0, 1, 0] [0] = .ok [E] ∧ -1.4e-14 ≤ E ∧ E ≤ 0 := by
  obtain ⟨s₀, s, hr, hset⟩ : ∃ s₀ s : State ℝ, run State.init [.set "scanc" 1, .set "r2scanc" 1] = .ok s₀ ∧
    evalSetup s₀ Vars.A_B_GAA_GAB_GBB_TAUA_TAUB.code PARTIAL_DERIVATIVES 0 = .ok (0, s) := ⟨_, _, rfl, rfl⟩
  refine ⟨s₀, s, hr, hset, ?_⟩
  obtain ⟨e, -⟩ := setup_facts hr hset
  have hl : (lit 0 0 : ℝ) = 0 := by simp [lit, XCFun.Lit.lit]
  have hs₀ : s₀.active = [45, 51] ∧ s₀.settings 45 = lit 0 0 + 1 ∧ s₀.settings 51 = lit 0 0 + 1 := by
    cases hr
    exact ⟨rfl, rfl, rfl⟩
  obtain ⟨i0, i1, i2⟩ := hs₀
  have hact : s.active = [45, 51] := by rw [e]; exact i0
  have h45 : s.settings 45 = 1 := by rw [e]; refine i1.trans ?_; rw [hl, zero_add]
  have h51 : s.settings 51 = 1 := by rw [e]; refine i2.trans ?_; rw [hl, zero_add]
  obtain ⟨E, h1, h2, h3, -⟩ := C83_scan s (v := .A_B_GAA_GAB_GBB_TAUA_TAUB) (x := inputOf ⟨1 - 1e-14, 1e-14, 8, 0, 0, 1, 0⟩) (by decide) (by decide) (by simp [Doubled])
    (by rw [e]) (by rw [e]) (by rw [e]) (by rw [hact]; decide)
    (by
      intro y hy
      simp only [densities, densSlots, List.map_cons, List.map_nil, List.mem_cons, List.not_mem_nil, or_false] at hy
      rcases hy with rfl | rfl
      · show threshold ≤ (1 - 1e-14 : ℝ); norm_num [threshold]
      · show threshold ≤ (1e-14 : ℝ); norm_num [threshold])
    (g := ⟨1 - 1e-14, 1e-14, 8, 0, 0, 1, 0⟩) rfl (by norm_num) (by norm_num) none 0
  refine ⟨_, h1, ?_⟩
  rw [hact]
  simp only [List.map_cons, List.map_nil, List.sum_cons, List.sum_nil, h45, h51]
  simp only at h2
  norm_num at h2 ⊢
  constructor <;> linarith

/-- LYP for the same gas: the bound is `1e-14 (0.44 + 0.104)`. -/
example : ∃ s₀ s : State ℝ, run State.init [.set "lypc" 1] = .ok s₀ ∧
    evalSetup s₀ Vars.A_B_GAA_GAB_GBB_TAUA_TAUB.code PARTIAL_DERIVATIVES 0 = .ok (0, s) ∧
    ∃ E, xcfunEval codeKernel none s [1 - 1e-14, 1e-14, 8, 0, 0, 1, 0] [0] = .ok [E] ∧ |E| ≤ 6e-15 := by
  obtain ⟨s₀, s, hr, hset⟩ : ∃ s₀ s : State ℝ, run State.init [.set "lypc" 1] = .ok s₀ ∧
    evalSetup s₀ Vars.A_B_GAA_GAB_GBB_TAUA_TAUB.code PARTIAL_DERIVATIVES 0 = .ok (0, s) := ⟨_, _, rfl, rfl⟩
  refine ⟨s₀, s, hr, hset, ?_⟩
  obtain ⟨e, -⟩ := setup_facts hr hset
  have hl : (lit 0 0 : ℝ) = 0 := by simp [lit, XCFun.Lit.lit]
  have hs₀ : s₀.active = [16] ∧ s₀.settings 16 = lit 0 0 + 1 := by
    cases hr
    exact ⟨rfl, rfl⟩
  obtain ⟨i0, i1⟩ := hs₀
  have hact : s.active = [16] := by rw [e]; exact i0
  have h16 : s.settings 16 = 1 := by rw [e]; refine i1.trans ?_; rw [hl, zero_add]
  obtain ⟨E, h1, h2⟩ := C83_lyp s (v := .A_B_GAA_GAB_GBB_TAUA_TAUB) (x := inputOf ⟨1 - 1e-14, 1e-14, 8, 0, 0, 1, 0⟩) (by decide) (by decide) (by simp [Doubled])
    (by rw [e]) (by rw [e]) (by rw [e]) hact
    (by
      intro y hy
      simp only [densities, densSlots, List.map_cons, List.map_nil, List.mem_cons, List.not_mem_nil, or_false] at hy
      rcases hy with rfl | rfl
      · show threshold ≤ (1 - 1e-14 : ℝ); norm_num [threshold]
      · show threshold ≤ (1e-14 : ℝ); norm_num [threshold])
    (g := ⟨1 - 1e-14, 1e-14, 8, 0, 0, 1, 0⟩) rfl (by norm_num) rfl rfl none 0
  refine ⟨_, h1, ?_⟩
  rw [h16, one_mul]
  refine h2.trans ?_
  simp only
  rw [show (1 - 1e-14 + 1e-14 : ℝ) = 1 by norm_num, Real.one_rpow]
  norm_num

end XCFun.Props
