/-
C49: derivatives are exact at all physical densities off listed surfaces.
-/
import Verif.Proofs.SmoothTies
import Verif.Props.Potential
import Verif.Spec.CorrSign

namespace XCFun.Props
open XCFun Spec
open scoped ContDiff

theorem smoothAt_congr {μ : ℝ} {ρ ρ' : Field → ℝ}
    (h : ∀ f ∈ [Field.a, .b, .n, .s, .gaa, .gbb, .gnn, .tau, .taua, .taub, .gss, .gns], ρ f = ρ' f) {id : ℕ} (hs : SmoothAt μ ρ id) :
    SmoothAt μ ρ' id := by
  have h1 := h .a (by decide)
  have h2 := h .b (by decide)
  have h3 := h .n (by decide)
  have h4 := h .s (by decide)
  have h5 := h .gaa (by decide)
  have h6 := h .gbb (by decide)
  have h7 := h .gnn (by decide)
  have h8 := h .tau (by decide)
  have h9 := h .taua (by decide)
  have h10 := h .taub (by decide)
  have h11 := h .gss (by decide)
  have h12 := h .gns (by decide)
  unfold SmoothAt TpssSmooth NoTie at hs ⊢
  simpa only [h1, h2, h3, h4, h5, h6, h7, h8, h9, h10, h11, h12] using hs

/-- **C49.** Densities above the threshold whose gradient squares are not negative, off the surfaces `SmoothAt` of the active functionals, are strictly
inside the domains of all elementary functions used: the domain hypothesis of C16, C17, C19 and C20 holds.  (`s.settings 78` is the
range-separation parameter.) -/
theorem C49_regular (s : State ℝ) {v : Vars} (hv : ¬ Unsupported v) (hA : v ≠ .A ∧ v ≠ .A_GAA) {x : ℕ → ℝ} (h : PhysicalInput v x)
    (hs : ∀ id ∈ s.active, SmoothAt (s.settings 78) (given (1 / 2) x v) id) : RegularAt s v x := by
  refine regularAt_of_members s hv hA h.dens fun id hid e he => Fun.smooth_all (memberR_sound s.settings hv hA h) ?_ he
  rw [(memberR_derived s.settings hv x).2.2.2.2.2]
  refine smoothAt_congr (fun f hf => ?_) (hs id hid)
  refine (memberR_given s.settings hv hA (fun y hy => (h.dens y hy).le) ?_).symm
  simp only [List.mem_cons, List.not_mem_nil, or_false] at hf
  rcases hf with rfl | rfl | rfl | rfl | rfl | rfl | rfl | rfl | rfl | rfl | rfl | rfl <;> simp [IsDensity, IsOther]

/-- **C49, LDAERFC_JT.** No density is a pole of LDAERFC_JT when the range-separation parameter is not negative. -/
theorem C49_ldaerfc_jt {v : Vars} (hv : ¬ Unsupported v) (hA : v ≠ .A ∧ v ≠ .A_GAA) (hD : ¬ Doubled v) {x : ℕ → ℝ} (h : PhysicalInput v x) {μ : ℝ}
    (hμ : 0 ≤ μ) : SmoothAt μ (given (1 / 2) x v) 15 := by
  have hg : ∀ f, IsDensity f ∨ IsOther f → memberR (fun _ => 0) v x f = given (1 / 2) x v f :=
    fun f hf => memberR_given _ hv hA (fun y hy => (h.dens y hy).le) hf
  have hc : memberR (fun _ => 0) v x .a + memberR (fun _ => 0) v x .b = memberR (fun _ => 0) v x .n ∧
      memberR (fun _ => 0) v x .a - memberR (fun _ => 0) v x .b = memberR (fun _ => 0) v x .s := by
    rw [hg .a (by simp [IsDensity]), hg .b (by simp [IsDensity]), hg .n (by simp [IsDensity]), hg .s (by simp [IsDensity])]
    cases v <;> first
      | exact absurd (by decide) hv
      | exact ⟨rfl, rfl⟩
      | exact absurd rfl hA.1
      | exact absurd (by simp [Doubled]) hD
  refine smoothAt_congr (ρ := memberR (fun _ => 0) v x) (fun f hf => hg f ?_)
    ⟨hc, (Fun.jtDenominator_pos (memberR_sound (fun _ => 0) hv hA h) hc hμ).ne'⟩
  simp only [List.mem_cons, List.not_mem_nil, or_false] at hf
  rcases hf with rfl | rfl | rfl | rfl | rfl | rfl | rfl | rfl | rfl | rfl | rfl | rfl <;> simp [IsDensity, IsOther]


theorem reads_ne {v : Vars} (hv : ¬ Unsupported v) : DV.reads v ≠ none := by
  cases v <;> first | exact absurd (by decide) hv | simp [DV.reads]

/-- **C49, partial derivatives.** With C16: at every such density the entries returned at order `k ≤ 3` are the partial derivatives of the energy
returned at order 0. -/
theorem C49_partial_derivatives (s : State ℝ) {v : Vars} (hv : ¬ Unsupported v) (hA : v ≠ .A ∧ v ≠ .A_GAA) (hvs : s.vars = some v)
    (hm : s.mode = PARTIAL_DERIVATIVES) :
    ∃ F : (ℕ → ℝ) → ℝ,
      (∀ y rest o output junk, xcfunEval codeKernel junk { s with order := 0 }
        ((List.range v.len).map y ++ rest) (o :: output) = .ok (F y :: output)) ∧
      ∀ x, PhysicalInput v x → (∀ id ∈ s.active, SmoothAt (s.settings 78) (given (1 / 2) x v) id) →
        ∀ (k : ℕ), s.order = k → k ≤ 3 →
        ∀ rest output junk (len : ℕ), outputLength s = .ok (len : ℤ) → len ≤ output.length →
          xcfunEval codeKernel junk s ((List.range v.len).map x ++ rest) output = .ok
            (layout v.len k (F x) (fun i => pderiv i F x) (fun i j => pderiv i (pderiv j F) x)
              (fun i j l => pderiv i (pderiv j (pderiv l F)) x) ++ output.drop len) := by
  obtain ⟨F, h0, hF⟩ := C16_exact_partial_derivatives s v hvs hm (reads_ne hv)
  exact ⟨F, h0, fun x hx hs => hF x (C49_regular s hv hA hx hs)⟩

/-- **C49, contracted mode.** With C17: the base point of the input suffices. -/
theorem C49_contracted (s : State ℝ) {v : Vars} (hv : ¬ Unsupported v) (hA : v ≠ .A ∧ v ≠ .A_GAA) (hvs : s.vars = some v)
    (hm : s.mode = CONTRACTED) (N : ℕ) (ho : s.order = N) (hN : N ≤ 6) (y : ℕ → ℝ) (hx : PhysicalInput v fun i => y (i * 2 ^ N))
    (hs : ∀ id ∈ s.active, SmoothAt (s.settings 78) (given (1 / 2) (fun i => y (i * 2 ^ N)) v) id)
    (rest output : List ℝ) (junk : Junk ℝ) (hout : 2 ^ N ≤ output.length) :
    xcfunEval codeKernel junk s ((List.range (v.len * 2 ^ N)).map y ++ rest) output = .ok
      ((List.range (2 ^ N)).map (fun S =>
        pderivs (bits N S) (fun e => energyAt s v (pathAt N y e)) (fun _ => 0))
      ++ output.drop (2 ^ N)) :=
  C17_contracted_derivatives s v hvs hm N ho hN (reads_ne hv) y (C49_regular s hv hA hx hs) rest output junk hout

theorem physical_expansion {ρ : Space → ℝ} {r : Space} (h : threshold < ρ r) : PhysicalInput .N_2ND_TAYLOR (expansion ρ r) := by
  constructor
  · intro y hy
    simp only [densities, densSlots, List.map_cons, List.map_nil, List.mem_cons, List.not_mem_nil, or_false] at hy
    subst hy
    exact h
  all_goals
    simp only [given, spinFields, dot]
    nlinarith [sq_nonneg (expansion ρ r 1), sq_nonneg (expansion ρ r 2), sq_nonneg (expansion ρ r 3)]

theorem physical_expansion2 {a b : Space → ℝ} {r : Space} (ha : threshold < a r) (hb : threshold < b r) :
    PhysicalInput .A_B_2ND_TAYLOR (expansion2 a b r) := by
  constructor
  · intro y hy
    simp only [densities, densSlots, List.map_cons, List.map_nil, List.mem_cons, List.not_mem_nil, or_false] at hy
    rcases hy with rfl | rfl
    · exact ha
    · exact hb
  · simp only [given, spinFields, dot]; exact add_nonneg (add_nonneg (mul_self_nonneg _) (mul_self_nonneg _)) (mul_self_nonneg _)
  · simp only [given, spinFields, dot]; exact add_nonneg (add_nonneg (mul_self_nonneg _) (mul_self_nonneg _)) (mul_self_nonneg _)
  · simp only [given, spinFields, dot]
    nlinarith [sq_nonneg (expansion2 a b r 1 + expansion2 a b r 11), sq_nonneg (expansion2 a b r 2 + expansion2 a b r 12),
      sq_nonneg (expansion2 a b r 3 + expansion2 a b r 13)]

/-- **C49, restricted potential.** With C20: for every smooth field above the threshold, at a point off the surfaces, potential mode writes the energy
density and the functional derivative.  (As in C20, without REVTPSSX, id 44.) -/
theorem C49_restricted_potential (h : List (Call ℝ)) (s₀ s : State ℝ) (hr : run State.init h = .ok s₀) (o : ℤ)
    (hset : evalSetup s₀ Vars.N_2ND_TAYLOR.code POTENTIAL o = .ok (0, s)) (h44 : 44 ∉ s.active)
    (ρ : Space → ℝ) (r : Space) (hρ : ContDiffAt ℝ ∞ ρ r) (ht : threshold < ρ r)
    (hs : ∀ id ∈ s.active, SmoothAt (s.settings 78) (given (1 / 2) (expansion ρ r) .N_2ND_TAYLOR) id)
    (rest output : List ℝ) (junk : Junk ℝ) (ho : 2 ≤ output.length) :
    xcfunEval codeKernel junk s ((List.range 10).map (expansion ρ r) ++ rest) output = .ok
      ([energyAt s .N_2ND_TAYLOR (expansion ρ r),
        functionalDerivative (energyAt s .N_2ND_TAYLOR) (expansion ρ) 0 r] ++ output.drop 2) :=
  C20_restricted_potential h s₀ s hr o hset h44 ρ r hρ
    (C49_regular s (by decide) (by decide) (physical_expansion ht) hs) rest output junk ho

/-- **C49, unrestricted potential.** The same for two smooth spin density fields. -/
theorem C49_unrestricted_potential (h : List (Call ℝ)) (s₀ s : State ℝ) (hr : run State.init h = .ok s₀) (o : ℤ)
    (hset : evalSetup s₀ Vars.A_B_2ND_TAYLOR.code POTENTIAL o = .ok (0, s))
    (a b : Space → ℝ) (r : Space) (ha : ContDiffAt ℝ ∞ a r) (hb : ContDiffAt ℝ ∞ b r) (hta : threshold < a r) (htb : threshold < b r)
    (hs : ∀ id ∈ s.active, SmoothAt (s.settings 78) (given (1 / 2) (expansion2 a b r) .A_B_2ND_TAYLOR) id)
    (rest output : List ℝ) (j : (N : ℕ) → ℕ → CT ℝ N) (ho : 3 ≤ output.length) :
    xcfunEval codeKernel (some j) s ((List.range 20).map (expansion2 a b r) ++ rest) output = .ok
      ([energyAt s .A_B_2ND_TAYLOR (expansion2 a b r),
        functionalDerivative (energyAt s .A_B_2ND_TAYLOR) (expansion2 a b) 0 r,
        functionalDerivative (energyAt s .A_B_2ND_TAYLOR) (expansion2 a b) 10 r] ++ output.drop 3) :=
  C20_unrestricted_potential h s₀ s hr o hset a b r ha hb
    (C49_regular s (by decide) (by decide) (physical_expansion2 hta htb) hs) rest output j ho

/-- **C49, density-only potential.** With C19, `XC_A_B` and `XC_N`. -/
theorem C49_lda_potential (s : State ℝ) {v : Vars} (hv : v = .A_B ∨ v = .N) (hvs : s.vars = some v)
    (hm : s.mode = POTENTIAL) (hd : s.depends.testBit 1 = false) (x : ℕ → ℝ) (hx : ∀ y ∈ densities (1 / 2) x v, threshold < y)
    (hs : ∀ id ∈ s.active, SmoothAt (s.settings 78) (given (1 / 2) x v) id)
    (rest output : List ℝ) (junk : Junk ℝ) (ho : 1 + v.len ≤ output.length) :
    xcfunEval codeKernel junk s ((List.range v.len).map x ++ rest) output = .ok
      (energyAt s v x :: (List.range v.len).map (fun i => pderiv i (energyAt s v) x)
        ++ output.drop (1 + v.len)) := by
  have hu : ¬ Unsupported v ∧ (v ≠ .A ∧ v ≠ .A_GAA) := by rcases hv with rfl | rfl <;> decide
  refine C19_lda_potential_exact s hv hvs hm hd x (C49_regular s hu.1 hu.2 ⟨hx, ?_, ?_, ?_⟩ hs) rest output junk ho
  all_goals rcases hv with rfl | rfl <;> simp [given, spinFields]

/-! ## Cases -/

/-- Becke exchange, LYP correlation and TPSS exchange together, two spins with kinetic energy densities: second derivatives are exact at a point with all
inputs different. -/
example : ∃ s₀ s : State ℝ, run State.init [.set "beckex" 0.5, .set "lypc" 1, .set "tpssx" 0.25] = .ok s₀ ∧
    evalSetup s₀ Vars.A_B_GAA_GAB_GBB_TAUA_TAUB.code PARTIAL_DERIVATIVES 2 = .ok (0, s) ∧
    RegularAt s .A_B_GAA_GAB_GBB_TAUA_TAUB (fun i => [1, 8, 2, 1, 3, 5, 7].getD i 0) := by
  refine ⟨_, _, rfl, rfl, ?_⟩
  have e8 : (8 : ℝ) ^ (-8 / 3 : ℝ) = 1 / 256 := by
    have : ((2 : ℝ) ^ (3 : ℝ)) ^ (-8 / 3 : ℝ) = 1 / 256 := by
      rw [← Real.rpow_mul (by norm_num), show (3 : ℝ) * (-8 / 3) = -(8 : ℕ) by norm_num, Real.rpow_neg (by norm_num), Real.rpow_natCast]
      norm_num
    rwa [show (2 : ℝ) ^ (3 : ℝ) = 8 by norm_num] at this
  refine C49_regular _ (by decide) (by decide) ⟨?_, ?_, ?_, ?_⟩ ?_
  · intro y hy
    simp only [densities, densSlots, List.map_cons, List.map_nil, List.mem_cons, List.not_mem_nil, or_false] at hy
    rcases hy with rfl | rfl <;> norm_num [threshold]
  iterate 3 norm_num [given, spinFields]
  · intro id hid
    have hid : id ∈ [6, 16, 42] := hid
    simp only [List.mem_cons, List.not_mem_nil, or_false] at hid
    rcases hid with rfl | rfl | rfl
    · constructor <;> norm_num [given, spinFields, chiSq, e8]
    · trivial
    · constructor <;> norm_num [given, spinFields]

/-- PBE, unrestricted potential: no surfaces at all.  This is also a case of C20. -/
example (a b : Space → ℝ) (r : Space) (ha : ContDiffAt ℝ ∞ a r) (hb : ContDiffAt ℝ ∞ b r) (hta : threshold < a r) (htb : threshold < b r)
    (j : (N : ℕ) → ℕ → CT ℝ N) :
    ∃ s₀ s : State ℝ, run State.init [.set "pbe" 1] = .ok s₀ ∧
      evalSetup s₀ Vars.A_B_2ND_TAYLOR.code POTENTIAL 1 = .ok (0, s) ∧ Needs s 1 ∧
      xcfunEval codeKernel (some j) s ((List.range 20).map (expansion2 a b r)) [0, 0, 0] = .ok
        [energyAt s .A_B_2ND_TAYLOR (expansion2 a b r),
          functionalDerivative (energyAt s .A_B_2ND_TAYLOR) (expansion2 a b) 0 r,
          functionalDerivative (energyAt s .A_B_2ND_TAYLOR) (expansion2 a b) 10 r] := by
  refine ⟨_, _, rfl, rfl, ⟨5, by decide, _, rfl, by decide⟩, ?_⟩
  have := C49_unrestricted_potential [.set "pbe" 1] _ _ rfl 1 rfl a b r ha hb hta htb (fun id hid => by
    have hid : id ∈ [5, 4] := hid
    simp only [List.mem_cons, List.not_mem_nil, or_false] at hid
    rcases hid with rfl | rfl <;> trivial) [] [0, 0, 0] j (by simp)
  simpa using this

/-- VWN5 and Slater exchange with `XC_A_B`.  This is also a case of C19. -/
example (a b : ℝ) (ha : threshold < a) (hb : threshold < b) (junk : Junk ℝ) :
    ∃ s₀ s : State ℝ, run State.init [.set "lda" 1] = .ok s₀ ∧
      evalSetup s₀ Vars.A_B.code POTENTIAL 1 = .ok (0, s) ∧
      xcfunEval codeKernel junk s [a, b] [0, 0, 0] = .ok
        [energyAt s .A_B (fun i => [a, b].getD i 0), pderiv 0 (energyAt s .A_B) (fun i => [a, b].getD i 0),
          pderiv 1 (energyAt s .A_B) (fun i => [a, b].getD i 0)] := by
  obtain ⟨s₀, s, hr, hset⟩ : ∃ s₀ s : State ℝ, run State.init [.set "lda" 1] = .ok s₀ ∧
    evalSetup s₀ Vars.A_B.code POTENTIAL 1 = .ok (0, s) := ⟨_, _, rfl, rfl⟩
  refine ⟨s₀, s, hr, hset, ?_⟩
  have hact : s.active = [0, 3] ∧ s.depends.testBit 1 = false := by
    cases hr
    cases hset
    exact ⟨rfl, rfl⟩
  obtain ⟨e, -⟩ := setup_facts hr hset
  have := C49_lda_potential s (v := .A_B) (Or.inl rfl) (by rw [e]) (by rw [e]) hact.2 (fun i => [a, b].getD i 0) (by
    intro y hy
    simp only [densities, densSlots, List.map_cons, List.map_nil, List.mem_cons, List.not_mem_nil, or_false] at hy
    rcases hy with rfl | rfl
    exacts [ha, hb]) (fun id hid => by
    rw [hact.1] at hid
    simp only [List.mem_cons, List.not_mem_nil, or_false] at hid
    rcases hid with rfl | rfl <;> trivial) [] [0, 0, 0] junk (by decide)
  exact this

/-- The three TPSS correlation functionals with different gradients of the spins. -/
example : ∃ s₀ s : State ℝ, run State.init [.set "tpssc" 1, .set "revtpssc" 1, .set "tpsslocc" 1] = .ok s₀ ∧
    evalSetup s₀ Vars.A_B_GAA_GAB_GBB_TAUA_TAUB.code PARTIAL_DERIVATIVES 2 = .ok (0, s) ∧
    RegularAt s .A_B_GAA_GAB_GBB_TAUA_TAUB (fun i => [3 / (8 * Real.pi), 3 / (8 * Real.pi), 2, -2, 2, 5, 7].getD i 0) := by
  refine ⟨_, _, rfl, rfl, ?_⟩
  have hp := Real.pi_pos
  have hp4 := Real.pi_lt_d2
  have hd : threshold < 3 / (8 * Real.pi) := by
    rw [lt_div_iff₀ (by positivity)]
    norm_num [threshold]
    linarith
  have wave : ∀ ε : ℝ → ℝ → ℝ → ℝ, (∃ β : ℝ → ℝ → ℝ → ℝ, (∀ n z g, 0 < n → 0 ≤ g → 0 < β n z g) ∧ ε = fun n z g => Lit.pbeEps (β n z g) n z g) →
      TpssSmooth ε (given (1 / 2) (fun i => [3 / (8 * Real.pi), 3 / (8 * Real.pi), 2, -2, 2, 5, 7].getD i 0) .A_B_GAA_GAB_GBB_TAUA_TAUB) := by
    intro ε hε
    refine ⟨⟨rfl, rfl⟩, ?_, ?_, Fun.noTie_wave (g := 2) (by norm_num) hε ?_ ?_ rfl rfl ?_ rfl rfl⟩
    · norm_num [given, spinFields]
    · norm_num [given, spinFields]
      positivity
    · simp only [given, spinFields, List.getD_cons_zero, List.getD_cons_succ]; ring
    · simp [given, spinFields]
    · norm_num [given, spinFields]
  refine C49_regular _ (by decide) (by decide) ⟨?_, ?_, ?_, ?_⟩ ?_
  · intro y hy
    simp only [densities, densSlots, List.map_cons, List.map_nil, List.mem_cons, List.not_mem_nil, or_false] at hy
    rcases hy with rfl | rfl <;> exact hd
  iterate 3 norm_num [given, spinFields]
  · intro id hid
    have hid : id ∈ [41, 43, 75] := hid
    simp only [List.mem_cons, List.not_mem_nil, or_false] at hid
    rcases hid with rfl | rfl | rfl
    · exact wave _ ⟨fun _ _ _ => 0.06672455060314922, fun _ _ _ _ _ => by norm_num, rfl⟩
    · exact wave _ ⟨fun n _ _ => Lit.betaRs (Lit.rs n), fun n _ _ hn _ => Fun.betaRs_pos hn, rfl⟩
    · refine wave _ ⟨fun n z g => 0.0375 + 0.08 * Lit.tSq n z g * (1 - Real.exp (-Lit.rs n ^ 2)), fun n z g _ hg => ?_, rfl⟩
      have : Real.exp (-Lit.rs n ^ 2) ≤ 1 := Real.exp_le_one_iff.2 (by nlinarith [sq_nonneg (Lit.rs n)])
      have : 0 ≤ Lit.tSq n z g := by unfold Lit.tSq; positivity
      have : 0 ≤ 0.08 * Lit.tSq n z g * (1 - Real.exp (-Lit.rs n ^ 2)) := mul_nonneg (by positivity) (by linarith)
      linarith

/-- REVTPSSX for two different densities without gradients. -/
example : SmoothAt 0 (given (1 / 2) (fun i => [1, 8, 0, 0, 0, 5, 7].getD i 0) .A_B_GAA_GAB_GBB_TAUA_TAUB) 44 := by
  have key : ∀ n τ : ℝ, Lit.revtpssArgCode n 0 τ ≠ -0.804 := by
    intro n τ
    have : 0 ≤ Lit.revtpssArgCode n 0 τ := by
      simp only [Lit.revtpssArgCode, Lit.sSq, Lit.tauW, zero_div, mul_zero, ne_eq, OfNat.ofNat_ne_zero, not_false_eq_true, zero_pow,
        add_zero, Real.sqrt_zero, sub_zero, zero_add]
      positivity
    norm_num
    linarith
  refine ⟨⟨by norm_num [given, spinFields], by norm_num [given, spinFields]⟩, ?_, ?_⟩
  · have e : (4 : ℝ) * given (1 / 2) (fun i => [1, 8, 0, 0, 0, 5, 7].getD i 0) .A_B_GAA_GAB_GBB_TAUA_TAUB .gaa = 0 := by simp [given, spinFields]
    rw [e]; exact key _ _
  · have e : (4 : ℝ) * given (1 / 2) (fun i => [1, 8, 0, 0, 0, 5, 7].getD i 0) .A_B_GAA_GAB_GBB_TAUA_TAUB .gbb = 0 := by simp [given, spinFields]
    rw [e]; exact key _ _

/-- r²SCAN and r⁴SCAN correlation: every polarised density with some weak gradient and a large kinetic energy density. -/
example (a b : ℝ) (ha : 0 < a) (hb : 0 < b) : ∃ g τ : ℝ, 0 < g ∧
    ∀ id, id = 51 ∨ id = 53 → SmoothAt 0 (given (1 / 2) (fun i => [a, b, g, 0, 0, τ, 0].getD i 0) .A_B_GAA_GAB_GBB_TAUA_TAUB) id := by
  obtain ⟨g, hg, -, hd⟩ := Fun.r2domain_small 0.031090690869655 0.51984209978974632953442121455650 (a + b) ((a - b) / (a + b))
  have hz1 : 0 < 1 + (a - b) / (a + b) := by rw [show 1 + (a - b) / (a + b) = 2 * a / (a + b) by field_simp; ring]; positivity
  have hz2 : 0 < 1 - (a - b) / (a + b) := by rw [show 1 - (a - b) / (a + b) = 2 * b / (a + b) by field_simp; ring]; positivity
  have hU : 0 < tauU (a + b) * polT ((a - b) / (a + b)) + 1e-3 * tauW (a + b) g := by unfold tauU polT tauW; positivity
  set U := tauU (a + b) * polT ((a - b) / (a + b)) + 1e-3 * tauW (a + b) g with hUd
  have core : (0 : ℝ) < g ∧ 1e-14 < |tauW (a + b) g + (3 * U + 1) - tauW (a + b) g| ∧ Between ((tauW (a + b) g + (3 * U + 1) - tauW (a + b) g) / U) := by
    rw [add_sub_cancel_left, abs_of_pos (by positivity)]
    have h3 : 3 < (3 * U + 1) / U := by rw [lt_div_iff₀ hU]; linarith
    refine ⟨hg, by norm_num; linarith, ?_, ?_⟩ <;> intro h <;> rw [h] at h3 <;> norm_num at h3
  refine ⟨g, tauW (a + b) g + (3 * U + 1), hg, fun id hid => ?_⟩
  have e1 : given (1 / 2) (fun i => [a, b, g, 0, 0, tauW (a + b) g + (3 * U + 1), 0].getD i 0) .A_B_GAA_GAB_GBB_TAUA_TAUB .gnn = g := by
    simp [given, spinFields]
  have e2 : given (1 / 2) (fun i => [a, b, g, 0, 0, tauW (a + b) g + (3 * U + 1), 0].getD i 0) .A_B_GAA_GAB_GBB_TAUA_TAUB .tau =
      tauW (a + b) g + (3 * U + 1) := by
    simp [given, spinFields]
  have e3 : given (1 / 2) (fun i => [a, b, g, 0, 0, tauW (a + b) g + (3 * U + 1), 0].getD i 0) .A_B_GAA_GAB_GBB_TAUA_TAUB .n = a + b := rfl
  have e4 : given (1 / 2) (fun i => [a, b, g, 0, 0, tauW (a + b) g + (3 * U + 1), 0].getD i 0) .A_B_GAA_GAB_GBB_TAUA_TAUB .s = a - b := rfl
  rcases hid with rfl | rfl
  all_goals
    refine ⟨⟨⟨rfl, rfl⟩, ?_⟩, ?_⟩
    · rw [e1, e3, e4]; exact hd
    · rw [e1, e2, e3, e4]; exact core

/-- LDAERFC_JT with range separation. -/
example : ∃ s₀ s : State ℝ, run State.init [.set "ldaerfc_jt" 1, .set "rangesep_mu" 0.4] = .ok s₀ ∧
    evalSetup s₀ Vars.A_B.code PARTIAL_DERIVATIVES 2 = .ok (0, s) ∧ RegularAt s .A_B (fun i => [1, 8].getD i 0) := by
  obtain ⟨s₀, s, hr, hset⟩ : ∃ s₀ s : State ℝ, run State.init [.set "ldaerfc_jt" 1, .set "rangesep_mu" 0.4] = .ok s₀ ∧
    evalSetup s₀ Vars.A_B.code PARTIAL_DERIVATIVES 2 = .ok (0, s) := ⟨_, _, rfl, rfl⟩
  refine ⟨s₀, s, hr, hset, ?_⟩
  have hact : s.active = [15] ∧ s.settings 78 = 0.4 := by
    cases hr
    cases hset
    exact ⟨rfl, rfl⟩
  have hx : PhysicalInput .A_B (fun i => [1, 8].getD i 0) := by
    refine ⟨?_, ?_, ?_, ?_⟩
    · intro y hy
      simp only [densities, densSlots, List.map_cons, List.map_nil, List.mem_cons, List.not_mem_nil, or_false] at hy
      rcases hy with rfl | rfl <;> norm_num [threshold]
    all_goals norm_num [given, spinFields]
  refine C49_regular s (by decide) (by decide) hx fun id hid => ?_
  rw [hact.1, List.mem_singleton] at hid
  subst hid
  exact C49_ldaerfc_jt (by decide) (by decide) (by simp [Doubled]) hx (by rw [hact.2]; norm_num)

end XCFun.Props
