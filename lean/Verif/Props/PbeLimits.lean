/-
C75: the conditions behind the PBE correlation energy.
-/
import Verif.Spec.CorrSign
import Verif.Proofs.PbeLimits
import Verif.Proofs.LitCorr
import Verif.Props.CorrSign

namespace XCFun.Props
open XCFun Spec Expr Filter Topology

variable {ρ σ : Field → ℝ} {id : ℕ} {e l : Expr Field}

/-- **C75, bounds.** The eight functionals of this type lie between the correlation energy of the uniform gas and zero. -/
theorem C75_lda (hid : id ∈ pbeFamily ++ zvFamily ++ [21]) (he : Fun.energy id = some e) (hl : Fun.energy (ldaOf id) = some l) (h : Sound ρ) :
    l.evalR ρ ≤ e.evalR ρ ∧ e.evalR ρ < 0 := by
  refine ⟨?_, C50_negative (id := id)
    ((by decide : ∀ i ∈ pbeFamily ++ zvFamily ++ [21], i ∈ correlationNegative) id hid) he h⟩
  rw [Fun.epsOf_lda id hl]
  have hn := h.n
  have hu := (Fun.u3_pos h).pos
  have hz : ∀ {κ β₀ β₁ ε : ℝ}, 0 < κ → 0 < β₀ → 0 ≤ β₁ → ε < 0 → 0 ≤ Fun.gradTerm ((pow3 Fun.phi).evalR ρ) ε κ β₀ β₁ (ρ .gnn) := by
    intro κ β₀ β₁ ε hκ h0 h1 hε
    rcases h.gnn.eq_or_lt with hg | hg
    · rw [← hg, Fun.gradTerm_zero]
    · rw [← Fun.gradTerm_zero (u := (pow3 Fun.phi).evalR ρ) (e := ε) (κ := κ) (β₀ := β₀) (β₁ := β₁)]
      exact (Fun.gradTerm_lt hu hε hκ h0 h1 le_rfl hg).le
  rw [List.mem_append, List.mem_append] at hid
  rcases hid with (hid | hid) | hid
  · rw [Fun.family_form hid he h]
    have := hz (Fun.tFactor_pos h) (Fun.pbeBeta_pos id) (Fun.locSlope_nonneg id (ρ .r_s)) (Fun.epsOf_neg id h)
    gcongr
    linarith
  · have key : ∀ {β α : ℝ}, 0 < β → ρ .n * Fun.pw92eps.evalR ρ ≤ (Fun.zvpbe β α).evalR ρ := by
      intro β α hβ
      rw [Fun.zv_form hβ h]
      have := mul_nonneg (Real.exp_pos (-(α * Fun.zvRate ρ * (ρ .gnn ^ (0.5 : ℝ)) ^ 3))).le
        (hz (Fun.tFactor_pos h) hβ le_rfl (Fun.pw92eps_neg h))
      gcongr
      linarith
    simp only [zvFamily, List.mem_cons, List.not_mem_nil, or_false] at hid
    rcases hid with rfl | rfl <;> cases he <;> exact key (by norm_num)
  · simp only [List.mem_singleton] at hid
    subst hid
    cases he
    show _ ≤ Fun.spbec.evalR ρ
    rw [Fun.spbec_form h]
    have : 0 ≤ Fun.spbeTerm ((pow3 Fun.phi).evalR ρ) (Fun.vwn5_eps.evalR ρ) (Fun.sFactor ρ) (ρ .gnn) := by
      rcases h.gnn.eq_or_lt with hg | hg
      · rw [← hg, Fun.spbeTerm_zero]
      · rw [← Fun.spbeTerm_zero (u := (pow3 Fun.phi).evalR ρ) (e := Fun.vwn5_eps.evalR ρ) (κ := Fun.sFactor ρ)]
        exact (Fun.spbeTerm_lt hu (Fun.vwn5_eps_neg h) (Fun.sFactor_pos h) le_rfl hg).le
    show ρ .n * Fun.vwn5_eps.evalR ρ ≤ _
    gcongr
    linarith

/-- **C75, uniform densities.** Without a gradient they are the correlation energy of the uniform gas. -/
theorem C75_uniform (hid : id ∈ pbeFamily ++ zvFamily ++ [21]) (he : Fun.energy id = some e) (hl : Fun.energy (ldaOf id) = some l) (h : Sound ρ)
    (hg : ρ .gnn = 0) : e.evalR ρ = l.evalR ρ := by
  rw [Fun.epsOf_lda id hl]
  rw [List.mem_append, List.mem_append] at hid
  rcases hid with (hid | hid) | hid
  · rw [Fun.family_form hid he h, hg, Fun.gradTerm_zero, add_zero]
  · have key : ∀ {β α : ℝ}, 0 < β → (Fun.zvpbe β α).evalR ρ = ρ .n * Fun.pw92eps.evalR ρ := by
      intro β α hβ
      rw [Fun.zv_form hβ h, hg, Fun.gradTerm_zero, mul_zero, add_zero]
    simp only [zvFamily, List.mem_cons, List.not_mem_nil, or_false] at hid
    rcases hid with rfl | rfl <;> cases he <;> exact key (by norm_num)
  · simp only [List.mem_singleton] at hid
    subst hid
    cases he
    show Fun.spbec.evalR ρ = _
    rw [Fun.spbec_form h, hg, Fun.spbeTerm_zero, add_zero]
    rfl

/-- **C75, monotone.** At given densities the energy of PBEC, VWN_PBEC, APBEC, PBEINTC, PBELOCC and SPBEC grows strictly with the gradient. -/
theorem C75_increasing (hid : id ∈ pbeFamily ++ [21]) (he : Fun.energy id = some e) (h : Sound ρ) (k : Sound σ) (hd : SameDensities ρ σ)
    (hg : ρ .gnn < σ .gnn) : e.evalR ρ < e.evalR σ := by
  obtain ⟨hn, hε, hu, hκ, hr, -⟩ := Fun.family_congr (id := id) h k hd
  rw [List.mem_append] at hid
  rcases hid with hid | hid
  · rw [Fun.family_form hid he h, Fun.family_form hid he k, hn, hε, hu, hκ, hr]
    have := Fun.gradTerm_lt (Fun.u3_pos h).pos (Fun.epsOf_neg id h) (Fun.tFactor_pos h) (Fun.pbeBeta_pos id) (Fun.locSlope_nonneg id (ρ .r_s))
      h.gnn hg
    exact mul_lt_mul_of_pos_left (by linarith) h.n
  · simp only [List.mem_singleton] at hid
    subst hid
    cases he
    show Fun.spbec.evalR ρ < Fun.spbec.evalR σ
    have hε' : Fun.vwn5_eps.evalR σ = Fun.vwn5_eps.evalR ρ := hε
    rw [Fun.spbec_form h, Fun.spbec_form k, hn, hε', hu, Fun.sFactor_congr h k hd]
    have := Fun.spbeTerm_lt (Fun.u3_pos h).pos (Fun.vwn5_eps_neg h) (Fun.sFactor_pos h) h.gnn hg
    exact mul_lt_mul_of_pos_left (by linarith) h.n

/-- **C75, rapidly varying densities.** At given densities the energy of PBEC, VWN_PBEC, APBEC, PBEINTC and PBELOCC tends to zero as the gradient
grows beyond all bounds. -/
theorem C75_rapid (hid : id ∈ pbeFamily) (he : Fun.energy id = some e) {ι : Type} {L : Filter ι} {τ : ι → Field → ℝ} (h : Sound ρ)
    (hs : ∀ i, Sound (τ i)) (hd : ∀ i, SameDensities ρ (τ i)) (hg : Tendsto (fun i => τ i .gnn) L atTop) :
    Tendsto (fun i => e.evalR (τ i)) L (𝓝 0) := by
  have h1 := ((((Fun.gradTerm_tendsto (Fun.u3_pos h).pos (Fun.epsOf_neg id h) (Fun.tFactor_pos h) (Fun.pbeBeta_pos id)
    (Fun.locSlope_nonneg id (ρ .r_s))).comp hg).const_add ((Fun.epsOf id).evalR ρ)).const_mul (ρ .n))
  rw [add_neg_cancel, mul_zero] at h1
  refine h1.congr fun i => ?_
  obtain ⟨hn, hε, hu, hκ, hr, -⟩ := Fun.family_congr (id := id) h (hs i) (hd i)
  rw [Fun.family_form hid he (hs i), hn, hε, hu, hκ, hr]
  rfl

/-- **C75, rapidly varying densities, ZVPBESOLC and ZVPBEINTC**: correlation vanishes for unpolarised densities only, otherwise the energy of the uniform
gas is approached. -/
theorem C75_rapid_zv (hid : id ∈ zvFamily) (he : Fun.energy id = some e) {ι : Type} {L : Filter ι} {τ : ι → Field → ℝ} (h : Sound ρ)
    (hs : ∀ i, Sound (τ i)) (hd : ∀ i, SameDensities ρ (τ i)) (hg : Tendsto (fun i => τ i .gnn) L atTop) :
    Tendsto (fun i => e.evalR (τ i)) L (𝓝 (if ρ .s = 0 then 0 else Fun.pw92c.evalR ρ)) := by
  have key : ∀ {β α : ℝ}, 0 < β → 0 < α → Tendsto (fun i => (Fun.zvpbe β α).evalR (τ i)) L (𝓝 (if ρ .s = 0 then 0 else Fun.pw92c.evalR ρ)) := by
    intro β α hβ hα
    have e0 : Fun.pw92c.evalR ρ = ρ .n * (Fun.pw92eps.evalR ρ + 0) := by rw [add_zero]; exact mul_comm _ _
    have cong : ∀ i, (Fun.zvpbe β α).evalR (τ i) = ρ .n * (Fun.pw92eps.evalR ρ + Real.exp (-(α * Fun.zvRate ρ * (τ i .gnn ^ (0.5 : ℝ)) ^ 3)) *
        Fun.gradTerm ((pow3 Fun.phi).evalR ρ) (Fun.pw92eps.evalR ρ) (Fun.tFactor ρ) β 0 (τ i .gnn)) := by
      intro i
      obtain ⟨hn, hε, hu, hκ, -⟩ := Fun.family_congr (id := 4) h (hs i) (hd i)
      have hε' : Fun.pw92eps.evalR (τ i) = Fun.pw92eps.evalR ρ := hε
      rw [Fun.zv_form hβ (hs i), hn, hε', hu, hκ, Fun.zvRate_congr h (hs i) (hd i)]
    split
    · rename_i hz
      have hζ : ρ .zeta = 0 := by rw [h.zeta, hz, zero_div]
      have h1 := (((Fun.gradTerm_tendsto (Fun.u3_pos h).pos (Fun.pw92eps_neg h) (Fun.tFactor_pos h) hβ le_rfl).comp hg).const_add
        (Fun.pw92eps.evalR ρ)).const_mul (ρ .n)
      rw [add_neg_cancel, mul_zero] at h1
      refine h1.congr fun i => ?_
      rw [cong i, Fun.zvRate, Fun.zvFit_zero hζ, zero_mul, mul_zero, zero_mul, neg_zero, Real.exp_zero, one_mul]
      rfl
    · rename_i hz
      have hζ : ρ .zeta ≠ 0 := by rw [h.zeta]; exact div_ne_zero hz h.n.ne'
      rw [e0]
      have h1 := (((Fun.zv_tendsto (mul_pos hα (Fun.zvRate_pos h hζ)) (Fun.u3_pos h).pos (Fun.pw92eps_neg h) (Fun.tFactor_pos h) hβ).comp hg).const_add
        (Fun.pw92eps.evalR ρ)).const_mul (ρ .n)
      exact h1.congr fun i => (cong i).symm
  simp only [zvFamily, List.mem_cons, List.not_mem_nil, or_false] at hid
  rcases hid with rfl | rfl <;> cases he <;> exact key (by norm_num) (by norm_num)

/-- **C75, rapidly varying densities, SPBEC**: with the two constants of spbec.cpp:22-24 exchanged, correlation does not vanish; `1 - γ²/β`
(`γ = 0.066725`, `β = 0.031091` in the names of the code) of the energy of the uniform gas remain. -/
theorem C75_rapid_spbec {ι : Type} {L : Filter ι} {τ : ι → Field → ℝ} (h : Sound ρ)
    (hs : ∀ i, Sound (τ i)) (hd : ∀ i, SameDensities ρ (τ i)) (hg : Tendsto (fun i => τ i .gnn) L atTop) :
    Tendsto (fun i => Fun.spbec.evalR (τ i)) L (𝓝 ((1 - 0.066725 ^ 2 / 0.031091) * Fun.vwn5c.evalR ρ)) := by
  have h1 := (((Fun.spbeTerm_tendsto (Fun.u3_pos h).pos (Fun.vwn5_eps_neg h) (Fun.sFactor_pos h)).comp hg).const_add
    (Fun.vwn5_eps.evalR ρ)).const_mul (ρ .n)
  have e0 : ρ .n * (Fun.vwn5_eps.evalR ρ + -(Fun.spbecGamm / Fun.spbecBetaGamma) * Fun.vwn5_eps.evalR ρ) =
      (1 - 0.066725 ^ 2 / 0.031091) * Fun.vwn5c.evalR ρ := by
    show _ = _ * (ρ .n * Fun.vwn5_eps.evalR ρ)
    norm_num [Fun.spbecGamm, Fun.spbecBetaGamma]
    ring
  rw [e0] at h1
  refine h1.congr fun i => ?_
  obtain ⟨hn, hε, hu, -⟩ := Fun.family_congr (id := 21) h (hs i) (hd i)
  have hε' : Fun.vwn5_eps.evalR (τ i) = Fun.vwn5_eps.evalR ρ := hε
  rw [Fun.spbec_form (hs i), hn, hε', hu, Fun.sFactor_congr h (hs i) (hd i)]
  rfl

/-- **C75, SPBEC is no exception by accident**: it does not tend to zero. -/
theorem C75_rapid_spbec_fails {ι : Type} {L : Filter ι} [L.NeBot] {τ : ι → Field → ℝ} (h : Sound ρ)
    (hs : ∀ i, Sound (τ i)) (hd : ∀ i, SameDensities ρ (τ i)) (hg : Tendsto (fun i => τ i .gnn) L atTop) :
    ¬ Tendsto (fun i => Fun.spbec.evalR (τ i)) L (𝓝 0) := by
  intro h0
  have := tendsto_nhds_unique h0 (C75_rapid_spbec h hs hd hg)
  have hv : Fun.vwn5c.evalR ρ < 0 := mul_neg_of_pos_of_neg h.n (Fun.vwn5_eps_neg h)
  norm_num at this
  exact hv.ne this

/-! ### Slowly varying densities -/

theorem update_gnn (h : Sound ρ) {g : ℝ} (hg : 0 ≤ g) : Sound (Function.update ρ .gnn g) := by
  have e : ∀ {f : Field}, f ≠ .gnn → Function.update ρ Field.gnn g f = ρ f := fun hf => Function.update_of_ne hf _ _
  refine { a := ?_, b := ?_, n := ?_, a_43 := ?_, b_43 := ?_, s_lt := ?_, lt_s := ?_, zeta := ?_, r_s := ?_, n_m13 := ?_, gaa := ?_, gbb := ?_, gnn := ?_ }
  · rw [e (by decide)]; exact h.a
  · rw [e (by decide)]; exact h.b
  · rw [e (by decide)]; exact h.n
  · rw [e (by decide), e (by decide)]; exact h.a_43
  · rw [e (by decide), e (by decide)]; exact h.b_43
  · rw [e (by decide), e (by decide)]; exact h.s_lt
  · rw [e (by decide), e (by decide)]; exact h.lt_s
  · rw [e (by decide), e (by decide), e (by decide)]; exact h.zeta
  · rw [e (by decide), e (by decide)]; exact h.r_s
  · rw [e (by decide), e (by decide)]; exact h.n_m13
  · rw [e (by decide)]; exact h.gaa
  · rw [e (by decide)]; exact h.gbb
  · rw [Function.update_self]; exact hg

theorem update_same (g : ℝ) : SameDensities ρ (Function.update ρ .gnn g) := by
  intro f hf
  rw [Function.update_of_ne]
  rintro rfl
  simp [IsDensity] at hf

/-- `φ` is that of the literature. -/
theorem phi_lit (h : Sound ρ) (hc : Consistent ρ) : Fun.phi.evalR ρ = Lit.phi (ρ .zeta) ∧ 0 < Lit.phi (ρ .zeta) := by
  let g : Lit.Gas := { a := ρ .a, b := ρ .b, gaa := 0, gab := 0, gbb := 0, taua := 0, taub := 0 }
  let τ : Field → ℝ := fun f => if Fun.densityField f then ρ f else 0
  have hz : ρ .zeta = (ρ .a - ρ .b) / (ρ .a + ρ .b) := by rw [h.zeta, hc.sum, hc.diff]
  have hg : Lit.IsGas τ g := {
    apos := h.a, bpos := h.b, a := rfl, b := rfl, n := hc.sum.symm, s := hc.diff.symm, gaa := rfl, gab := rfl, gbb := rfl
    gnn := by show (0 : ℝ) = 0 + 2 * 0 + 0; norm_num
    gns := by show (0 : ℝ) = 0 - 0; norm_num
    gss := by show (0 : ℝ) = 0 - 2 * 0 + 0; norm_num
    taua := rfl, taub := rfl
    tau := by show (0 : ℝ) = 0 + 0; norm_num
    zeta := hz
    r_s := by show ρ .r_s = (3 / ((ρ .a + ρ .b) * 4 * Real.pi)) ^ (1 / 3 : ℝ); rw [hc.sum]; exact h.r_s
    n_m13 := by show ρ .n_m13 = (ρ .a + ρ .b) ^ (-1 / 3 : ℝ); rw [hc.sum]; exact h.n_m13
    a_43 := h.a_43, b_43 := h.b_43 }
  have e : Fun.phi.evalR ρ = Fun.phi.evalR τ := evalR_congr (fun f hf => by show ρ f = if _ then _ else _; rw [if_pos hf]) _ Fun.phi_density
  have ez : g.zeta = ρ .zeta := hz.symm
  rw [e, ← ez]
  exact ⟨Fun.lit_phi hg, Fun.phi_pos' hg⟩

theorem tFactor_lit (h : Sound ρ) (hc : Consistent ρ) : Fun.tFactor ρ = Lit.tSq (ρ .n) (ρ .zeta) 1 := by
  obtain ⟨h1, h2⟩ := phi_lit h hc
  rw [Fun.tFactor, ← Fun.tSq_eq h.n h2 h1, mul_one]

/-- **C75, slowly varying densities.** For small gradients the energy per electron is `ε + β φ(ζ)³ t² + o(t²)`: the derivative with respect to `|∇n|²` at 0 is
that of `n β φ³ t²`. -/
theorem C75_slow (hid : id ∈ pbeFamily) (he : Fun.energy id = some e) (h : Sound ρ) (hc : Consistent ρ) :
    HasDerivWithinAt (fun g => e.evalR (Function.update ρ .gnn g)) (ρ .n * (pbeBeta id * Lit.phi (ρ .zeta) ^ 3 * Lit.tSq (ρ .n) (ρ .zeta) 1))
      (Set.Ici 0) 0 := by
  have h1 := ((Fun.gradTerm_slope (κ := Fun.tFactor ρ) (β₀ := pbeBeta id) (β₁ := Fun.locSlope id (ρ .r_s)) (Fun.u3_pos h).pos
    (Fun.epsOf_neg id h)).const_add ((Fun.epsOf id).evalR ρ)).const_mul (ρ .n)
  have e0 : ρ .n * ((pow3 Fun.phi).evalR ρ * Fun.tFactor ρ * pbeBeta id) =
      ρ .n * (pbeBeta id * Lit.phi (ρ .zeta) ^ 3 * Lit.tSq (ρ .n) (ρ .zeta) 1) := by
    rw [evalR_pow3, (phi_lit h hc).1, tFactor_lit h hc]; ring
  rw [e0] at h1
  have key : ∀ g, 0 ≤ g → e.evalR (Function.update ρ .gnn g) = ρ .n * ((Fun.epsOf id).evalR ρ +
      Fun.gradTerm ((pow3 Fun.phi).evalR ρ) ((Fun.epsOf id).evalR ρ) (Fun.tFactor ρ) (pbeBeta id) (Fun.locSlope id (ρ .r_s)) g) := by
    intro g hg
    obtain ⟨hn, hε, hu, hκ, hr, -⟩ := Fun.family_congr (id := id) h (update_gnn h hg) (update_same g)
    rw [Fun.family_form hid he (update_gnn h hg), hn, hε, hu, hκ, hr, Function.update_self]
  exact h1.hasDerivWithinAt.congr (fun g hg => key g hg) (key 0 le_rfl)

/-! ### The library -/

section
variable (s : State ℝ) {v : Vars} (hv : ¬ Unsupported v) (hA : v ≠ .A ∧ v ≠ .A_GAA)
  (hvs : s.vars = some v) (hm : s.mode = PARTIAL_DERIVATIVES) (ho : s.order = 0)

/-- Inputs with the same densities. -/
def SameDensityInputs (v : Vars) (x y : ℕ → ℝ) : Prop := ∀ f, IsDensity f → given (1 / 2) x v f = given (1 / 2) y v f

include hv hA in
theorem members_same {x y : ℕ → ℝ} (hx : PhysicalInput v x) (hy : PhysicalInput v y) (hd : SameDensityInputs v x y) :
    SameDensities (memberR s.settings v x) (memberR s.settings v y) := by
  intro f hf
  rw [memberR_given s.settings hv hA (fun y hy => (hx.dens y hy).le) (.inl hf), memberR_given s.settings hv hA (fun z hz => (hy.dens z hz).le) (.inl hf)]
  exact hd f hf

theorem pbe_energy (hid : id ∈ pbeFamily ++ [21]) : ∃ e, Fun.energy id = some e := by
  simp only [pbeFamily, List.cons_append, List.nil_append, List.mem_cons, List.not_mem_nil, or_false] at hid
  rcases hid with rfl | rfl | rfl | rfl | rfl | rfl <;> exact ⟨_, rfl⟩

theorem sum_lt {l : List ℕ} {f g : ℕ → ℝ} (h : ∀ i ∈ l, f i ≤ g i) (hs : ∃ i ∈ l, f i < g i) : (l.map f).sum < (l.map g).sum :=
  List.sum_lt_sum (l := l) f g h hs

include hv hA hvs hm ho in
/-- **C75, monotone, `xcfun_eval`.** For any object combining these functionals with non-negative weights, not all zero, the energy returned for the larger of two
gradients at the same densities is the larger one. -/
theorem C75_eval_increasing (hs : ∀ id ∈ s.active, id ∈ pbeFamily ++ [21] ∧ 0 ≤ s.settings id) (hp : ∃ id ∈ s.active, 0 < s.settings id)
    {x y : ℕ → ℝ} (hx : PhysicalInput v x) (hy : PhysicalInput v y) (hd : SameDensityInputs v x y)
    (hg : given (1 / 2) x v .gnn < given (1 / 2) y v .gnn) (junk : Junk ℝ) (out : ℝ) :
    ∃ E E', xcfunEval codeKernel junk s ((List.range v.len).map x) [out] = .ok [E] ∧
      xcfunEval codeKernel junk s ((List.range v.len).map y) [out] = .ok [E'] ∧ E < E' := by
  refine ⟨_, _, eval_order0 s hv hvs hm ho x junk out, eval_order0 s hv hvs hm ho y junk out, ?_⟩
  rw [energyAt_members s hv, energyAt_members s hv]
  have hgm : memberR s.settings v x .gnn < memberR s.settings v y .gnn := by
    rw [memberR_given s.settings hv hA (fun y hy => (hx.dens y hy).le) (.inr (by simp [IsOther])),
      memberR_given s.settings hv hA (fun z hz => (hy.dens z hz).le) (.inr (by simp [IsOther]))]
    exact hg
  have key : ∀ id ∈ s.active, ((Fun.energy id).getD 0).evalR (memberR s.settings v x) < ((Fun.energy id).getD 0).evalR (memberR s.settings v y) := by
    intro id hid
    obtain ⟨e, he⟩ := pbe_energy (hs id hid).1
    rw [he, Option.getD_some]
    exact C75_increasing (hs id hid).1 he (memberR_sound s.settings hv hA hx) (memberR_sound s.settings hv hA hy) (members_same s hv hA hx hy hd) hgm
  obtain ⟨id, hid, hp⟩ := hp
  refine sum_lt (fun i hi => mul_le_mul_of_nonneg_left (key i hi).le (hs i hi).2) ⟨id, hid, mul_lt_mul_of_pos_left (key id hid) hp⟩

include hv hA hvs hm ho in
/-- **C75, rapidly varying densities, `xcfun_eval`.** For any object combining PBEC, VWN_PBEC, APBEC, PBEINTC and PBELOCC with any weights, the energies returned
for gradients growing beyond all bounds at the same densities tend to zero. -/
theorem C75_eval_rapid (hs : ∀ id ∈ s.active, id ∈ pbeFamily) {ι : Type} {L : Filter ι} {x : ι → ℕ → ℝ} {x₀ : ℕ → ℝ} (h₀ : PhysicalInput v x₀)
    (hx : ∀ i, PhysicalInput v (x i)) (hd : ∀ i, SameDensityInputs v x₀ (x i)) (hg : Tendsto (fun i => given (1 / 2) (x i) v .gnn) L atTop)
    (junk : Junk ℝ) (out : ℝ) :
    ∃ E : ι → ℝ, (∀ i, xcfunEval codeKernel junk s ((List.range v.len).map (x i)) [out] = .ok [E i]) ∧ Tendsto E L (𝓝 0) := by
  refine ⟨_, fun i => eval_order0 s hv hvs hm ho (x i) junk out, ?_⟩
  have e0 : (fun i => energyAt s v (x i)) = fun i => (s.active.map fun id => s.settings id *
      ((Fun.energy id).getD 0).evalR (memberR s.settings v (x i))).sum := funext fun i => energyAt_members s hv _
  rw [e0]
  have hgm : Tendsto (fun i => memberR s.settings v (x i) .gnn) L atTop := by
    refine hg.congr fun i => ?_
    rw [memberR_given s.settings hv hA (fun y hy => ((hx i).dens y hy).le) (.inr (by simp [IsOther]))]
  have key : ∀ l : List ℕ, (∀ id ∈ l, id ∈ pbeFamily) → Tendsto (fun i => (l.map fun id => s.settings id *
      ((Fun.energy id).getD 0).evalR (memberR s.settings v (x i))).sum) L (𝓝 0) := by
    intro l hl
    induction l with
    | nil => exact tendsto_const_nhds
    | cons id l ih =>
      obtain ⟨e, he⟩ := pbe_energy (List.mem_append_left _ (hl id List.mem_cons_self))
      have h1 := (C75_rapid (hl id List.mem_cons_self) he (memberR_sound s.settings hv hA h₀) (fun i => memberR_sound s.settings hv hA (hx i))
        (fun i => members_same s hv hA h₀ (hx i) (hd i)) hgm).const_mul (s.settings id)
      have h2 := h1.add (ih fun i hi => hl i (List.mem_cons_of_mem _ hi))
      rw [mul_zero, add_zero] at h2
      simpa only [List.map_cons, List.sum_cons, he, Option.getD_some] using h2
  exact key _ hs

end

/-- Two spin densities without gradients. -/
def uniformInput (a b : ℝ) (i : ℕ) : ℝ := if i = 0 then a else if i = 1 then b else 0

/-- Factors with which the three products of gradients enter `|∇n|²`. -/
def gradFactor (j : ℕ) : ℝ := if j = 3 then 2 else 1

theorem given_uniform {a b : ℝ} {j : ℕ} (hj : j = 2 ∨ j = 3 ∨ j = 4) (t : ℝ) :
    (∀ f, IsDensity f → given (1 / 2) (Function.update (uniformInput a b) j t) .A_B_GAA_GAB_GBB f = given (1 / 2) (uniformInput a b) .A_B_GAA_GAB_GBB f) ∧
    given (1 / 2) (Function.update (uniformInput a b) j t) .A_B_GAA_GAB_GBB .gnn = gradFactor j * t := by
  constructor
  · rintro f (rfl | rfl | rfl | rfl) <;> rcases hj with rfl | rfl | rfl <;> simp [given, spinFields]
  · rcases hj with rfl | rfl | rfl <;> simp [given, spinFields, uniformInput, gradFactor]

theorem physical_uniform {a b : ℝ} (ha : threshold < a) (hb : threshold < b) {j : ℕ} (hj : j = 2 ∨ j = 3 ∨ j = 4) {t : ℝ} (ht : 0 ≤ t) :
    PhysicalInput .A_B_GAA_GAB_GBB (Function.update (uniformInput a b) j t) := by
  constructor
  · intro y hy
    simp only [densities, densSlots, List.map_cons, List.map_nil, List.mem_cons, List.not_mem_nil, or_false] at hy
    have h0 : Function.update (uniformInput a b) j t 0 = a := by rw [Function.update_of_ne (by omega)]; rfl
    have h1 : Function.update (uniformInput a b) j t 1 = b := by rw [Function.update_of_ne (by omega)]; rfl
    rcases hy with rfl | rfl
    · rw [h0]; exact ha
    · rw [h1]; exact hb
  · rcases hj with rfl | rfl | rfl <;> simp [given, spinFields, uniformInput, ht]
  · rcases hj with rfl | rfl | rfl <;> simp [given, spinFields, uniformInput, ht]
  · rw [(given_uniform hj t).2]
    unfold gradFactor
    split <;> linarith

/-- Derivative of the energy with respect to a product of gradients at uniform densities. -/
theorem uniform_slope (s : State ℝ) (hs : ∀ id ∈ s.active, id ∈ pbeFamily) {a b : ℝ} (ha : threshold < a) (hb : threshold < b) {j : ℕ}
    (hj : j = 2 ∨ j = 3 ∨ j = 4) :
    pderiv j (energyAt s .A_B_GAA_GAB_GBB) (uniformInput a b) = gradFactor j * (s.active.map fun id => s.settings id *
      ((a + b) * (pbeBeta id * Lit.phi ((a - b) / (a + b)) ^ 3 * Lit.tSq (a + b) ((a - b) / (a + b)) 1))).sum := by
  have hv : ¬ Unsupported Vars.A_B_GAA_GAB_GBB := by decide
  have hA : Vars.A_B_GAA_GAB_GBB ≠ .A ∧ Vars.A_B_GAA_GAB_GBB ≠ .A_GAA := by decide
  have e00 : Function.update (uniformInput a b) j 0 = uniformInput a b := by
    have : uniformInput a b j = 0 := by rcases hj with rfl | rfl | rfl <;> simp [uniformInput]
    rw [← this, Function.update_eq_self]
  have hx0 : PhysicalInput .A_B_GAA_GAB_GBB (uniformInput a b) := by
    have := physical_uniform ha hb hj le_rfl
    rwa [e00] at this
  have hS := memberR_sound s.settings hv hA hx0
  have hm : ∀ f, IsDensity f ∨ IsOther f → memberR s.settings .A_B_GAA_GAB_GBB (uniformInput a b) f =
      given (1 / 2) (uniformInput a b) .A_B_GAA_GAB_GBB f := fun f hf => memberR_given _ hv hA (fun y hy => (hx0.dens y hy).le) hf
  set ρ := memberR s.settings .A_B_GAA_GAB_GBB (uniformInput a b) with hρ
  have hρa : ρ .a = a := by rw [hm .a (by simp [IsDensity])]; simp [given, spinFields, uniformInput]
  have hρb : ρ .b = b := by rw [hm .b (by simp [IsDensity])]; simp [given, spinFields, uniformInput]
  have hρn : ρ .n = a + b := by rw [hm .n (by simp [IsDensity])]; simp [given, spinFields, uniformInput]
  have hρs : ρ .s = a - b := by rw [hm .s (by simp [IsDensity])]; simp [given, spinFields, uniformInput]
  have hc : Consistent ρ := ⟨by rw [hρa, hρb, hρn], by rw [hρa, hρb, hρs]⟩
  have hζ : ρ .zeta = (a - b) / (a + b) := by rw [hS.zeta, hρs, hρn]
  have hreg : RegularAt s .A_B_GAA_GAB_GBB (uniformInput a b) := C49_regular s hv hA hx0 fun id hid => by
    have := hs id hid
    simp only [pbeFamily, List.mem_cons, List.not_mem_nil, or_false] at this
    rcases this with rfl | rfl | rfl | rfl | rfl <;> trivial
  -- the energy along the gradient, for gradients that are none or positive
  have key : ∀ t, 0 ≤ t → energyAt s .A_B_GAA_GAB_GBB (Function.update (uniformInput a b) j t) = (s.active.map fun id => s.settings id *
      (ρ .n * ((Fun.epsOf id).evalR ρ + Fun.gradTerm ((pow3 Fun.phi).evalR ρ) ((Fun.epsOf id).evalR ρ) (Fun.tFactor ρ) (pbeBeta id)
        (Fun.locSlope id (ρ .r_s)) (gradFactor j * t)))).sum := by
    intro t ht
    have hxt := physical_uniform ha hb hj ht
    rw [energyAt_members s hv]
    refine congrArg List.sum (List.map_congr_left fun id hid => ?_)
    obtain ⟨e, he⟩ := pbe_energy (List.mem_append_left _ (hs id hid))
    have hSt := memberR_sound s.settings hv hA hxt
    obtain ⟨hn, hε, hu, hκ, hr, -⟩ := Fun.family_congr (id := id) hS hSt
      (members_same s hv hA hx0 hxt fun f hf => ((given_uniform hj t).1 f hf).symm)
    have hgn : memberR s.settings .A_B_GAA_GAB_GBB (Function.update (uniformInput a b) j t) .gnn = gradFactor j * t := by
      rw [memberR_given s.settings hv hA (fun y hy => (hxt.dens y hy).le) (.inr (by simp [IsOther])), (given_uniform hj t).2]
    rw [he, Option.getD_some, Fun.family_form (hs id hid) he hSt, hn, hε, hu, hκ, hr, hgn]
  have hder : HasDerivAt (fun t => (s.active.map fun id => s.settings id *
      (ρ .n * ((Fun.epsOf id).evalR ρ + Fun.gradTerm ((pow3 Fun.phi).evalR ρ) ((Fun.epsOf id).evalR ρ) (Fun.tFactor ρ) (pbeBeta id)
        (Fun.locSlope id (ρ .r_s)) (gradFactor j * t)))).sum)
      (gradFactor j * (s.active.map fun id => s.settings id *
        ((a + b) * (pbeBeta id * Lit.phi ((a - b) / (a + b)) ^ 3 * Lit.tSq (a + b) ((a - b) / (a + b)) 1))).sum) 0 := by
    generalize s.active = l
    induction l with
    | nil => simpa using hasDerivAt_const (0 : ℝ) (0 : ℝ)
    | cons id l ih =>
      have h0 : HasDerivAt (fun t : ℝ => gradFactor j * t) (gradFactor j) 0 := by simpa using (hasDerivAt_id (0 : ℝ)).const_mul (gradFactor j)
      have h1 : HasDerivAt (Fun.gradTerm ((pow3 Fun.phi).evalR ρ) ((Fun.epsOf id).evalR ρ) (Fun.tFactor ρ) (pbeBeta id) (Fun.locSlope id (ρ .r_s)))
          ((pow3 Fun.phi).evalR ρ * Fun.tFactor ρ * pbeBeta id) (gradFactor j * 0) := by
        rw [mul_zero]; exact Fun.gradTerm_slope (Fun.u3_pos hS).pos (Fun.epsOf_neg id hS)
      have h2 := ((((h1.comp (0 : ℝ) h0).const_add ((Fun.epsOf id).evalR ρ)).const_mul (ρ .n)).const_mul (s.settings id)).add ih
      have e1 : s.settings id * (ρ .n * ((pow3 Fun.phi).evalR ρ * Fun.tFactor ρ * pbeBeta id * gradFactor j)) =
          gradFactor j * (s.settings id * ((a + b) * (pbeBeta id * Lit.phi ((a - b) / (a + b)) ^ 3 * Lit.tSq (a + b) ((a - b) / (a + b)) 1))) := by
        rw [evalR_pow3, (phi_lit hS hc).1, tFactor_lit hS hc, hζ, hρn]; ring
      rw [e1] at h2
      simp only [List.map_cons, List.sum_cons]
      rw [← mul_add (gradFactor j)] at h2
      exact h2
  have hdiff : DifferentiableAt ℝ (fun t => energyAt s .A_B_GAA_GAB_GBB (Function.update (uniformInput a b) j t)) 0 := by
    unfold energyAt
    have : ∀ l : List ℕ, (∀ id ∈ l, id ∈ s.active) → DifferentiableAt ℝ (fun t => (l.map fun id => s.settings id *
        (fullExpr s.settings .A_B_GAA_GAB_GBB id).evalR (Function.update (uniformInput a b) j t)).sum) 0 := by
      intro l
      induction l with
      | nil => intro _; exact differentiableAt_const _
      | cons id l ih =>
        intro hl
        have h1 := evalR_smooth (x := (0 : ℝ)) (fun i t => Function.update (uniformInput a b) j t i) (fun i => by
            by_cases hi : i = j
            · subst hi; simp only [Function.update_self]; exact contDiffAt_id
            · simp only [Function.update_of_ne hi]; exact contDiffAt_const) (fullExpr s.settings .A_B_GAA_GAB_GBB id) (by
            have := hreg id (hl id List.mem_cons_self)
            rw [← e00] at this
            exact this)
        have h2 := (h1.differentiableAt (by simp)).const_mul (s.settings id)
        exact h2.add (ih fun i hi => hl i (List.mem_cons_of_mem _ hi))
    exact this _ fun _ h => h
  have hx : uniformInput a b j = 0 := by rcases hj with rfl | rfl | rfl <;> simp [uniformInput]
  have h1 := hdiff.hasDerivAt.hasDerivWithinAt (s := Set.Ici 0)
  have h2 := hder.hasDerivWithinAt (s := Set.Ici 0)
  have h3 := h2.congr (fun t ht => key t ht) (key 0 le_rfl)
  rw [pderiv, hx]
  exact (uniqueDiffWithinAt_Ici (0 : ℝ)).eq_deriv _ h1 h3

/-- **C75, slowly varying densities, `xcfun_eval`.** For any object combining these functionals, at spin densities `a`, `b` above the threshold and without
gradients, the derivatives with respect to `|∇n_a|²`, `∇n_a·∇n_b` and `|∇n_b|²` returned at order 1 are `S`, `2 S`, `S` with `S` the sum of weight times
`n β φ(ζ)³ t²` at `|∇n|² = 1`. -/
theorem C75_eval_slow (s : State ℝ) (hvs : s.vars = some .A_B_GAA_GAB_GBB) (hm : s.mode = PARTIAL_DERIVATIVES) (ho : s.order = 1)
    (hs : ∀ id ∈ s.active, id ∈ pbeFamily) {a b : ℝ} (ha : threshold < a) (hb : threshold < b) (junk : Junk ℝ) (out : List ℝ) (hout : out.length = 6) :
    ∃ E Ea Eb S, xcfunEval codeKernel junk s [a, b, 0, 0, 0] out = .ok [E, Ea, Eb, S, 2 * S, S] ∧
      S = (s.active.map fun id => s.settings id *
        ((a + b) * (pbeBeta id * Lit.phi ((a - b) / (a + b)) ^ 3 * Lit.tSq (a + b) ((a - b) / (a + b)) 1))).sum := by
  have hv : ¬ Unsupported Vars.A_B_GAA_GAB_GBB := by decide
  have hA : Vars.A_B_GAA_GAB_GBB ≠ .A ∧ Vars.A_B_GAA_GAB_GBB ≠ .A_GAA := by decide
  obtain ⟨F, h0, hF⟩ := C49_partial_derivatives s hv hA hvs hm
  have hFe : F = energyAt s .A_B_GAA_GAB_GBB := by
    funext y
    have h1 := h0 y [] 0 [] none
    have h2 := eval_order0 { s with order := 0 } hv hvs hm rfl y none 0
    rw [List.append_nil, h2] at h1
    injection h1 with h1
    injection h1 with h1
    exact h1.symm
  have hx0 : PhysicalInput .A_B_GAA_GAB_GBB (uniformInput a b) := by
    have := physical_uniform ha hb (j := 2) (.inl rfl) le_rfl
    have e00 : Function.update (uniformInput a b) 2 0 = uniformInput a b := by
      have : uniformInput a b 2 = 0 := by simp [uniformInput]
      rw [← this, Function.update_eq_self]
    rwa [e00] at this
  have hlen : outputLength s = .ok ((6 : ℕ) : ℤ) := by
    have h1 : ¬ (PARTIAL_DERIVATIVES = MODE_UNSET) := by decide
    have h2 : ¬ ((1 : ℤ) = -1) := by decide
    simp only [outputLength, hm, h1, hvs, ho, h2, if_false, if_true]
    exact outlen_eq _ (k := 1) (by decide) (0 : ℝ) (fun _ => 0) (fun _ _ => 0) (fun _ _ _ => 0)
  have h3 := hF (uniformInput a b) hx0 (fun id hid => by
    have := hs id hid
    simp only [pbeFamily, List.mem_cons, List.not_mem_nil, or_false] at this
    rcases this with rfl | rfl | rfl | rfl | rfl <;> trivial) 1 ho (by norm_num) [] out junk 6 hlen hout.ge
  have e1 : (List.range Vars.A_B_GAA_GAB_GBB.len).map (uniformInput a b) = [a, b, 0, 0, 0] := rfl
  rw [e1, List.append_nil, List.drop_eq_nil_of_le hout.le, List.append_nil] at h3
  have e2 : ∀ (e : ℝ) (d1 : ℕ → ℝ) d2 d3, layout Vars.A_B_GAA_GAB_GBB.len 1 e d1 d2 d3 = [e, d1 0, d1 1, d1 2, d1 3, d1 4] := fun _ _ _ _ => rfl
  rw [e2, hFe, uniform_slope s hs ha hb (.inl rfl), uniform_slope s hs ha hb (.inr (.inl rfl)), uniform_slope s hs ha hb (.inr (.inr rfl))] at h3
  have g2 : gradFactor 2 = 1 := by simp [gradFactor]
  have g3 : gradFactor 3 = 2 := by simp [gradFactor]
  have g4 : gradFactor 4 = 1 := by simp [gradFactor]
  rw [g2, g3, g4, one_mul] at h3
  exact ⟨_, _, _, _, h3, rfl⟩

/-! ### Cases -/

/-- An object made of half PBEC and half PBELOCC, spin densities 1 and 8. -/
theorem pbe_case (order : ℕ) (ho : order ≤ 3) : ∃ s₀ s : State ℝ, run State.init [.set "pbec" 0.5, .set "pbelocc" 0.5] = .ok s₀ ∧
    evalSetup s₀ Vars.A_B_GAA_GAB_GBB.code PARTIAL_DERIVATIVES order = .ok (0, s) ∧
    s.vars = some .A_B_GAA_GAB_GBB ∧ s.mode = PARTIAL_DERIVATIVES ∧ s.order = order ∧ s.active = [4, 73] ∧ s.settings 4 = 0.5 ∧ s.settings 73 = 0.5 := by
  obtain ⟨s₀, hr⟩ : ∃ s₀ : State ℝ, run State.init [.set "pbec" 0.5, .set "pbelocc" 0.5] = .ok s₀ := ⟨_, rfl⟩
  obtain ⟨s, hset⟩ : ∃ s : State ℝ, evalSetup s₀ Vars.A_B_GAA_GAB_GBB.code PARTIAL_DERIVATIVES order = .ok (0, s) := by
    cases hr
    interval_cases order <;> exact ⟨_, rfl⟩
  refine ⟨s₀, s, hr, hset, ?_⟩
  obtain ⟨e, -⟩ := setup_facts hr hset
  have hl : (lit 0 0 : ℝ) = 0 := by simp [lit, Lit.lit]
  have hs₀ : s₀.active = [4, 73] ∧ s₀.settings 4 = lit 0 0 + 0.5 ∧ s₀.settings 73 = lit 0 0 + 0.5 := by
    cases hr
    exact ⟨rfl, rfl, rfl⟩
  refine ⟨by rw [e], by rw [e], by rw [e], by rw [e]; exact hs₀.1, ?_, ?_⟩
  · rw [e]; refine hs₀.2.1.trans ?_; rw [hl, zero_add]
  · rw [e]; refine hs₀.2.2.trans ?_; rw [hl, zero_add]

theorem case_physical {t : ℝ} (ht : 0 ≤ t) : PhysicalInput .A_B_GAA_GAB_GBB (Function.update (uniformInput 1 8) 2 t) :=
  physical_uniform (by norm_num [threshold]) (by norm_num [threshold]) (.inl rfl) ht

theorem case_input (t : ℝ) : (List.range Vars.A_B_GAA_GAB_GBB.len).map (Function.update (uniformInput 1 8) 2 t) = [1, 8, t, 0, 0] := by
  show List.map _ (List.range 5) = _
  simp [List.range_succ, uniformInput]

/-- The density variables of the case. -/
noncomputable def caseVars (t : ℝ) : Field → ℝ := memberR (fun _ => 0) .A_B_GAA_GAB_GBB (Function.update (uniformInput 1 8) 2 t)

theorem case_sound {t : ℝ} (ht : 0 ≤ t) : Sound (caseVars t) := memberR_sound _ (by decide) (by decide) (case_physical ht)

theorem case_field {t : ℝ} (ht : 0 ≤ t) {f : Field} (hf : IsDensity f ∨ IsOther f) :
    caseVars t f = given (1 / 2) (Function.update (uniformInput 1 8) 2 t) .A_B_GAA_GAB_GBB f :=
  memberR_given _ (by decide) (by decide) (fun y hy => ((case_physical ht).dens y hy).le) hf

theorem case_same {t u : ℝ} (ht : 0 ≤ t) (hu : 0 ≤ u) : SameDensities (caseVars t) (caseVars u) := fun f hf => by
  rw [case_field ht (.inl hf), case_field hu (.inl hf), (given_uniform (.inl rfl) t).1 f hf, (given_uniform (.inl rfl) u).1 f hf]

theorem case_gnn {t : ℝ} (ht : 0 ≤ t) : caseVars t .gnn = t := by
  rw [case_field ht (.inr (by simp [IsOther])), (given_uniform (.inl rfl) t).2]; simp [gradFactor]

theorem case_tendsto : Tendsto (fun k : ℕ => caseVars (k : ℝ) .gnn) atTop atTop :=
  tendsto_natCast_atTop_atTop.congr fun k => (case_gnn (Nat.cast_nonneg k)).symm

/-- PBE correlation of these densities lies between PW92 correlation and zero, and is equal to it without gradients. -/
example : Fun.pw92c.evalR (caseVars 4) ≤ Fun.pbec.evalR (caseVars 4) ∧ Fun.pbec.evalR (caseVars 4) < 0 ∧
    Fun.pbec.evalR (caseVars 0) = Fun.pw92c.evalR (caseVars 0) :=
  ⟨(C75_lda (id := 4) (by decide) rfl rfl (case_sound (by norm_num))).1, (C75_lda (id := 4) (by decide) rfl rfl (case_sound (by norm_num))).2,
    C75_uniform (id := 4) (by decide) rfl rfl (case_sound le_rfl) (case_gnn le_rfl)⟩

/-- ZVPBEINTC of these polarised densities tends to PW92 correlation, SPBEC does not tend to zero. -/
example : Tendsto (fun k : ℕ => Fun.zvpbeintc.evalR (caseVars k)) atTop (𝓝 (Fun.pw92c.evalR (caseVars 0))) ∧
    ¬ Tendsto (fun k : ℕ => Fun.spbec.evalR (caseVars k)) atTop (𝓝 0) := by
  constructor
  · have := C75_rapid_zv (id := 76) (by decide) rfl (case_sound le_rfl) (fun k : ℕ => case_sound (Nat.cast_nonneg k))
      (fun k => case_same le_rfl (Nat.cast_nonneg k)) case_tendsto
    have hs : caseVars 0 .s = -7 := by
      rw [case_field le_rfl (.inl (by simp [IsDensity]))]; norm_num [given, spinFields, uniformInput]
    rwa [if_neg (by rw [hs]; norm_num)] at this
  · exact C75_rapid_spbec_fails (case_sound le_rfl) (fun k : ℕ => case_sound (Nat.cast_nonneg k))
      (fun k => case_same le_rfl (Nat.cast_nonneg k)) case_tendsto

/-- The energy grows between the squared gradients 1 and 4 of the first spin density. -/
example : ∃ s₀ s : State ℝ, run State.init [.set "pbec" 0.5, .set "pbelocc" 0.5] = .ok s₀ ∧
    evalSetup s₀ Vars.A_B_GAA_GAB_GBB.code PARTIAL_DERIVATIVES 0 = .ok (0, s) ∧
    ∃ E E', xcfunEval codeKernel none s [1, 8, 1, 0, 0] [0] = .ok [E] ∧ xcfunEval codeKernel none s [1, 8, 4, 0, 0] [0] = .ok [E'] ∧ E < E' := by
  obtain ⟨s₀, s, hr, hset, hvs, hm, ho, hact, h4, h73⟩ := pbe_case 0 (by norm_num)
  refine ⟨s₀, s, hr, hset, ?_⟩
  have := C75_eval_increasing s (v := .A_B_GAA_GAB_GBB) (by decide) (by decide) hvs hm ho (by
    rw [hact]; intro id hid
    simp only [List.mem_cons, List.not_mem_nil, or_false] at hid
    rcases hid with rfl | rfl
    · exact ⟨by decide, by rw [h4]; norm_num⟩
    · exact ⟨by decide, by rw [h73]; norm_num⟩) ⟨4, by rw [hact]; decide, by rw [h4]; norm_num⟩
    (case_physical (t := 1) (by norm_num)) (case_physical (t := 4) (by norm_num))
    (fun f hf => by rw [(given_uniform (.inl rfl) 1).1 f hf, (given_uniform (.inl rfl) 4).1 f hf])
    (by rw [(given_uniform (.inl rfl) 1).2, (given_uniform (.inl rfl) 4).2]; norm_num [gradFactor]) none 0
  rwa [case_input, case_input] at this

/-- It tends to zero as the squared gradient takes the values 0, 1, 2, …. -/
example : ∃ s₀ s : State ℝ, run State.init [.set "pbec" 0.5, .set "pbelocc" 0.5] = .ok s₀ ∧
    evalSetup s₀ Vars.A_B_GAA_GAB_GBB.code PARTIAL_DERIVATIVES 0 = .ok (0, s) ∧
    ∃ E : ℕ → ℝ, (∀ k : ℕ, xcfunEval codeKernel none s [1, 8, (k : ℝ), 0, 0] [0] = .ok [E k]) ∧ Tendsto E atTop (𝓝 0) := by
  obtain ⟨s₀, s, hr, hset, hvs, hm, ho, hact, -⟩ := pbe_case 0 (by norm_num)
  refine ⟨s₀, s, hr, hset, ?_⟩
  obtain ⟨E, h1, h2⟩ := C75_eval_rapid s (v := .A_B_GAA_GAB_GBB) (by decide) (by decide) hvs hm ho
    (by rw [hact]; decide)
    (x := fun k : ℕ => Function.update (uniformInput 1 8) 2 (k : ℝ)) (L := atTop)
    (case_physical le_rfl) (fun k => case_physical (Nat.cast_nonneg k))
    (fun k f hf => by rw [(given_uniform (.inl rfl) 0).1 f hf, (given_uniform (.inl rfl) (k : ℝ)).1 f hf])
    (by
      refine tendsto_natCast_atTop_atTop.congr fun k => ?_
      rw [(given_uniform (.inl rfl) (k : ℝ)).2]; simp [gradFactor]) none 0
  exact ⟨E, fun k => by rw [← h1 k, case_input], h2⟩

/-- Derivatives without gradients: the mean of the two values of `β`. -/
example : ∃ s₀ s : State ℝ, run State.init [.set "pbec" 0.5, .set "pbelocc" 0.5] = .ok s₀ ∧
    evalSetup s₀ Vars.A_B_GAA_GAB_GBB.code PARTIAL_DERIVATIVES 1 = .ok (0, s) ∧
    ∃ E Ea Eb S, xcfunEval codeKernel none s [1, 8, 0, 0, 0] [0, 0, 0, 0, 0, 0] = .ok [E, Ea, Eb, S, 2 * S, S] ∧
      S = 9 * ((0.06672455060314922 + 0.0375) / 2) * Lit.phi (-7 / 9) ^ 3 * Lit.tSq 9 (-7 / 9) 1 := by
  obtain ⟨s₀, s, hr, hset, hvs, hm, ho, hact, h4, h73⟩ := pbe_case 1 (by norm_num)
  refine ⟨s₀, s, hr, hset, ?_⟩
  obtain ⟨E, Ea, Eb, S, h1, h2⟩ := C75_eval_slow s hvs hm ho (by rw [hact]; decide) (a := 1) (b := 8)
    (by norm_num [threshold]) (by norm_num [threshold]) none [0, 0, 0, 0, 0, 0] rfl
  refine ⟨E, Ea, Eb, S, h1, ?_⟩
  rw [h2, hact]
  simp only [List.map_cons, List.map_nil, List.sum_cons, List.sum_nil, h4, h73]
  have e1 : (1 : ℝ) + 8 = 9 := by norm_num
  have e2 : (1 - 8 : ℝ) / 9 = -7 / 9 := by norm_num
  have b1 : pbeBeta 4 = 0.06672455060314922 := by simp [pbeBeta]
  have b2 : pbeBeta 73 = 0.0375 := by simp [pbeBeta]
  rw [e1, e2, b1, b2]
  ring

end XCFun.Props
