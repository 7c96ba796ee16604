/-
**C52, derivatives.** `xcfun_eval` returns the derivatives of the published formulas: C49 (exact derivatives of the energy) with C52 (the energy is the
published one) on a neighbourhood.
-/
import Verif.Props.Literature
import Verif.Props.Smooth

namespace XCFun.Props
open XCFun Spec Lit Topology Filter

/-- Densities above the threshold stay there. -/
theorem dens_near {v : Vars} {x : ℕ → ℝ} (h : ∀ y ∈ densities (1 / 2) x v, threshold < y) :
    ∀ᶠ x' in 𝓝 x, ∀ y ∈ densities (1 / 2) x' v, threshold ≤ y := by
  have c0 : ∀ i, Continuous fun x' : ℕ → ℝ => x' i := fun i => continuous_apply i
  have key : ∀ f : (ℕ → ℝ) → ℝ, Continuous f → threshold < f x → ∀ᶠ x' in 𝓝 x, threshold ≤ f x' := fun f hf hx =>
    (hf.continuousAt.eventually (lt_mem_nhds hx)).mono fun _ h => le_of_lt h
  have gen : ∀ l : List ((ℕ → ℝ) → ℝ), (∀ f ∈ l, Continuous f ∧ threshold < f x) → ∀ᶠ x' in 𝓝 x, ∀ y ∈ l.map (fun f => f x'), threshold ≤ y := by
    intro l
    induction l with
    | nil => intro _; simp
    | cons f l ih =>
      intro hl
      filter_upwards [key f (hl f List.mem_cons_self).1 (hl f List.mem_cons_self).2, ih fun f' h' => hl f' (List.mem_cons_of_mem _ h')] with x' h1 h2
      intro y hy
      rcases List.mem_cons.1 hy with rfl | hy
      · exact h1
      · exact h2 y hy
  obtain ⟨l, hl, hc⟩ : ∃ l : List ((ℕ → ℝ) → ℝ), (∀ x', densities (1 / 2) x' v = l.map fun f => f x') ∧ ∀ f ∈ l, Continuous f := by
    cases v
    case N_S | N_S_GNN_GNS_GSS | N_S_GNN_GNS_GSS_TAUN_TAUS =>
      refine ⟨[fun x => x 0, fun x => x 0 + x 1, fun x => x 0 - x 1], fun _ => rfl, ?_⟩
      intro f hf
      simp only [List.mem_cons, List.not_mem_nil, or_false] at hf
      rcases hf with rfl | rfl | rfl <;> fun_prop
    case N_S_NX_NY_NZ_SX_SY_SZ | N_S_NX_NY_NZ_SX_SY_SZ_TAUN_TAUS =>
      refine ⟨[fun x => x 0, fun x => 1 / 2 * (x 0 + x 1), fun x => 1 / 2 * (x 0 - x 1)], fun _ => rfl, ?_⟩
      intro f hf
      simp only [List.mem_cons, List.not_mem_nil, or_false] at hf
      rcases hf with rfl | rfl | rfl <;> fun_prop
    all_goals
      refine ⟨(densSlots _).map fun i x => x i, fun _ => by rw [List.map_map]; rfl, ?_⟩
      intro f hf
      obtain ⟨i, -, rfl⟩ := List.mem_map.1 hf
      exact c0 i
  have := gen l fun f hf => ⟨hc f hf, h _ (by rw [hl]; exact List.mem_map_of_mem hf)⟩
  simpa only [hl] using this

/-- The published energy as a function of the inputs. -/
noncomputable def publishedAt (s : State ℝ) (v : Vars) (x : ℕ → ℝ) : ℝ := publishedSum s (gasAt v x)

theorem energyAt_near (s : State ℝ) {v : Vars} (hv : ¬ Unsupported v) (hA : v ≠ .A ∧ v ≠ .A_GAA) (hD : ¬ Doubled v) {x : ℕ → ℝ}
    (hx : ∀ y ∈ densities (1 / 2) x v, threshold < y) (hs : ∀ᶠ x' in 𝓝 x, Covered s (gasAt v x')) :
    energyAt s v =ᶠ[𝓝 x] publishedAt s v := by
  filter_upwards [dens_near hx, hs] with x' h1 h2
  exact energyAt_published s hv hA hD h1 h2

theorem pderiv_near_eq {ι : Type} [DecidableEq ι] {f g : (ι → ℝ) → ℝ} {x : ι → ℝ} (h : f =ᶠ[𝓝 x] g) (i : ι) :
    pderiv i f =ᶠ[𝓝 x] pderiv i g := by
  filter_upwards [eventually_eventually_nhds.2 h] with y hy
  refine Filter.EventuallyEq.deriv_eq ?_
  have hc : Tendsto (fun t => Function.update y i t) (𝓝 (y i)) (𝓝 y) := by
    have : ContinuousAt (fun t => Function.update y i t) (y i) := (continuous_const.update i continuous_id).continuousAt
    simpa only [ContinuousAt, Function.update_eq_self] using this
  exact hc.eventually hy

theorem pderivs_near_eq {ι : Type} [DecidableEq ι] {f g : (ι → ℝ) → ℝ} {x : ι → ℝ} (h : f =ᶠ[𝓝 x] g) (is : List ι) :
    pderivs is f =ᶠ[𝓝 x] pderivs is g := by
  induction is with
  | nil => exact h
  | cons i is ih => exact pderiv_near_eq ih i

/-- **C52, partial derivatives.** The output at order `k ≤ 3` consists of the published energy and its partial derivatives. -/
theorem C52_partial_derivatives (s : State ℝ) {v : Vars} (hv : ¬ Unsupported v) (hA : v ≠ .A ∧ v ≠ .A_GAA) (hD : ¬ Doubled v) (hvs : s.vars = some v)
    (hm : s.mode = PARTIAL_DERIVATIVES) (x : ℕ → ℝ) (hx : PhysicalInput v x)
    (hr : ∀ id ∈ s.active, SmoothAt (s.settings 78) (given (1 / 2) x v) id) (hs : ∀ᶠ x' in 𝓝 x, Covered s (gasAt v x'))
    (k : ℕ) (ho : s.order = k) (hk : k ≤ 3) (rest output : List ℝ) (junk : Junk ℝ) (len : ℕ) (hl : outputLength s = .ok (len : ℤ))
    (hlen : len ≤ output.length) :
    xcfunEval codeKernel junk s ((List.range v.len).map x ++ rest) output = .ok
      (layout v.len k (publishedAt s v x) (fun i => pderiv i (publishedAt s v) x) (fun i j => pderiv i (pderiv j (publishedAt s v)) x)
        (fun i j l => pderiv i (pderiv j (pderiv l (publishedAt s v))) x) ++ output.drop len) := by
  obtain ⟨F, h0, hF⟩ := C49_partial_derivatives s hv hA hvs hm
  have e : F = energyAt s v := by
    funext y
    have h1 := h0 y [] 0 [] none
    have h2 := eval_order0 { s with order := 0 } hv hvs hm rfl y none 0
    rw [List.append_nil] at h1
    rw [h1] at h2
    have h3 : F y = energyAt { s with order := 0 } v y := by simpa using h2
    exact h3
  have hE := energyAt_near s hv hA hD hx.dens hs
  rw [hF x hx hr k ho hk rest output junk len hl hlen, e]
  congr 3
  · exact hE.eq_of_nhds
  · funext i; exact (pderiv_near_eq hE i).eq_of_nhds
  · funext i j; exact (pderiv_near_eq (pderiv_near_eq hE j) i).eq_of_nhds
  · funext i j l; exact (pderiv_near_eq (pderiv_near_eq (pderiv_near_eq hE l) j) i).eq_of_nhds

theorem eval_zero : ∀ {n : ℕ} (t : CT ℝ n), t.eval (fun _ => 0) = t.c0
  | _, .leaf c => rfl
  | _, .node lo hi => by simp [CT.eval, eval_zero lo, CT.c0]

theorem continuous_eval : ∀ {n : ℕ} (t : CT ℝ n), Continuous fun e : ℕ → ℝ => t.eval e
  | _, .leaf c => continuous_const
  | n + 1, .node lo hi => by
    simp only [CT.eval]
    exact (continuous_eval lo).add ((continuous_apply n).mul (continuous_eval hi))

theorem tendsto_pathAt (N : ℕ) (y : ℕ → ℝ) : Tendsto (pathAt N y) (𝓝 fun _ => 0) (𝓝 fun i => y (i * 2 ^ N)) := by
  have hc : Continuous (pathAt N y) := continuous_pi fun i => by
    simp only [pathAt_eq]; exact continuous_eval _
  have h0 : pathAt N y (fun _ => 0) = fun i => y (i * 2 ^ N) := by
    funext i
    rw [pathAt_eq, eval_zero, CT.c0_eq_get, seedC, CT.get_ofFn _ (by positivity), add_zero]
  have := hc.tendsto fun _ => 0
  rwa [h0] at this

/-- **C52, contracted mode.** The output is the expansion of the published energy along the path of the input. -/
theorem C52_contracted (s : State ℝ) {v : Vars} (hv : ¬ Unsupported v) (hA : v ≠ .A ∧ v ≠ .A_GAA) (hD : ¬ Doubled v) (hvs : s.vars = some v)
    (hm : s.mode = CONTRACTED) (N : ℕ) (ho : s.order = N) (hN : N ≤ 6) (y : ℕ → ℝ) (hx : PhysicalInput v fun i => y (i * 2 ^ N))
    (hr : ∀ id ∈ s.active, SmoothAt (s.settings 78) (given (1 / 2) (fun i => y (i * 2 ^ N)) v) id)
    (hs : ∀ᶠ x' in 𝓝 fun i => y (i * 2 ^ N), Covered s (gasAt v x'))
    (rest output : List ℝ) (junk : Junk ℝ) (hout : 2 ^ N ≤ output.length) :
    xcfunEval codeKernel junk s ((List.range (v.len * 2 ^ N)).map y ++ rest) output = .ok
      ((List.range (2 ^ N)).map (fun S => pderivs (bits N S) (fun e => publishedAt s v (pathAt N y e)) (fun _ => 0)) ++ output.drop (2 ^ N)) := by
  rw [C49_contracted s hv hA hvs hm N ho hN y hx hr rest output junk hout]
  congr 2
  refine List.map_congr_left fun S _ => ?_
  have hE : (fun e => energyAt s v (pathAt N y e)) =ᶠ[𝓝 fun _ => 0] fun e => publishedAt s v (pathAt N y e) :=
    (tendsto_pathAt N y).eventually (energyAt_near s hv hA hD hx.dens hs)
  exact (pderivs_near_eq hE _).eq_of_nhds

theorem functionalDerivative_congr {E G : (ℕ → ℝ) → ℝ} {inp : Space → ℕ → ℝ} {r : Space} (hc : ∀ l, ContinuousAt (fun r => inp r l) r)
    (h : E =ᶠ[𝓝 (inp r)] G) (off : ℕ) : functionalDerivative E inp off r = functionalDerivative G inp off r := by
  have ht : Tendsto inp (𝓝 r) (𝓝 (inp r)) := (continuousAt_pi.2 hc : ContinuousAt inp r)
  unfold functionalDerivative
  congr 1
  · exact (pderiv_near_eq h off).eq_of_nhds
  · refine Finset.sum_congr rfl fun c _ => ?_
    have h1 : (fun r' => pderiv (off + 1 + c) E (inp r')) =ᶠ[𝓝 r] fun r' => pderiv (off + 1 + c) G (inp r') :=
      ht.eventually (pderiv_near_eq h _)
    exact (pderiv_near_eq h1 c).eq_of_nhds

open scoped ContDiff in
/-- **C52, restricted potential.** For a smooth density field, potential mode returns the published energy density and its functional derivative. -/
theorem C52_restricted_potential (h : List (Call ℝ)) (s₀ s : State ℝ) (hrun : run State.init h = .ok s₀) (o : ℤ)
    (hset : evalSetup s₀ Vars.N_2ND_TAYLOR.code POTENTIAL o = .ok (0, s))
    (ρ : Space → ℝ) (r : Space) (hρ : ContDiffAt ℝ ∞ ρ r) (ht : threshold < ρ r)
    (hr : ∀ id ∈ s.active, SmoothAt (s.settings 78) (given (1 / 2) (expansion ρ r) .N_2ND_TAYLOR) id)
    (hs : ∀ᶠ x' in 𝓝 (expansion ρ r), Covered s (gasAt .N_2ND_TAYLOR x'))
    (rest output : List ℝ) (junk : Junk ℝ) (ho : 2 ≤ output.length) :
    xcfunEval codeKernel junk s ((List.range 10).map (expansion ρ r) ++ rest) output = .ok
      ([publishedAt s .N_2ND_TAYLOR (expansion ρ r), functionalDerivative (publishedAt s .N_2ND_TAYLOR) (expansion ρ) 0 r] ++ output.drop 2) := by
  have hE := energyAt_near s (v := .N_2ND_TAYLOR) (by decide) (by decide) (by simp [Doubled]) (physical_expansion ht).dens hs
  have h44 : 44 ∉ s.active := fun h44 => by
    obtain ⟨F, hF, -⟩ := hs.self_of_nhds 44 h44
    simp [published] at hF
  rw [C49_restricted_potential h s₀ s hrun o hset h44 ρ r hρ ht hr rest output junk ho, hE.eq_of_nhds,
    functionalDerivative_congr (fun l => (expansion_smooth hρ l).continuousAt) hE]

open scoped ContDiff in
/-- **C52, unrestricted potential.** The same for two smooth spin density fields. -/
theorem C52_unrestricted_potential (h : List (Call ℝ)) (s₀ s : State ℝ) (hrun : run State.init h = .ok s₀) (o : ℤ)
    (hset : evalSetup s₀ Vars.A_B_2ND_TAYLOR.code POTENTIAL o = .ok (0, s))
    (a b : Space → ℝ) (r : Space) (ha : ContDiffAt ℝ ∞ a r) (hb : ContDiffAt ℝ ∞ b r) (hta : threshold < a r) (htb : threshold < b r)
    (hr : ∀ id ∈ s.active, SmoothAt (s.settings 78) (given (1 / 2) (expansion2 a b r) .A_B_2ND_TAYLOR) id)
    (hs : ∀ᶠ x' in 𝓝 (expansion2 a b r), Covered s (gasAt .A_B_2ND_TAYLOR x'))
    (rest output : List ℝ) (j : (N : ℕ) → ℕ → CT ℝ N) (ho : 3 ≤ output.length) :
    xcfunEval codeKernel (some j) s ((List.range 20).map (expansion2 a b r) ++ rest) output = .ok
      ([publishedAt s .A_B_2ND_TAYLOR (expansion2 a b r),
        functionalDerivative (publishedAt s .A_B_2ND_TAYLOR) (expansion2 a b) 0 r,
        functionalDerivative (publishedAt s .A_B_2ND_TAYLOR) (expansion2 a b) 10 r] ++ output.drop 3) := by
  have hE := energyAt_near s (v := .A_B_2ND_TAYLOR) (by decide) (by decide) (by simp [Doubled]) (physical_expansion2 hta htb).dens hs
  have hc := fun l => (expansion2_smooth ha hb l).continuousAt
  rw [C49_unrestricted_potential h s₀ s hrun o hset a b r ha hb hta htb hr rest output j ho, hE.eq_of_nhds,
    functionalDerivative_congr hc hE 0, functionalDerivative_congr hc hE 10]

/-- **C52, density-only potential** (`XC_A_B` and `XC_N`). -/
theorem C52_lda_potential (s : State ℝ) {v : Vars} (hv : v = .A_B ∨ v = .N) (hvs : s.vars = some v)
    (hm : s.mode = POTENTIAL) (hd : s.depends.testBit 1 = false) (x : ℕ → ℝ) (hx : ∀ y ∈ densities (1 / 2) x v, threshold < y)
    (hr : ∀ id ∈ s.active, SmoothAt (s.settings 78) (given (1 / 2) x v) id) (hs : ∀ᶠ x' in 𝓝 x, Covered s (gasAt v x'))
    (rest output : List ℝ) (junk : Junk ℝ) (ho : 1 + v.len ≤ output.length) :
    xcfunEval codeKernel junk s ((List.range v.len).map x ++ rest) output = .ok
      (publishedAt s v x :: (List.range v.len).map (fun i => pderiv i (publishedAt s v) x) ++ output.drop (1 + v.len)) := by
  have hu : ¬ Unsupported v ∧ (v ≠ .A ∧ v ≠ .A_GAA) ∧ ¬ Doubled v := by rcases hv with rfl | rfl <;> simp [Unsupported, Doubled]
  have hE := energyAt_near s hu.1 hu.2.1 hu.2.2 hx hs
  rw [C49_lda_potential s hv hvs hm hd x hx hr rest output junk ho, hE.eq_of_nhds]
  congr 4
  funext i
  exact (pderiv_near_eq hE i).eq_of_nhds

/-! ## Cases -/

/-- The PBE functional, as the sum of the published exchange and correlation energies. -/
theorem pbe_state {s₀ s : State ℝ} {v : Vars} {m o : ℤ} (hr : run State.init [.set "pbe" 1] = .ok s₀)
    (hset : evalSetup s₀ v.code m o = .ok (0, s)) :
    s.active = [5, 4] ∧ (∀ g, Covered s g) ∧ publishedAt s v = fun x => pbeX (gasAt v x) + pbeC (gasAt v x) := by
  obtain ⟨e, -⟩ := setup_facts hr hset
  have hl : (lit 0 0 : ℝ) = 0 := by simp [lit, XCFun.Lit.lit]
  have hs₀ : s₀.active = [5, 4] ∧ s₀.settings 5 = lit 0 0 + 1 * lit 1 0 ∧ s₀.settings 4 = lit 0 0 + 1 * lit 1 0 := by
    cases hr
    exact ⟨rfl, rfl, rfl⟩
  have hl1 : (lit 1 0 : ℝ) = 1 := by simp [lit, XCFun.Lit.lit]
  have hact : s.active = [5, 4] := by rw [e]; exact hs₀.1
  have h5 : s.settings 5 = 1 := by rw [e]; refine hs₀.2.1.trans ?_; rw [hl, hl1]; norm_num
  have h4 : s.settings 4 = 1 := by rw [e]; refine hs₀.2.2.trans ?_; rw [hl, hl1]; norm_num
  refine ⟨hact, ?_, ?_⟩
  · intro g
    unfold Covered
    rw [hact]
    intro id hid
    simp only [List.mem_cons, List.not_mem_nil, or_false] at hid
    rcases hid with rfl | rfl <;> exact ⟨_, rfl, trivial⟩
  · funext x
    rw [publishedAt, publishedSum, hact, List.map_cons, List.map_cons, List.map_nil, List.sum_cons, List.sum_cons, List.sum_nil, h5, h4, one_mul,
      one_mul, add_zero]
    rfl

open scoped ContDiff in
/-- The PBE potential of any two smooth spin densities is the functional derivative of the published PBE energy. -/
example (a b : Space → ℝ) (r : Space) (ha : ContDiffAt ℝ ∞ a r) (hb : ContDiffAt ℝ ∞ b r) (hta : threshold < a r) (htb : threshold < b r)
    (j : (N : ℕ) → ℕ → CT ℝ N) (E : (ℕ → ℝ) → ℝ) (hE : E = fun x => pbeX (gasAt .A_B_2ND_TAYLOR x) + pbeC (gasAt .A_B_2ND_TAYLOR x)) :
    ∃ s₀ s : State ℝ, run State.init [.set "pbe" 1] = .ok s₀ ∧
      evalSetup s₀ Vars.A_B_2ND_TAYLOR.code POTENTIAL 1 = .ok (0, s) ∧
      xcfunEval codeKernel (some j) s ((List.range 20).map (expansion2 a b r)) [0, 0, 0] = .ok
        [E (expansion2 a b r), functionalDerivative E (expansion2 a b) 0 r, functionalDerivative E (expansion2 a b) 10 r] := by
  obtain ⟨s₀, s, hr, hset⟩ : ∃ s₀ s : State ℝ, run State.init [.set "pbe" 1] = .ok s₀ ∧
    evalSetup s₀ Vars.A_B_2ND_TAYLOR.code POTENTIAL 1 = .ok (0, s) := ⟨_, _, rfl, rfl⟩
  refine ⟨s₀, s, hr, hset, ?_⟩
  obtain ⟨hact, hcov, hP⟩ := pbe_state hr hset
  have := C52_unrestricted_potential _ s₀ s hr 1 hset a b r ha hb hta htb (fun id hid => by
    rw [hact] at hid
    simp only [List.mem_cons, List.not_mem_nil, or_false] at hid
    rcases hid with rfl | rfl <;> trivial) (Eventually.of_forall fun x' => hcov _) [] [0, 0, 0] j (by simp)
  rw [hP, ← hE] at this
  simpa using this

/-- Gradient of the published PBE energy for two different spin densities. -/
example (E : (ℕ → ℝ) → ℝ) (hE : E = fun x => pbeX (gasAt .A_B_GAA_GAB_GBB x) + pbeC (gasAt .A_B_GAA_GAB_GBB x)) (x : ℕ → ℝ)
    (hx : x = fun i => [1, 8, 4, -2, 1].getD i 0) :
    ∃ s₀ s : State ℝ, run State.init [.set "pbe" 1] = .ok s₀ ∧
      evalSetup s₀ Vars.A_B_GAA_GAB_GBB.code PARTIAL_DERIVATIVES 1 = .ok (0, s) ∧
      xcfunEval codeKernel none s [1, 8, 4, -2, 1] [0, 0, 0, 0, 0, 0] = .ok
        [E x, pderiv 0 E x, pderiv 1 E x, pderiv 2 E x, pderiv 3 E x, pderiv 4 E x] := by
  obtain ⟨s₀, s, hr, hset⟩ : ∃ s₀ s : State ℝ, run State.init [.set "pbe" 1] = .ok s₀ ∧
    evalSetup s₀ Vars.A_B_GAA_GAB_GBB.code PARTIAL_DERIVATIVES 1 = .ok (0, s) := ⟨_, _, rfl, rfl⟩
  refine ⟨s₀, s, hr, hset, ?_⟩
  obtain ⟨hact, hcov, hP⟩ := pbe_state hr hset
  obtain ⟨e, -⟩ := setup_facts hr hset
  have := C52_partial_derivatives s (v := .A_B_GAA_GAB_GBB) (by decide) (by decide) (by simp [Doubled]) (by rw [e]) (by rw [e]) x (by
      subst hx
      constructor
      · intro y hy
        simp only [densities, densSlots, List.map_cons, List.map_nil, List.mem_cons, List.not_mem_nil, or_false] at hy
        rcases hy with rfl | rfl <;> norm_num [threshold]
      all_goals norm_num [given, spinFields]) (fun id hid => by
    rw [hact] at hid
    simp only [List.mem_cons, List.not_mem_nil, or_false] at hid
    rcases hid with rfl | rfl <;> trivial) (Eventually.of_forall fun x' => hcov _) 1 (by rw [e]; rfl) (by norm_num) [] [0, 0, 0, 0, 0, 0] none 6
    (by rw [e]; rfl) (by simp)
  rw [hP, ← hE] at this
  subst hx
  exact this

end XCFun.Props
