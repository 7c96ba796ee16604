/-
**C85.** The uniform gas without spin in the local functionals: energies per electron and potentials.
-/
import Verif.Proofs.LdaPotential

namespace XCFun.Props
open XCFun Spec Lit Filter Topology LdaPot

theorem gasAt_N (x : ℕ → ℝ) : (gasAt .N x).a = x 0 / 2 ∧ (gasAt .N x).b = x 0 / 2 := by
  constructor <;> simp [gasAt, given, spinFields] <;> ring

theorem lda_covered (s : State ℝ) (h : ∀ id ∈ s.active, id ∈ ldaIds) (x : ℕ → ℝ) : Covered s (gasAt .N x) := fun id hid => by
  obtain ⟨F, h1, h2, -⟩ := published_uniform (gasAt_N x).1 (gasAt_N x).2 (h id hid) (parSet s)
  exact ⟨F, h1, h2⟩

theorem lda_published (s : State ℝ) (h : ∀ id ∈ s.active, id ∈ ldaIds) (x : ℕ → ℝ) :
    publishedAt s .N x = (s.active.map fun id => s.settings id * uniform id (x 0)).sum := by
  unfold publishedAt publishedSum
  congr 1
  refine List.map_congr_left fun id hid => ?_
  obtain ⟨F, h1, -, h2⟩ := published_uniform (gasAt_N x).1 (gasAt_N x).2 (h id hid) (parSet s)
  rw [publishedEnergy, h1, ← h2]

theorem lda_dens {n : ℝ} (hn : threshold < n) : ∀ y ∈ densities (1 / 2) (fun _ => n) .N, threshold < y := by
  intro y hy
  simp only [densities, densSlots, List.map_cons, List.map_nil, List.mem_cons, List.not_mem_nil, or_false] at hy
  subst hy
  exact hn

theorem lda_energy (s : State ℝ) (hvs : s.vars = some .N) (hm : s.mode = PARTIAL_DERIVATIVES) (ho : s.order = 0)
    (h : ∀ id ∈ s.active, id ∈ ldaIds) {n : ℝ} (hn : threshold < n) (junk : Junk ℝ) (out : ℝ) :
    xcfunEval codeKernel junk s [n] [out] = .ok [(s.active.map fun id => s.settings id * uniform id n).sum] := by
  have := C52_eval s (v := .N) (by decide) (by decide) (by simp [Doubled]) hvs hm ho (x := fun _ => n) (fun y hy => (lda_dens hn y hy).le)
    (lda_covered s h _) junk out
  rw [← lda_published s h fun _ => n]
  exact this

/-- A weighted sum of functions at one point: derivatives and values. -/
theorem weighted_deriv (w : ℕ → ℝ) (f : ℕ → ℝ → ℝ) (n : ℝ) : ∀ l : List ℕ, (∀ id ∈ l, 0 ≤ w id) →
    (∀ id ∈ l, ∃ v, HasDerivAt (f id) v n ∧ v < f id n / n ∧ f id n / n < 0) →
    ∃ v, HasDerivAt (fun t => (l.map fun id => w id * f id t).sum) v n ∧ v ≤ (l.map fun id => w id * f id n).sum / n ∧
      (l.map fun id => w id * f id n).sum / n ≤ 0 ∧
      ((∃ id ∈ l, 0 < w id) → v < (l.map fun id => w id * f id n).sum / n ∧ (l.map fun id => w id * f id n).sum / n < 0)
  | [], _, _ => ⟨0, by simpa using hasDerivAt_const n (0 : ℝ), by simp, by simp, by simp⟩
  | id :: l, hw, h => by
    obtain ⟨v, h1, h2, h3, h4⟩ := weighted_deriv w f n l (fun i hi => hw i (by simp [hi])) fun i hi => h i (by simp [hi])
    obtain ⟨u, g1, g2, g3⟩ := h id (by simp)
    have h0 := hw id (by simp)
    have a := mul_le_mul_of_nonneg_left g2.le h0
    have b := mul_nonpos_of_nonneg_of_nonpos h0 g3.le
    refine ⟨w id * u + v, ?_, ?_, ?_, ?_⟩
    · simp only [List.map_cons, List.sum_cons]
      exact (g1.const_mul _).fun_add h1
    all_goals simp only [List.map_cons, List.sum_cons, add_div, mul_div_assoc]
    · linarith
    · linarith
    · rintro ⟨i, hi, hp⟩
      rcases List.mem_cons.1 hi with rfl | hi
      · have := mul_lt_mul_of_pos_left g2 hp
        have := mul_neg_of_pos_of_neg hp g3
        constructor <;> linarith
      · obtain ⟨k1, k2⟩ := h4 ⟨i, hi, hp⟩
        constructor <;> linarith

/-- **C85, potentials.** Any non-negative combination of Slater exchange and the VWN3, VWN5, PW92 and PZ81 correlation energies, at a density without spin above
the threshold and, for PZ81, off its kink at `r_s = 1`: the potential, that is the first derivative returned by `xcfun_eval`, is below the energy per electron, and
that is negative. -/
theorem C85_potential (s : State ℝ) (hvs : s.vars = some .N) (hm : s.mode = PARTIAL_DERIVATIVES) (ho : s.order = 1)
    (h : ∀ id ∈ s.active, id ∈ [0, 2, 3, 28, 55]) (hw : ∀ id ∈ s.active, 0 ≤ s.settings id) (hp : ∃ id ∈ s.active, 0 < s.settings id)
    {n : ℝ} (hn : threshold < n) (h55 : 55 ∈ s.active → n ≠ 3 / (4 * Real.pi)) (junk : Junk ℝ) (o₁ o₂ : ℝ) :
    ∃ E v, xcfunEval codeKernel junk s [n] [o₁, o₂] = .ok [E, v] ∧ v < E / n ∧ E / n < 0 := by
  have h0 : 0 < n := lt_trans (by norm_num [threshold]) hn
  obtain ⟨v, d, -, -, hs⟩ := weighted_deriv s.settings uniform n s.active hw fun id hid => uniform_deriv h0 (h id hid) fun e => h55 (e ▸ hid)
  have hE := C52_partial_derivatives s (v := .N) (by decide) (by decide) (by simp [Doubled]) hvs hm (fun _ => n)
    ⟨lda_dens hn, by norm_num [given, spinFields], by norm_num [given, spinFields], by norm_num [given, spinFields]⟩ (fun id hid => by
      have hi := h id hid
      simp only [ldaIds, List.mem_cons, List.not_mem_nil, or_false] at hi
      rcases hi with rfl | rfl | rfl | rfl | rfl
      · trivial
      · trivial
      · trivial
      · trivial
      · show given (1 / 2) (fun _ => n) .N .n ≠ _
        have e : given (1 / 2 : ℝ) (fun _ => n) .N .n = n := by
          simp only [given, spinFields]
          ring
        rw [e]
        exact h55 hid) (Eventually.of_forall fun x' => lda_covered s h x') 1 ho (by norm_num) [] [o₁, o₂] junk 2
    (by rw [outputLength, hvs, hm, ho]; rfl) (by simp)
  have e0 : publishedAt s .N (fun _ => n) = (s.active.map fun id => s.settings id * uniform id n).sum := lda_published s h _
  have e1 : pderiv 0 (publishedAt s .N) (fun _ => n) = v := by
    unfold pderiv
    simp only [lda_published s h, Function.update_self]
    exact d.deriv
  have el : layout Vars.N.len 1 (publishedAt s .N fun _ => n) (fun i => pderiv i (publishedAt s .N) fun _ => n)
      (fun i j => pderiv i (pderiv j (publishedAt s .N)) fun _ => n) (fun i j l => pderiv i (pderiv j (pderiv l (publishedAt s .N))) fun _ => n) ++
        [o₁, o₂].drop 2 = [(s.active.map fun id => s.settings id * uniform id n).sum, v] := by
    rw [← e0, ← e1]; rfl
  rw [el] at hE
  exact ⟨_, v, hE, (hs hp).1, (hs hp).2⟩

/-- **C85, energies per electron.** Without PZ81 the energy per electron falls as the density grows. -/
theorem C85_decreasing (s : State ℝ) (hvs : s.vars = some .N) (hm : s.mode = PARTIAL_DERIVATIVES) (ho : s.order = 0)
    (h : ∀ id ∈ s.active, id ∈ [0, 2, 3, 28]) (hw : ∀ id ∈ s.active, 0 ≤ s.settings id) (hp : ∃ id ∈ s.active, 0 < s.settings id)
    {n n' : ℝ} (hn : threshold < n) (hnn : n < n') (junk : Junk ℝ) (out : ℝ) :
    ∃ E E', xcfunEval codeKernel junk s [n] [out] = .ok [E] ∧ xcfunEval codeKernel junk s [n'] [out] = .ok [E'] ∧ E' / n' < E / n := by
  have h0 : 0 < n := lt_trans (by norm_num [threshold]) hn
  have hl : ∀ id ∈ s.active, id ∈ ldaIds := fun id hid => by
    have := h id hid
    simp only [ldaIds, List.mem_cons, List.not_mem_nil, or_false] at this ⊢
    omega
  refine ⟨_, _, lda_energy s hvs hm ho hl hn junk out, lda_energy s hvs hm ho hl (hn.trans hnn) junk out, ?_⟩
  have hd : ∀ m : ℝ, (s.active.map fun id => s.settings id * uniform id m).sum / m = (s.active.map fun id => s.settings id * (uniform id m / m)).sum := by
    intro m
    rw [div_eq_mul_inv, ← List.sum_map_mul_right]
    congr 1
    exact List.map_congr_left fun id _ => by ring
  rw [hd, hd]
  obtain ⟨i, hi, hpos⟩ := hp
  exact List.sum_lt_sum _ _ (fun id hid => mul_le_mul_of_nonneg_left (uniform_anti (h id hid) h0 hnn).le (hw id hid))
    ⟨i, hi, mul_lt_mul_of_pos_left (uniform_anti (h i hi) h0 hnn) hpos⟩

theorem rs_at {c : ℝ} (hc : 0 < c) : Lit.rs (3 / (4 * Real.pi * c ^ 3)) = c := by
  have hp := Real.pi_pos
  have e : 3 / (4 * Real.pi * (3 / (4 * Real.pi * c ^ 3))) = c ^ 3 := by field_simp
  rw [Lit.rs, e, ← Real.rpow_natCast, ← Real.rpow_mul hc.le]
  norm_num

/-- **C85, PZ81.** The two pieces of PZ81 correlation do not meet at `r_s = 1`: at the density of `r_s = 0.9995` the energy per electron is above that at the
smaller density of `r_s = 1`. -/
theorem C85_pz81 (s : State ℝ) (hvs : s.vars = some .N) (hm : s.mode = PARTIAL_DERIVATIVES) (ho : s.order = 0)
    (hact : s.active = [55]) (hw : s.settings 55 = 1) (junk : Junk ℝ) (out : ℝ) :
    ∃ n n' E E', threshold < n ∧ n < n' ∧ xcfunEval codeKernel junk s [n] [out] = .ok [E] ∧ xcfunEval codeKernel junk s [n'] [out] = .ok [E'] ∧
      E / n + 2e-5 < E' / n' := by
  have hp := Real.pi_pos
  have hl : ∀ id ∈ s.active, id ∈ ldaIds := by rw [hact]; simp [ldaIds]
  have ht : (threshold : ℝ) < 3 / (4 * Real.pi * 1 ^ 3) := by
    rw [lt_div_iff₀ (by positivity)]
    have := Real.pi_lt_four
    norm_num [threshold]
    linarith
  have hlt : 3 / (4 * Real.pi * 1 ^ 3) < 3 / (4 * Real.pi * 0.9995 ^ 3) := by
    apply div_lt_div_of_pos_left (by norm_num) (by positivity)
    have : (0.9995 : ℝ) ^ 3 < 1 ^ 3 := by norm_num
    exact mul_lt_mul_of_pos_left this (by positivity)
  refine ⟨3 / (4 * Real.pi * 1 ^ 3), 3 / (4 * Real.pi * 0.9995 ^ 3), _, _, ht, hlt, lda_energy s hvs hm ho hl ht junk out,
    lda_energy s hvs hm ho hl (ht.trans hlt) junk out, ?_⟩
  have e : ∀ n : ℝ, 0 < n → (s.active.map fun id => s.settings id * uniform id n).sum / n = pzU (Lit.rs n) := by
    intro n hn
    rw [hact]
    simp only [List.map_cons, List.map_nil, List.sum_cons, List.sum_nil, add_zero, hw, one_mul, uniform]
    field_simp
  rw [e _ (by positivity), e _ (by positivity), rs_at one_pos, rs_at (by norm_num)]
  have h1 : pzU 1 = -0.1423 / (1 + 1.0529 * 1 + 0.3334 * 1) := by
    rw [pzU, pz, if_pos le_rfl, Real.sqrt_one]
  have h2 : pzU 0.9995 = 0.0311 * Real.log 0.9995 + (-0.048) + 0.0020 * 0.9995 * Real.log 0.9995 + (-0.0116) * 0.9995 := by
    rw [pzU, pz, if_neg (by norm_num)]
  have hlog := Real.one_sub_inv_le_log_of_pos (show (0 : ℝ) < 0.9995 by norm_num)
  have hinv : (1 : ℝ) - 0.9995⁻¹ ≥ -0.000501 := by norm_num
  rw [h1, h2]
  have : (-0.1423 : ℝ) / (1 + 1.0529 * 1 + 0.3334 * 1) < -0.059632 := by norm_num
  linarith

/-- The local density approximation with VWN5, by its name, at the density 1: a potential below the energy per electron. -/
example : ∃ s₀ s : State ℝ, run State.init [.set "lda" 1] = .ok s₀ ∧
    evalSetup s₀ Vars.N.code PARTIAL_DERIVATIVES 1 = .ok (0, s) ∧
    ∃ E v, xcfunEval codeKernel none s [1] [0, 0] = .ok [E, v] ∧ v < E / 1 ∧ E / 1 < 0 := by
  obtain ⟨s₀, s, hr, hset⟩ : ∃ s₀ s : State ℝ, run State.init [.set "lda" 1] = .ok s₀ ∧
    evalSetup s₀ Vars.N.code PARTIAL_DERIVATIVES 1 = .ok (0, s) := ⟨_, _, rfl, rfl⟩
  refine ⟨s₀, s, hr, hset, ?_⟩
  obtain ⟨e, -⟩ := setup_facts hr hset
  have hl : (lit 0 0 : ℝ) = 0 := by simp [lit, XCFun.Lit.lit]
  have h1 : (lit 1 0 : ℝ) = 1 := by simp [lit, XCFun.Lit.lit]
  have hs₀ : s₀.active = [0, 3] ∧ s₀.settings 0 = lit 0 0 + 1 * lit 1 0 ∧ s₀.settings 3 = lit 0 0 + 1 * lit 1 0 := by
    cases hr
    exact ⟨rfl, rfl, rfl⟩
  have w0 : s.settings 0 = 1 := by rw [e]; refine hs₀.2.1.trans ?_; rw [hl, h1]; norm_num
  have w3 : s.settings 3 = 1 := by rw [e]; refine hs₀.2.2.trans ?_; rw [hl, h1]; norm_num
  have hact : s.active = [0, 3] := by rw [e]; exact hs₀.1
  refine C85_potential s (by rw [e]) (by rw [e]) (by rw [e]) ?_ ?_ ⟨0, by rw [hact]; simp, by rw [w0]; norm_num⟩ (by norm_num [threshold]) ?_ none 0 0
  · rw [hact]; simp [ldaIds]
  · rw [hact]
    intro id hid
    simp only [List.mem_cons, List.not_mem_nil, or_false] at hid
    rcases hid with rfl | rfl
    · rw [w0]; norm_num
    · rw [w3]; norm_num
  · rw [hact]; simp

/-- PW92 correlation at the densities 1 and 2. -/
example : ∃ s₀ s : State ℝ, run State.init [.set "pw92c" 1] = .ok s₀ ∧
    evalSetup s₀ Vars.N.code PARTIAL_DERIVATIVES 0 = .ok (0, s) ∧
    ∃ E E', xcfunEval codeKernel none s [1] [0] = .ok [E] ∧ xcfunEval codeKernel none s [2] [0] = .ok [E'] ∧ E' / 2 < E / 1 := by
  obtain ⟨s₀, s, hr, hset⟩ : ∃ s₀ s : State ℝ, run State.init [.set "pw92c" 1] = .ok s₀ ∧
    evalSetup s₀ Vars.N.code PARTIAL_DERIVATIVES 0 = .ok (0, s) := ⟨_, _, rfl, rfl⟩
  refine ⟨s₀, s, hr, hset, ?_⟩
  obtain ⟨e, -⟩ := setup_facts hr hset
  have hl : (lit 0 0 : ℝ) = 0 := by simp [lit, XCFun.Lit.lit]
  have hs₀ : s₀.active = [28] ∧ s₀.settings 28 = lit 0 0 + 1 := by
    cases hr
    exact ⟨rfl, rfl⟩
  have w : s.settings 28 = 1 := by rw [e]; refine hs₀.2.trans ?_; rw [hl]; norm_num
  have hact : s.active = [28] := by rw [e]; exact hs₀.1
  exact C85_decreasing s (by rw [e]) (by rw [e]) (by rw [e]) (by rw [hact]; simp) (by rw [hact]; simp [w]) ⟨28, by rw [hact]; simp, by rw [w]; norm_num⟩
    (by norm_num [threshold]) (by norm_num) none 0

/-- The object of the PZ81 case. -/
example : ∃ s₀ s : State ℝ, run State.init [.set "pz81c" 1] = .ok s₀ ∧
    evalSetup s₀ Vars.N.code PARTIAL_DERIVATIVES 0 = .ok (0, s) ∧
    ∃ n n' E E', threshold < n ∧ n < n' ∧ xcfunEval codeKernel none s [n] [0] = .ok [E] ∧ xcfunEval codeKernel none s [n'] [0] = .ok [E'] ∧
      E / n + 2e-5 < E' / n' := by
  obtain ⟨s₀, s, hr, hset⟩ : ∃ s₀ s : State ℝ, run State.init [.set "pz81c" 1] = .ok s₀ ∧
    evalSetup s₀ Vars.N.code PARTIAL_DERIVATIVES 0 = .ok (0, s) := ⟨_, _, rfl, rfl⟩
  refine ⟨s₀, s, hr, hset, ?_⟩
  obtain ⟨e, -⟩ := setup_facts hr hset
  have hl : (lit 0 0 : ℝ) = 0 := by simp [lit, XCFun.Lit.lit]
  have hs₀ : s₀.active = [55] ∧ s₀.settings 55 = lit 0 0 + 1 := by
    cases hr
    exact ⟨rfl, rfl⟩
  exact C85_pz81 s (by rw [e]) (by rw [e]) (by rw [e]) (by rw [e]; exact hs₀.1) (by rw [e]; refine hs₀.2.trans ?_; rw [hl]; norm_num) none 0

end XCFun.Props
