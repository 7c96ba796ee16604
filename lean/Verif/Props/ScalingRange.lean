/-
C39, continued: range-separated exchange, and BTK.
-/
import Verif.Proofs.ScalingRange
import Verif.Props.Scaling

namespace XCFun.Props
open XCFun Spec

/-- **C39, range-separated exchange functionals.** BECKESRX, BECKECAMX and LDAERFX scale with `g^4` when the range-separation parameter is
scaled with `g` (an inverse length). -/
theorem C39_range_separated {id : ℕ} (hid : id ∈ rangeSeparatedIds) {e : Expr Field} (he : Fun.energy id = some e) {g : ℝ} (hg : 0 < g)
    {ρ : Field → ℝ} (ha : 0 < ρ .a) (hb : 0 < ρ .b) (hn : 0 < ρ .n) :
    e.evalR (scaleMu g ρ) = g ^ 4 * e.evalR ρ := by
  have key : ∀ c, Fun.Deg (e.subst (Fun.muVar c)) 4 := by
    simp only [rangeSeparatedIds, List.mem_cons, List.not_mem_nil, or_false] at hid
    rcases hid with rfl | rfl | rfl <;> cases he
    exacts [Fun.beckesrx_scaleMu, Fun.beckecamx_scaleMu, Fun.lda_erfx_scaleMu]
  rw [Fun.scaleMu_eq key hg ⟨ha, hb, hn⟩]
  norm_cast

/-- With parameter 0.4 at the inputs and 0.8 at the scaled inputs. -/
example (ρ : Field → ℝ) (ha : 0 < ρ .a) (hb : 0 < ρ .b) (hn : 0 < ρ .n) (hp : ρ (.param Fun.RANGESEP_MU) = 0.4) :
    ∃ ρ' : Field → ℝ, ρ' (.param Fun.RANGESEP_MU) = 0.8 ∧ ρ' .a = 8 * ρ .a ∧ ρ' .gaa = 256 * ρ .gaa ∧
      Fun.beckecamx.evalR ρ' = 16 * Fun.beckecamx.evalR ρ := by
  refine ⟨scaleMu 2 ρ, ?_, ?_, ?_, ?_⟩
  · show 2 * ρ (.param Fun.RANGESEP_MU) = 0.8
    rw [hp]; norm_num
  · show 2 ^ (3 : ℤ) * ρ .a = _
    norm_num
  · show 2 ^ (8 : ℤ) * ρ .gaa = _
    norm_num
  · rw [C39_range_separated (id := 9) (by decide) rfl (by norm_num) ha hb hn]
    norm_num

/-- **C39, `xcfun_eval` with range separation.** Any combination of exchange functionals, range-separated or not, with any weights: the energy
returned at the scaled inputs by the object with the parameter multiplied by `g` is `g^4` times the energy returned at the inputs. -/
theorem C39_eval_range_separated (s : State ℝ) {v : Vars} (hv : ¬ Unsupported v) (hA : v ≠ .A ∧ v ≠ .A_GAA)
    (hvs : s.vars = some v) (hm : s.mode = PARTIAL_DERIVATIVES) (ho : s.order = 0)
    (hk : ∀ id ∈ s.active, id ∈ exchangeIds ∨ id ∈ rangeSeparatedIds)
    {g : ℝ} (hg : 0 < g) {x : ℕ → ℝ} (h : ∀ y ∈ densities (1 / 2) x v, threshold ≤ y)
    (h' : ∀ y ∈ densities (1 / 2) (scaleInputs v g x) v, threshold ≤ y) (junk : Junk ℝ) (out : ℝ) :
    ∃ e : ℝ, xcfunEval codeKernel junk s ((List.range v.len).map x) [out] = .ok [e] ∧
      xcfunEval codeKernel junk (scaleObject g s) ((List.range v.len).map (scaleInputs v g x)) [out] = .ok [g ^ 4 * e] := by
  refine ⟨energyAt s v x, eval_order0 s hv hvs hm ho x junk out, ?_⟩
  rw [eval_order0 (scaleObject g s) hv hvs hm ho _ junk out, energyAt_scaleMu s hv hA hg h h']
  · intro hc
    rcases hk _ hc with h | h <;> revert h <;> decide
  · intro id hid e he c
    rcases hk id hid with h | h
    · refine ⟨fun {g ρ} hg hρ => ?_⟩
      rw [Fun.exchange_scaleMu h he, C39_exchange h he hg hρ.a hρ.b hρ.n]
      norm_cast
    · simp only [rangeSeparatedIds, List.mem_cons, List.not_mem_nil, or_false] at h
      rcases h with rfl | rfl | rfl <;> cases he
      exacts [Fun.beckesrx_scaleMu c, Fun.beckecamx_scaleMu c, Fun.lda_erfx_scaleMu c]

/-- `BECKESRX` with the parameter set to 0.3 at `(1, 2, 3, 4, 5)`, and the same object with the parameter set to 0.6 at the inputs scaled
with `g = 2`. -/
example : ∃ s₀ s s₁ s' : State ℝ, run State.init [.set "beckesrx" 1, .set "rangesep_mu" 0.3] = .ok s₀ ∧
    evalSetup s₀ Vars.A_B_GAA_GAB_GBB.code PARTIAL_DERIVATIVES 0 = .ok (0, s) ∧
    run State.init [.set "beckesrx" 1, .set "rangesep_mu" 0.6] = .ok s₁ ∧
    evalSetup s₁ Vars.A_B_GAA_GAB_GBB.code PARTIAL_DERIVATIVES 0 = .ok (0, s') ∧ ∃ e : ℝ,
    xcfunEval codeKernel none s [1, 2, 3, 4, 5] [0] = .ok [e] ∧
    xcfunEval codeKernel none s' [8, 16, 768, 1024, 1280] [0] = .ok [2 ^ 4 * e] := by
  obtain ⟨s₀, s, hr, hset⟩ : ∃ s₀ s : State ℝ, run State.init [.set "beckesrx" 1, .set "rangesep_mu" 0.3] = .ok s₀ ∧
    evalSetup s₀ Vars.A_B_GAA_GAB_GBB.code PARTIAL_DERIVATIVES 0 = .ok (0, s) := ⟨_, _, rfl, rfl⟩
  obtain ⟨s₁, s', hr', hset'⟩ : ∃ s₀ s : State ℝ, run State.init [.set "beckesrx" 1, .set "rangesep_mu" 0.6] = .ok s₀ ∧
    evalSetup s₀ Vars.A_B_GAA_GAB_GBB.code PARTIAL_DERIVATIVES 0 = .ok (0, s) := ⟨_, _, rfl, rfl⟩
  refine ⟨s₀, s, s₁, s', hr, hset, hr', hset', ?_⟩
  obtain ⟨e, -⟩ := setup_facts hr hset
  obtain ⟨e', -⟩ := setup_facts hr' hset'
  have hact : s.active = [8] := by
    rw [e]
    cases hr
    rfl
  have hs' : s' = scaleObject 2 s := by
    rw [e, e']
    cases hr
    cases hr'
    unfold scaleObject
    congr 1
    funext i
    by_cases hi : i = Fun.RANGESEP_MU
    · subst hi
      rw [Function.update_self]
      show (0.6 : ℝ) = 2 * 0.3
      norm_num
    · rw [Function.update_of_ne hi]
      show upd _ Fun.RANGESEP_MU (0.6 : ℝ) i = upd _ Fun.RANGESEP_MU (0.3 : ℝ) i
      simp [upd, hi]
  have e1 : (List.range (Vars.len .A_B_GAA_GAB_GBB)).map (fun i : ℕ => (i : ℝ) + 1) = [1, 2, 3, 4, 5] := by
    show [((0 : ℕ) : ℝ) + 1, ((1 : ℕ) : ℝ) + 1, ((2 : ℕ) : ℝ) + 1, ((3 : ℕ) : ℝ) + 1, ((4 : ℕ) : ℝ) + 1] = _
    norm_num
  have e2 : (List.range (Vars.len .A_B_GAA_GAB_GBB)).map (scaleInputs .A_B_GAA_GAB_GBB 2 fun i : ℕ => (i : ℝ) + 1) =
      [8, 16, 768, 1024, 1280] := by
    show [2 ^ 3 * (((0 : ℕ) : ℝ) + 1), 2 ^ 3 * (((1 : ℕ) : ℝ) + 1), 2 ^ 8 * (((2 : ℕ) : ℝ) + 1), 2 ^ 8 * (((3 : ℕ) : ℝ) + 1),
      2 ^ 8 * (((4 : ℕ) : ℝ) + 1)] = _
    norm_num
  have := C39_eval_range_separated s (v := .A_B_GAA_GAB_GBB) (by decide) (by decide) (by rw [e]) (by rw [e]) (by rw [e])
    (by rw [hact]; decide) (g := 2) (by norm_num) (x := fun i => (i : ℝ) + 1)
    (by norm_num [densities, densSlots, threshold]) (by norm_num [densities, densSlots, threshold, scaleInputs, inputDeg]) none 0
  rwa [e1, e2, ← hs'] at this

/-- **C39, BTK.** BTK adds the constant `1e-24` to the squared gradient (btk.cpp:19-22). For `g ≥ 1` and non-negative squared gradients the energy
at the scaled variables is at most `g^5` times the energy, and differs from it by at most the relative amount `1e-24 / δ` if the two squared
gradients `4 gaa`, `4 gbb` are at least `δ`. -/
theorem C39_btk {g δ : ℝ} (hg : 1 ≤ g) (hδ : 1e-24 ≤ δ) {ρ : Field → ℝ} (ha : 0 < ρ .a) (hb : 0 < ρ .b)
    (hga : δ ≤ 4 * ρ .gaa) (hgb : δ ≤ 4 * ρ .gbb) :
    Fun.energy 58 = some Fun.btk ∧ Fun.btk.evalR (scaleField g ρ) ≤ g ^ 5 * Fun.btk.evalR ρ ∧
      (1 - 1e-24 / δ) * (g ^ 5 * Fun.btk.evalR ρ) ≤ Fun.btk.evalR (scaleField g ρ) := by
  have hg0 : 0 < g := by linarith
  have hδ0 : 0 < δ := lt_of_lt_of_le (by norm_num) hδ
  have h8 : 1 ≤ g ^ 8 := one_le_pow₀ hg
  have hf : (1e-24 : ℝ) / g ^ 8 ≤ 1e-24 := div_le_self (by norm_num) h8
  have hf0 : (0 : ℝ) ≤ 1e-24 / g ^ 8 := by positivity
  have h5 : 0 < g ^ 5 := by positivity
  have t0 : 0 ≤ 1 - 1e-24 / δ := by
    rw [sub_nonneg, div_le_one hδ0]; exact hδ
  have key : ∀ n q : ℝ, 0 < n → δ ≤ 4 * q →
      Fun.btkR 1e-24 (2 * (g ^ (3 : ℤ) * n)) (4 * (g ^ (8 : ℤ) * q)) ≤ g ^ 5 * Fun.btkR 1e-24 (2 * n) (4 * q) ∧
      (1 - 1e-24 / δ) * (g ^ 5 * Fun.btkR 1e-24 (2 * n) (4 * q)) ≤
        Fun.btkR 1e-24 (2 * (g ^ (3 : ℤ) * n)) (4 * (g ^ (8 : ℤ) * q)) := by
    intro n q hn hq
    have e : Fun.btkR 1e-24 (2 * (g ^ (3 : ℤ) * n)) (4 * (g ^ (8 : ℤ) * q)) = g ^ 5 * Fun.btkR (1e-24 / g ^ 8) (2 * n) (4 * q) := by
      rw [← Fun.btkR_scale hg0 (by norm_num) (by linarith) (by linarith)]
      congr 1 <;> norm_cast <;> ring
    rw [e]
    refine ⟨mul_le_mul_of_nonneg_left (Fun.btkR_mono hf0 hf (by linarith) (by linarith)) h5.le, ?_⟩
    rw [mul_left_comm]
    refine mul_le_mul_of_nonneg_left (Fun.btkR_lower hf (by norm_num) (by linarith) (by linarith) t0 ?_) h5.le
    have : (1 - 1e-24 / δ) * (1e-24 + 4 * q) ≤ 4 * q := by
      have e1 : (1e-24 : ℝ) ≤ 1e-24 / δ * (4 * q) := by
        rw [div_mul_eq_mul_div, le_div_iff₀ hδ0]
        exact mul_le_mul_of_nonneg_left hq (by norm_num)
      have e2 : (0 : ℝ) ≤ 1e-24 / δ * 1e-24 := by positivity
      nlinarith
    linarith
  refine ⟨rfl, ?_⟩
  rw [Fun.btk_evalR, Fun.btk_evalR]
  obtain ⟨a1, a2⟩ := key _ _ ha hga
  obtain ⟨b1, b2⟩ := key _ _ hb hgb
  simp only [scaleField, fieldDeg]
  constructor <;> linarith

example : Fun.btk.evalR (scaleField 2 fun _ => 1) ≤ 2 ^ 5 * Fun.btk.evalR (fun _ => 1) ∧
    (1 - 1e-24) * (2 ^ 5 * Fun.btk.evalR fun _ => 1) ≤ Fun.btk.evalR (scaleField 2 fun _ => 1) := by
  have := (C39_btk (g := 2) (δ := 1) (ρ := fun _ => 1) (by norm_num) (by norm_num) (by norm_num) (by norm_num) (by norm_num)
    (by norm_num)).2
  rwa [div_one] at this

/-- BTK does not scale exactly: it fails at zero gradient. -/
theorem C39_btk_negation : ∃ (g : ℝ) (ρ : Field → ℝ), 0 < g ∧ 0 < ρ .a ∧ 0 < ρ .b ∧ 0 < ρ .n ∧
    Fun.btk.evalR (scaleField g ρ) ≠ g ^ 5 * Fun.btk.evalR ρ := by
  obtain ⟨g, ρ, hg, h, hne⟩ := Fun.btk_not_scale
  exact ⟨g, ρ, hg, h.a, h.b, h.n, hne⟩

end XCFun.Props
