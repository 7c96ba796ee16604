/-
The series of `erf` and the continued fraction of `erfc` in micromath.hpp.
-/
import Mathlib.Analysis.Complex.ExponentialBounds
import Verif.Model.MicroMath
import Verif.Proofs.BallErf
import Verif.Spec.Literature

namespace XCFun.MicroMath
open Filter Topology MeasureTheory

/-! ### The series -/

/-- Partial sums of `exp (-u)`. -/
noncomputable def expSum (J : ℕ) (u : ℝ) : ℝ := ∑ k ∈ Finset.range (J + 1), (-u) ^ k / k.factorial

/-- Partial sums of `∫₀ˣ exp(-t²) dt`. -/
noncomputable def erfSum (J : ℕ) (x : ℝ) : ℝ := ∑ k ∈ Finset.range (J + 1), (-1) ^ k * x ^ (2 * k + 1) / (k.factorial * (2 * k + 1))

/-- The integral itself. -/
noncomputable def erfInt (x : ℝ) : ℝ := ∫ t in (0 : ℝ)..x, Real.exp (-t ^ 2)

theorem expSum_succ (J : ℕ) (u : ℝ) : expSum (J + 1) u = expSum J u + (-u) ^ (J + 1) / (J + 1).factorial := by
  rw [expSum, Finset.sum_range_succ, ← expSum]

theorem erfSum_succ (J : ℕ) (x : ℝ) : erfSum (J + 1) x = erfSum J x + (-1) ^ (J + 1) * x ^ (2 * (J + 1) + 1) / ((J + 1).factorial * (2 * ((J + 1 : ℕ) : ℝ) + 1)) := by
  rw [erfSum, Finset.sum_range_succ, ← erfSum]

theorem expSum_hasDerivAt (J : ℕ) (u : ℝ) : HasDerivAt (expSum (J + 1)) (-expSum J u) u := by
  induction J with
  | zero =>
    have h : expSum (0 + 1) = fun u => 1 - u := by
      funext u
      simp [expSum, Finset.sum_range_succ]
      ring
    rw [h]
    simpa [expSum] using (hasDerivAt_id u).const_sub 1
  | succ J ih =>
    have h : expSum (J + 1 + 1) = fun u => expSum (J + 1) u + (-u) ^ (J + 1 + 1) / (J + 1 + 1).factorial := by
      funext u
      exact expSum_succ _ _
    rw [h]
    have h2 : HasDerivAt (fun u : ℝ => (-u) ^ (J + 1 + 1) / (J + 1 + 1).factorial) (((J + 1 + 1 : ℕ) * (-u) ^ (J + 1) * (-1)) / (J + 1 + 1).factorial) u := by
      have := ((hasDerivAt_id u).fun_neg.pow (J + 1 + 1)).div_const ((J + 1 + 1).factorial : ℝ)
      simpa using this
    refine (ih.add h2).congr_deriv ?_
    rw [expSum_succ J, Nat.factorial_succ (J + 1)]
    have : ((J + 1).factorial : ℝ) ≠ 0 := by positivity
    have : ((J + 1 + 1 : ℕ) : ℝ) ≠ 0 := by positivity
    push_cast at *
    field_simp
    ring

theorem expSum_sign (J : ℕ) {u : ℝ} (hu : 0 ≤ u) : 0 ≤ (-1) ^ J * (expSum J u - Real.exp (-u)) := by
  induction J generalizing u with
  | zero =>
    have : Real.exp (-u) ≤ 1 := Real.exp_le_one_iff.2 (by linarith)
    simp [expSum]
    linarith
  | succ J ih =>
    have hd : ∀ v, HasDerivAt (fun v => (-1) ^ (J + 1) * (expSum (J + 1) v - Real.exp (-v))) ((-1) ^ J * (expSum J v - Real.exp (-v))) v := by
      intro v
      have h1 : HasDerivAt (fun v : ℝ => Real.exp (-v)) (-Real.exp (-v)) v := by
        have := (hasDerivAt_id v).fun_neg.exp
        simpa using this
      refine (((expSum_hasDerivAt J v).sub h1).const_mul ((-1) ^ (J + 1))).congr_deriv ?_
      ring
    have hm : MonotoneOn (fun v => (-1) ^ (J + 1) * (expSum (J + 1) v - Real.exp (-v))) (Set.Ici 0) := by
      refine monotoneOn_of_deriv_nonneg (convex_Ici 0) (fun y _ => (hd y).continuousAt.continuousWithinAt)
        (fun y _ => (hd y).differentiableAt.differentiableWithinAt) fun y hy => ?_
      rw [interior_Ici, Set.mem_Ioi] at hy
      rw [(hd y).deriv]
      exact ih hy.le
    have h0 := hm (Set.mem_Ici.2 le_rfl) (Set.mem_Ici.2 hu) hu
    have e : expSum (J + 1) 0 = 1 := by
      rw [expSum, Finset.sum_range_succ']
      simp
    simpa [e] using h0

theorem erfInt_hasDerivAt (x : ℝ) : HasDerivAt erfInt (Real.exp (-x ^ 2)) x := by
  have hc : Continuous fun t : ℝ => Real.exp (-t ^ 2) := by fun_prop
  exact (hc.integral_hasStrictDerivAt 0 x).hasDerivAt

@[simp] theorem erfInt_zero : erfInt 0 = 0 := by simp [erfInt]

theorem erfSum_zero (J : ℕ) : erfSum J 0 = 0 := by
  unfold erfSum
  refine Finset.sum_eq_zero fun k _ => ?_
  simp

theorem erfSum_hasDerivAt (J : ℕ) (x : ℝ) : HasDerivAt (erfSum J) (expSum J (x ^ 2)) x := by
  unfold erfSum expSum
  refine HasDerivAt.fun_sum fun k _ => ?_
  have h := ((hasDerivAt_pow (2 * k + 1) x).const_mul ((-1 : ℝ) ^ k)).div_const ((k.factorial : ℝ) * (2 * k + 1))
  refine h.congr_deriv ?_
  have h1 : (k.factorial : ℝ) ≠ 0 := by positivity
  have h2 : (2 * (k : ℝ) + 1) ≠ 0 := by positivity
  rw [neg_pow (x ^ 2), ← pow_mul]
  push_cast
  field_simp

theorem erfSum_sign (J : ℕ) {x : ℝ} (hx : 0 ≤ x) : 0 ≤ (-1) ^ J * (erfSum J x - erfInt x) := by
  have hd : ∀ v, HasDerivAt (fun v => (-1) ^ J * (erfSum J v - erfInt v)) ((-1) ^ J * (expSum J (v ^ 2) - Real.exp (-v ^ 2))) v := fun v =>
    ((erfSum_hasDerivAt J v).sub (erfInt_hasDerivAt v)).const_mul ((-1) ^ J)
  have hm : MonotoneOn (fun v => (-1) ^ J * (erfSum J v - erfInt v)) (Set.Ici 0) := by
    refine monotoneOn_of_deriv_nonneg (convex_Ici 0) (fun y _ => (hd y).continuousAt.continuousWithinAt)
      (fun y _ => (hd y).differentiableAt.differentiableWithinAt) fun y hy => ?_
    rw [(hd y).deriv]
    exact expSum_sign J (sq_nonneg y)
  have h0 := hm (Set.mem_Ici.2 le_rfl) (Set.mem_Ici.2 hx) hx
  simpa [erfSum_zero] using h0

/-- Even partial sums are too large. -/
theorem erfInt_le (i : ℕ) {x : ℝ} (hx : 0 ≤ x) : erfInt x ≤ erfSum (2 * i) x := by
  have := erfSum_sign (2 * i) hx
  rw [pow_mul] at this
  norm_num at this
  exact this

/-- Odd ones are too small. -/
theorem le_erfInt (i : ℕ) {x : ℝ} (hx : 0 ≤ x) : erfSum (2 * i + 1) x ≤ erfInt x := by
  have := erfSum_sign (2 * i + 1) hx
  rw [pow_succ, pow_mul] at this
  norm_num at this
  exact this

/-- The variable `term` after `2 i` steps. -/
noncomputable def erfTerm (J : ℕ) (x : ℝ) : ℝ := x ^ (2 * J + 1) / J.factorial

theorem erfTerm_succ (J : ℕ) (x : ℝ) : erfTerm (J + 1) x = erfTerm J x * (x * x / ((J + 1 : ℕ) : ℝ)) := by
  unfold erfTerm
  rw [Nat.factorial_succ]
  have h1 : (J.factorial : ℝ) ≠ 0 := by positivity
  have h2 : ((J + 1 : ℕ) : ℝ) ≠ 0 := by positivity
  push_cast at *
  field_simp
  ring

theorem erfSum_next (J : ℕ) (x : ℝ) : erfSum (J + 1) x = erfSum J x + (-1) ^ (J + 1) * (erfTerm (J + 1) x / (2 * ((J + 1 : ℕ) : ℝ) + 1)) := by
  rw [erfSum_succ, erfTerm]
  have h1 : ((J + 1).factorial : ℝ) ≠ 0 := by positivity
  have h2 : (2 * ((J + 1 : ℕ) : ℝ) + 1) ≠ 0 := by positivity
  field_simp

/-- The remainder. -/
theorem erfSum_sub_le (i : ℕ) {x : ℝ} (hx : 0 ≤ x) : erfSum (2 * i) x - erfInt x ≤ erfTerm (2 * i) x * (x * x) / ((2 * i + 1) * (4 * i + 3)) := by
  have h := le_erfInt i hx
  rw [erfSum_next, erfTerm_succ] at h
  have e : ((-1 : ℝ)) ^ (2 * i + 1) = -1 := by rw [pow_succ, pow_mul]; norm_num
  rw [e] at h
  have h1 : (2 * (i : ℝ) + 1) ≠ 0 := by positivity
  have h2 : (4 * (i : ℝ) + 3) ≠ 0 := by positivity
  have e2 : erfTerm (2 * i) x * (x * x / ((2 * i + 1 : ℕ) : ℝ)) / (2 * ((2 * i + 1 : ℕ) : ℝ) + 1) = erfTerm (2 * i) x * (x * x) / ((2 * i + 1) * (4 * i + 3)) := by
    push_cast
    have h3 : 2 * (2 * (i : ℝ) + 1) + 1 = 4 * i + 3 := by ring
    rw [h3]
    field_simp
  rw [e2] at h
  linarith

/-- One round of the loop. -/
theorem erfLoop_round (x : ℝ) (fuel i : ℕ) : erfLoop (x * x) (fuel + 1) (2 * i + 1) (erfSum (2 * i) x) (erfTerm (2 * i) x) =
    open Classical in if erfGoesOn (erfTerm (2 * (i + 1)) x) (erfSum (2 * (i + 1)) x) then
      erfLoop (x * x) fuel (2 * (i + 1) + 1) (erfSum (2 * (i + 1)) x) (erfTerm (2 * (i + 1)) x) else .ok (erfSum (2 * (i + 1)) x) := by
  have e1 : ((-1 : ℝ)) ^ (2 * i + 1) = -1 := by rw [pow_succ, pow_mul]; norm_num
  have e2 : ((-1 : ℝ)) ^ (2 * i + 1 + 1) = 1 := by rw [pow_succ, e1]; norm_num
  have t : erfTerm (2 * i) x * (x * x / ((2 * i + 1 : ℕ) : ℝ)) * (x * x / ((2 * i + 1 + 1 : ℕ) : ℝ)) = erfTerm (2 * (i + 1)) x := by
    rw [← erfTerm_succ, ← erfTerm_succ]
    rfl
  have s : erfSum (2 * i) x - erfTerm (2 * i) x * (x * x / ((2 * i + 1 : ℕ) : ℝ)) / (2 * ((2 * i + 1 : ℕ) : ℝ) + 1) +
      erfTerm (2 * i) x * (x * x / ((2 * i + 1 : ℕ) : ℝ)) * (x * x / ((2 * i + 1 + 1 : ℕ) : ℝ)) / (2 * ((2 * i + 1 + 1 : ℕ) : ℝ) + 1) = erfSum (2 * (i + 1)) x := by
    have : erfSum (2 * (i + 1)) x = erfSum (2 * i + 1 + 1) x := rfl
    rw [this, erfSum_next, erfSum_next, e1, e2, ← erfTerm_succ, ← erfTerm_succ]
    ring
  conv_lhs => unfold erfLoop
  simp only
  rw [s, t]
  rfl

theorem erfInt_lower {x : ℝ} (hx : 0 < x) (h : x ≤ 2.2) : x / 243 ≤ erfInt x := by
  have hd : ∀ v, HasDerivAt (fun v => erfInt v - v / 243) (Real.exp (-v ^ 2) - 1 / 243) v := fun v => by
    have := (erfInt_hasDerivAt v).sub ((hasDerivAt_id v).div_const 243)
    exact this
  have hm : MonotoneOn (fun v => erfInt v - v / 243) (Set.Icc 0 2.2) := by
    refine monotoneOn_of_deriv_nonneg (convex_Icc 0 2.2) (fun y _ => (hd y).continuousAt.continuousWithinAt)
      (fun y _ => (hd y).differentiableAt.differentiableWithinAt) fun y hy => ?_
    rw [interior_Icc, Set.mem_Ioo] at hy
    rw [(hd y).deriv]
    have h5 : Real.exp (-5) ≤ Real.exp (-y ^ 2) := Real.exp_le_exp.2 (by nlinarith)
    have h6 : Real.exp 5 ≤ 243 := by
      have h1 : Real.exp 1 ≤ 3 := (Real.exp_one_lt_d9.trans (by norm_num)).le
      have h2 : Real.exp 5 = Real.exp 1 ^ 5 := by rw [← Real.exp_nat_mul]; norm_num
      rw [h2]
      calc Real.exp 1 ^ 5 ≤ 3 ^ 5 := pow_le_pow_left₀ (Real.exp_pos 1).le h1 5
        _ = 243 := by norm_num
    have h7 : (1 : ℝ) / 243 ≤ Real.exp (-5) := by
      rw [Real.exp_neg, ← one_div]
      exact one_div_le_one_div_of_le (Real.exp_pos 5) h6
    linarith
  have h0 := hm (Set.mem_Icc.2 ⟨le_rfl, by norm_num⟩) (Set.mem_Icc.2 ⟨hx.le, h⟩) hx.le
  simp at h0
  linarith

theorem erfInt_pos {x : ℝ} (hx : 0 < x) (h : x ≤ 2.2) : 0 < erfInt x := lt_of_lt_of_le (by positivity) (erfInt_lower hx h)

theorem erfTerm_pos {x : ℝ} (hx : 0 < x) (J : ℕ) : 0 < erfTerm J x := by unfold erfTerm; positivity

/-- After 20 rounds the last term is small. -/
theorem erfTerm_small {x : ℝ} (hx : 0 < x) (h : x ≤ 2.2) : erfTerm (2 * 20) x ≤ 1e-15 * x := by
  unfold erfTerm
  have h1 : x ^ 2 ≤ 4.84 := by nlinarith
  have h2 : (x ^ 2) ^ 40 ≤ 4.84 ^ 40 := pow_le_pow_left₀ (sq_nonneg x) h1 40
  have e : x ^ (2 * (2 * 20) + 1) = x * (x ^ 2) ^ 40 := by ring
  rw [e, mul_comm (1e-15) x, mul_div_assoc]
  refine mul_le_mul_of_nonneg_left ?_ hx.le
  rw [div_le_iff₀ (by positivity)]
  refine h2.trans ?_
  have : ((2 * 20 : ℕ).factorial : ℝ) = 815915283247897734345611269596115894272000000000 := by
    norm_cast
  rw [this]
  norm_num

theorem erfGoesOn_iff {x : ℝ} (hx : 0 < x) (h : x ≤ 2.2) (i : ℕ) : erfGoesOn (erfTerm (2 * i) x) (erfSum (2 * i) x) ↔ relError * erfSum (2 * i) x < erfTerm (2 * i) x := by
  have hp : 0 < erfSum (2 * i) x := (erfInt_pos hx h).trans_le (erfInt_le i hx.le)
  unfold erfGoesOn
  rw [if_neg hp.ne', abs_of_pos (erfTerm_pos hx _), gt_iff_lt, lt_div_iff₀ hp]

theorem erfLoop_ends {x : ℝ} (hx : 0 < x) (h : x ≤ 2.2) (fuel i : ℕ) (hi : i < 20) (hf : 20 ≤ fuel + i) :
    ∃ k, 1 ≤ k ∧ erfLoop (x * x) fuel (2 * i + 1) (erfSum (2 * i) x) (erfTerm (2 * i) x) = .ok (erfSum (2 * k) x) ∧ erfTerm (2 * k) x ≤ relError * erfSum (2 * k) x := by
  induction fuel generalizing i with
  | zero => omega
  | succ fuel ih =>
    rw [erfLoop_round]
    by_cases hg : erfGoesOn (erfTerm (2 * (i + 1)) x) (erfSum (2 * (i + 1)) x)
    · rw [if_pos hg]
      refine ih (i + 1) ?_ (by omega)
      rcases Nat.lt_or_ge (i + 1) 20 with h20 | h20
      · exact h20
      · have : i + 1 = 20 := by omega
        rw [erfGoesOn_iff hx h, this] at hg
        have h1 := erfTerm_small hx h
        have h2 := erfInt_le 20 hx.le
        have h3 := erfInt_lower hx h
        unfold relError at hg
        exfalso
        nlinarith
    · rw [if_neg hg]
      refine ⟨i + 1, by omega, rfl, ?_⟩
      rw [erfGoesOn_iff hx h] at hg
      exact not_lt.1 hg

/-- The sum found by the loop. -/
theorem erfLoop_close {x : ℝ} (hx : 0 < x) (h : x ≤ 2.2) (fuel : ℕ) (hf : 20 ≤ fuel) :
    ∃ s, erfLoop (x * x) fuel 1 x x = .ok s ∧ erfInt x ≤ s ∧ s - erfInt x ≤ 0.24e-12 * s := by
  have h0 := erfLoop_ends hx h fuel 0 (by norm_num) (by omega)
  have e1 : erfSum (2 * 0) x = x := by simp [erfSum]
  have e2 : erfTerm (2 * 0) x = x := by simp [erfTerm]
  rw [e1, e2] at h0
  obtain ⟨k, hk, he, ht⟩ := h0
  refine ⟨_, he, erfInt_le k hx.le, (erfSum_sub_le k hx.le).trans ?_⟩
  have hs : 0 < erfSum (2 * k) x := (erfInt_pos hx h).trans_le (erfInt_le k hx.le)
  have hk' : (1 : ℝ) ≤ k := by exact_mod_cast hk
  rw [div_le_iff₀ (by positivity)]
  unfold relError at ht
  have h1 : x * x ≤ 4.84 := by nlinarith
  have h2 : (21 : ℝ) ≤ (2 * k + 1) * (4 * k + 3) := by nlinarith
  calc erfTerm (2 * k) x * (x * x) ≤ (1e-12 * erfSum (2 * k) x) * 4.84 := mul_le_mul ht h1 (mul_self_nonneg x) (by positivity)
    _ ≤ 0.24e-12 * erfSum (2 * k) x * 21 := by nlinarith
    _ ≤ _ := mul_le_mul_of_nonneg_left h2 (by positivity)

/-- For a negative number the first round is the last one. -/
theorem erfLoop_negative {x : ℝ} (hx : x < 0) (fuel : ℕ) : erfLoop (x * x) (fuel + 1) 1 x x = .ok (x - x ^ 3 / 3 + x ^ 5 / 10) := by
  have e1 : erfSum (2 * 0) x = x := by simp [erfSum]
  have e2 : erfTerm (2 * 0) x = x := by simp [erfTerm]
  have h := erfLoop_round x fuel 0
  rw [e1, e2] at h
  have e3 : erfSum (2 * (0 + 1)) x = x - x ^ 3 / 3 + x ^ 5 / 10 := by
    simp [erfSum, Finset.sum_range_succ, Nat.factorial]
    ring
  have hn : erfSum (2 * (0 + 1)) x < 0 := by
    rw [e3]
    have : x - x ^ 3 / 3 + x ^ 5 / 10 = x * ((x ^ 2 - 5 / 3) ^ 2 / 10 + 13 / 18) := by ring
    rw [this]
    exact mul_neg_of_neg_of_pos hx (by positivity)
  rw [if_neg, e3] at h
  · exact h
  · unfold erfGoesOn
    rw [if_neg hn.ne, gt_iff_lt, not_lt]
    refine (div_nonpos_of_nonneg_of_nonpos (abs_nonneg _) hn.le).trans ?_
    unfold relError
    norm_num

theorem erfLoop_zero (fuel : ℕ) : erfLoop (0 * 0) (fuel + 1) 1 0 0 = .ok 0 := by
  unfold erfLoop
  simp [erfGoesOn]

end XCFun.MicroMath
