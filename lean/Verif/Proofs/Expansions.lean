/-
The expansions of tmath.hpp are Taylor coefficients.
-/
import Verif.Proofs.Taylor
import Mathlib.Analysis.SpecialFunctions.Log.Deriv
import Mathlib.Analysis.SpecialFunctions.ExpDeriv
import Mathlib.Analysis.SpecialFunctions.Pow.Deriv
import Mathlib.Analysis.SpecialFunctions.Trigonometric.Deriv
import Mathlib.Analysis.SpecialFunctions.Trigonometric.ArctanDeriv
import Mathlib.Analysis.SpecialFunctions.Trigonometric.InverseDeriv
import Mathlib.Analysis.SpecialFunctions.Arsinh
import Mathlib.MeasureTheory.Integral.IntervalIntegral.FundThmCalculus

namespace XCFun
open Spec Filter Topology
open scoped Nat

theorem isOpen_pos : IsOpen {u : ℝ | 0 < u} := isOpen_lt continuous_const continuous_id
theorem isOpen_ne0 : IsOpen {u : ℝ | u ≠ 0} := isOpen_ne

/-! 1/x -/

theorem invExpand_eq (u : ℝ) (i : ℕ) : invExpand u i = (-1) ^ i * (1 / u) ^ (i + 1) := by
  induction i with
  | zero => simp [invExpand]
  | succ i ih => rw [invExpand, ih]; ring

theorem inv_chain (N : ℕ) : Chain N {u | u ≠ 0} (fun i u => invExpand u i) := by
  intro i _ u hu
  have hu : u ≠ 0 := hu
  simp only [invExpand_eq]
  have h : HasDerivAt (fun v : ℝ => 1 / v) (-(1 / u) ^ 2) u := by
    have := hasDerivAt_inv hu
    simp only [one_div]
    exact this.congr_deriv (by simp)
  refine ((h.pow (i + 1)).const_mul _).congr_deriv ?_
  push_cast [Nat.add_sub_cancel]
  ring

/-! exp -/

theorem expFac_eq (i : ℕ) : expFac i = (i ! : ℝ) := by
  induction i with
  | zero => simp [expFac]
  | succ i ih => rw [expFac, ih, Nat.factorial_succ]; push_cast; ring

theorem expExpand_eq (x : ℝ) (i : ℕ) : expExpand x i = Real.exp x / i ! := by
  rcases i with _ | i
  · simp [expExpand]
  · rw [expExpand, expFac_eq]

theorem exp_chain (N : ℕ) : Chain N Set.univ (fun i u => expExpand u i) := by
  intro i _ u _
  simp only [expExpand_eq]
  refine ((Real.hasDerivAt_exp u).div_const _).congr_deriv ?_
  rw [Nat.factorial_succ]
  have : (i ! : ℝ) ≠ 0 := by exact_mod_cast i.factorial_ne_zero
  push_cast
  field_simp

/-! log -/

theorem logPow_eq (x : ℝ) (i : ℕ) : logPow x (i + 1) = (1 / x) ^ (i + 1) := by
  induction i with
  | zero => simp [logPow]
  | succ i ih =>
    rw [logPow, if_neg (by omega), ih]; ring

theorem sign_eq (i : ℕ) : ((2 * (((i + 1) &&& 1 : ℕ) : ℤ) - 1 : ℤ) : ℝ) = (-1) ^ i := by
  rw [Nat.and_one_is_mod]
  rcases Nat.even_or_odd i with h | h
  · rw [h.neg_one_pow, show (i + 1) % 2 = 1 by have := Nat.even_iff.1 h; omega]; norm_num
  · rw [h.neg_one_pow, show (i + 1) % 2 = 0 by have := Nat.odd_iff.1 h; omega]; norm_num

theorem log_chain (N : ℕ) : Chain N {u | 0 < u} (fun i u => logExpand u i) := by
  intro i _ u hu
  have hu : (0 : ℝ) < u := hu
  rcases i with _ | i
  · have := Real.hasDerivAt_log hu.ne'
    refine this.congr_deriv ?_
    simp only [logExpand, logPow_eq, sign_eq]
    simp
  · simp only [logExpand, logPow_eq, sign_eq]
    have h : HasDerivAt (fun v : ℝ => 1 / v) (-(1 / u) ^ 2) u := by
      have := hasDerivAt_inv hu.ne'
      simp only [one_div]
      exact this.congr_deriv (by simp)
    refine (((h.pow (i + 1)).div_const _).mul_const _).congr_deriv ?_
    have : ((i + 1 : ℕ) : ℝ) ≠ 0 := by positivity
    have : ((i + 1 + 1 : ℕ) : ℝ) ≠ 0 := by positivity
    rw [Nat.add_sub_cancel]
    generalize 1 / u = w
    field_simp
    ring

/-! pow, sqrt, cbrt -/

/-- Generalised binomial coefficients. -/
noncomputable def gbinom (a : ℝ) : ℕ → ℝ
  | 0 => 1
  | i + 1 => gbinom a i * (a - i) / ((i + 1 : ℕ) : ℝ)

theorem powExpand_eq {u : ℝ} (hu : 0 < u) (a : ℝ) (i : ℕ) :
    powExpand u a i = gbinom a i * u ^ (a - i) := by
  induction i with
  | zero => simp [powExpand, gbinom]
  | succ i ih =>
    rw [powExpand, ih, gbinom]
    have e : u ^ (a - ((i + 1 : ℕ) : ℝ)) = u ^ (a - i) * (1 / u) := by
      rw [show a - ((i + 1 : ℕ) : ℝ) = (a - i) - 1 by push_cast; ring, Real.rpow_sub_one hu.ne']
      ring
    rw [e]; push_cast; ring

theorem pow_chain (N : ℕ) (a : ℝ) : Chain N {u | 0 < u} (fun i u => powExpand u a i) := by
  intro i _ u hu
  have hu : (0 : ℝ) < u := hu
  have h : HasDerivAt (fun v : ℝ => gbinom a i * v ^ (a - i)) (gbinom a i * ((a - i) * u ^ (a - i - 1))) u :=
    (Real.hasDerivAt_rpow_const (Or.inl hu.ne')).const_mul _
  have e : (fun v : ℝ => powExpand v a i) =ᶠ[𝓝 u] fun v => gbinom a i * v ^ (a - i) :=
    Filter.eventually_of_mem (isOpen_pos.mem_nhds hu) fun v hv => powExpand_eq hv a i
  refine (h.congr_of_eventuallyEq e).congr_deriv ?_
  show _ = _ * powExpand u a (i + 1)
  rw [powExpand_eq hu, gbinom]
  have : ((i + 1 : ℕ) : ℝ) ≠ 0 := by positivity
  rw [show a - ((i + 1 : ℕ) : ℝ) = a - i - 1 by push_cast; ring]
  field_simp

theorem sqrtExpand_eq {u : ℝ} (_hu : 0 < u) (i : ℕ) : sqrtExpand u i = powExpand u (1 / 2) i := by
  induction i with
  | zero => simp only [sqrtExpand, powExpand, Real.sqrt_eq_rpow]
  | succ i ih =>
    rw [sqrtExpand, powExpand, ih]
    have : ((i + 1 : ℕ) : ℝ) ≠ 0 := by positivity
    push_cast at *
    field_simp
    ring

theorem cbrtExpand_eq {u : ℝ} (hu : 0 < u) (i : ℕ) : cbrtExpand u i = powExpand u (1 / 3) i := by
  induction i with
  | zero => simp only [cbrtExpand, powExpand, cbrt, hu.le, if_true]
  | succ i ih =>
    rw [cbrtExpand, powExpand, ih]
    have : ((i + 1 : ℕ) : ℝ) ≠ 0 := by positivity
    push_cast at *
    field_simp
    ring

/-! Composition of coefficient arrays. -/

/-- What `tfuns::compose` leaves in entry `k`. -/
def compEntry (f x : Coefs) : ℕ → ℝ
  | 0 => f 0
  | 1 => f 1 * x 1
  | 2 => f 1 * x 2 + f 2 * x 1 ^ 2
  | 3 => f 1 * x 3 + 2 * f 2 * x 1 * x 2 + f 3 * x 1 ^ 3
  | 4 => f 1 * x 4 + f 2 * (2 * x 1 * x 3 + x 2 ^ 2) + 3 * f 3 * x 1 ^ 2 * x 2 + f 4 * x 1 ^ 4
  | 5 => f 1 * x 5 + f 2 * (2 * x 1 * x 4 + 2 * x 2 * x 3) +
      f 3 * (3 * x 1 ^ 2 * x 3 + 3 * x 1 * x 2 ^ 2) + 4 * f 4 * x 1 ^ 3 * x 2 + f 5 * x 1 ^ 5
  | 6 => f 1 * x 6 + f 2 * (2 * x 1 * x 5 + 2 * x 2 * x 4 + x 3 ^ 2) +
      f 3 * (3 * x 1 ^ 2 * x 4 + 6 * x 1 * x 2 * x 3 + x 2 ^ 3) +
      f 4 * (4 * x 1 ^ 3 * x 3 + 6 * x 1 ^ 2 * x 2 ^ 2) + 5 * f 5 * x 1 ^ 4 * x 2 + f 6 * x 1 ^ 6
  | _ => 0

theorem TFuns.compose_eq {N : ℕ} (hN : N ≤ 6) (f x : Coefs) {k : ℕ} (hk : k ≤ N) :
    TFuns.compose N f x k = compEntry f x k := by
  interval_cases N <;> interval_cases k <;>
    simp [TFuns.compose, compEntry, Coefs.wr] <;> ring

theorem Chain.compose {N : ℕ} (hN : N ≤ 6) {S T : Set ℝ} {F G : ℕ → ℝ → ℝ}
    (hF : Chain N T F) (hG : Chain N S G) (hST : ∀ u ∈ S, G 0 u ∈ T) :
    Chain N S (fun k u => compEntry (fun i => F i (G 0 u)) (fun i => G i u) k) := by
  intro k hk u hu
  have dF : ∀ i < N, HasDerivAt (fun v => F i (G 0 v)) (((i + 1 : ℕ) : ℝ) * F (i + 1) (G 0 u) *
      (((0 + 1 : ℕ) : ℝ) * G 1 u)) u := by
    intro i hi
    exact (hF i hi _ (hST u hu)).comp u (hG 0 (by omega) u hu)
  have dG : ∀ i < N, HasDerivAt (G i) (((i + 1 : ℕ) : ℝ) * G (i + 1) u) u :=
    fun i hi => hG i hi u hu
  have hk6 : k < 6 := by omega
  interval_cases k
  · exact (dF 0 (by omega)).congr_deriv (by simp [compEntry])
  · exact ((dF 1 (by omega)).mul (dG 1 (by omega))).congr_deriv
      (by simp [compEntry]; ring)
  · exact (((dF 1 (by omega)).mul (dG 2 (by omega))).add
      ((dF 2 (by omega)).mul ((dG 1 (by omega)).pow 2))).congr_deriv
      (by simp [compEntry]; ring)
  · exact ((((dF 1 (by omega)).mul (dG 3 (by omega))).add
      ((((dF 2 (by omega)).const_mul 2).mul (dG 1 (by omega))).mul (dG 2 (by omega)))).add
      ((dF 3 (by omega)).mul ((dG 1 (by omega)).pow 3))).congr_deriv
      (by simp [compEntry]; ring)
  · exact (((((dF 1 (by omega)).mul (dG 4 (by omega))).add
      ((dF 2 (by omega)).mul ((((dG 1 (by omega)).const_mul 2).mul (dG 3 (by omega))).add
        ((dG 2 (by omega)).pow 2)))).add
      ((((dF 3 (by omega)).const_mul 3).mul ((dG 1 (by omega)).pow 2)).mul (dG 2 (by omega)))).add
      ((dF 4 (by omega)).mul ((dG 1 (by omega)).pow 4))).congr_deriv
      (by simp [compEntry]; ring)
  · exact ((((((dF 1 (by omega)).mul (dG 5 (by omega))).add
      ((dF 2 (by omega)).mul ((((dG 1 (by omega)).const_mul 2).mul (dG 4 (by omega))).add
        (((dG 2 (by omega)).const_mul 2).mul (dG 3 (by omega)))))).add
      ((dF 3 (by omega)).mul (((((dG 1 (by omega)).pow 2).const_mul 3).mul (dG 3 (by omega))).add
        (((dG 1 (by omega)).const_mul 3).mul ((dG 2 (by omega)).pow 2))))).add
      ((((dF 4 (by omega)).const_mul 4).mul ((dG 1 (by omega)).pow 3)).mul (dG 2 (by omega)))).add
      ((dF 5 (by omega)).mul ((dG 1 (by omega)).pow 5))).congr_deriv
      (by simp [compEntry]; ring)

/-! gauss and erf -/

theorem gaussG_step (j : ℕ) : ((j + 2 : ℕ) : ℝ) * gaussG (j + 2) = -2 * gaussG j := by
  have odd : ∀ m, gaussG (2 * m + 1) = 0 := by
    intro m
    rcases m with _ | m
    · rfl
    · rw [show 2 * (m + 1) + 1 = (2 * m + 1) + 2 by ring, gaussG, if_neg (by omega)]
  rcases Nat.even_or_odd' j with ⟨m, rfl | rfl⟩
  · rw [gaussG, if_pos (by omega), show 2 * m / 2 = m by omega]
    have : ((m + 1 : ℕ) : ℝ) ≠ 0 := by positivity
    push_cast at *
    field_simp
  · rw [odd, show 2 * m + 1 + 2 = 2 * (m + 1) + 1 by ring, odd]; simp

/-- Coefficient `m` of `exp(-2ux)`. -/
noncomputable def gaussE (u : ℝ) (m : ℕ) : ℝ := (-2 * u) ^ m / m !

theorem gaussE_step (u : ℝ) (m : ℕ) :
    ((m + 1 : ℕ) : ℝ) * gaussE u (m + 1) = -2 * u * gaussE u m := by
  rw [gaussE, gaussE, Nat.factorial_succ]
  have : (m ! : ℝ) ≠ 0 := by exact_mod_cast m.factorial_ne_zero
  have : ((m + 1 : ℕ) : ℝ) ≠ 0 := by positivity
  push_cast at *
  field_simp
  ring

theorem gaussE_deriv (u : ℝ) (m : ℕ) :
    HasDerivAt (fun v => gaussE v (m + 1)) (-2 * gaussE u m) u := by
  have h : HasDerivAt (fun v : ℝ => -2 * v) (-2) u := by simpa using (hasDerivAt_id u).const_mul (-2)
  refine ((h.pow (m + 1)).div_const ((m + 1) ! : ℝ)).congr_deriv ?_
  rw [gaussE, Nat.factorial_succ]
  have : (m ! : ℝ) ≠ 0 := by exact_mod_cast m.factorial_ne_zero
  have : ((m + 1 : ℕ) : ℝ) ≠ 0 := by positivity
  push_cast [Nat.add_sub_cancel] at *
  field_simp

theorem gaussExpand_eq (N : ℕ) (u : ℝ) {k : ℕ} (hk : k ≤ N) :
    gaussExpand N u k =
      Real.exp (-u ^ 2) * ∑ j ∈ Finset.range (k + 1), gaussG j * gaussE u (k - j) := by
  rw [gaussExpand, TFuns.multo_eq, if_pos hk, Finset.mul_sum]
  refine Finset.sum_congr rfl fun j hj => ?_
  rw [TFuns.stretch_eq, if_pos (by omega), expExpand_eq, gaussE, show -u * u = -u ^ 2 by ring]
  ring

theorem gauss_chain (N : ℕ) : Chain N Set.univ (fun k u =>
    Real.exp (-u ^ 2) * ∑ j ∈ Finset.range (k + 1), gaussG j * gaussE u (k - j)) := by
  intro k _ u _
  have hE : HasDerivAt (fun v : ℝ => Real.exp (-v ^ 2)) (Real.exp (-u ^ 2) * (-(2 * u))) u := by
    have : HasDerivAt (fun v : ℝ => -v ^ 2) (-(2 * u)) u := by
      exact ((hasDerivAt_id u).pow 2).neg.congr_deriv (by simp)
    exact this.exp
  -- derivative of the polynomial factor
  have hP : HasDerivAt (fun v => ∑ j ∈ Finset.range (k + 1), gaussG j * gaussE v (k - j))
      (∑ j ∈ Finset.range k, gaussG j * (-2 * gaussE u (k - 1 - j))) u := by
    have h0 : HasDerivAt (fun v : ℝ => gaussG k * gaussE v (k - k)) 0 u := by
      have : (fun v : ℝ => gaussG k * gaussE v (k - k)) = fun _ => gaussG k := by
        funext v; simp [gaussE]
      rw [this]; exact hasDerivAt_const u _
    have h1 : HasDerivAt (fun v => ∑ j ∈ Finset.range k, gaussG j * gaussE v (k - j))
        (∑ j ∈ Finset.range k, gaussG j * (-2 * gaussE u (k - 1 - j))) u := by
      refine HasDerivAt.fun_sum fun j hj => ?_
      have hj : j < k := by simpa using hj
      have := (gaussE_deriv u (k - 1 - j)).const_mul (gaussG j)
      rwa [show k - 1 - j + 1 = k - j by omega] at this
    have := h1.add h0
    simp only [add_zero] at this
    refine this.congr_of_eventuallyEq (Eventually.of_forall fun v => ?_)
    simp only [Finset.sum_range_succ]; rfl
  refine (hE.mul hP).congr_deriv ?_
  -- (k+1) D_{k+1}
  have e : ((k + 1 : ℕ) : ℝ) * ∑ j ∈ Finset.range (k + 1 + 1), gaussG j * gaussE u (k + 1 - j) =
      (∑ j ∈ Finset.range k, gaussG j * (-2 * gaussE u (k - 1 - j))) +
      -2 * u * ∑ j ∈ Finset.range (k + 1), gaussG j * gaussE u (k - j) := by
    rw [cauchy_step, Finset.sum_add_distrib]
    congr 1
    · -- terms from gaussG
      rw [Finset.sum_range_succ']
      rw [show ((0 + 1 : ℕ) : ℝ) * gaussG (0 + 1) * gaussE u (k - 0) = 0 by simp [gaussG], add_zero]
      refine Finset.sum_congr rfl fun j hj => ?_
      rw [show j + 1 + 1 = j + 2 by ring, gaussG_step, show k - (j + 1) = k - 1 - j by omega]
      ring
    · rw [Finset.mul_sum]
      refine Finset.sum_congr rfl fun j _ => ?_
      rw [gaussE_step]; ring
  show _ = ((k + 1 : ℕ) : ℝ) * (Real.exp (-u ^ 2) * ∑ j ∈ Finset.range (k + 1 + 1), gaussG j * gaussE u (k + 1 - j))
  rw [mul_left_comm, e]
  ring

theorem gauss_isTaylor (N : ℕ) (a : ℝ) :
    IsTaylor (fun u => Real.exp (-u ^ 2)) a N (gaussExpand N a) := by
  refine ((gauss_chain N).isTaylor isOpen_univ (f := fun u => Real.exp (-u ^ 2))
    (fun u _ => ?_) (Set.mem_univ a)).congr (EventuallyEq.refl _ _) fun k hk => gaussExpand_eq N a hk
  simp [gaussG, gaussE]

theorem erf_hasDerivAt (x : ℝ) : HasDerivAt erf (2 / √Real.pi * Real.exp (-x ^ 2)) x := by
  have hc : Continuous fun t : ℝ => Real.exp (-t ^ 2) := by fun_prop
  exact (hc.integral_hasStrictDerivAt 0 x).hasDerivAt.const_mul _

theorem Spec.IsTaylor.const_mul {f : ℝ → ℝ} {x : ℝ} {N : ℕ} {c : ℕ → ℝ} (h : IsTaylor f x N c) (r : ℝ) :
    IsTaylor (fun u => r * f u) x N (fun k => c k * r) := by
  intro k hk
  rw [iteratedDeriv_const_mul_field, ← mul_div_assoc', ← h k hk, mul_comm]

/-- `integrate` followed by setting entry 0. -/
theorem Spec.IsTaylor.integrate_wr {f g : ℝ → ℝ} {x : ℝ} {N : ℕ} {c : ℕ → ℝ} (h : IsTaylor g x N c)
    (hfg : ∀ᶠ u in 𝓝 x, HasDerivAt f (g u) u) :
    IsTaylor f x N ((TFuns.integrate N c).wr 0 (f x)) := by
  refine ((h.integrate hfg).mono (Nat.le_succ N)).congr (EventuallyEq.refl _ _) fun k hk => ?_
  rw [Coefs.wr]
  rcases k with _ | k
  · simp
  · rw [if_neg k.succ_ne_zero, TFuns.integrate_eq, if_pos (by omega), if_neg k.succ_ne_zero]

theorem erf_isTaylor (N : ℕ) (a : ℝ) : IsTaylor erf a N (erfExpand N a) :=
  ((gauss_isTaylor N a).const_mul (2 / √Real.pi)).integrate_wr
    (Eventually.of_forall erf_hasDerivAt)

/-! sin, cos -/

theorem sin_chain (N : ℕ) : Chain N Set.univ (fun k u => sinExpand u k) := by
  intro k _ u _
  rcases Nat.even_or_odd' k with ⟨m, rfl | rfl⟩
  · simp only [sinExpand]
    rw [if_neg (by omega), show (2 * m + 1) / 2 = m by omega]
    have e : (fun v : ℝ => if 2 * m % 2 = 0 then sinFac (2 * m / 2) * Real.sin v
        else sinFac (2 * m / 2) / ((2 * (2 * m / 2) + 1 : ℕ) : ℝ) * Real.cos v) =
        fun v => sinFac m * Real.sin v := by
      funext v; rw [if_pos (by omega), show 2 * m / 2 = m by omega]
    rw [e]
    refine ((Real.hasDerivAt_sin u).const_mul _).congr_deriv ?_
    have : ((2 * m + 1 : ℕ) : ℝ) ≠ 0 := by positivity
    field_simp
  · simp only [sinExpand]
    rw [if_pos (by omega), show (2 * m + 1 + 1) / 2 = m + 1 by omega]
    have e : (fun v : ℝ => if (2 * m + 1) % 2 = 0 then sinFac ((2 * m + 1) / 2) * Real.sin v
        else sinFac ((2 * m + 1) / 2) / ((2 * ((2 * m + 1) / 2) + 1 : ℕ) : ℝ) * Real.cos v) =
        fun v => sinFac m / ((2 * m + 1 : ℕ) : ℝ) * Real.cos v := by
      funext v; rw [if_neg (by omega), show (2 * m + 1) / 2 = m by omega]
    rw [e]
    refine ((Real.hasDerivAt_cos u).const_mul _).congr_deriv ?_
    rw [sinFac]
    have : ((2 * m + 1 : ℕ) : ℝ) ≠ 0 := by positivity
    have : ((2 * m + 2 : ℕ) : ℝ) ≠ 0 := by positivity
    rw [show 2 * m + 1 + 1 = 2 * m + 2 by ring]
    field_simp

theorem cos_chain (N : ℕ) : Chain N Set.univ (fun k u => cosExpand u k) := by
  intro k _ u _
  rcases Nat.even_or_odd' k with ⟨m, rfl | rfl⟩
  · simp only [cosExpand]
    rw [if_neg (by omega), show (2 * m + 1) / 2 = m by omega]
    have e : (fun v : ℝ => if 2 * m % 2 = 0 then cosFac (2 * m / 2) * Real.cos v
        else cosFac (2 * m / 2) / (-((2 * (2 * m / 2) + 1 : ℕ) : ℝ)) * Real.sin v) =
        fun v => cosFac m * Real.cos v := by
      funext v; rw [if_pos (by omega), show 2 * m / 2 = m by omega]
    rw [e]
    refine ((Real.hasDerivAt_cos u).const_mul _).congr_deriv ?_
    have : ((2 * m + 1 : ℕ) : ℝ) ≠ 0 := by positivity
    field_simp
  · simp only [cosExpand]
    rw [if_pos (by omega), show (2 * m + 1 + 1) / 2 = m + 1 by omega]
    have e : (fun v : ℝ => if (2 * m + 1) % 2 = 0 then cosFac ((2 * m + 1) / 2) * Real.cos v
        else cosFac ((2 * m + 1) / 2) / (-((2 * ((2 * m + 1) / 2) + 1 : ℕ) : ℝ)) * Real.sin v) =
        fun v => cosFac m / (-((2 * m + 1 : ℕ) : ℝ)) * Real.sin v := by
      funext v; rw [if_neg (by omega), show (2 * m + 1) / 2 = m by omega]
    rw [e]
    refine ((Real.hasDerivAt_sin u).const_mul _).congr_deriv ?_
    rw [cosFac]
    have : ((2 * m + 1 : ℕ) : ℝ) ≠ 0 := by positivity
    have : ((2 * m + 2 : ℕ) : ℝ) ≠ 0 := by positivity
    rw [show 2 * m + 1 + 1 = 2 * m + 2 by ring]
    field_simp

/-! Expansions that use `compose` -/

/-- Coefficients of the quadratic `p + q u + r u^2`... as functions of the point. -/
theorem quad_chain (N : ℕ) (p r : ℝ) : Chain N Set.univ
    (fun k u => match k with | 0 => p + r * (u * u) | 1 => 2 * r * u | 2 => r | _ => 0) := by
  intro k _ u _
  match k with
  | 0 => exact (((hasDerivAt_id u).mul (hasDerivAt_id u)).const_mul r |>.const_add p).congr_deriv
          (by simp; ring)
  | 1 => exact ((hasDerivAt_id u).const_mul (2 * r)).congr_deriv (by simp)
  | 2 => exact (hasDerivAt_const u r).congr_deriv (by simp)
  | k + 3 => exact (hasDerivAt_const u 0).congr_deriv (by simp)

theorem compose_isTaylor {N : ℕ} (hN : N ≤ 6) {T : Set ℝ} {F : ℕ → ℝ → ℝ}
    (hF : Chain N T F) (p r : ℝ) {S : Set ℝ} (hS : IsOpen S)
    (hST : ∀ u ∈ S, p + r * (u * u) ∈ T) {f : ℝ → ℝ} (hf : ∀ u ∈ S, f u = F 0 (p + r * (u * u)))
    {a : ℝ} (ha : a ∈ S) (c x : Coefs) (hc : ∀ i, c i = F i (p + r * (a * a)))
    (hx1 : x 1 = 2 * r * a) (hx2 : x 2 = r) (hx : ∀ i, 3 ≤ i → x i = 0) :
    IsTaylor f a N (TFuns.compose N c x) := by
  have hG : Chain N S _ := fun i hi u _ => quad_chain N p r i hi u (Set.mem_univ u)
  refine ((hF.compose hN hG hST).isTaylor hS (f := f) (fun u hu => hf u hu) ha).congr
    (EventuallyEq.refl _ _) fun k hk => ?_
  rw [TFuns.compose_eq hN _ _ hk]
  have ec : c = fun i => F i (p + r * (a * a)) := funext hc
  have hk6 : k ≤ 6 := hk.trans hN
  rw [ec]
  interval_cases k <;> simp [compEntry, hx1, hx2, hx 3, hx 4, hx 5, hx 6]

theorem atan_isTaylor {N : ℕ} (hN : N ≤ 6) (a : ℝ) :
    IsTaylor Real.arctan a N (atanExpand N a) := by
  have h : IsTaylor (fun u => 1 / (1 + u ^ 2)) a N
      (TFuns.compose N (invExpand (1 + a * a)) (atanInner a)) := by
    refine compose_isTaylor hN (inv_chain N) 1 1 isOpen_univ (fun u _ => ?_) (fun u _ => ?_)
      (Set.mem_univ a) _ _ (fun i => by simp) ?_ ?_ ?_
    · show _ ≠ (0 : ℝ); nlinarith [mul_self_nonneg u]
    · simp [invExpand, pow_two]
    · simp [atanInner]
    · simp [atanInner]
    · intro i hi; match i, hi with | i + 3, _ => rfl
  exact h.integrate_wr (Eventually.of_forall fun u => Real.hasDerivAt_arctan u)

theorem asinh_isTaylor {N : ℕ} (hN : N ≤ 6) (a : ℝ) :
    IsTaylor Real.arsinh a N (asinhExpand N a) := by
  have pos : ∀ u : ℝ, (0 : ℝ) < 1 + u * u := fun u => by nlinarith [mul_self_nonneg u]
  have h : IsTaylor (fun u => (√(1 + u ^ 2))⁻¹) a N
      (TFuns.compose N (powExpand (1 + a * a) (-(1 / 2))) (asinhInner a)) := by
    refine compose_isTaylor hN (pow_chain N (-(1 / 2))) 1 1 isOpen_univ (fun u _ => ?_) (fun u _ => ?_)
      (Set.mem_univ a) _ _ (fun i => by simp) ?_ ?_ ?_
    · show (0 : ℝ) < _; simpa using pos u
    · simp only [powExpand, one_mul]
      rw [Real.rpow_neg (pos u).le, Real.sqrt_eq_rpow, pow_two]
    · simp [asinhInner]
    · simp [asinhInner]
    · intro i hi; match i, hi with | i + 3, _ => rfl
  exact h.integrate_wr (Eventually.of_forall fun u => Real.hasDerivAt_arsinh u)

theorem asin_inner_isTaylor {N : ℕ} (hN : N ≤ 6) {a : ℝ} (ha : a ∈ Set.Ioo (-1 : ℝ) 1) :
    IsTaylor (fun u => 1 / √(1 - u ^ 2)) a N
      (TFuns.compose N (powExpand (1 - a * a) (-(1 / 2))) (asinInner a)) := by
  have pos : ∀ u ∈ Set.Ioo (-1 : ℝ) 1, (0 : ℝ) < 1 - u * u := fun u hu => by
    nlinarith [hu.1, hu.2]
  refine compose_isTaylor hN (pow_chain N (-(1 / 2))) 1 (-1) isOpen_Ioo (fun u hu => ?_)
      (fun u hu => ?_) ha _ _ (fun i => ?_) ?_ ?_ ?_
  · show (0 : ℝ) < _; have := pos u hu; linarith
  · have e : 1 + -1 * (u * u) = 1 - u * u := by ring
    simp only [powExpand, e]
    rw [Real.rpow_neg (pos u hu).le, Real.sqrt_eq_rpow, pow_two, one_div]
  · have e : 1 + -1 * (a * a) = 1 - a * a := by ring
    rw [e]
  · simp [asinInner]
  · simp [asinInner]
  · intro i hi; match i, hi with | i + 3, _ => rfl

end XCFun
