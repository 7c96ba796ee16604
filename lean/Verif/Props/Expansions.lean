/-
C29: the expansions of tmath.hpp / ctaylor_math.hpp are exact Taylor coefficients;
the analytic reading of C28; scalar operands of the division (C26).

`IsTaylor f x0 N c` says `c k = f^(k)(x0) / k!` for all `k ≤ N`, with Mathlib's iterated
derivative.
-/
import Verif.Proofs.AD
import Mathlib.Analysis.SpecialFunctions.Trigonometric.Bounds
import Mathlib.Analysis.Complex.Trigonometric
import Mathlib.Analysis.SpecialFunctions.Trigonometric.DerivHyp

namespace XCFun.Props
open XCFun Spec Filter Topology
open scoped Nat ContDiff

/-! ### C29 -/

/-- C29: `inv_expand`. -/
theorem C29_inv (N : ℕ) {x0 : ℝ} (h : x0 ≠ 0) : IsTaylor (fun x => 1 / x) x0 N (invExpand x0) :=
  (inv_chain N).isTaylor isOpen_ne0 (fun _ _ => rfl) h

/-- C29: `exp_expand`. -/
theorem C29_exp (N : ℕ) (x0 : ℝ) : IsTaylor Real.exp x0 N (expExpand x0) :=
  (exp_chain N).isTaylor isOpen_univ (fun _ _ => rfl) (Set.mem_univ x0)

/-- C29: the array of `expm1`, on both sides of its switch at `1e-3`. -/
theorem C29_expm1 (N : ℕ) (x0 : ℝ) : IsTaylor (fun x => Real.exp x - 1) x0 N (expm1Expand x0) :=
  (expm1_chain N).isTaylor isOpen_univ (fun u _ => (expm1Expand_zero u).symm) (Set.mem_univ x0)

/-- C29: `log_expand`. -/
theorem C29_log (N : ℕ) {x0 : ℝ} (h : 0 < x0) : IsTaylor Real.log x0 N (logExpand x0) :=
  (log_chain N).isTaylor isOpen_pos (fun _ _ => rfl) h

/-- C29: `pow_expand`, for every real exponent. -/
theorem C29_pow (N : ℕ) (a : ℝ) {x0 : ℝ} (h : 0 < x0) :
    IsTaylor (fun x => x ^ a) x0 N (powExpand x0 a) :=
  (pow_chain N a).isTaylor isOpen_pos (fun _ _ => rfl) h

/-- C29: `sqrt_expand`. -/
theorem C29_sqrt (N : ℕ) {x0 : ℝ} (h : 0 < x0) : IsTaylor (fun x => √x) x0 N (sqrtExpand x0) :=
  ((pow_chain N (1 / 2)).isTaylor isOpen_pos (fun _ hu => sqrtExpand_eq hu 0) h).congr
    (EventuallyEq.refl _ _) fun k _ => sqrtExpand_eq h k

/-- C29: `cbrt_expand`; the cube root is characterised by `y^3 = x`. -/
theorem C29_cbrt (N : ℕ) {x0 : ℝ} (h : 0 < x0) (f : ℝ → ℝ) (hf : ∀ x > 0, 0 < f x ∧ f x ^ 3 = x) :
    IsTaylor f x0 N (cbrtExpand x0) := by
  have e : ∀ x > 0, f x = x ^ ((1 : ℝ) / 3) := by
    intro x hx
    obtain ⟨h1, h2⟩ := hf x hx
    conv_rhs => rw [← h2]
    rw [← Real.rpow_natCast (f x) 3, ← Real.rpow_mul h1.le]
    norm_num
  exact ((pow_chain N (1 / 3)).isTaylor isOpen_pos (fun u hu => (e u hu).trans rfl) h).congr
    (EventuallyEq.refl _ _) fun k _ => cbrtExpand_eq h k

/-- C29: `atan_expand`, up to the order 6 supported by `tfuns::compose`. -/
theorem C29_atan {N : ℕ} (hN : N ≤ 6) (x0 : ℝ) : IsTaylor Real.arctan x0 N (atanExpand N x0) :=
  atan_isTaylor hN x0

/-- C29: `gauss_expand`, every order. -/
theorem C29_gauss (N : ℕ) (x0 : ℝ) :
    IsTaylor (fun x => Real.exp (-x ^ 2)) x0 N (gaussExpand N x0) := gauss_isTaylor N x0

/-- C29: `erf_expand`, every order; `erf x = 2/√π ∫₀ˣ exp(-t²) dt`. -/
theorem C29_erf (N : ℕ) (x0 : ℝ) :
    IsTaylor (fun x => 2 / √Real.pi * ∫ t in (0 : ℝ)..x, Real.exp (-t ^ 2)) x0 N (erfExpand N x0) :=
  erf_isTaylor N x0

/-- C29: `sin_expand`. -/
theorem C29_sin (N : ℕ) (x0 : ℝ) : IsTaylor Real.sin x0 N (sinExpand x0) :=
  (sin_chain N).isTaylor isOpen_univ (fun u _ => by simp [sinExpand, sinFac]) (Set.mem_univ x0)

/-- C29: `cos_expand`. -/
theorem C29_cos (N : ℕ) (x0 : ℝ) : IsTaylor Real.cos x0 N (cosExpand x0) :=
  (cos_chain N).isTaylor isOpen_univ (fun u _ => by simp [cosExpand, cosFac]) (Set.mem_univ x0)

/-- C29: `asinh_expand`, up to order 6. -/
theorem C29_asinh {N : ℕ} (hN : N ≤ 6) (x0 : ℝ) : IsTaylor Real.arsinh x0 N (asinhExpand N x0) :=
  asinh_isTaylor hN x0

/-- C29: the Pade branch of `sqrtx_asinh_sqrtx` produces the exact Taylor coefficients of
    the rational function `P/Q` at every point where the branch is taken. -/
theorem C29_pade {N : ℕ} (hN : N ≤ 6) {x0 : ℝ} (h : |x0| < 1 / 2) :
    IsTaylor (fun x => (∑ m ∈ Finset.range 9, x ^ m * padeP m) / ∑ m ∈ Finset.range 9, x ^ m * padeQ m)
      x0 N (padeExpand N x0) := by
  have hx : x0 ∈ Prim.pade.dom := (abs_lt.1 h).1
  refine (Prim.pade.isTaylor hN hx).congr (Eventually.of_forall fun x => ?_) fun _ _ => rfl
  rw [Prim.fn_pade, padeNum, padeDen]; ring

/-- C29: `tfuns::shift` re-expands a polynomial around another point. -/
theorem C29_shift (N : ℕ) (x : Coefs) (d y : ℝ) :
    ∑ n ∈ Finset.range (N + 1), TFuns.shift N x d n * y ^ n =
      ∑ m ∈ Finset.range (N + 1), x m * (d + y) ^ m := by
  have e : ∀ n ∈ Finset.range (N + 1), TFuns.shift N x d n * y ^ n =
      ∑ m ∈ Finset.Ico n (N + 1), (m.choose n : ℝ) * d ^ (m - n) * x m * y ^ n := by
    intro n hn
    have hn : n ≤ N := by simpa [Nat.lt_succ_iff] using hn
    rw [TFuns.shift_eq, if_pos hn, Finset.sum_mul, Finset.sum_Ico_eq_sum_range,
      show N + 1 - n = N - n + 1 by omega]
    refine Finset.sum_congr rfl fun m _ => ?_
    rw [Nat.add_sub_cancel_left]
  rw [Finset.sum_congr rfl e, Finset.range_eq_Ico, Finset.sum_Ico_Ico_comm]
  refine Finset.sum_congr rfl fun m _ => ?_
  rw [add_comm d y, add_pow, Finset.mul_sum, Finset.range_eq_Ico]
  refine Finset.sum_congr rfl fun n _ => ?_
  ring

/-- C29: `asin_expand` gets every coefficient right except the constant one, which is
    `asinh(x0)` instead of `asin(x0)`. -/
theorem C29_asin_wrong {N : ℕ} (hN : N ≤ 6) {x0 : ℝ} (h : x0 ∈ Set.Ioo (-1 : ℝ) 1) :
    (∀ k, 1 ≤ k → k ≤ N → asinExpand N x0 k = iteratedDeriv k Real.arcsin x0 / k !) ∧
    (x0 ≠ 0 → asinExpand N x0 0 ≠ Real.arcsin x0) := by
  constructor
  · intro k hk1 hk
    have hI : IsTaylor Real.arcsin x0 N _ := (asin_inner_isTaylor hN h).integrate_wr (f := Real.arcsin) <|
      Filter.eventually_of_mem (isOpen_Ioo.mem_nhds h) fun u hu =>
        Real.hasDerivAt_arcsin (by linarith [hu.1]) (by linarith [hu.2])
    rw [← hI k hk, asinExpand]
    simp only [Coefs.wr]
    rw [if_neg (by omega), if_neg (by omega)]
  · intro hne
    have e : asinExpand N x0 0 = Real.arsinh x0 := by simp [asinExpand, Coefs.wr]
    rw [e]
    have pos : ∀ x ∈ Set.Ioo (0 : ℝ) 1, Real.arsinh x < Real.arcsin x := by
      intro x hx
      have h1 : Real.arsinh x < x := by
        have := Real.self_lt_sinh_iff.2 (Real.arsinh_pos_iff.2 hx.1)
        rwa [Real.sinh_arsinh] at this
      have h2 : x < Real.arcsin x := by
        have := Real.sin_lt (Real.arcsin_pos.2 hx.1)
        rwa [Real.sin_arcsin (by linarith [hx.1]) hx.2.le] at this
      exact h1.trans h2
    rcases lt_or_gt_of_ne hne with hn | hp
    · have := pos (-x0) ⟨by linarith, by linarith [h.1]⟩
      rw [Real.arsinh_neg, Real.arcsin_neg] at this
      exact fun hh => by rw [hh] at this; exact lt_irrefl _ this
    · exact (pos x0 ⟨hp, h.2⟩).ne

/-- C29: `acos_expand` gets the coefficients `1 .. N-1` right; its last coefficient has the
    wrong sign (the sign loop stops one short) and the constant one is `asinh(x0)`. -/
theorem C29_acos_wrong {N : ℕ} (hN : N ≤ 6) {x0 : ℝ} (h : x0 ∈ Set.Ioo (-1 : ℝ) 1) :
    (∀ k, 1 ≤ k → k < N → acosExpand N x0 k = iteratedDeriv k Real.arccos x0 / k !) ∧
    (1 ≤ N → acosExpand N x0 N = -(iteratedDeriv N Real.arccos x0 / N !)) ∧
    acosExpand N x0 0 = Real.arsinh x0 := by
  have hI : IsTaylor Real.arcsin x0 N _ := (asin_inner_isTaylor hN h).integrate_wr (f := Real.arcsin) <|
    Filter.eventually_of_mem (isOpen_Ioo.mem_nhds h) fun u hu =>
      Real.hasDerivAt_arcsin (by linarith [hu.1]) (by linarith [hu.2])
  have hder : ∀ k, 1 ≤ k → iteratedDeriv k Real.arccos x0 = -iteratedDeriv k Real.arcsin x0 := by
    intro k hk
    obtain ⟨k, rfl⟩ : ∃ j, k = j + 1 := ⟨k - 1, by omega⟩
    rw [iteratedDeriv_succ', iteratedDeriv_succ', ← iteratedDeriv_fun_neg]
    congr 1
    funext u
    rw [show Real.arccos = fun u => Real.pi / 2 - Real.arcsin u from rfl, deriv_const_sub]
  have hloop : ∀ (m : ℕ) (t : Coefs) (k : ℕ), loopUp (fun i t => t.wr i (t i * (-1))) 1 m t k =
      if 1 ≤ k ∧ k ≤ m then -t k else t k := by
    intro m t
    induction m with
    | zero => intro k; rw [loopUp, if_neg (by omega)]
    | succ m ih =>
      intro k
      rw [loopUp]
      simp only [Coefs.wr]
      by_cases hk : k = 1 + m
      · subst hk; rw [if_pos rfl, ih, if_neg (by omega), if_pos (by omega)]; ring
      · rw [if_neg hk, ih]; exact if_congr (by omega) rfl rfl
  have hval : ∀ k, 1 ≤ k → k ≤ N → TFuns.integrate N
      (TFuns.compose N (powExpand (1 - x0 * x0) (-(1 / 2))) (asinInner x0)) k =
      iteratedDeriv k Real.arcsin x0 / k ! := by
    intro k hk1 hk
    rw [← hI k hk, Coefs.wr, if_neg (by omega)]
  refine ⟨fun k hk1 hk => ?_, fun h1 => ?_, ?_⟩
  · rw [acosExpand, Coefs.wr, if_neg (by omega), hloop, if_pos (by omega), hval k hk1 hk.le,
      hder k hk1]
    ring
  · rw [acosExpand, Coefs.wr, if_neg (by omega), hloop, if_neg (by omega), hval N h1 le_rfl,
      hder N h1]
    ring
  · rw [acosExpand, Coefs.wr, if_pos rfl]

/-- C29: hence the first-order expansion of `acos` has a wrong slope everywhere. -/
theorem C29_acos_slope_wrong {x0 : ℝ} (h : x0 ∈ Set.Ioo (-1 : ℝ) 1) :
    acosExpand 1 x0 1 = 1 / √(1 - x0 ^ 2) ∧ acosExpand 1 x0 1 ≠ deriv Real.arccos x0 := by
  have h1 := (C29_acos_wrong (N := 1) (by omega) h).2.1 le_rfl
  have hd := Real.hasDerivAt_arccos (x := x0) (by linarith [h.1]) (by linarith [h.2])
  rw [iteratedDeriv_one, hd.deriv] at h1
  have hp : 0 < √(1 - x0 ^ 2) := Real.sqrt_pos.2 (by nlinarith [h.1, h.2])
  have hp' : 0 < 1 / √(1 - x0 ^ 2) := by positivity
  have e : acosExpand 1 x0 1 = 1 / √(1 - x0 ^ 2) := by rw [h1]; simp
  exact ⟨e, by rw [e, hd.deriv]; linarith⟩

-- The fifth Taylor coefficient of log at 2.
example : IsTaylor Real.log 2 5 (logExpand 2) ∧ logExpand 2 5 = 1 / (5 * 2 ^ 5) := by
  refine ⟨C29_log 5 (by norm_num), ?_⟩
  rw [logExpand, logPow_eq, sign_eq]; norm_num

example : (1 / 2 : ℝ) ∈ Set.Ioo (-1 : ℝ) 1 ∧ (1 / 2 : ℝ) ≠ 0 := by norm_num

/-! ### C28, analytic reading -/

/-- C28: if `c` holds the Taylor coefficients of `f` at the value of `X`, then composing the
    expansion of `X` (all its mixed derivatives along any directions) with `c` gives the
    expansion of `f ∘ X`. -/
theorem C28_function {E : Type*} [NormedAddCommGroup E] [NormedSpace ℝ E] (N : ℕ) (d : ℕ → E) (p : E)
    (X : E → ℝ) (f : ℝ → ℝ) (hX : ContDiffAt ℝ ∞ X p) (hf : ContDiffAt ℝ ∞ f (X p)) (c : ℕ → ℝ)
    (hc : IsTaylor f (X p) N c) :
    CT.compose (jet d p N X) c = jet d p N (fun y => f (X y)) := by
  rw [jet_comp hX hf]
  exact CT.compose_congr _ fun i hi => hc i hi

-- exp of a smooth function of two variables at order 2
example (p : ℝ × ℝ) : CT.compose (jet (fun k => if k = 0 then (1, 0) else (0, 1)) p 2 (fun q => q.1 * q.2))
      (expExpand (p.1 * p.2)) =
    jet (fun k => if k = 0 then (1, 0) else (0, 1)) p 2 (fun q => Real.exp (q.1 * q.2)) :=
  C28_function 2 _ p (fun q => q.1 * q.2) Real.exp (contDiff_fst.mul contDiff_snd).contDiffAt
    Real.contDiff_exp.contDiffAt _ (C29_exp 2 _)

/-! ### C26, division -/

/-- C26: dividing by or into a scalar is dividing by or into the constant expansion. -/
theorem C26_scalar_division {N : ℕ} (x : ℝ) (t : CT ℝ N) :
    CT.scalarDiv x t = (CT.const N x).div t ∧ t.divScalar x = t.div (CT.const N x) :=
  ⟨CT.scalarDiv_eq x t, CT.divScalar_eq x t⟩

/-- C26: division is the inverse of multiplication wherever the value of the divisor is not
    zero, for every number of variables. -/
theorem C26_division {N : ℕ} (s t : CT ℝ N) (h : t.get 0 ≠ 0) : s.div t * t = s := by
  have hinv : t.prim .inv * t = 1 := by
    have h0 : t.c0 ≠ 0 := by rwa [CT.c0_eq_get]
    set u := t - CT.const N t.c0 with hu
    have hn : u ^ (N + 1) = 0 := CT.pow_succ_eq_zero u (by simp [hu])
    have ht : t = u + CT.const N t.c0 := by rw [hu]; ring
    have hcc : CT.const N (1 / t.c0) * CT.const N t.c0 = 1 := by
      rw [← CT.const_mul, one_div_mul_cancel h0]; rfl
    rw [CT.prim, CT.compose_eq_sum, ← hu]
    set w := CT.const N (1 / t.c0) with hw
    have hsum : ∀ m, (∑ i ∈ Finset.range (m + 1), CT.const N (Prim.inv.coef N t.c0 i) * u ^ i) * t =
        1 + (-1) ^ m * (w * u) ^ (m + 1) := by
      intro m
      have coef : ∀ i, CT.const N (Prim.inv.coef N t.c0 i) = (-1) ^ i * w ^ (i + 1) := by
        intro i
        simp only [Prim.coef, invExpand_eq]
        rw [CT.const_mul, hw, ← CT.constHom_apply, ← CT.constHom_apply, map_pow, map_pow, map_neg,
          map_one]
        rfl
      induction m with
      | zero =>
        simp only [zero_add, Finset.sum_range_one, coef, pow_zero, one_mul, mul_one, pow_one]
        conv_lhs => rw [ht]
        rw [mul_add, hcc]; ring
      | succ m ih =>
        rw [Finset.sum_range_succ, add_mul, ih, coef]
        have : (-1) ^ (m + 1) * w ^ (m + 1 + 1) * u ^ (m + 1) * t =
            (-1) ^ (m + 1) * (w * u) ^ (m + 1) * (w * t) := by ring
        rw [this]
        have hwt : w * t = w * u + 1 := by conv_lhs => rw [ht]
                                           rw [mul_add, hcc]
        rw [hwt]; ring
    rw [hsum N, mul_pow, hn]; ring
  rw [CT.div, mul_right_comm, hinv, one_mul]

end XCFun.Props
