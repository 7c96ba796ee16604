/-
The primitives: value, Taylor coefficients, smoothness, independence of the order.
-/
import Verif.Spec.Domain
import Verif.Proofs.Expansions
import Verif.Proofs.Jet
import Mathlib.Analysis.SpecialFunctions.Trigonometric.Deriv
import Mathlib.Analysis.SpecialFunctions.Trigonometric.DerivHyp
import Mathlib.Analysis.SpecialFunctions.Sqrt
import Mathlib.Analysis.SpecialFunctions.ExpDeriv
import Mathlib.Tactic.Linarith
import Mathlib.Tactic.NormNum

namespace XCFun
open Spec Filter Topology
open scoped Nat ContDiff

theorem expm1Expand_zero (x : ℝ) : expm1Expand x 0 = Real.exp x - 1 := by
  rw [expm1Expand, if_pos rfl]
  split
  · simp [expExpand]
  · rw [Real.sinh_eq]
    have e : Real.exp x = Real.exp (x / 2) * Real.exp (x / 2) := by rw [← Real.exp_add]; ring_nf
    have e1 : Real.exp (x / 2) * Real.exp (-(x / 2)) = 1 := by rw [← Real.exp_add]; simp
    rw [e]
    linear_combination (-1 : ℝ) * e1

theorem expm1_chain (N : ℕ) : Chain N Set.univ (fun i u => expm1Expand u i) := by
  intro i hi u hu
  have h := exp_chain N i hi u hu
  rcases i with _ | i
  · have e : (fun v : ℝ => expm1Expand v 0) = fun v => expExpand v 0 - 1 := by
      funext v; rw [expm1Expand_zero]; rfl
    simp only [e]
    exact (h.sub_const 1).congr_deriv (by simp [expm1Expand])
  · have e : ∀ v : ℝ, expm1Expand v (i + 1) = expExpand v (i + 1) := fun v => by
      rw [expm1Expand, if_neg i.succ_ne_zero]
    have e2 : expm1Expand u (i + 1 + 1) = expExpand u (i + 1 + 1) := by
      rw [expm1Expand, if_neg (i + 1).succ_ne_zero]
    simp only [e, e2]
    exact h

/-! The Pade approximant -/

theorem shift_chain (x : Coefs) (M N : ℕ) (hN : N ≤ M) :
    Chain N Set.univ (fun k u => TFuns.shift M x u k) := by
  intro k hk u _
  have e : (fun v => TFuns.shift M x v k) = fun v =>
      ∑ m ∈ Finset.range (M - k + 1), ((k + m).choose k : ℝ) * v ^ m * x (k + m) := by
    funext v; rw [TFuns.shift_eq, if_pos (by omega)]
  have h : HasDerivAt (fun v => ∑ m ∈ Finset.range (M - k + 1),
      ((k + m).choose k : ℝ) * v ^ m * x (k + m))
      (∑ m ∈ Finset.range (M - k + 1), ((k + m).choose k : ℝ) * (m * u ^ (m - 1)) * x (k + m)) u := by
    refine HasDerivAt.fun_sum fun m _ => ?_
    have := (((hasDerivAt_id u).pow m).const_mul ((k + m).choose k : ℝ)).mul_const (x (k + m))
    exact this.congr_deriv (by simp)
  simp only [e]
  refine h.congr_deriv ?_
  rw [TFuns.shift_eq, if_pos (by omega), Finset.sum_range_succ', Finset.mul_sum]
  simp only [Nat.cast_zero, zero_mul, mul_zero, add_zero]
  rw [show M - (k + 1) + 1 = M - k by omega]
  refine Finset.sum_congr rfl fun m _ => ?_
  have key : (k + m + 1).choose (k + 1) * (k + 1) = (k + m + 1).choose k * (m + 1) := by
    have := Nat.choose_succ_right_eq (k + m + 1) k
    rw [this]; congr 1; omega
  have key' : ((k + m + 1).choose (k + 1) : ℝ) * (k + 1) = ((k + m + 1).choose k : ℝ) * (m + 1) := by
    exact_mod_cast key
  rw [show k + 1 + m = k + m + 1 by omega, show k + (m + 1) = k + m + 1 by omega, Nat.add_sub_cancel]
  push_cast
  linear_combination (-(u ^ m * x (k + m + 1))) * key'

/-- The polynomials of the Pade approximant. -/
noncomputable def padeNum (x : ℝ) : ℝ := ∑ m ∈ Finset.range 9, x ^ m * padeP m
noncomputable def padeDen (x : ℝ) : ℝ := ∑ m ∈ Finset.range 9, x ^ m * padeQ m

theorem shift_zero (x : Coefs) (u : ℝ) : TFuns.shift 8 x u 0 = ∑ m ∈ Finset.range 9, u ^ m * x m := by
  rw [TFuns.shift_eq, if_pos (by omega)]
  simp

theorem padeDen_pos {x : ℝ} (hx : -(1 / 2) < x) : 0 < padeDen x := by
  obtain ⟨y, rfl⟩ : ∃ y, x = y - 1 / 2 := ⟨x + 1 / 2, by ring⟩
  have hy : 0 < y := by linarith
  simp only [padeDen, Finset.sum_range_succ, Finset.range_zero, Finset.sum_empty, padeQ]
  ring_nf
  positivity

theorem pade_chain {N : ℕ} (hN : N ≤ 6) : Chain N {x | -(1 / 2) < x} (fun k u =>
    ∑ i ∈ Finset.range (k + 1), TFuns.shift 8 padeP u i *
      compEntry (fun i => invExpand (TFuns.shift 8 padeQ u 0) i) (fun i => TFuns.shift 8 padeQ u i) (k - i)) := by
  have hP : Chain N {x : ℝ | -(1 / 2) < x} (fun k u => TFuns.shift 8 padeP u k) :=
    fun i hi u _ => shift_chain padeP 8 N (by omega) i hi u (Set.mem_univ u)
  have hQ : Chain N {x : ℝ | -(1 / 2) < x} (fun k u => TFuns.shift 8 padeQ u k) :=
    fun i hi u _ => shift_chain padeQ 8 N (by omega) i hi u (Set.mem_univ u)
  refine hP.mul ((inv_chain N).compose hN hQ fun u hu => ?_)
  show TFuns.shift 8 padeQ u 0 ≠ 0
  rw [shift_zero]
  exact (padeDen_pos hu).ne'

theorem padeExpand_eq {N k : ℕ} (hN : N ≤ 6) (hk : k ≤ N) (u : ℝ) : padeExpand N u k =
    ∑ i ∈ Finset.range (k + 1), TFuns.shift 8 padeP u i *
      compEntry (fun i => invExpand (TFuns.shift 8 padeQ u 0) i) (fun i => TFuns.shift 8 padeQ u i) (k - i) := by
  simp only [padeExpand]
  rw [TFuns.multo_eq, if_pos hk]
  refine Finset.sum_congr rfl fun i _ => ?_
  rw [TFuns.compose_eq hN _ _ (by omega)]

theorem padeExpand_zero (N : ℕ) (hN : N ≤ 6) (u : ℝ) : padeExpand N u 0 = padeNum u * (1 / padeDen u) := by
  rw [padeExpand_eq hN (Nat.zero_le _)]
  simp [compEntry, invExpand, shift_zero, padeNum, padeDen]

/-! Independence of the order -/

theorem atanExpand_prefix {N k : ℕ} (hN : N ≤ 6) (hk : k ≤ N) (x : ℝ) :
    atanExpand N x k = if k = 0 then Real.arctan x else
      compEntry (invExpand (1 + x * x)) (atanInner x) (k - 1) / k := by
  rw [atanExpand, Coefs.wr]
  rcases k with _ | k
  · simp
  · rw [if_neg k.succ_ne_zero, if_neg k.succ_ne_zero, TFuns.integrate_eq, if_pos (by omega),
      TFuns.compose_eq hN _ _ (by omega)]

theorem asinhExpand_prefix {N k : ℕ} (hN : N ≤ 6) (hk : k ≤ N) (x : ℝ) :
    asinhExpand N x k = if k = 0 then Real.arsinh x else
      compEntry (powExpand (1 + x * x) (-(1 / 2))) (asinhInner x) (k - 1) / k := by
  rw [asinhExpand, Coefs.wr]
  rcases k with _ | k
  · simp
  · rw [if_neg k.succ_ne_zero, if_neg k.succ_ne_zero, TFuns.integrate_eq, if_pos (by omega),
      TFuns.compose_eq hN _ _ (by omega)]

theorem erfExpand_prefix {N k : ℕ} (hk : k ≤ N) (x : ℝ) :
    erfExpand N x k = if k = 0 then erf x else gaussExpand k x (k - 1) * (2 / √Real.pi) / k := by
  rw [erfExpand, Coefs.wr]
  rcases k with _ | k
  · simp
  · rw [if_neg k.succ_ne_zero, if_neg k.succ_ne_zero, TFuns.integrate_eq, if_pos (by omega),
      gaussExpand_eq N x (by omega), gaussExpand_eq (k + 1) x (by omega)]

/-- The entries of a product up to `k` depend only on entries up to `k`. -/
theorem serMul_congr {x x' y y' : Coefs} {n : ℕ} (hx : ∀ k ≤ n, x k = x' k)
    (hy : ∀ k ≤ n, y k = y' k) : ∀ k ≤ n, serMul x y k = serMul x' y' k := by
  intro k hk
  refine Finset.sum_congr rfl fun j hj => ?_
  have : j ≤ k := by simpa [Nat.lt_succ_iff] using hj
  rw [hx j (by omega), hy (k - j) (by omega)]

theorem serPow_congr {x x' : Coefs} {n : ℕ} (hx : ∀ k ≤ n, x k = x' k) (i : ℕ) :
    ∀ k ≤ n, serPow x i k = serPow x' i k := by
  induction i with
  | zero => intro k _; rfl
  | succ i ih => exact serMul_congr ih hx

theorem serPow_low {x : Coefs} (h0 : x 0 = 0) (i : ℕ) : ∀ k < i, serPow x i k = 0 := by
  induction i with
  | zero => intro k hk; omega
  | succ i ih =>
    intro k hk
    rw [serPow, serMul]
    refine Finset.sum_eq_zero fun j hj => ?_
    have : j ≤ k := by simpa [Nat.lt_succ_iff] using hj
    by_cases h : j < i
    · rw [ih j h, zero_mul]
    · rw [show k - j = 0 by omega, h0, mul_zero]

theorem serCompose_congr {c t t' : Coefs} {D D' n : ℕ} (hD : n ≤ D) (hD' : n ≤ D')
    (ht : ∀ k ≤ n, t k = t' k) : ∀ k ≤ n, serCompose D c t k = serCompose D' c t' k := by
  intro k hk
  have tail : ∀ (D : ℕ) (t : Coefs), n ≤ D → serCompose D c t k =
      ∑ i ∈ Finset.range (n + 1), c i * serPow (t.wr 0 0) i k := by
    intro D t hD
    rw [serCompose]
    refine (Finset.sum_subset (fun i hi => ?_) fun i _ hi => ?_).symm
    · simp at hi ⊢; omega
    · rw [serPow_low (by simp [Coefs.wr]) i k (by simp at hi; omega), mul_zero]
  rw [tail D t hD, tail D' t' hD']
  refine Finset.sum_congr rfl fun i _ => ?_
  congr 1
  refine serPow_congr (n := n) (fun q hq => ?_) i k hk
  simp only [Coefs.wr]
  split
  · rfl
  · exact ht q hq

theorem brZ_congr {t t' : Coefs} {D D' n : ℕ} (hD : n ≤ D) (hD' : n ≤ D')
    (ht : ∀ k ≤ n, t k = t' k) : ∀ k ≤ n, brZ D t k = brZ D' t' k := by
  have h0 := ht 0 (Nat.zero_le _)
  rw [brZ, brZ, ← h0]
  refine serMul_congr (serMul_congr (fun k hk => ?_) ?_) ?_
  · simp only [Coefs.wr]; split
    · rfl
    · exact ht k hk
  · exact serCompose_congr hD hD' ht
  · exact serCompose_congr hD hD' fun k hk => by rw [ht k hk]

theorem brTaylor_prefix {D D' : ℕ} (h3 : 1 ≤ D) (h3' : 1 ≤ D') (z : ℝ) :
    ∀ k, k ≤ D → k ≤ D' → brTaylor D z k = brTaylor D' z k := by
  -- after the initial steps and `m` iterations the first entries agree
  let t0 : Coefs := fun k => if k = 0 then brSolve z else if k = 1 then 1 else 0
  let s (D : ℕ) : Coefs := t0.wr 1 (1 / brZ D t0 1)
  have hs : ∀ D D', 1 ≤ D → 1 ≤ D' → s D = s D' := by
    intro D D' h h'
    show t0.wr 1 _ = t0.wr 1 _
    rw [brZ_congr h h' (fun k _ => rfl) 1 le_rfl]
  let L (D m : ℕ) : Coefs := loopUp (fun i t => t.wr i (-brZ D t i * t 1)) 2 m (s D)
  have hL : ∀ m D D', m + 1 ≤ D → m + 1 ≤ D' → L D m = L D' m := by
    intro m
    induction m with
    | zero => intro D D' h h'; exact hs D D' (by omega) (by omega)
    | succ m ih =>
      intro D D' h h'
      show Coefs.wr (L D m) (2 + m) (-brZ D (L D m) (2 + m) * L D m 1) =
        Coefs.wr (L D' m) (2 + m) (-brZ D' (L D' m) (2 + m) * L D' m 1)
      rw [ih D D' (by omega) (by omega),
        brZ_congr (D := D) (D' := D') (n := 2 + m) (by omega) (by omega) (fun k _ => rfl) (2 + m) le_rfl]
  have later : ∀ D m m' k, m ≤ m' → k ≤ m + 1 → L D m' k = L D m k := by
    intro D m m' k hm hk
    induction m' with
    | zero => rw [show m = 0 by omega]
    | succ m' ih =>
      by_cases e : m = m' + 1
      · rw [e]
      · show Coefs.wr (L D m') (2 + m') _ k = _
        rw [Coefs.wr, if_neg (by omega), ih (by omega)]
  intro k hk hk'
  show L D (D - 1) k = L D' (D' - 1) k
  rw [later D (k - 1) (D - 1) k (by omega) (by omega), later D' (k - 1) (D' - 1) k (by omega) (by omega)]
  by_cases h : k = 0
  · subst h; rw [hL 0 D D' (by omega) (by omega)]
  · rw [hL (k - 1) D D' (by omega) (by omega)]

/-- Coefficient `k` does not depend on the number of variables of the expansion. -/
theorem Prim.coef_prefix (p : Prim) {N M k : ℕ} (hk : k ≤ N) (hNM : N ≤ M) (hM : M ≤ 6) (x : ℝ) :
    p.coef M x k = p.coef N x k := by
  cases p with
  | atan => simp only [Prim.coef]; rw [atanExpand_prefix hM (by omega), atanExpand_prefix (by omega) hk]
  | asinh => simp only [Prim.coef]; rw [asinhExpand_prefix hM (by omega), asinhExpand_prefix (by omega) hk]
  | erf => simp only [Prim.coef]; rw [erfExpand_prefix (by omega), erfExpand_prefix hk]
  | pade => simp only [Prim.coef]; rw [padeExpand_eq hM (by omega), padeExpand_eq (by omega) hk]
  | br => exact brTaylor_prefix (by omega) (by omega) x k (by omega) (by omega)
  | _ => rfl

/-! Values -/

theorem Prim.coef_zero (p : Prim) {N : ℕ} (hN : N ≤ 6) (x : ℝ) : p.coef N x 0 = p.fn x :=
  p.coef_prefix (Nat.zero_le 0) (Nat.zero_le N) hN x

@[simp] theorem Prim.fn_inv (x : ℝ) : Prim.inv.fn x = 1 / x := rfl
@[simp] theorem Prim.fn_exp (x : ℝ) : Prim.exp.fn x = Real.exp x := rfl
@[simp] theorem Prim.fn_expm1 (x : ℝ) : Prim.expm1.fn x = Real.exp x - 1 := expm1Expand_zero x
@[simp] theorem Prim.fn_log (x : ℝ) : Prim.log.fn x = Real.log x := rfl
@[simp] theorem Prim.fn_pow (a x : ℝ) : (Prim.pow a).fn x = x ^ a := rfl
@[simp] theorem Prim.fn_sqrt (x : ℝ) : Prim.sqrt.fn x = √x := rfl
@[simp] theorem Prim.fn_cbrt (x : ℝ) : Prim.cbrt.fn x = XCFun.cbrt x := rfl
@[simp] theorem Prim.fn_atan (x : ℝ) : Prim.atan.fn x = Real.arctan x := rfl
@[simp] theorem Prim.fn_erf (x : ℝ) : Prim.erf.fn x = XCFun.erf x := rfl
@[simp] theorem Prim.fn_sin (x : ℝ) : Prim.sin.fn x = Real.sin x := by
  simp [Prim.fn, Prim.coef, sinExpand, sinFac]
@[simp] theorem Prim.fn_cos (x : ℝ) : Prim.cos.fn x = Real.cos x := by
  simp [Prim.fn, Prim.coef, cosExpand, cosFac]
@[simp] theorem Prim.fn_asinh (x : ℝ) : Prim.asinh.fn x = Real.arsinh x := rfl
@[simp] theorem Prim.fn_pade (x : ℝ) : Prim.pade.fn x = padeNum x * (1 / padeDen x) :=
  padeExpand_zero 0 (by omega) x

/-! Taylor coefficients and smoothness -/

theorem isOpen_half : IsOpen {x : ℝ | -(1 / 2) < x} := isOpen_lt continuous_const continuous_id

theorem Prim.isTaylor (p : Prim) {N : ℕ} (hN : N ≤ 6) {x : ℝ} (hx : x ∈ p.dom) :
    IsTaylor p.fn x N (p.coef N x) := by
  cases p with
  | inv => exact (inv_chain N).isTaylor isOpen_ne0 (fun u _ => rfl) hx
  | exp => exact (exp_chain N).isTaylor isOpen_univ (fun u _ => rfl) hx
  | expm1 => exact (expm1_chain N).isTaylor isOpen_univ (fun u _ => rfl) hx
  | log => exact (log_chain N).isTaylor isOpen_pos (fun u _ => rfl) hx
  | pow a => exact (pow_chain N a).isTaylor isOpen_pos (fun u _ => rfl) hx
  | sqrt =>
    refine ((pow_chain N (1 / 2)).isTaylor isOpen_pos (f := Prim.sqrt.fn) (fun u hu => ?_) hx).congr
      (EventuallyEq.refl _ _) fun k _ => sqrtExpand_eq hx k
    exact sqrtExpand_eq hu 0
  | cbrt =>
    refine ((pow_chain N (1 / 3)).isTaylor isOpen_pos (f := Prim.cbrt.fn) (fun u hu => ?_) hx).congr
      (EventuallyEq.refl _ _) fun k _ => cbrtExpand_eq hx k
    exact cbrtExpand_eq hu 0
  | atan => exact atan_isTaylor hN x
  | erf => exact erf_isTaylor N x
  | sin => exact (sin_chain N).isTaylor isOpen_univ (fun u _ => rfl) hx
  | cos => exact (cos_chain N).isTaylor isOpen_univ (fun u _ => rfl) hx
  | asinh => exact asinh_isTaylor hN x
  | pade =>
    refine ((pade_chain hN).isTaylor isOpen_half (f := Prim.pade.fn) (fun u _ => ?_) hx).congr
      (EventuallyEq.refl _ _) fun k hk => padeExpand_eq hN hk x
    exact padeExpand_eq (N := 0) (by omega) le_rfl u
  | br => exact absurd hx (Set.notMem_empty x)

theorem erf_contDiff : ContDiff ℝ ∞ XCFun.erf := by
  have : ContDiff ℝ (∞ + 1) XCFun.erf := by
    rw [contDiff_succ_iff_deriv]
    refine ⟨fun x => (erf_hasDerivAt x).differentiableAt, by simp, ?_⟩
    have : deriv XCFun.erf = fun x => 2 / √Real.pi * Real.exp (-x ^ 2) :=
      funext fun x => (erf_hasDerivAt x).deriv
    rw [this]; fun_prop
  simpa using this

theorem Prim.smooth (p : Prim) {x : ℝ} (hx : x ∈ p.dom) : ContDiffAt ℝ ∞ p.fn x := by
  cases p with
  | inv =>
    have e : Prim.inv.fn = fun x => x⁻¹ := by funext u; simp
    rw [e]; exact contDiffAt_inv ℝ hx
  | exp => exact Real.contDiff_exp.contDiffAt
  | expm1 =>
    have e : Prim.expm1.fn = fun x => Real.exp x - 1 := by funext u; simp
    rw [e]; exact (Real.contDiff_exp.sub contDiff_const).contDiffAt
  | log => exact Real.contDiffAt_log.2 (ne_of_gt hx)
  | pow a => exact Real.contDiffAt_rpow_const_of_ne (ne_of_gt hx)
  | sqrt => exact Real.contDiffAt_sqrt (ne_of_gt hx)
  | cbrt =>
    have e : Prim.cbrt.fn =ᶠ[𝓝 x] fun u => u ^ ((1 : ℝ) / 3) :=
      Filter.eventually_of_mem (isOpen_pos.mem_nhds hx) fun u hu => by
        rw [Prim.fn_cbrt, XCFun.cbrt, if_pos (le_of_lt hu)]
    exact (Real.contDiffAt_rpow_const_of_ne (ne_of_gt hx)).congr_of_eventuallyEq e
  | atan => exact Real.contDiff_arctan.contDiffAt
  | erf => exact erf_contDiff.contDiffAt
  | sin =>
    have e : Prim.sin.fn = Real.sin := by funext u; simp
    rw [e]; exact Real.contDiff_sin.contDiffAt
  | cos =>
    have e : Prim.cos.fn = Real.cos := by funext u; simp
    rw [e]; exact Real.contDiff_cos.contDiffAt
  | asinh => exact Real.contDiff_arsinh.contDiffAt
  | pade =>
    have e : Prim.pade.fn = fun x => padeNum x * (padeDen x)⁻¹ := by funext u; simp
    rw [e]
    have hP : ContDiff ℝ ∞ padeNum := by unfold padeNum; fun_prop
    have hQ : ContDiff ℝ ∞ padeDen := by unfold padeDen; fun_prop
    exact hP.contDiffAt.mul (hQ.contDiffAt.inv (padeDen_pos hx).ne')
  | br => exact absurd hx (Set.notMem_empty x)

/-! Mixed operators -/

theorem CT.scalarDiv_eq {N : ℕ} (x : ℝ) (t : CT ℝ N) : CT.scalarDiv x t = (CT.const N x).div t := by
  rw [CT.scalarDiv, CT.div, CT.prim, Prim.coef, CT.compose_eq_sum, CT.compose_eq_sum, Finset.sum_mul]
  refine Finset.sum_congr rfl fun i _ => ?_
  rw [CT.const_mul]; ring

theorem CT.divScalar_eq {N : ℕ} (x : ℝ) (t : CT ℝ N) : t.divScalar x = t.div (CT.const N x) := by
  rw [CT.divScalar, CT.div, CT.smul_eq, CT.prim]
  congr 1
  rw [CT.compose_eq_sum, Finset.sum_range_succ', Finset.sum_eq_zero]
  · simp [Prim.coef, invExpand]
  · intro i _
    simp [pow_succ]

end XCFun
