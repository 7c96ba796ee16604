/-
The array built by `BR_taylor` of brx.cpp holds the Taylor coefficients of the inverse of the curve, at the point
of the curve that the solver returned.
-/
import Mathlib.Analysis.Calculus.InverseFunctionTheorem.ContDiff
import Mathlib.Analysis.SpecialFunctions.ExpDeriv
import Verif.Proofs.BRGuess
import Verif.Proofs.CTMath
import Verif.Proofs.Expansions

namespace XCFun.BR
open XCFun Spec Filter Topology
open scoped Nat ContDiff

/-! ## The inverse function -/

local notation "root" => holeRoot

theorem root_spec (z : ℝ) : 0 < root z ∧ holeCurve (root z) = z :=
  Classical.epsilon_spec (p := fun x => 0 < x ∧ holeCurve x = z) (exists_root z)

theorem root_pos (z : ℝ) : 0 < root z := (root_spec z).1

theorem curve_root (z : ℝ) : holeCurve (root z) = z := (root_spec z).2

theorem root_curve {x : ℝ} (hx : 0 < x) : root (holeCurve x) = x := root_unique (root_pos _) hx (curve_root _)

theorem curve_smooth {x : ℝ} (hx : 0 < x) : ContDiffAt ℝ ∞ holeCurve x := by
  unfold holeCurve
  refine ContDiffAt.mul (ContDiffAt.div (by fun_prop) (by fun_prop) hx.ne') ?_
  exact ContDiffAt.exp (by fun_prop)

theorem root_smooth (z : ℝ) : ContDiffAt ℝ ∞ root z := by
  have hx := root_pos z
  have h1 := curve_smooth hx
  have hc := (curve_deriv_pos hx).ne'
  set c := Real.exp (2 * root z / 3) * (2 * root z ^ 2 - 4 * root z + 6) / (3 * root z ^ 2)
  have h2 : HasFDerivAt holeCurve ((ContinuousLinearEquiv.unitsEquivAut ℝ (Units.mk0 c hc) : ℝ ≃L[ℝ] ℝ) : ℝ →L[ℝ] ℝ) (root z) := by
    have := (hasDerivAt_curve hx).hasFDerivAt
    refine this.congr_fderiv ?_
    ext
    simp [c]
  have h3 := h1.to_localInverse h2 (by simp)
  rw [curve_root] at h3
  refine h3.congr_of_eventuallyEq ?_
  have hs := h1.hasStrictFDerivAt' h2 (by simp)
  have e1 := hs.eventually_right_inverse
  have e2 : ∀ᶠ y in 𝓝 (holeCurve (root z)), 0 < h1.localInverse h2 (by simp) y := by
    refine hs.localInverse_continuousAt.eventually (lt_mem_nhds ?_)
    rw [hs.localInverse_apply_image]; exact hx
  rw [curve_root] at e1 e2
  filter_upwards [e1, e2] with y a b
  refine root_unique (root_pos _) b ?_
  rw [curve_root]
  exact a.symm

/-! ## Chains -/

/-- The coefficients of the inverse. -/
noncomputable def rootCoef (k : ℕ) (z : ℝ) : ℝ := iteratedDeriv k root z / k !

theorem root_chain (N : ℕ) : Chain N Set.univ rootCoef := by
  intro i _ u _
  have hs : ContDiff ℝ ∞ root := contDiff_iff_contDiffAt.2 root_smooth
  have hd : DifferentiableAt ℝ (iteratedDeriv i root) u :=
    (hs.differentiable_iteratedDeriv i (by exact_mod_cast WithTop.coe_lt_top _)).differentiableAt
  have := hd.hasDerivAt.div_const (i ! : ℝ)
  refine this.congr_deriv ?_
  rw [rootCoef, ← iteratedDeriv_succ, Nat.factorial_succ]
  have : (i ! : ℝ) ≠ 0 := by exact_mod_cast i.factorial_ne_zero
  have : ((i + 1 : ℕ) : ℝ) ≠ 0 := by positivity
  push_cast at *
  field_simp

theorem serPow_one (x : Coefs) : serPow x 1 = x := by
  funext k
  rw [serPow, serMul, Finset.sum_range_succ']
  simp [serPow]

section
variable (x : Coefs)

theorem serPow_succ_apply (i k : ℕ) : serPow x (i + 1) k = ∑ j ∈ Finset.range (k + 1), serPow x i j * x (k - j) := rfl

end

/-- `taylor::compose` and `tfuns::compose` agree. -/
theorem serCompose_eq {D : ℕ} (c t : Coefs) {k : ℕ} (hk : k ≤ D) (hk6 : k ≤ 6) : serCompose D c t k = compEntry c t k := by
  rw [serCompose_congr (n := k) hk le_rfl (fun _ _ => rfl) k le_rfl]
  have h0 : (t.wr 0 0) 0 = 0 := by simp [Coefs.wr]
  have hp : ∀ n, 0 < n → (t.wr 0 0) n = t n := fun n hn => by simp [Coefs.wr, hn.ne']
  rw [serCompose]
  generalize t.wr 0 0 = x at *
  have z0 : ∀ k, serPow x 0 k = if k = 0 then 1 else 0 := fun _ => rfl
  have s1 := serPow_one x
  have p2 : ∀ k ≤ 6, serPow x 2 k = ∑ j ∈ Finset.range (k + 1), x j * x (k - j) := fun k _ => by rw [serPow_succ_apply, s1]
  have l2 := serPow_low h0 2
  have l3 := serPow_low h0 3
  have l4 := serPow_low h0 4
  have l5 := serPow_low h0 5
  have l6 := serPow_low h0 6
  have a22 : serPow x 2 2 = x 1 * x 1 := by rw [p2 2 (by norm_num)]; simp [Finset.sum_range_succ, h0]
  have a23 : serPow x 2 3 = 2 * x 1 * x 2 := by rw [p2 3 (by norm_num)]; simp [Finset.sum_range_succ, h0]; ring
  have a24 : serPow x 2 4 = 2 * x 1 * x 3 + x 2 ^ 2 := by rw [p2 4 (by norm_num)]; simp [Finset.sum_range_succ, h0]; ring
  have a25 : serPow x 2 5 = 2 * x 1 * x 4 + 2 * x 2 * x 3 := by rw [p2 5 (by norm_num)]; simp [Finset.sum_range_succ, h0]; ring
  have a26 : serPow x 2 6 = 2 * x 1 * x 5 + 2 * x 2 * x 4 + x 3 ^ 2 := by rw [p2 6 (by norm_num)]; simp [Finset.sum_range_succ, h0]; ring
  have a33 : serPow x 3 3 = x 1 ^ 3 := by
    rw [serPow_succ_apply]; simp [Finset.sum_range_succ, h0, l2, a22]; ring
  have a34 : serPow x 3 4 = 3 * x 1 ^ 2 * x 2 := by
    rw [serPow_succ_apply]; simp [Finset.sum_range_succ, h0, l2, a22, a23]; ring
  have a35 : serPow x 3 5 = 3 * x 1 ^ 2 * x 3 + 3 * x 1 * x 2 ^ 2 := by
    rw [serPow_succ_apply]; simp [Finset.sum_range_succ, h0, l2, a22, a23, a24]; ring
  have a36 : serPow x 3 6 = 3 * x 1 ^ 2 * x 4 + 6 * x 1 * x 2 * x 3 + x 2 ^ 3 := by
    rw [serPow_succ_apply]; simp [Finset.sum_range_succ, h0, l2, a22, a23, a24, a25]; ring
  have a44 : serPow x 4 4 = x 1 ^ 4 := by
    rw [serPow_succ_apply]; simp [Finset.sum_range_succ, h0, l3, a33]; ring
  have a45 : serPow x 4 5 = 4 * x 1 ^ 3 * x 2 := by
    rw [serPow_succ_apply]; simp [Finset.sum_range_succ, h0, l3, a33, a34]; ring
  have a46 : serPow x 4 6 = 4 * x 1 ^ 3 * x 3 + 6 * x 1 ^ 2 * x 2 ^ 2 := by
    rw [serPow_succ_apply]; simp [Finset.sum_range_succ, h0, l3, a33, a34, a35]; ring
  have a55 : serPow x 5 5 = x 1 ^ 5 := by
    rw [serPow_succ_apply]; simp [Finset.sum_range_succ, h0, l4, a44]; ring
  have a56 : serPow x 5 6 = 5 * x 1 ^ 4 * x 2 := by
    rw [serPow_succ_apply]; simp [Finset.sum_range_succ, h0, l4, a44, a45]; ring
  have a66 : serPow x 6 6 = x 1 ^ 6 := by
    rw [serPow_succ_apply]; simp [Finset.sum_range_succ, h0, l5, a55]; ring
  have h1 := hp 1 (by norm_num)
  have h2 := hp 2 (by norm_num)
  have h3 := hp 3 (by norm_num)
  have h4 := hp 4 (by norm_num)
  have h5 := hp 5 (by norm_num)
  have h6 := hp 6 (by norm_num)
  interval_cases k <;> simp [Finset.sum_range_succ, compEntry, z0, s1, a22, a23, a24, a25, a26, a33, a34, a35, a36, a44, a45, a46, a55, a56, a66,
    h1, h2, h3, h4, h5, h6, -mul_eq_mul_left_iff, -mul_eq_mul_right_iff, -add_left_inj, -add_right_inj] <;> ring

/-- The argument `x - 2`, its reciprocal and the exponential, composed with a chain. -/
theorem brZ_chain {N : ℕ} (hN : N ≤ 6) {S : Set ℝ} {G : ℕ → ℝ → ℝ} (hG : Chain N S G) (hp : ∀ u ∈ S, 0 < G 0 u) :
    Chain N S (fun k u => brZ N (fun i => G i u) k) := by
  have c1 : Chain N S (fun k u => (Coefs.wr (fun i => G i u) 0 (G 0 u - 2)) k) := by
    intro i hi u hu
    rcases i with _ | i
    · simpa [Coefs.wr] using (hG 0 hi u hu).sub_const 2
    · simpa [Coefs.wr] using hG (i + 1) hi u hu
  have c2 := (inv_chain N).compose hN hG (fun u hu => (hp u hu).ne')
  have c3' : Chain N S (fun i u => 2 / 3 * G i u) := fun i hi u hu => ((hG i hi u hu).const_mul (2 / 3)).congr_deriv (by ring)
  have c3 := (exp_chain N).compose hN c3' (fun u hu => Set.mem_univ _)
  have heq : ∀ k ≤ N, ∀ v, brZ N (fun i => G i v) k = ∑ i ∈ Finset.range (k + 1),
      (∑ j ∈ Finset.range (i + 1), (Coefs.wr (fun i => G i v) 0 (G 0 v - 2)) j *
        compEntry (fun l => invExpand (G 0 v) l) (fun l => G l v) (i - j)) *
      compEntry (fun l => expExpand (2 / 3 * G 0 v) l) (fun l => 2 / 3 * G l v) (k - i) := by
    intro k hk v
    simp only [brZ, serMul]
    refine Finset.sum_congr rfl fun j hj => ?_
    have hj := Finset.mem_range.1 hj
    congr 1
    · refine Finset.sum_congr rfl fun l hl => ?_
      have hl := Finset.mem_range.1 hl
      rw [serCompose_eq _ _ (by omega) (by omega)]
    · rw [serCompose_eq _ _ (by omega) (by omega)]
  intro k hk u hu
  have h := (c1.mul c2).mul c3 k hk u hu
  refine (h.congr_of_eventuallyEq (Eventually.of_forall fun v => heq k (by omega) v)).congr_deriv ?_
  show _ = _ * brZ N (fun i => G i u) (k + 1)
  rw [heq (k + 1) hk u]

/-! ## The recursion for the coefficients -/

/-- The derivative of `(x - 2) / x * exp (2 x / 3)` as the code's series arithmetic produces it. -/
noncomputable def slope (x : ℝ) : ℝ :=
  (1 / x - (x - 2) / x ^ 2) * Real.exp (2 / 3 * x) + (x - 2) * (1 / x) * (Real.exp (2 / 3 * x) * (2 / 3))

theorem compEntry_top (f : Coefs) {c t : Coefs} {i : ℕ} (h1 : 1 ≤ i) (h6 : i ≤ 6) (h : ∀ k < i, c k = t k) :
    compEntry f c i = compEntry f t i + f 1 * (c i - t i) := by
  have g1 : 1 < i → c 1 = t 1 := h 1
  have g2 : 2 < i → c 2 = t 2 := h 2
  have g3 : 3 < i → c 3 = t 3 := h 3
  have g4 : 4 < i → c 4 = t 4 := h 4
  have g5 : 5 < i → c 5 = t 5 := h 5
  clear h
  interval_cases i <;> simp_all [compEntry] <;> ring

theorem serMul_top {a a' b b' : Coefs} {i : ℕ} (h1 : 1 ≤ i) (ha : ∀ k < i, a k = a' k) (hb : ∀ k < i, b k = b' k) :
    serMul a b i = serMul a' b' i + a' 0 * (b i - b' i) + b' 0 * (a i - a' i) := by
  obtain ⟨m, rfl⟩ : ∃ m, i = m + 1 := ⟨i - 1, by omega⟩
  simp only [serMul]
  rw [Finset.sum_range_succ, Finset.sum_range_succ', Finset.sum_range_succ (n := m + 1), Finset.sum_range_succ' (n := m)]
  have : ∀ k ∈ Finset.range m, a (k + 1) * b (m + 1 - (k + 1)) = a' (k + 1) * b' (m + 1 - (k + 1)) := by
    intro k hk
    have := Finset.mem_range.1 hk
    rw [ha _ (by omega), hb _ (by omega)]
  rw [Finset.sum_congr rfl this]
  simp only [Nat.sub_self, Nat.sub_zero]
  rw [ha 0 (by omega), hb 0 (by omega)]
  ring

theorem compEntry_low (f : Coefs) {c t : Coefs} {i : ℕ} (h6 : i ≤ 6) (h : ∀ k ≤ i, c k = t k) :
    compEntry f c i = compEntry f t i := by
  rcases Nat.eq_zero_or_pos i with rfl | hi
  · rfl
  · rw [compEntry_top f hi h6 (fun k hk => h k hk.le), h i le_rfl]; ring

theorem serMul_low {a a' b b' : Coefs} {i : ℕ} (ha : ∀ k ≤ i, a k = a' k) (hb : ∀ k ≤ i, b k = b' k) :
    serMul a b i = serMul a' b' i := by
  simp only [serMul]
  refine Finset.sum_congr rfl fun j hj => ?_
  have := Finset.mem_range.1 hj
  rw [ha _ (by omega), hb _ (by omega)]

theorem brZ_top {D : ℕ} {c t : Coefs} {i : ℕ} (h1 : 1 ≤ i) (hD : i ≤ D) (h6 : i ≤ 6) (h : ∀ k < i, c k = t k) :
    brZ D c i = brZ D t i + slope (t 0) * (c i - t i) := by
  have h0 := h 0 (by omega)
  have w : ∀ k < i, (c.wr 0 (c 0 - 2)) k = (t.wr 0 (t 0 - 2)) k := by
    intro k hk
    simp only [Coefs.wr]
    split
    · rw [h0]
    · exact h k hk
  have wi : (c.wr 0 (c 0 - 2)) i - (t.wr 0 (t 0 - 2)) i = c i - t i := by
    simp [Coefs.wr, show i ≠ 0 by omega]
  have cl : ∀ (f : Coefs) (c t : Coefs), (∀ k < i, c k = t k) → ∀ k < i, serCompose D f c k = serCompose D f t k := by
    intro f c t h k hk
    rw [serCompose_eq _ _ (by omega) (by omega), serCompose_eq _ _ (by omega) (by omega)]
    exact compEntry_low f (by omega) fun j hj => h j (by omega)
  have ct : ∀ (f : Coefs) (c t : Coefs), (∀ k < i, c k = t k) →
      serCompose D f c i - serCompose D f t i = f 1 * (c i - t i) := by
    intro f c t h
    rw [serCompose_eq _ _ (by omega) (by omega), serCompose_eq _ _ (by omega) (by omega), compEntry_top f h1 h6 h]
    ring
  have c0 : ∀ (f t : Coefs), serCompose D f t 0 = f 0 := fun f t => by
    rw [serCompose_eq _ _ (by omega) (by omega)]; rfl
  have h' : ∀ k < i, (fun k => 2 / 3 * c k) k = (fun k => 2 / 3 * t k) k := fun k hk => by simp only [h k hk]
  rw [brZ, brZ, h0]
  have hin : ∀ k < i, serMul (c.wr 0 (t 0 - 2)) (serCompose D (invExpand (t 0)) c) k =
      serMul (t.wr 0 (t 0 - 2)) (serCompose D (invExpand (t 0)) t) k := fun k hk =>
    serMul_low (fun j hj => by rw [← w j (by omega), h0]) (fun j hj => cl _ _ _ h j (by omega))
  rw [serMul_top h1 hin (cl _ _ _ h'), serMul_top h1 (by rw [← h0]; simpa [h0] using w) (cl _ _ _ h), ct _ _ _ h', ct _ _ _ h]
  rw [h0] at wi
  rw [wi, c0, c0]
  have m0 : serMul (t.wr 0 (t 0 - 2)) (serCompose D (invExpand (t 0)) t) 0 = (t 0 - 2) * (1 / t 0) := by
    simp [serMul, c0, Coefs.wr, invExpand]
  rw [m0, slope]
  generalize serMul (serMul _ _) _ i = X
  generalize serMul _ _ i = Y
  simp [invExpand, expExpand, expFac, Coefs.wr]
  ring

theorem slope_ne {x : ℝ} (hx : 0 < x) : slope x ≠ 0 := by
  have : slope x = Real.exp (2 / 3 * x) * (2 * x ^ 2 - 4 * x + 6) / (3 * x ^ 2) := by
    rw [slope]; field_simp; ring
  rw [this]
  have := quad_pos x
  positivity

/-- The exact coefficients solve the equation the recursion solves. -/
theorem brZ_root {N : ℕ} (hN : N ≤ 6) (y : ℝ) {k : ℕ} (hk : k ≤ N) (h1 : 1 ≤ k) :
    brZ N (fun i => rootCoef i y) k = if k = 1 then 1 else 0 := by
  have hc := brZ_chain hN (root_chain N) (fun u _ => by simpa [rootCoef] using root_pos u)
  have h0 : ∀ u ∈ Set.univ, (fun u => u) u = brZ N (fun i => rootCoef i u) 0 := by
    intro u _
    simp only [brZ, serMul, Finset.range_one, Finset.sum_singleton, Nat.sub_self, zero_add]
    rw [serCompose_eq _ _ (by omega) (by omega), serCompose_eq _ _ (by omega) (by omega)]
    simp only [compEntry, Coefs.wr, invExpand, expExpand]
    have e : rootCoef 0 u = root u := by simp [rootCoef]
    have := curve_root u
    rw [holeCurve] at this
    rw [e, if_pos trivial, show 2 / 3 * root u = 2 * root u / 3 by ring, mul_one_div]
    exact this.symm
  have := hc.iterated_eq isOpen_univ h0 k hk y (Set.mem_univ _)
  have hid : iteratedDeriv k (fun u : ℝ => u) y = if k = 1 then 1 else 0 := by
    rw [iteratedDeriv_fun_id]
    simp [show k ≠ 0 by omega]
  rw [hid] at this
  have hf : (k ! : ℝ) ≠ 0 := by exact_mod_cast k.factorial_ne_zero
  split at this
  · subst_vars; simpa using this.symm
  · rw [if_neg (by assumption)]
    rcases mul_eq_zero.1 this.symm with h | h
    · exact absurd h hf
    · exact h

/-- What the recursion leaves after `m` steps. -/
theorem recursion {D : ℕ} (hD : 1 ≤ D) (hD6 : D ≤ 6) {x : ℝ} (hx : 0 < x) (m : ℕ) (hm : m + 1 ≤ D) :
    let t : Coefs := fun k => if k = 0 then x else if k = 1 then 1 else 0
    loopUp (fun i t => t.wr i (-brZ D t i * t 1)) 2 m (t.wr 1 (1 / brZ D t 1)) =
      fun k => if k ≤ m + 1 then rootCoef k (holeCurve x) else 0 := by
  intro t
  set c : Coefs := fun k => rootCoef k (holeCurve x)
  have hc0 : c 0 = x := by simp [c, rootCoef, root_curve hx]
  have hs := slope_ne hx
  have z1 : brZ D (fun k => if k = 0 then x else 0) 1 = 0 := by
    rw [brZ]
    simp only [serMul, Finset.sum_range_succ, Finset.range_zero, Finset.sum_empty]
    simp only [serCompose_eq (D := D) _ _ (k := 1) hD (by omega), compEntry]
    simp [Coefs.wr]
  have ht1 : brZ D t 1 = slope x := by
    rw [brZ_top (t := fun k => if k = 0 then x else 0) le_rfl hD (by omega) (fun k hk => by
      have : k = 0 := by omega
      subst this; simp [t]), z1]
    simp [t]
  have hc1 : slope x * c 1 = 1 := by
    have := brZ_root hD6 (holeCurve x) hD le_rfl
    rw [brZ_top (t := fun k => if k = 0 then x else 0) le_rfl hD (by omega) (fun k hk => by
      have : k = 0 := by omega
      subst this; simpa [t] using hc0), z1] at this
    simpa using this
  induction m with
  | zero =>
    funext k
    rw [ht1]
    simp only [loopUp]
    rcases k with _ | _ | k
    · show t 0 = c 0
      rw [hc0]; rfl
    · show 1 / slope x = c 1
      rw [← hc1]; field_simp
    · simp [Coefs.wr, t]
  | succ m ih =>
    have ih := ih (by omega)
    rw [show loopUp (fun i t => t.wr i (-brZ D t i * t 1)) 2 (m + 1) (t.wr 1 (1 / brZ D t 1)) =
      Coefs.wr (loopUp (fun i t => t.wr i (-brZ D t i * t 1)) 2 m (t.wr 1 (1 / brZ D t 1))) (2 + m)
        (-brZ D (loopUp (fun i t => t.wr i (-brZ D t i * t 1)) 2 m (t.wr 1 (1 / brZ D t 1))) (2 + m) *
          (loopUp (fun i t => t.wr i (-brZ D t i * t 1)) 2 m (t.wr 1 (1 / brZ D t 1))) 1) from rfl, ih]
    have key : brZ D c (2 + m) = 0 := by
      rw [brZ_root hD6 (holeCurve x) (k := 2 + m) (by omega) (by omega), if_neg (by omega)]
    rw [brZ_top (t := fun k => if k ≤ m + 1 then c k else 0) (by omega) (by omega) (by omega)
      (fun k hk => by simp [show k ≤ m + 1 by omega])] at key
    have e0 : (if 0 ≤ m + 1 then c 0 else 0) = x := by rw [if_pos (by omega), hc0]
    simp only [e0, if_neg (show ¬ 2 + m ≤ m + 1 by omega), sub_zero] at key
    funext k
    simp only [Coefs.wr]
    by_cases e : k = 2 + m
    · subst e
      rw [if_pos rfl, if_pos (by omega), if_pos (by omega)]
      show _ * c 1 = c (2 + m)
      have : brZ D (fun k => if k ≤ m + 1 then c k else 0) (2 + m) = - (slope x * c (2 + m)) := by linarith
      rw [this]
      linear_combination c (2 + m) * hc1
    · rw [if_neg e]
      by_cases e' : k ≤ m + 1
      · rw [if_pos e', if_pos (by omega)]
      · rw [if_neg e', if_neg (by omega)]

theorem brTaylor_eq {D : ℕ} (hD : 1 ≤ D) (hD6 : D ≤ 6) (z : ℝ) (hz : 0 < brSolve z) {k : ℕ} (hk : k ≤ D) :
    brTaylor D z k = rootCoef k (holeCurve (brSolve z)) := by
  have := recursion hD hD6 hz (D - 1) (by omega)
  simp only at this
  rw [brTaylor]
  rw [this]
  simp [show k ≤ D - 1 + 1 by omega]

theorem br_coef {N : ℕ} (hN : N ≤ 6) (z : ℝ) (hz : 0 < brSolve z) :
    IsTaylor root (holeCurve (brSolve z)) N (Prim.br.coef N z) := by
  intro k hk
  exact brTaylor_eq (by omega) (by omega) z hz (by omega)

theorem brSolve_pos (z : ℝ) : 0 < brSolve z := by
  obtain ⟨h, -⟩ := brSolve_root (root_pos z)
  rw [curve_root] at h
  have := root_pos z
  have := (abs_le.1 h).1
  nlinarith

theorem root_residual (z : ℝ) : holeRoot (z + solverResidual z) = brSolve z := by
  rw [solverResidual, add_sub_cancel, root_curve (brSolve_pos z)]

/-- The function whose expansion the solver returns. -/
theorem br_isTaylor {N : ℕ} (hN : N ≤ 6) (z : ℝ) :
    IsTaylor (fun u => holeRoot (u + solverResidual z)) z N (Prim.br.coef N z) := by
  intro k hk
  rw [br_coef hN z (brSolve_pos z) k hk, iteratedDeriv_comp_add_const, solverResidual]
  simp only [add_sub_cancel]

theorem br_smooth (z : ℝ) : ContDiffAt ℝ ∞ (fun u => holeRoot (u + solverResidual z)) z :=
  (root_smooth _).comp z (contDiffAt_id.add contDiffAt_const)

end XCFun.BR
