/-
The functions of taylor_math.hpp on expansions in several variables.
-/
import Verif.Proofs.TaylorAlg

namespace XCFun.Tay
open XCFun Spec Polymul Filter Topology Props

/-- The run ends with the expansion of `f` of the argument. -/
def Gives (n N : ℕ) (f : ℝ → ℝ) (t : List ℝ) (o : Outcome (List ℝ)) : Prop :=
  ∃ out, o = .ok out ∧ Fit n N out ∧ Expands N f (polyOf n N t) (polyOf n N out)

variable {n N : ℕ} {t : List ℝ} (u : ℕ → ℝ)

theorem apply_sum {c : ℕ → ℝ} {expand : List ℝ → ℝ → Outcome (List ℝ)} (ht : Fit (n + 1) N t)
    (he : expand (fresh u (polylen 1 N)) (at' t 0) = .ok ((List.range (N + 1)).map c)) :
    ∃ out, apply u (n + 1) N expand t = .ok out ∧ Fit (n + 1) N out ∧ SameTo N (polyOf (n + 1) N out) (compSum c N (polyOf (n + 1) N t)) := by
  have hL : 0 < t.length := by rw [ht]; exact L_pos _ _
  obtain ⟨out, e1, e2, e3⟩ := compose_fit ht (fit_fresh u (n + 1) N) (c := (List.range (N + 1)).map c) (fit_one.2 (by simp))
  refine ⟨out, ?_, e2, ?_⟩
  · rw [apply, rd_at hL, Outcome.ok_bind, he]; exact e1
  · have : compSum (at' ((List.range (N + 1)).map c)) N (polyOf (n + 1) N t) = compSum c N (polyOf (n + 1) N t) :=
      Finset.sum_congr rfl fun j hj => by rw [at_map (Finset.mem_range.1 hj)]
    rwa [this] at e3

theorem apply_run {f : ℝ → ℝ} {expand : List ℝ → ℝ → Outcome (List ℝ)} (ht : Fit (n + 1) N t) (hf : ContDiffAt ℝ N f (at' t 0))
    (he : Run N f (at' t 0) (expand (fresh u (polylen 1 N)) (at' t 0))) : Gives (n + 1) N f t (apply u (n + 1) N expand t) := by
  obtain ⟨c, h1, h2, h3⟩ := he
  have hc : c = (List.range (N + 1)).map (at' c) := by
    have := list_eq (c := c) (F := at' c) fun _ _ => rfl
    rwa [fit_one.1 h2] at this
  rw [hc] at h1
  obtain ⟨out, e1, e2, e3⟩ := apply_sum u ht h1
  refine ⟨out, e1, e2, expands_same (compSum_expands ?_ ?_) e3⟩ <;> rw [coeff_zero ht.ge]
  · exact hf
  · exact h3

theorem fresh_one : Fit 1 N (fresh u (polylen 1 N)) := by have := fit_fresh u 1 N; simpa using this

/-! ### Elementary functions -/

theorem smooth {f : ℝ → ℝ} {x : ℝ} (h : ContDiffAt ℝ (⊤ : ℕ∞) f x) : ContDiffAt ℝ N f x := h.of_le (by exact_mod_cast le_top)

theorem exp_gives (ht : Fit (n + 1) N t) : Gives (n + 1) N Real.exp t (exp u (n + 1) N t) :=
  apply_run u ht Real.contDiff_exp.contDiffAt (run_of_map (exp_run (fresh_one u) _) (C29_exp N _))

theorem log_gives (ht : Fit (n + 1) N t) (h : 0 < at' t 0) : Gives (n + 1) N Real.log t (log u (n + 1) N t) :=
  apply_run u ht (Real.contDiffAt_log.2 h.ne') (run_of_map (log_run (fresh_one u) h) (C29_log N h))

theorem sqrt_gives (ht : Fit (n + 1) N t) (h : 0 < at' t 0) : Gives (n + 1) N (fun x => √x) t (sqrt u (n + 1) N t) :=
  apply_run u ht (Real.contDiffAt_sqrt h.ne') (run_of_map (sqrt_run (fresh_one u) h) (C29_sqrt N h))

theorem cbrt_gives (ht : Fit (n + 1) N t) (h : 0 < at' t 0) {f : ℝ → ℝ} (hf : ∀ x > 0, 0 < f x ∧ f x ^ 3 = x) : Gives (n + 1) N f t (cbrt u (n + 1) N t) := by
  refine apply_run u ht ?_ (run_of_map (cbrt_run (fresh_one u) h) (C29_cbrt N h f hf))
  have e : f =ᶠ[𝓝 (at' t 0)] fun x => x ^ ((1 : ℝ) / 3) := by
    filter_upwards [isOpen_pos.mem_nhds h] with x hx
    obtain ⟨h1, h2⟩ := hf x hx
    conv_rhs => rw [← h2, ← Real.rpow_natCast, ← Real.rpow_mul h1.le]
    norm_num
  exact (Real.contDiffAt_rpow_const_of_ne h.ne').congr_of_eventuallyEq e

theorem sin_gives (ht : Fit (n + 1) N t) : Gives (n + 1) N Real.sin t (sin u (n + 1) N t) :=
  apply_run u ht Real.contDiff_sin.contDiffAt (run_of_map (sin_run (fresh_one u) _) (C29_sin N _))

theorem cos_gives (ht : Fit (n + 1) N t) : Gives (n + 1) N Real.cos t (cos u (n + 1) N t) :=
  apply_run u ht Real.contDiff_cos.contDiffAt (run_of_map (cos_run (fresh_one u) _) (C29_cos N _))

theorem pow_gives (ht : Fit (n + 1) N t) (h : 0 < at' t 0) (a : ℝ) : Gives (n + 1) N (fun x => x ^ a) t (pow u (n + 1) N t a) :=
  apply_run u (expand := fun c x => powTaylor N c x a) ht (Real.contDiffAt_rpow_const_of_ne h.ne') (run_of_map (pow_run (fresh_one u) h a) (C29_pow N a h))

theorem expm1_gives (ht : Fit (n + 1) N t) : Gives (n + 1) N (fun x => Real.exp x - 1) t (expm1 u (n + 1) N t) := by
  refine apply_run u ht (Real.contDiff_exp.sub contDiff_const).contDiffAt ?_
  set a := at' t 0
  set E := (List.range (N + 1)).map (expExpand a) with hE
  have hl : E.length = N + 1 := by simp [hE]
  have key : ∀ v : ℝ, v = Real.exp a - 1 → Run N (fun x => Real.exp x - 1) a (.ok (E.set 0 v)) := by
    rintro v rfl
    refine ⟨_, rfl, by rw [fit_one, List.length_set, hl], ?_⟩
    refine (C29_expm1 N a).congr (EventuallyEq.refl _ _) fun k hk => ?_
    rw [at_set _ (by omega)]
    split
    · rename_i h; rw [h, expm1Expand_zero]
    · rename_i h
      rw [hE, at_map (by omega), expm1Expand, if_neg h]
  rw [exp_run (fresh_one u), Outcome.ok_bind, ← hE]
  split
  · rw [subScalar, rd_at (by omega : 0 < E.length), Outcome.ok_bind, wrBuf_ok (by omega : 0 < E.length)]
    exact key _ (by rw [hE, at_map (by omega)]; rfl)
  · rename_i h
    rw [wrBuf_ok (by omega : 0 < E.length)]
    refine key _ ?_
    rw [← expm1Expand_zero, expm1Expand, if_pos rfl, if_neg h]

/-! ### Functions that integrate -/

theorem integrate_set {f g : ℝ → ℝ} {a : ℝ} {c : List ℝ} (hc : Fit 1 N c) (h : IsTaylor g a N (at' c)) (hfg : ∀ᶠ x in 𝓝 a, HasDerivAt f (g x) x) :
    Run N f a (do
      let t ← integrate 1 N c
      wrBuf t 0 (f a)) := by
  obtain ⟨out, e1, e2, e3⟩ := integrate_run hc
  have hl : out.length = N + 1 := fit_one.1 e2
  refine ⟨out.set 0 (f a), ?_, by rw [fit_one, List.length_set, hl], ?_⟩
  · rw [e1, Outcome.ok_bind, wrBuf_ok (by omega)]
  · refine ((h.integrate hfg).mono (Nat.le_succ N)).congr (EventuallyEq.refl _ _) fun k hk => ?_
    rw [at_set _ (by omega), e3 k hk]
    by_cases hk : k = 0
    · rw [if_pos hk, if_pos hk]
    · rw [if_neg hk, if_neg hk, if_neg hk]

/-- The polynomial with coefficients `F` in one variable. -/
noncomputable def ser (F : ℕ → ℝ) (K : ℕ) : MvPolynomial ℕ ℝ := ∑ i ∈ Finset.range K, MvPolynomial.monomial (Finsupp.single 0 i) (F i)

theorem ser_same {F : ℕ → ℝ} {c : List ℝ} (hc : Fit 1 N c) (h : ∀ i ≤ N, at' c i = F i) {K : ℕ} (hK : N < K) : SameTo N (polyOf 1 N c) (ser F K) := by
  intro m hm
  rw [polyOf_eq hc.ge, ser, MvPolynomial.coeff_sum, MvPolynomial.coeff_sum, L_one]
  rw [← Finset.sum_subset (Finset.range_mono (show N + 1 ≤ K by omega)) (fun i _ hi => by
    rw [MvPolynomial.coeff_monomial, if_neg]
    rintro rfl
    rw [Finsupp.degree_single] at hm
    exact hi (Finset.mem_range.2 (by omega)))]
  refine Finset.sum_congr rfl fun i hi => ?_
  rw [term_one, fs_single, h i (by have := Finset.mem_range.1 hi; omega)]

theorem ser_eval (F : ℕ → ℝ) (K : ℕ) (s : ℝ) : MvPolynomial.eval (fun _ => s) (ser F K) = ∑ i ∈ Finset.range K, F i * s ^ i := by
  rw [ser, map_sum]
  refine Finset.sum_congr rfl fun i _ => ?_
  rw [MvPolynomial.eval_monomial]; simp

/-- The quadratic array of `atan_taylor` and `asinh_taylor`. -/
noncomputable def quad (c0 c1 : ℝ) : ℕ → ℝ
  | 0 => c0
  | 1 => c1
  | 2 => 1
  | _ => 0

theorem quad_run (c0 c1 : ℝ) : ∃ x, (do
      let x ← assign 1 N c0 (fresh u (polylen 1 N))
      let x ← setIf (0 < N) x 1 c1
      setIf (1 < N) x 2 1) = .ok x ∧ Fit 1 N x ∧ ∀ i ≤ N, at' x i = quad c0 c1 i := by
  obtain ⟨x, e1, e2, e3⟩ := assign_run (fresh_one u (N := N)) c0
  have hl : x.length = N + 1 := fit_one.1 e2
  rw [e1]
  simp only [Outcome.ok_bind, setIf]
  have q : ∀ i ≤ N, quad c0 c1 i = if i = 0 then c0 else if i = 1 then c1 else if i = 2 then 1 else 0 := fun i _ => by
    match i with
    | 0 => rfl
    | 1 => rfl
    | 2 => rfl
    | i + 3 => rw [if_neg (by omega), if_neg (by omega), if_neg (by omega)]; rfl
  by_cases h1 : 0 < N
  · rw [if_pos h1, wrBuf_ok (by omega)]
    simp only [Outcome.ok_bind]
    by_cases h2 : 1 < N
    · rw [if_pos h2, wrBuf_ok (by rw [List.length_set]; omega)]
      refine ⟨_, rfl, by rw [fit_one, List.length_set, List.length_set, hl], fun i hi => ?_⟩
      rw [q i hi, at_set _ (by rw [List.length_set]; omega), at_set _ (by omega), e3]
      split_ifs <;> first | rfl | omega
    · rw [if_neg h2]
      refine ⟨_, rfl, by rw [fit_one, List.length_set, hl], fun i hi => ?_⟩
      rw [q i hi, at_set _ (by omega), e3]
      split_ifs <;> first | rfl | omega
  · simp only [if_neg h1, Outcome.ok_bind, if_neg (show ¬ 1 < N by omega)]
    refine ⟨_, rfl, e2, fun i hi => ?_⟩
    rw [q i hi, e3]
    split_ifs <;> first | rfl | omega

theorem bind3 {X : Outcome (List ℝ)} {f g : List ℝ → Outcome (List ℝ)} {x : List ℝ} (h : (X.bind fun x => (f x).bind g) = .ok x) (k : List ℝ → Outcome (List ℝ)) :
    (X.bind fun x => (f x).bind fun x => (g x).bind k) = k x := by
  cases X with
  | ok x0 =>
    simp only [Outcome.bind] at h ⊢
    cases e : f x0 with
    | ok x1 => rw [e] at h; simp only [Outcome.bind] at h ⊢; rw [h]
    | _ => rw [e] at h; exact absurd h (by simp [Outcome.bind])
  | _ => exact absurd h (by simp [Outcome.bind])

theorem quad_comp {f : ℝ → ℝ} {c0 c1 a : ℝ} {x out : List ℝ} {c : ℕ → ℝ} (hx : Fit 1 N x) (hq : ∀ i ≤ N, at' x i = quad c0 c1 i) (ho : Fit 1 N out) (hf : ContDiffAt ℝ N f c0)
    (hc : IsTaylor f c0 N c) (h : SameTo N (polyOf 1 N out) (compSum c N (polyOf 1 N x))) : IsTaylor (fun y => f (c0 + c1 * (y - a) + (y - a) ^ 2)) a N (at' out) := by
  have hs := ser_same hx hq (K := N + 3) (by omega)
  have h0 : (ser (quad c0 c1) (N + 3)).coeff 0 = c0 := by
    have := hs 0 (by simp)
    rw [← this, coeff_zero hx.ge, hq 0 (Nat.zero_le _)]; rfl
  have he : Expands N f (ser (quad c0 c1) (N + 3)) (polyOf 1 N out) := expands_same (compSum_expands (by rw [h0]; exact hf) (by rw [h0]; exact hc)) (h.trans (compSum_same c hs))
  have := expands_coeff (by rw [fit_one.1 ho]) he
  have e : ∀ s : ℝ, MvPolynomial.eval (fun _ => s) (ser (quad c0 c1) (N + 3)) = c0 + c1 * s + s ^ 2 := fun s => by
    rw [ser_eval, Finset.sum_range_succ', Finset.sum_range_succ', Finset.sum_range_succ', Finset.sum_eq_zero fun i _ => by simp [quad]]
    simp [quad]; ring
  simp only [e] at this
  intro k hk
  rw [this k hk]
  congr 1
  have := congrFun (iteratedDeriv_comp_sub_const (n := k) (f := fun s => f (c0 + c1 * s + s ^ 2)) (s := a)) a
  rw [sub_self] at this
  exact this.symm

theorem atan_run (ht : Fit 1 N t) (a : ℝ) : Run N Real.arctan a (atanTaylor u N t a) := by
  have ha : (1 + a * a : ℝ) ≠ 0 := by nlinarith [mul_self_nonneg a]
  obtain ⟨x, e1, e2, e3⟩ := quad_run u (N := N) 0 (2 * a)
  obtain ⟨r, f1, f2, f3⟩ := compose0_fit (n := 0) e2 ht (c := (List.range (N + 1)).map (invExpand (1 + a * a))) (fit_one.2 (by simp)) (by rw [e3 0 (Nat.zero_le _)]; rfl)
  have hT : IsTaylor (fun y => 1 / (1 + a * a + y)) 0 N (at' ((List.range (N + 1)).map (invExpand (1 + a * a)))) := by
    intro k hk
    rw [at_map (by omega), C29_inv N ha k hk]
    congr 1
    have := congrFun (iteratedDeriv_comp_const_add (n := k) (f := fun y : ℝ => 1 / y) (s := 1 + a * a)) 0
    rw [add_zero] at this
    exact this.symm
  have hI := quad_comp (a := a) e2 e3 f2 (f := fun y => 1 / (1 + a * a + y)) (by
    refine ContDiffAt.div contDiffAt_const (by fun_prop) ?_
    rw [add_zero]; exact ha) hT f3
  have := integrate_set (f := Real.arctan) f2 hI (Eventually.of_forall fun y => by
    have h := Real.hasDerivAt_arctan y
    have e : 1 / (1 + y ^ 2) = 1 / (1 + a * a + (0 + 2 * a * (y - a) + (y - a) ^ 2)) := by congr 1; ring
    rwa [e] at h)
  refine (congrArg (Run N Real.arctan a) ?_).mpr this
  rw [atanTaylor, inv_run (fresh_one u) ha, Outcome.ok_bind]
  have := bind3 e1 (fun x => do
    let t ← compose0 1 N x t ((List.range (N + 1)).map (invExpand (1 + a * a)))
    let t ← integrate 1 N t
    wrBuf t 0 (Real.arctan a))
  rw [f1, Outcome.ok_bind] at this
  exact this

theorem pow_same {a : ℝ} (ht : Fit (n + 1) N t) (h : 0 < at' t 0) :
    ∃ out, pow u (n + 1) N t a = .ok out ∧ Fit (n + 1) N out ∧ SameTo N (polyOf (n + 1) N out) (compSum (powExpand (at' t 0) a) N (polyOf (n + 1) N t)) :=
  apply_sum u (expand := fun c x => powTaylor N c x a) ht (pow_run (fresh_one u) h a)

theorem asinh_run (a : ℝ) : Run N Real.arsinh a (asinhTaylor u N a) := by
  have pos : ∀ y : ℝ, (0 : ℝ) < 1 + y ^ 2 := fun y => by nlinarith [sq_nonneg y]
  have ha : 0 < 1 + a * a := by have := pos a; nlinarith
  obtain ⟨x, e1, e2, e3⟩ := quad_run u (N := N) (1 + a * a) (2 * a)
  have hx0 : at' x 0 = 1 + a * a := e3 0 (Nat.zero_le _)
  obtain ⟨r, f1, f2, f3⟩ := pow_same u (n := 0) (a := (-0.5 : ℝ)) e2 (by rw [hx0]; exact ha)
  rw [hx0] at f3
  have hI := quad_comp (a := a) e2 e3 f2 (Real.contDiffAt_rpow_const_of_ne ha.ne') (C29_pow N (-0.5) ha) f3
  have := integrate_set (f := Real.arsinh) f2 hI (Eventually.of_forall fun y => by
    have h := Real.hasDerivAt_arsinh y
    have e : (√(1 + y ^ 2))⁻¹ = (1 + a * a + 2 * a * (y - a) + (y - a) ^ 2) ^ (-0.5 : ℝ) := by
      rw [show 1 + a * a + 2 * a * (y - a) + (y - a) ^ 2 = 1 + y ^ 2 by ring, show (-0.5 : ℝ) = -(1 / 2) by norm_num, Real.rpow_neg (pos y).le, Real.sqrt_eq_rpow]
    rwa [e] at h)
  refine (congrArg (Run N Real.arsinh a) ?_).mpr this
  have := bind3 e1 (fun x => do
    let t ← pow u 1 N x (-0.5)
    let t ← integrate 1 N t
    wrBuf t 0 (Real.arsinh a))
  rw [f1, Outcome.ok_bind] at this
  exact this

theorem atan_gives (ht : Fit (n + 1) N t) : Gives (n + 1) N Real.arctan t (atan u (n + 1) N t) :=
  apply_run u ht Real.contDiff_arctan.contDiffAt (atan_run u (fresh_one u) _)

theorem asinh_gives (ht : Fit (n + 1) N t) : Gives (n + 1) N Real.arsinh t (asinh u (n + 1) N t) :=
  apply_run u ht Real.contDiff_arsinh.contDiffAt (asinh_run u _)

/-! ### The error function -/

theorem gaussLoop_run {g : List ℝ} (hl : g.length = N + 1) (hg : ∀ i, at' g i = if i = 0 then 1 else 0) :
    ∃ out, forLoop (fun i g => do
      let x ← rdBuf g (2 * (i - 1))
      wrBuf g (2 * i) (-x / (i : ℝ))) (N / 2) 1 g = .ok out ∧ Fit 1 N out ∧ ∀ i ≤ N, at' out i = gaussG i := by
  obtain ⟨out, e1, e2, e3⟩ := forLoop_inv (body := fun i g => do
      let x ← rdBuf g (2 * (i - 1))
      wrBuf g (2 * i) (-x / (i : ℝ))) (fun k g => g.length = N + 1 ∧ ∀ i, at' g i = if i < 2 * k then gaussG i else 0) (N / 2) 1 g ⟨hl, fun i => by
      rw [hg]
      match i with
      | 0 => rfl
      | 1 => rfl
      | i + 2 => rw [if_neg (by omega), if_neg (by omega)]⟩ (by
      rintro k g hk hk' ⟨hl, hg⟩
      obtain ⟨k, rfl⟩ : ∃ d, k = d + 1 := ⟨k - 1, by omega⟩
      refine ⟨g.set (2 * (k + 1)) (-gaussG (2 * k) / ((k + 1 : ℕ) : ℝ)), ?_, by rw [List.length_set, hl], fun i => ?_⟩
      · rw [Nat.add_sub_cancel, rd_at (by omega : 2 * k < g.length), Outcome.ok_bind, hg, if_pos (by omega)]
        exact wrBuf_ok (by omega) _
      · rw [at_set _ (by omega), hg]
        by_cases h1 : i = 2 * (k + 1)
        · rw [if_pos h1, if_pos (by omega), h1, show 2 * (k + 1) = 2 * k + 2 by ring, gaussG, if_pos (by omega), show 2 * k / 2 = k by omega]
        · rw [if_neg h1]
          by_cases h2 : i < 2 * (k + 1)
          · rw [if_pos h2, if_pos (by omega)]
          · rw [if_neg h2]
            by_cases h3 : i < 2 * (k + 1 + 1)
            · rw [if_pos h3, show i = 2 * k + 1 + 2 by omega, gaussG, if_neg (by omega)]
            · rw [if_neg h3])
  exact ⟨out, e1, fit_one.2 e2, fun i hi => by rw [e3, if_pos (by omega)]⟩

theorem gauss_run (hN : N + 1 < 2 ^ 31) (ht : Fit 1 N t) (a : ℝ) : ∃ out, gaussTaylor u N t a = .ok out ∧ Fit 1 N out ∧ ∀ i ≤ N, at' out i = gaussExpand N a i := by
  set E := (List.range (N + 1)).map (expExpand (-a * a)) with hE
  have hEf : Fit 1 N E := fit_one.2 (by simp [hE])
  obtain ⟨s, s1, s2, s3⟩ := stretch_run (n := 0) (N := N) (by rw [L_one]; omega) (by omega) hEf (-2 * a)
  obtain ⟨g0, a1, a2, a3⟩ := assign_run (fresh_one u (N := N)) 1
  obtain ⟨g, g1, g2, g3⟩ := gaussLoop_run (N := N) (fit_one.1 a2) a3
  obtain ⟨out, o1, o2, o3⟩ := mulBy_run (n := 0) s2 g2
  refine ⟨out, ?_, o2, fun i hi => ?_⟩
  · rw [gaussTaylor, exp_run ht, Outcome.ok_bind, ← hE, s1, Outcome.ok_bind, a1, Outcome.ok_bind, g1, Outcome.ok_bind]
    exact o1
  · have hs : s.length = N + 1 := fit_one.1 s2
    have hg : g.length = N + 1 := fit_one.1 g2
    rw [← uni_polyOf (by rw [fit_one.1 o2]) hi, uni_same o3 hi, uni_mul, gaussExpand, TFuns.multo_eq, if_pos hi, ← Finset.sum_range_reflect]
    refine Finset.sum_congr rfl fun j hj => ?_
    have hj := Finset.mem_range.1 hj
    rw [uni_polyOf (by omega) (by omega), uni_polyOf (by omega) (by omega), g3 _ (by omega), s3 _ (by rw [L_one]; omega), zero_add, term_one, hE, at_map (by omega), TFuns.stretch_eq,
      if_pos (by omega), show i + 1 - 1 - j = i - j by omega, show i - (i - j) = j by omega, List.sum_singleton]
    ring

theorem erf_run (hN : N + 1 < 2 ^ 31) (ht : Fit 1 N t) (a : ℝ) : Run N XCFun.erf a (erfTaylor u N t a) := by
  obtain ⟨g, g1, g2, g3⟩ := gauss_run u hN ht a
  have hg : g.length = N + 1 := fit_one.1 g2
  have := integrate_set (N := N) (f := XCFun.erf) (c := g.map (· * (2 / √Real.pi))) (a := a) (fit_one.2 (by rw [List.length_map, hg]))
    (((gauss_isTaylor N a).const_mul (2 / √Real.pi)).congr (EventuallyEq.refl _ _) fun k hk => by
      rw [at_map' _ (by omega), g3 k hk]) (Eventually.of_forall erf_hasDerivAt)
  refine (congrArg (Run N XCFun.erf a) ?_).mpr this
  rw [erfTaylor, g1, Outcome.ok_bind, scale_run g2, Outcome.ok_bind]

theorem erf_gives (hN : N + 1 < 2 ^ 31) (ht : Fit (n + 1) N t) : Gives (n + 1) N XCFun.erf t (erf u (n + 1) N t) :=
  apply_run u ht (smooth erf_contDiff.contDiffAt) (erf_run u hN (fresh_one u) _)

/-! ### Quotients -/

theorem inv_same (ht : Fit (n + 1) N t) (h : at' t 0 ≠ 0) :
    ∃ out, apply u (n + 1) N (invTaylor N) t = .ok out ∧ Fit (n + 1) N out ∧ SameTo N (polyOf (n + 1) N out * polyOf (n + 1) N t) 1 := by
  obtain ⟨out, e1, e2, e3⟩ := apply_sum u ht (inv_run (fresh_one u) h)
  exact ⟨out, e1, e2, (e3.mul (SameTo.refl _ _)).trans (invExpand_mul h _ (coeff_zero ht.ge) N)⟩

theorem scalarDiv_run (ht : Fit (n + 1) N t) (h : at' t 0 ≠ 0) (x : ℝ) :
    ∃ out, scalarDiv u (n + 1) N x t = .ok out ∧ Fit (n + 1) N out ∧ SameTo N (polyOf (n + 1) N out * polyOf (n + 1) N t) (MvPolynomial.C x) := by
  obtain ⟨out, e1, e2, e3⟩ := apply_sum u ht (c := fun i => invExpand (at' t 0) i * x) (expand := fun tmp t0 => do
    let tmp ← invTaylor N tmp t0
    scale 1 N x tmp) (by
      rw [inv_run (fresh_one u) h, Outcome.ok_bind, scale_run (fit_one.2 (by simp)), List.map_map]; rfl)
  refine ⟨out, e1, e2, (e3.mul (SameTo.refl _ _)).trans ?_⟩
  have : compSum (fun i => invExpand (at' t 0) i * x) N (polyOf (n + 1) N t) = MvPolynomial.C x * compSum (invExpand (at' t 0)) N (polyOf (n + 1) N t) := by
    rw [compSum, compSum, Finset.mul_sum]
    refine Finset.sum_congr rfl fun j _ => ?_
    rw [map_mul]; ring
  rw [this, mul_assoc]
  have := (SameTo.refl N (MvPolynomial.C x)).mul (invExpand_mul h _ (coeff_zero ht.ge) N)
  rwa [mul_one] at this

theorem div_run {t1 : List ℝ} (h1 : Fit (n + 1) N t1) (ht : Fit (n + 1) N t) (h : at' t 0 ≠ 0) :
    ∃ out, div u (n + 1) N t1 t = .ok out ∧ Fit (n + 1) N out ∧ SameTo N (polyOf (n + 1) N out * polyOf (n + 1) N t) (polyOf (n + 1) N t1) := by
  obtain ⟨r, e1, e2, e3⟩ := inv_same u ht h
  obtain ⟨out, f1, f2, f3⟩ := mulBy_run e2 h1
  refine ⟨out, ?_, f2, ?_⟩
  · rw [div, e1, Outcome.ok_bind, f1]
  · refine (f3.mul (SameTo.refl _ _)).trans ?_
    have := (SameTo.refl N (polyOf (n + 1) N t1)).mul e3
    rw [mul_one] at this
    rwa [show polyOf (n + 1) N r * polyOf (n + 1) N t1 * polyOf (n + 1) N t = polyOf (n + 1) N t1 * (polyOf (n + 1) N r * polyOf (n + 1) N t) by ring]

theorem divBy_run {t1 : List ℝ} (h1 : Fit (n + 1) N t1) (ht : Fit (n + 1) N t) (h : at' t 0 ≠ 0) :
    ∃ out, divBy u (n + 1) N t1 t = .ok out ∧ Fit (n + 1) N out ∧ SameTo N (polyOf (n + 1) N out * polyOf (n + 1) N t) (polyOf (n + 1) N t1) := by
  obtain ⟨r, e1, e2, e3⟩ := scalarDiv_run u ht h 1
  obtain ⟨out, f1, f2, f3⟩ := mulBy_run h1 e2
  refine ⟨out, ?_, f2, ?_⟩
  · rw [divBy, e1, Outcome.ok_bind, f1]
  · refine (f3.mul (SameTo.refl _ _)).trans ?_
    have := (SameTo.refl N (polyOf (n + 1) N t1)).mul e3
    rw [map_one, mul_one] at this
    rwa [mul_assoc]

/-! ### Newton's method for the reciprocal -/

theorem newton_run {a : List ℝ} (ha : Fit (n + 1) N a) (ht : Fit (n + 1) N t) {M K : ℕ} (hM : SameTo M (polyOf (n + 1) N a * polyOf (n + 1) N t) 1) (hK : K ≤ N) (hK' : K ≤ 2 * M + 1) :
    ∃ out, newton (n + 1) N a t = .ok out ∧ Fit (n + 1) N out ∧ SameTo K (polyOf (n + 1) N a * polyOf (n + 1) N out) 1 := by
  obtain ⟨p, p1, p2, p3⟩ := mulBy_run ha ht
  obtain ⟨q, q1, q2, q3⟩ := subScalar_run p2 2
  obtain ⟨r, r1, r2, r3⟩ := mulBy_run q2 ht
  have hl := fill (fun j => -at' r j) (body := fun j t => do
    let x ← rdBuf r j
    wrBuf t j (-x)) t.length 0 t (by omega) (by omega) (fun i t' _ hi hl' _ => by
      rw [rd_at (by rw [r2, ← ht]; exact hi), Outcome.ok_bind])
  have hA := ht
  rw [Fit] at hA
  refine ⟨(List.range (L (n + 1) N)).map fun j => -at' r j, ?_, fit_range _ _ _, ?_⟩
  · rw [newton, p1, Outcome.ok_bind, q1, Outcome.ok_bind, r1, Outcome.ok_bind, polylen_nat, ← hA, hl]
  · have e : polyOf (n + 1) N ((List.range (L (n + 1) N)).map fun j => -at' r j) = MvPolynomial.C (-1) * polyOf (n + 1) N r :=
      polyOf_smul r2 (fit_range _ _ _) (-1) fun i hi => by rw [at_map hi]; ring
    set A := polyOf (n + 1) N a
    set T := polyOf (n + 1) N t
    have s1 : SameTo N (polyOf (n + 1) N r) ((A * T - MvPolynomial.C 2) * T) := by
      refine r3.trans (SameTo.mul ?_ (SameTo.refl _ _))
      rw [q3]
      intro m hm; rw [MvPolynomial.coeff_sub, MvPolynomial.coeff_sub, p3 m hm]
    rw [e]
    have s2 := ((SameTo.refl N A).mul ((SameTo.refl N (MvPolynomial.C (-1))).mul s1)).mono hK
    refine s2.trans ?_
    have s3 : SameTo K ((A * T - 1) * (A * T - 1)) 0 := (same_order (same_sub.1 hM) (same_sub.1 hM)).mono (by omega)
    rw [same_sub]
    have e2 : A * (MvPolynomial.C (-1) * ((A * T - MvPolynomial.C 2) * T)) - 1 = MvPolynomial.C (-1) * ((A * T - 1) * (A * T - 1)) := by
      have h2 : (MvPolynomial.C 2 : MvPolynomial ℕ ℝ) = 2 := map_ofNat _ 2
      have h1 : (MvPolynomial.C (-1) : MvPolynomial ℕ ℝ) = -1 := by rw [map_neg, map_one]
      rw [h2, h1]; ring
    rw [e2]
    have := (SameTo.refl K (MvPolynomial.C (-1))).mul s3
    rwa [mul_zero] at this

theorem reciprocal_run {a : List ℝ} (ha : Fit (n + 1) N a) (ht : Fit (n + 1) N t) (h0 : at' a 0 ≠ 0) :
    ∃ out, reciprocal (n + 1) N t a = .ok out ∧ Fit (n + 1) N out ∧ SameTo N (polyOf (n + 1) N a * polyOf (n + 1) N out) 1 := by
  have hL := L_pos (n + 1) N
  have hta : t.length = L (n + 1) N := ht
  have haa : a.length = L (n + 1) N := ha
  rw [reciprocal, rd_at (by omega : 0 < a.length), Outcome.ok_bind, assert_ok h0, Outcome.ok_bind, wrBuf_ok (by omega), Outcome.ok_bind]
  have hs : (t.set 0 (1 / at' a 0)).length = L (n + 1) N := by rw [List.length_set, hta]
  by_cases hN : N = 0
  · subst hN
    refine ⟨_, if_pos rfl, by rw [Fit, hs], ?_⟩
    rw [same_sub]
    refine same_zero ?_
    rw [MvPolynomial.coeff_sub, MvPolynomial.coeff_zero_one, ← MvPolynomial.constantCoeff_eq, map_mul, MvPolynomial.constantCoeff_eq, coeff_zero ha.ge, coeff_zero hs.ge, at_set _ (by omega), if_pos rfl,
      mul_one_div_cancel h0, sub_self]
  · set w := polyOf (n + 1) N a - MvPolynomial.C (at' a 0) with hw
    have hw0 : w.coeff 0 = 0 := by rw [hw, MvPolynomial.coeff_sub, coeff_zero ha.ge, MvPolynomial.coeff_zero_C, sub_self]
    set τ := 1 / at' a 0 with hτ
    set F : ℕ → ℝ := fun i => if i = 0 then τ else -τ * τ * at' a i with hF
    have hfill := fill F (body := fun i t => do
      let x ← rdBuf a i
      wrBuf t i (-τ * τ * x)) (L (n + 1) N - 1) 1 (t.set 0 τ) (by omega) (fun j hj => by
        rw [at_set _ (by omega), if_pos (by omega), hF, show j = 0 by omega]; simp) (fun i t' hi hi' hl' _ => by
        rw [rd_at (by omega : i < a.length), Outcome.ok_bind, hF]; dsimp only; rw [if_neg (by omega)])
    rw [hs] at hfill
    have f0 : Fit (n + 1) N ((List.range (L (n + 1) N)).map F) := fit_range _ _ _
    have p0 : polyOf (n + 1) N ((List.range (L (n + 1) N)).map F) = MvPolynomial.C τ - MvPolynomial.C (τ * τ) * w := by
      have e1 : polyOf (n + 1) N ((List.range (L (n + 1) N)).map fun i => -τ * τ * at' a i) = MvPolynomial.C (-τ * τ) * polyOf (n + 1) N a :=
        polyOf_smul ha (fit_range _ _ _) _ fun i hi => by rw [at_map hi]; ring
      have e2 := polyOf_set (n := n) (N := N) (c := (List.range (L (n + 1) N)).map fun i => -τ * τ * at' a i) (fit_range _ _ _).ge (2 * τ)
      have e3 : polyOf (n + 1) N ((List.range (L (n + 1) N)).map F) = polyOf (n + 1) N (((List.range (L (n + 1) N)).map fun i => -τ * τ * at' a i).set 0
          (at' ((List.range (L (n + 1) N)).map fun i => -τ * τ * at' a i) 0 + 2 * τ)) := by
        refine polyOf_congr (fit_range _ _ _).ge (by rw [List.length_set]; exact (fit_range _ _ _).ge) fun i hi => ?_
        rw [at_set _ (by simpa using hL), at_map hi, at_map hL]
        simp only [hF]
        split
        · rw [hτ]; field_simp; ring
        · rw [at_map hi]
      rw [e3, e2, e1, hw, mul_sub, ← map_mul, show τ * τ * at' a 0 = τ by rw [hτ]; field_simp, show (2 * τ) = τ + τ by ring, map_add, neg_mul, map_neg]
      ring
    have hrd : rdBuf (t.set 0 τ) 0 = .ok τ := by rw [rd_at (by omega), at_set _ (by omega), if_pos rfl]
    have start : SameTo 1 (polyOf (n + 1) N a * polyOf (n + 1) N ((List.range (L (n + 1) N)).map F)) 1 := by
      rw [p0, same_sub]
      have e : polyOf (n + 1) N a * (MvPolynomial.C τ - MvPolynomial.C (τ * τ) * w) - 1 = MvPolynomial.C (-(τ * τ)) * (w * w) := by
        have hP : polyOf (n + 1) N a = MvPolynomial.C (at' a 0) + w := by rw [hw]; ring
        have h1 : (MvPolynomial.C (at' a 0) * MvPolynomial.C τ : MvPolynomial ℕ ℝ) = 1 := by rw [← map_mul, hτ, mul_one_div_cancel h0, map_one]
        rw [hP, map_neg, map_mul]
        linear_combination (1 - MvPolynomial.C τ * w) * h1
      rw [e]
      have := (SameTo.refl 1 (MvPolynomial.C (-(τ * τ)))).mul (same_order (A := 0) (B := 0) (same_zero hw0) (same_zero hw0))
      rwa [mul_zero] at this
    obtain ⟨out, e1, e2, e3⟩ := forLoop_inv (body := fun _ t => newton (n + 1) N a t) (fun i t => Fit (n + 1) N t ∧
      SameTo (Min.min N (2 ^ i - 1)) (polyOf (n + 1) N a * polyOf (n + 1) N t) 1) (Nat.log 2 (N + 1)) 1 _ ⟨f0, start.mono (by omega)⟩ (by
        rintro i t hi hi' ⟨h1, h2⟩
        refine (newton_run ha h1 h2 (K := Min.min N (2 ^ (i + 1) - 1)) (by omega) ?_).imp fun out h => ⟨h.1, h.2.1, h.2.2⟩
        have : 2 ^ (i + 1) = 2 * 2 ^ i := by ring
        have : 0 < 2 ^ i := by positivity
        omega)
    refine ⟨out, ?_, e2, e3.mono ?_⟩
    · rw [if_neg hN, hrd, Outcome.ok_bind, polylen_nat, hfill, Outcome.ok_bind, e1]
    · have := Nat.lt_pow_succ_log_self (b := 2) (by norm_num) (N + 1)
      rw [Nat.succ_eq_add_one] at this
      rw [add_comm 1]
      omega

/-! ### Integer powers -/

theorem powLoop_run (ht : Fit (n + 1) N t) (k : ℕ) {r : List ℝ} (hr : Fit (n + 1) N r) :
    ∃ out, powLoop (n + 1) N t k r = .ok out ∧ Fit (n + 1) N out ∧ SameTo N (polyOf (n + 1) N out) (polyOf (n + 1) N r * polyOf (n + 1) N t ^ k) := by
  induction k generalizing r with
  | zero => exact ⟨r, rfl, hr, by rw [pow_zero, mul_one]; exact SameTo.refl _ _⟩
  | succ k ih =>
    obtain ⟨p, p1, p2, p3⟩ := mulBy_run hr ht
    obtain ⟨out, e1, e2, e3⟩ := ih p2
    refine ⟨out, ?_, e2, e3.trans ?_⟩
    · rw [powLoop, p1, Outcome.ok_bind, e1]
    · rw [pow_succ', ← mul_assoc]
      exact p3.mul (SameTo.refl _ _)

theorem powLoop_self (ht : Fit (n + 1) N t) {k : ℕ} (hk : 0 < k) :
    ∃ out, powLoop (n + 1) N t (k - 1) t = .ok out ∧ Fit (n + 1) N out ∧ SameTo N (polyOf (n + 1) N out) (polyOf (n + 1) N t ^ k) := by
  obtain ⟨out, e1, e2, e3⟩ := powLoop_run ht (k - 1) ht
  rw [← pow_succ', Nat.sub_add_cancel hk] at e3
  exact ⟨out, e1, e2, e3⟩

theorem powInt_pos (ht : Fit (n + 1) N t) {m : ℕ} (hm : 0 < m) :
    ∃ out, powInt u (n + 1) N t m = .ok out ∧ Fit (n + 1) N out ∧ SameTo N (polyOf (n + 1) N out) (polyOf (n + 1) N t ^ m) := by
  obtain ⟨out, e1, e2, e3⟩ := powLoop_self ht hm
  exact ⟨out, by rw [powInt, if_pos (by omega), Int.toNat_natCast, e1], e2, e3⟩

theorem powInt_neg (ht : Fit (n + 1) N t) (h0 : at' t 0 ≠ 0) {m : ℕ} (hm : 0 < m) (h31 : m < 2 ^ 31) :
    ∃ out, powInt u (n + 1) N t (-m) = .ok out ∧ Fit (n + 1) N out ∧ SameTo N (polyOf (n + 1) N out * polyOf (n + 1) N t ^ m) 1 := by
  obtain ⟨p, p1, p2, p3⟩ := powLoop_self ht hm
  have hp0 : at' p 0 ≠ 0 := by
    have := p3 0 (by simp)
    rw [coeff_zero p2.ge, ← MvPolynomial.constantCoeff_eq, map_pow, MvPolynomial.constantCoeff_eq, coeff_zero ht.ge] at this
    rw [this]; exact pow_ne_zero _ h0
  obtain ⟨out, e1, e2, e3⟩ := scalarDiv_run u p2 hp0 1
  refine ⟨out, ?_, e2, ?_⟩
  · rw [powInt, if_neg (by omega), if_pos (by omega), neg_neg, int32_nat h31, Outcome.ok_bind, Int.toNat_natCast, p1, Outcome.ok_bind, e1]
  · rw [map_one] at e3
    exact ((SameTo.refl _ _).mul p3.symm).trans e3

theorem powInt_zero (t : List ℝ) : ∃ out, powInt u (n + 1) N t 0 = .ok out ∧ Fit (n + 1) N out ∧ polyOf (n + 1) N out = 1 := by
  obtain ⟨out, e1, e2, e3⟩ := assign_run (fit_fresh u (n + 1) N) 1
  exact ⟨out, by rw [powInt, if_neg (lt_irrefl _), if_neg (lt_irrefl _), e1], e2, by rw [polyOf_const e2 e3, map_one]⟩

/-! ### sinc -/

/-- The coefficients of sin(x)/x. -/
noncomputable def sincCoef (j : ℕ) : ℝ := if j % 2 = 0 then (-1) ^ (j / 2) / ((j + 1).factorial : ℝ) else 0

theorem sincAt0_run (ht : Fit 1 N t) : sincTaylorAt0 N t = .ok ((List.range (N + 1)).map sincCoef) := by
  rw [fit_one] at ht
  have c0 : sincCoef 0 = 1 := by simp [sincCoef]
  have ce : ∀ k, sincCoef (2 * (k + 1)) = sincCoef (2 * k) / ((2 * (k + 1) : ℕ) : ℝ) / -((2 * (k + 1) + 1 : ℕ) : ℝ) := fun k => by
    rw [sincCoef, sincCoef, if_pos (by omega), if_pos (by omega), show 2 * (k + 1) / 2 = k + 1 by omega, show 2 * k / 2 = k by omega, show 2 * (k + 1) + 1 = (2 * k + 1) + 1 + 1 by ring,
      Nat.factorial_succ, Nat.factorial_succ, pow_succ]
    have := (2 * k + 1).factorial_ne_zero
    push_cast
    field_simp
    ring
  have co : ∀ k, k % 2 = 1 → sincCoef k = 0 := fun k h => by rw [sincCoef, if_neg (by omega)]
  obtain ⟨⟨s, out⟩, e1, e0, e2, e3⟩ := forLoop_inv (body := fun i (r : ℝ × List ℝ) => do
    let fac := r.1 / ((2 * i : ℕ) : ℝ)
    let t ← wrBuf r.2 (2 * i - 1) 0
    let fac := fac / -((2 * i + 1 : ℕ) : ℝ)
    let t ← wrBuf t (2 * i) fac
    Outcome.ok (fac, t)) (fun i r => r.1 = sincCoef (2 * (i - 1)) ∧ r.2.length = N + 1 ∧ ∀ j ≤ 2 * (i - 1), at' r.2 j = sincCoef j) (N / 2) 1 (1, t.set 0 1)
    ⟨c0.symm, by rw [List.length_set, ht], fun j hj => by rw [at_set _ (by omega), if_pos (by omega), show j = 0 by omega, c0]⟩ (by
      rintro i ⟨s, t'⟩ hi hi' ⟨hs, hl', hj⟩
      dsimp only at hs hl' hj
      subst hs
      obtain ⟨k, rfl⟩ : ∃ d, i = d + 1 := ⟨i - 1, by omega⟩
      rw [Nat.add_sub_cancel] at hj
      refine ⟨(sincCoef (2 * (k + 1)), (t'.set (2 * k + 1) 0).set (2 * (k + 1)) (sincCoef (2 * (k + 1)))), ?_, rfl, by rw [List.length_set, List.length_set, hl'], fun j hj' => ?_⟩
      · simp only [show 2 * (k + 1) - 1 = 2 * k + 1 by omega, Nat.add_sub_cancel, wrBuf_ok (show 2 * k + 1 < t'.length by omega), Outcome.ok_bind,
          wrBuf_ok (show 2 * (k + 1) < (t'.set (2 * k + 1) (0 : ℝ)).length by rw [List.length_set]; omega), ← ce]
      · rw [Nat.add_sub_cancel] at hj'
        rw [at_set _ (by rw [List.length_set]; omega), at_set _ (by omega)]
        split
        · rename_i h; rw [h]
        · split
          · rename_i h; rw [h, co _ (by omega)]
          · exact hj j (by omega))
  dsimp only at e0 e2 e3
  rw [sincTaylorAt0, wrBuf_ok (by omega)]
  refine (congrArg (fun r => Outcome.bind r fun r : ℝ × List ℝ => if N % 2 = 1 then wrBuf r.2 N 0 else .ok r.2) e1).trans ?_
  show (if N % 2 = 1 then wrBuf out N 0 else .ok out) = _
  have hf : ∀ {c : List ℝ}, c.length = N + 1 → (∀ j ≤ N, at' c j = sincCoef j) → c = (List.range (N + 1)).map sincCoef := fun {c} h1 h2 => by
    rw [← h1]; exact list_eq fun i hi => h2 i (by omega)
  by_cases h2 : N % 2 = 1
  · rw [if_pos h2, wrBuf_ok (by omega)]
    refine congrArg Outcome.ok (hf (by rw [List.length_set]; omega) fun j hj => ?_)
    rw [at_set _ (by omega)]
    split
    · rename_i h; rw [h, co _ h2]
    · exact e3 j (by omega)
  · rw [if_neg h2]
    exact congrArg Outcome.ok (hf (by omega) fun j hj => e3 j (by omega))

theorem choose_bound {K : ℕ} (h : K * K.choose (K / 2) < 2 ^ 31) : ∀ j ≤ K, ∀ i ≤ j, (j - i) * j.choose i < 2 ^ 31 := fun j hj i hi => by
  refine lt_of_le_of_lt (Nat.mul_le_mul (show j - i ≤ K by omega) ?_) h
  exact (Nat.choose_le_choose i hj).trans (Nat.choose_le_middle i K)

/-- Composition with the coefficients of a function at the constant term. -/
theorem compose_gives {f : ℝ → ℝ} {c : List ℝ} (ht : Fit (n + 1) N t) (hc : Fit 1 N c) (hf : ContDiffAt ℝ N f (at' t 0)) (h : IsTaylor f (at' t 0) N (at' c)) :
    Gives (n + 1) N f t (compose (n + 1) N t (fresh u (polylen (n + 1 : ℕ) N)) c) := by
  obtain ⟨out, e1, e2, e3⟩ := compose_fit ht (fit_fresh u (n + 1) N) hc
  refine ⟨out, e1, e2, expands_same (compSum_expands ?_ ?_) e3⟩ <;> rw [coeff_zero ht.ge]
  · exact hf
  · exact h

theorem sinc_small (hN : (N + 8) * (N + 8).choose ((N + 8) / 2) < 2 ^ 31) (ht : Fit (n + 1) N t) (h : |at' t 0| < 1e-3) :
    Gives (n + 1) N (fun x => ∑ m ∈ Finset.range (N + 8 + 1), sincCoef m * x ^ m) t (sinc u (n + 1) N t) := by
  have hL : 0 < t.length := by rw [ht]; exact L_pos _ _
  have h31 : N + 8 < 2 ^ 31 := lt_of_le_of_lt (Nat.le_mul_of_pos_right _ (Nat.choose_pos (Nat.div_le_self _ _))) hN
  have hf : Fit 1 (N + 8) (fresh u (polylen 1 ((N + 8 : ℕ) : ℤ))) := fresh_one u
  obtain ⟨r, e1, e2, e3⟩ := shift_run u (N := N + 8) (M := N) (by omega) (choose_bound hN) h31 (c := (List.range (N + 8 + 1)).map sincCoef) (fit_one.2 (by simp)) (fresh_one u) (at' t 0)
  have hT : IsTaylor (fun x => ∑ m ∈ Finset.range (N + 8 + 1), sincCoef m * x ^ m) (at' t 0) N (at' r) := by
    have := shift_isTaylor (N := N + 8) (M := N) (by omega) (at' ((List.range (N + 8 + 1)).map sincCoef)) (at' t 0)
    refine this.congr (Eventually.of_forall fun x => ?_) e3
    exact Finset.sum_congr rfl fun m hm => by rw [at_map (Finset.mem_range.1 hm)]
  have := compose_gives u ht e2 (by fun_prop) hT
  refine (congrArg (Gives (n + 1) N _ t) ?_).mpr this
  rw [sinc, rd_at hL, Outcome.ok_bind, if_pos h]
  have a1 := sincAt0_run hf
  refine (congrArg (fun r => Outcome.bind r _) a1).trans ?_
  exact congrArg (fun r => Outcome.bind r _) e1

theorem sinc_large (ht : Fit (n + 1) N t) (h : ¬ |at' t 0| < 1e-3) : Gives (n + 1) N (fun x => Real.sin x / x) t (sinc u (n + 1) N t) := by
  have hL : 0 < t.length := by rw [ht]; exact L_pos _ _
  have h0 : at' t 0 ≠ 0 := fun e => h (by rw [e, abs_zero]; norm_num)
  obtain ⟨s, e1, e2, e3⟩ := sin_gives u ht
  obtain ⟨out, f1, f2, f3⟩ := div_run u e2 ht h0
  refine ⟨out, ?_, f2, expands_div (g := fun x => x) (G := polyOf (n + 1) N t) Real.contDiff_sin.contDiffAt contDiffAt_id (by rw [coeff_zero ht.ge]; exact h0) e3 (fun v k _ => rfl) f3⟩
  rw [sinc, rd_at hL, Outcome.ok_bind, if_neg h, e1, Outcome.ok_bind, f1]

/-! ### sqrtx_asinh_sqrtx -/

theorem expands_of_coeff {f : ℝ → ℝ} {a : ℝ} {c : List ℝ} (hc : Fit 1 N c) (hf : ContDiffAt ℝ N f a) (h : IsTaylor f a N (at' c)) :
    Expands N (fun y => f (a + y)) (MvPolynomial.X 0) (polyOf 1 N c) := by
  have h0 : (MvPolynomial.X 0 : MvPolynomial ℕ ℝ).coeff 0 = 0 := MvPolynomial.coeff_zero_X 0
  refine expands_same (compSum_expands (c := at' c) ?_ ?_) ?_
  · rw [h0]
    refine ContDiffAt.comp (0 : ℝ) (g := f) ?_ (by fun_prop)
    rw [add_zero]; exact hf
  · rw [h0]
    intro k hk
    rw [h k hk]
    congr 1
    have := congrFun (iteratedDeriv_comp_const_add (n := k) (f := f) (s := a)) 0
    rw [add_zero] at this
    exact this.symm
  · have : compSum (at' c) N (MvPolynomial.X 0) = ser (at' c) (N + 1) := by
      rw [compSum, ser, h0, MvPolynomial.C_0, sub_zero]
      refine Finset.sum_congr rfl fun j _ => ?_
      rw [MvPolynomial.X_pow_eq_monomial, MvPolynomial.C_mul_monomial, mul_one]
    rw [this]
    exact ser_same hc (fun _ _ => rfl) (Nat.lt_succ_self N)

theorem coeff_of_expands {f : ℝ → ℝ} {a : ℝ} {c : List ℝ} (hc : Fit 1 N c) (h : Expands N (fun y => f (a + y)) (MvPolynomial.X 0) (polyOf 1 N c)) : IsTaylor f a N (at' c) := by
  have := expands_coeff (by rw [fit_one.1 hc]) h
  simp only [MvPolynomial.eval_X] at this
  intro k hk
  rw [this k hk]
  congr 1
  have := congrFun (iteratedDeriv_comp_const_add (n := k) (f := f) (s := a)) 0
  rw [add_zero] at this
  exact this

theorem sqrtx_small (hN : N ≤ 8) (ht : Fit (n + 1) N t) (h : |at' t 0| < 0.5) :
    Gives (n + 1) N (fun x => (∑ m ∈ Finset.range 9, padeP m * x ^ m) / ∑ m ∈ Finset.range 9, padeQ m * x ^ m) t (sqrtxAsinhSqrtx u (n + 1) N t) := by
  have hL : 0 < t.length := by rw [ht]; exact L_pos _ _
  have hlo : -0.5 < at' t 0 := (abs_lt.1 h).1
  set a := at' t 0 with ha
  have sh : ∀ F : Coefs, ∃ r, shift u 1 8 N ((List.range 9).map F) (fresh u (polylen 1 N)) a = .ok r ∧ Fit 1 N r ∧ IsTaylor (fun x => ∑ m ∈ Finset.range 9, F m * x ^ m) a N (at' r) := fun F => by
    obtain ⟨r, e1, e2, e3⟩ := shift_run u (N := 8) (M := N) hN (choose_bound (by decide)) (by norm_num) (c := (List.range 9).map F) (fit_one.2 (by simp)) (fresh_one u) a
    refine ⟨r, e1, e2, (shift_isTaylor hN (at' ((List.range 9).map F)) a).congr (Eventually.of_forall fun x => ?_) e3⟩
    exact Finset.sum_congr rfl fun m hm => by rw [at_map (Finset.mem_range.1 hm)]
  obtain ⟨pp, p1, p2, p3⟩ := sh padeP
  obtain ⟨pq, q1, q2, q3⟩ := sh padeQ
  have hden : (∑ m ∈ Finset.range 9, padeQ m * a ^ m) ≠ 0 := by
    have h1 := padeDen_pos (x := a) (by norm_num at hlo ⊢; linarith)
    have h2 : padeDen a = ∑ m ∈ Finset.range 9, padeQ m * a ^ m := by
      rw [padeDen]; exact Finset.sum_congr rfl fun m _ => mul_comm _ _
    rw [← h2]; exact h1.ne'
  have hq0 : at' pq 0 ≠ 0 := by
    rw [q3 0 (Nat.zero_le _)]; simpa using hden
  obtain ⟨r, r1, r2, r3⟩ := div_run u (n := 0) p2 q2 hq0
  have hpp := expands_of_coeff p2 (by fun_prop) p3
  have hpq := expands_of_coeff q2 (by fun_prop) q3
  have hx0 : (MvPolynomial.X 0 : MvPolynomial ℕ ℝ).coeff 0 = 0 := MvPolynomial.coeff_zero_X 0
  have hr : IsTaylor (fun x => (∑ m ∈ Finset.range 9, padeP m * x ^ m) / ∑ m ∈ Finset.range 9, padeQ m * x ^ m) a N (at' r) := by
    refine coeff_of_expands r2 ?_
    refine expands_div (f := fun y => ∑ m ∈ Finset.range 9, padeP m * (a + y) ^ m) (g := fun y => ∑ m ∈ Finset.range 9, padeQ m * (a + y) ^ m) (by fun_prop) (by fun_prop) ?_ hpp hpq r3
    rw [hx0, add_zero]; exact hden
  have := compose_gives u ht r2 (by
    refine ContDiffAt.div (by fun_prop) (by fun_prop) hden) hr
  refine (congrArg (Gives (n + 1) N _ t) ?_).mpr this
  rw [sqrtxAsinhSqrtx, rd_at hL, Outcome.ok_bind, assert_ok hlo, Outcome.ok_bind, if_pos h, assert_ok hN, Outcome.ok_bind, p1, Outcome.ok_bind, q1, Outcome.ok_bind, r1, Outcome.ok_bind]

theorem sqrtx_large (ht : Fit (n + 1) N t) (h : 0.5 ≤ at' t 0) : Gives (n + 1) N (fun x => √x * Real.arsinh √x) t (sqrtxAsinhSqrtx u (n + 1) N t) := by
  have hL : 0 < t.length := by rw [ht]; exact L_pos _ _
  have hp : 0 < at' t 0 := lt_of_lt_of_le (by norm_num) h
  obtain ⟨s, e1, e2, e3⟩ := sqrt_gives u ht hp
  obtain ⟨r, f1, f2, f3⟩ := asinh_gives u e2
  obtain ⟨out, g1, g2, g3⟩ := mul_run u e2 f2
  have hc : ContDiffAt ℝ N (fun x : ℝ => √x) ((polyOf (n + 1) N t).coeff 0) := by rw [coeff_zero ht.ge]; exact Real.contDiffAt_sqrt hp.ne'
  refine ⟨out, ?_, g2, expands_same (expands_mul hc ?_ e3 (expands_comp hc Real.contDiff_arsinh.contDiffAt e3 f3)) g3⟩
  · rw [sqrtxAsinhSqrtx, rd_at hL, Outcome.ok_bind, assert_ok (lt_of_lt_of_le (by norm_num) h), Outcome.ok_bind, if_neg (by rw [abs_of_pos hp]; exact not_lt.2 h), e1, Outcome.ok_bind, f1,
      Outcome.ok_bind, g1]
  · exact ContDiffAt.comp (g := Real.arsinh) (f := fun x : ℝ => √x) _ Real.contDiff_arsinh.contDiffAt hc

end XCFun.Tay
