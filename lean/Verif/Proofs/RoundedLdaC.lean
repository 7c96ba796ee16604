/-
The absolute errors of the correlation energies of the local density approximation.
-/
import Verif.Proofs.RoundedCorr

namespace XCFun.RE
open XCFun Spec Expr Fun

variable {V : Type} [Zero V] [One V] [Add V] [Sub V] [Mul V] [Neg V] {A : Rounded V} {L : CorrLib A} {ρ : Field → V} {r : Field → ℝ}

/-- The density variables for `InRangeSpin`. -/
structure GivenS (L : MathLib A) (ρ : Field → V) (r : Field → ℝ) : Prop where
  n : PA L ρ r (var .n) 1 101
  r_s : PA L ρ r (var .r_s) 21 17
  zeta : AA L ρ r (var .zeta) 1 4
  zlo : -0.98 ≤ r .zeta
  zhi : r .zeta ≤ 0.98

theorem cbrt_two : 1.25 ≤ (2 : ℝ) ^ (1 / 3 : ℝ) ∧ (2 : ℝ) ^ (1 / 3 : ℝ) ≤ 1.26 := by
  have e : ∀ q : ℝ, 0 ≤ q → (q ^ 3) ^ (1 / 3 : ℝ) = q := by
    intro q hq
    rw [← Real.rpow_natCast, ← Real.rpow_mul hq]; norm_num
  constructor
  · rw [← e 1.25 (by norm_num)]; exact Real.rpow_le_rpow (by norm_num) (by norm_num) (by norm_num)
  · rw [← e 1.26 (by norm_num)]; exact Real.rpow_le_rpow (by norm_num) (by norm_num) (by norm_num)

theorem rpow43_le {q : ℝ} (h0 : 0 ≤ q) (h : q ≤ 1.98) : q ^ (4 / 3 : ℝ) ≤ 2.6 := by
  have h1 : q ^ (4 / 3 : ℝ) ≤ (2 : ℝ) ^ (4 / 3 : ℝ) := Real.rpow_le_rpow h0 (by linarith) (by norm_num)
  have h2 : (2 : ℝ) ^ (4 / 3 : ℝ) = 2 * (2 : ℝ) ^ (1 / 3 : ℝ) := by
    rw [show (4 / 3 : ℝ) = 1 + 1 / 3 by norm_num, Real.rpow_add (by norm_num), Real.rpow_one]
  have := cbrt_two.2
  linarith

theorem aa_pow43 {M : MathLib A} {z : Expr Field} (h : AA M ρ r z 2 5) (h1 : 0.02 ≤ z.evalR r) (h2 : z.evalR r ≤ 1.98) :
    AA M ρ r (Expr.pow z (4 / 3)) 2.6 1354 := by
  have a1 := acc_of_aa (k := 100) h (by linarith) (by linarith) (by norm_num)
  have e4 : (50 : ℝ) ≤ Real.exp 4 := by
    have : (2.7 : ℝ) ≤ Real.exp 1 := by have := Real.exp_one_gt_d9; linarith
    rw [show (4 : ℝ) = ((4 : ℕ) : ℝ) * 1 by norm_num, Real.exp_nat_mul]
    exact le_trans (by norm_num) (pow_le_pow_left₀ (by norm_num) this 4)
  have a2 : PA M ρ r z 1000 4 := ⟨a1.mono (by norm_num), by
    rw [Real.exp_neg]
    exact (inv_anti₀ (by norm_num) e4).trans (by norm_num; linarith), by linarith⟩
  refine (aa_of_acc (acc_pow (4 / 3) (4 / 3) (by expo) a2) (by norm_num) (B := 2.6) ?_).mono le_rfl (by norm_num)
  rw [evalR_pow, abs_of_nonneg (Real.rpow_nonneg (by linarith) _)]
  exact rpow43_le (by linarith) h2

section
variable {M : MathLib A} (G : GivenS M ρ r)
include G

theorem aa_ufunc : AA M ρ r (Expr.ufunc d.zeta (4 / 3) - 2) 7.2 1356 := by
  have one : AA M ρ r (1 : Expr Field) 1 4 := (aa_lit 1 (by norm_num)).mono le_rfl (by norm_num)
  have two : AA M ρ r (2 : Expr Field) 2 1355 := (aa_lit 2 (by norm_num)).mono le_rfl (by norm_num)
  have z : AA M ρ r d.zeta 1 4 := G.zeta
  have ez : d.zeta.evalR r = r .zeta := rfl
  have h1 := G.zlo
  have h2 := G.zhi
  have p := aa_pow43 ((aa_add one z).mono (by norm_num) (by norm_num)) (by rw [evalR_add, evalR_one, ez]; linarith)
    (by rw [evalR_add, evalR_one, ez]; linarith)
  have q := aa_pow43 ((aa_sub one z).mono (by norm_num) (by norm_num)) (by rw [evalR_sub, evalR_one, ez]; linarith)
    (by rw [evalR_sub, evalR_one, ez]; linarith)
  exact (aa_sub ((aa_add p q).mono le_rfl (by norm_num)) two).mono (by norm_num) (by norm_num)

theorem aa_omega : AA M ρ r (omega d.zeta) 15 1361 := by
  have h1 := cbrt_two.1
  have h2 := cbrt_two.2
  have hk : Rng 1 (2 * (2 : ℝ) ^ (1 / 3 : ℝ) - 2) := by
    exact_mod_cast rng_num 1 (by norm_num at h1 ⊢; linarith) (by norm_num at h2 ⊢; linarith)
  refine (aa_div (D := 2) (aa_ufunc G) (pa_rng hk) (by norm_num) ?_).mono (by norm_num) (by norm_num)
  rw [evalR_lit, inv_eq_one_div, div_le_iff₀ hk.pos]
  linarith

theorem aa_zeta4 : AA M ρ r (Expr.npow d.zeta 4) 1 19 := by
  have z : AA M ρ r d.zeta 1 4 := G.zeta
  exact (aa_mul (aa_mul (aa_mul z z) z) z).mono (by norm_num) (by norm_num)

theorem aa_one_sub_zeta4 : AA M ρ r (1 - Expr.npow d.zeta 4) 2 20 :=
  (aa_sub ((aa_lit (B := 1) 1 (by norm_num)).mono le_rfl (by norm_num)) (aa_zeta4 G)).mono (by norm_num) (by norm_num)

end

theorem abs_log_le {q l : ℝ} (h1 : Real.exp (-l) ≤ q) (h2 : q ≤ Real.exp l) : |Real.log q| ≤ l := by
  have hq : 0 < q := lt_of_lt_of_le (Real.exp_pos _) h1
  rw [abs_le]
  exact ⟨(Real.le_log_iff_exp_le hq).2 h1, (Real.log_le_iff_le_exp hq).2 h2⟩

theorem pa_s (G : GivenS L.toMathLib ρ r) : PA L.toMathLib ρ r (Expr.sqrt d.r_s) 12 9 :=
  (pa_sqrt (show PA L.toMathLib ρ r d.r_s 21 17 from G.r_s)).mono (by norm_num) (by norm_num)

/-! pw92eps.hpp -/

theorem aa_eopt {s : Expr Field} {t : Pw92P} (hs : PA L.toMathLib ρ r s 12 9) (h0 : Rng 7 t.t0) (h1 : Rng 7 t.t1) (h2 : Rng 7 t.t2)
    (h3 : Rng 7 t.t3) (h4 : Rng 7 t.t4) (h5 : Rng 7 t.t5) (h02 : 0.17 ≤ t.t0 * t.t2) (h11 : t.t1 ≤ 1) :
    AA L.toMathLib ρ r (eopt s t) (22 * t.t0 * (1 + s.evalR r ^ 2)) 100 := by
  have one : PA L.toMathLib ρ r (1 : Expr Field) 1 7 := pa_rng (by
    have : Rng 0 (1 : ℝ) := by simp [Rng]
    exact this.mono (by norm_num))
  have half : PA L.toMathLib ρ r (0.5 : Expr Field) 1 1 := pa_rng (by rng 1)
  have q4 := pa_add (pa_rng (L := L.toMathLib) (ρ := ρ) (r := r) h4) (by norm_num) (pa_mul (pa_rng h5) hs).na
  have q3 := pa_add (pa_rng (L := L.toMathLib) (ρ := ρ) (r := r) h3) (by norm_num) (pa_mul hs q4).na
  have q2 := pa_add (pa_rng (L := L.toMathLib) (ρ := ρ) (r := r) h2) (by norm_num) (pa_mul hs q3).na
  have q := pa_mul (pa_rng (L := L.toMathLib) (ρ := ρ) (r := r) h0) (pa_mul hs q2)
  have X := pa_add one (by norm_num) (pa_div half q).na
  have hS := hs.pos
  have hS9 := hs.lo
  have lo : 1 ≤ evalR r (1 + 0.5 / ((t.t0 : Expr Field) * (s * ((t.t2 : Expr Field) + s * ((t.t3 : Expr Field) +
      s * ((t.t4 : Expr Field) + (t.t5 : Expr Field) * s)))))) := by
    have := (pa_div half q).pos
    rw [evalR_add, evalR_one]
    linarith
  have hi : evalR r (1 + 0.5 / ((t.t0 : Expr Field) * (s * ((t.t2 : Expr Field) + s * ((t.t3 : Expr Field) +
      s * ((t.t4 : Expr Field) + (t.t5 : Expr Field) * s)))))) ≤ Real.exp 11 := by
    have hq := q.pos
    have hq3 := (pa_mul hs q3).pos
    rw [evalR_add, evalR_one, evalR_div]
    set Q := evalR r ((t.t0 : Expr Field) * (s * ((t.t2 : Expr Field) + s * ((t.t3 : Expr Field) +
      s * ((t.t4 : Expr Field) + (t.t5 : Expr Field) * s))))) with hQ
    have hQ1 : 0.17 * Real.exp (-9) ≤ Q := by
      rw [hQ, evalR_mul, evalR_mul, evalR_add, evalR_lit, evalR_lit]
      have a0 := h0.pos
      have : t.t0 * t.t2 * s.evalR r ≤ t.t0 * (s.evalR r * (t.t2 + evalR r (s * ((t.t3 : Expr Field) +
          s * ((t.t4 : Expr Field) + (t.t5 : Expr Field) * s))))) := by
        have := mul_nonneg a0.le (mul_nonneg hS.le hq3.le)
        linarith
      refine le_trans ?_ this
      exact mul_le_mul h02 hS9 (Real.exp_pos _).le (by linarith)
    have hE : evalR r (0.5 : Expr Field) / Q ≤ 3 * Real.exp 9 := by
      rw [div_le_iff₀ hq, show evalR r (0.5 : Expr Field) = 0.5 from rfl]
      have e9 : Real.exp 9 * Real.exp (-9) = 1 := by rw [← Real.exp_add]; simp
      have := mul_le_mul_of_nonneg_left hQ1 (show 0 ≤ 3 * Real.exp 9 by positivity)
      have e : 3 * Real.exp 9 * (0.17 * Real.exp (-9)) = 0.51 * (Real.exp 9 * Real.exp (-9)) := by ring
      rw [e, e9] at this
      linarith
    have e11 : Real.exp 11 = Real.exp 9 * (Real.exp 1 * Real.exp 1) := by rw [← Real.exp_add, ← Real.exp_add]; norm_num
    have e1 := two_le_exp_one
    have e2 : 4 ≤ Real.exp 1 * Real.exp 1 := by nlinarith
    have e3 := Real.one_le_exp (show (0 : ℝ) ≤ 9 by norm_num)
    have := mul_le_mul_of_nonneg_left e2 (Real.exp_pos 9).le
    linarith
  have lg := aa_log (B := 11) X.acc (by norm_num) X.pos (by norm_num)
    (abs_log_le ((Real.exp_le_one_iff.2 (by norm_num)).trans lo) hi)
  have pre := (pa_add one (by norm_num) (pa_mul (pa_mul (pa_rng (L := L.toMathLib) (ρ := ρ) (r := r) h1) hs) hs).na)
  have pre' := aa_of_acc (B := 1 + s.evalR r ^ 2) pre.acc (by norm_num) (by
    rw [abs_of_pos pre.pos, evalR_add, evalR_one, evalR_mul, evalR_mul, evalR_lit]
    have := mul_le_mul_of_nonneg_right h11 (sq_nonneg (s.evalR r))
    linarith)
  have a0 := h0.pos
  have c0 : AA L.toMathLib ρ r ((-2 * t.t0 : ℝ) : Expr Field) (2 * t.t0) 1 := aa_lit _ (by
    rw [abs_mul, abs_of_pos a0]; norm_num)
  exact (aa_mul (aa_mul c0 pre') lg).mono (le_of_eq (by ring)) (by norm_num)

theorem aa_pw92eps (G : GivenS L.toMathLib ρ r) : AA L.toMathLib ρ r pw92eps (24 * (1 + r .r_s)) 1490 := by
  have hs := pa_s G
  have hr : 0 < r .r_s := G.r_s.pos
  have eS : 1 + (Expr.sqrt d.r_s).evalR r ^ 2 = 1 + r .r_s := by
    rw [evalR_sqrt, show d.r_s.evalR r = r .r_s from rfl, Real.sq_sqrt hr.le]
  have e0 := aa_eopt (t := pw92_0) hs (by rw [pw92_0]; rng 7) (by rw [pw92_0]; rng 7) (by rw [pw92_0]; rng 7) (by rw [pw92_0]; rng 7)
    (by rw [pw92_0]; rng 7) (by rw [pw92_0]; rng 7) (by norm_num [pw92_0]) (by norm_num [pw92_0])
  have e1 := aa_eopt (t := pw92_1) hs (by rw [pw92_1]; rng 7) (by rw [pw92_1]; rng 7) (by rw [pw92_1]; rng 7) (by rw [pw92_1]; rng 7)
    (by rw [pw92_1]; rng 7) (by rw [pw92_1]; rng 7) (by norm_num [pw92_1]) (by norm_num [pw92_1])
  have e2 := aa_eopt (t := pw92_2) hs (by rw [pw92_2]; rng 7) (by rw [pw92_2]; rng 7) (by rw [pw92_2]; rng 7) (by rw [pw92_2]; rng 7)
    (by rw [pw92_2]; rng 7) (by rw [pw92_2]; rng 7) (by norm_num [pw92_2]) (by norm_num [pw92_2])
  rw [eS] at e0 e1 e2
  set R := 1 + r .r_s with hR
  have hR0 : 0 < R := by linarith
  have e0 := e0.mono (D := 0.7 * R) (d := 100) (by norm_num [pw92_0]; nlinarith) le_rfl
  have e1 := e1.mono (D := 0.35 * R) (d := 100) (by norm_num [pw92_1]; nlinarith) le_rfl
  have e2 := e2.mono (D := 0.38 * R) (d := 100) (by norm_num [pw92_2]; nlinarith) le_rfl
  have k1 := cbrt_two.1
  have k2 := cbrt_two.2
  have hk : Rng 1 (8 / (9 * (2 * (2 : ℝ) ^ (1 / 3 : ℝ) - 2))) := by
    have : 0 < 9 * (2 * (2 : ℝ) ^ (1 / 3 : ℝ) - 2) := by linarith
    refine mod_cast rng_num 1 ?_ ?_
    · rw [← mul_div_assoc, le_div_iff₀ this]; norm_num at k2 ⊢; linarith
    · rw [div_le_iff₀ this]; norm_num at k1 ⊢; linarith
  have x1 := aa_div (D := 0.6) (aa_mul (aa_mul e2 (aa_omega G)) (aa_one_sub_zeta4 G)) (pa_rng hk) (by norm_num) (by
    rw [evalR_lit, inv_div, div_le_iff₀ (by norm_num)]; norm_num at k2 ⊢; linarith)
  have x2 := aa_mul (aa_mul (aa_sub e1 e0) (aa_omega G)) (aa_zeta4 G)
  have x3 := aa_sub (e0.mono (d := 1487) le_rfl (by norm_num)) (x1.mono (d := 1487) le_rfl (by norm_num))
  have x4 := aa_add (x3.mono (d := 1489) le_rfl (by norm_num)) (x2.mono (d := 1489) le_rfl (by norm_num))
  exact x4.mono (by norm_num; nlinarith) (by norm_num)

theorem aa_pw92c (G : GivenS L.toMathLib ρ r) : AA L.toMathLib ρ r pw92c (24 * (1 + r .r_s) * r .n) 1500 := by
  have hn : AA L.toMathLib ρ r d.n (r .n) 1 := aa_of_acc G.n.acc (by norm_num) (le_of_eq (abs_of_pos G.n.pos))
  exact (aa_mul (aa_pw92eps G) hn).mono le_rfl (by norm_num)

/-! vwn.hpp -/

/-- What the parameters of the five fits have in common. -/
structure VwnOk (p : Fun.VwnP) : Prop where
  p0 : Rng 8 (-p.p0)
  p01 : -p.p0 ≤ 1
  p2 : Rng 8 p.p2
  p2' : p.p2 ≤ 21
  p3 : Rng 8 p.p3
  p31 : 1 ≤ p.p3
  p32 : p.p3 ≤ 102
  X0 : 0 < p.p0 * p.p0 + p.p0 * p.p2 + p.p3
  a : |vwn_a p| ≤ 1.2
  b : |vwn_b p| ≤ 0.4
  Q : Rng 8 √(4 * p.p3 - p.p2 * p.p2)
  t : 0 < p.p2 + 2 * p.p0
  c : |1 - p.p0 * (p.p2 + 2 * p.p0) / (p.p0 * p.p0 + p.p0 * p.p2 + p.p3)| ≤ 1.2

theorem VwnOk.of {p : Fun.VwnP} (p0 : 1 ≤ 2 ^ 8 * -p.p0) (p01 : -p.p0 ≤ 1) (_ : 1 ≤ p.p2) (p2' : p.p2 ≤ 21) (p31 : 1 ≤ p.p3) (p32 : p.p3 ≤ 102)
    (X0 : 0 < p.p0 * p.p0 + p.p0 * p.p2 + p.p3) (a : -0.2 * (p.p0 * p.p0 + p.p0 * p.p2 + p.p3) ≤ p.p0 * p.p2)
    (Q1 : 1 / 2 ^ 16 ≤ 4 * p.p3 - p.p2 * p.p2) (t : 0 < p.p2 + 2 * p.p0)
    (c : -0.2 * (p.p0 * p.p0 + p.p0 * p.p2 + p.p3) ≤ p.p0 * (p.p2 + 2 * p.p0)) : VwnOk p := by
  have ha : -0.2 ≤ p.p0 * p.p2 / (p.p0 * p.p0 + p.p0 * p.p2 + p.p3) := by rw [le_div_iff₀ X0]; exact a
  have n0 : p.p0 ≤ 0 := by linarith
  have ha' : p.p0 * p.p2 / (p.p0 * p.p0 + p.p0 * p.p2 + p.p3) ≤ 0 :=
    div_nonpos_of_nonpos_of_nonneg (mul_nonpos_of_nonpos_of_nonneg n0 (by linarith)) X0.le
  have hc : -0.2 ≤ p.p0 * (p.p2 + 2 * p.p0) / (p.p0 * p.p0 + p.p0 * p.p2 + p.p3) := by rw [le_div_iff₀ X0]; exact c
  have hc' : p.p0 * (p.p2 + 2 * p.p0) / (p.p0 * p.p0 + p.p0 * p.p2 + p.p3) ≤ 0 :=
    div_nonpos_of_nonpos_of_nonneg (mul_nonpos_of_nonpos_of_nonneg n0 t.le) X0.le
  refine ⟨mod_cast rng_num 8 p0 (by linarith), p01, mod_cast rng_num 8 (by linarith) (by linarith), p2', mod_cast rng_num 8 (by linarith) (by linarith),
    p31, p32, X0, ?_, ?_, ?_, t, ?_⟩
  · rw [vwn_a, abs_le]; constructor <;> linarith
  · rw [vwn_b, abs_le]; constructor <;> linarith
  · refine mod_cast rng_num 8 ?_ ?_
    · have : (1 / 2 ^ 8 : ℝ) ≤ √(4 * p.p3 - p.p2 * p.p2) := Real.le_sqrt_of_sq_le (by norm_num at Q1 ⊢; linarith)
      norm_num at this ⊢
      linarith
    · rw [Real.sqrt_le_left (by norm_num)]
      nlinarith [mul_self_nonneg p.p2]
  · rw [abs_le]; constructor <;> linarith

theorem arctan_le_self {q : ℝ} (h : 0 ≤ q) : Real.arctan q ≤ q := by
  have := Real.le_tan (Real.arctan_nonneg.2 h) (Real.arctan_lt_pi_div_two q)
  rwa [Real.tan_arctan] at this

theorem aa_vwn_f {s : Expr Field} {p : Fun.VwnP} (hs : PA L.toMathLib ρ r s 12 9) (h : VwnOk p) :
    AA L.toMathLib ρ r (vwn_f s p) (24 * |p.p1|) 50 := by
  have hS := hs.pos
  have hlo := hs.lo
  have hhi := hs.hi
  have e9 : (512 : ℝ) ≤ Real.exp 9 := by have := two_pow_le_exp 9; norm_num at this ⊢; exact this
  have hp2 := h.p2.pos
  have hp0 := h.p0.pos
  have P2 : PA L.toMathLib ρ r (Expr.lit p.p2) 1 8 := pa_rng h.p2
  have P3 : PA L.toMathLib ρ r (Expr.lit p.p3) 1 8 := pa_rng h.p3
  have two : PA L.toMathLib ρ r (2 : Expr Field) 1 1 := pa_rng (by rng 1)
  -- the logarithm of `s`
  have l1 := aa_mul (aa_lit (L := L.toMathLib) (ρ := ρ) (r := r) (B := 2) 2 (by norm_num))
    (aa_log (B := 9) hs.acc (by norm_num) hS (by norm_num) (abs_log_le hlo hhi))
  -- the logarithm of `x`
  have X := pa_add (pa_add (pa_mul hs hs) (by norm_num) (pa_mul P2 hs).na) (by norm_num) P3.na
  have eX : evalR r (s * s + (p.p2 : Expr Field) * s + (p.p3 : Expr Field)) = s.evalR r * s.evalR r + p.p2 * s.evalR r + p.p3 := rfl
  have l2 := aa_mul (aa_lit (L := L.toMathLib) (ρ := ρ) (r := r) _ h.a) (aa_log (B := 19) X.acc (by norm_num) X.pos (by norm_num) (abs_log_le (by
      rw [eX]
      have := Real.exp_le_one_iff.2 (show -(19 : ℝ) ≤ 0 by norm_num)
      have := h.p31
      nlinarith [mul_pos hS hS, mul_pos hp2 hS]) (by
      rw [eX]
      have e19 : Real.exp 19 = Real.exp 9 * Real.exp 9 * Real.exp 1 := by rw [← Real.exp_add, ← Real.exp_add]; norm_num
      have e1 := two_le_exp_one
      have := h.p32
      have m1 := mul_le_mul hhi hhi hS.le (Real.exp_pos _).le
      have m2 := mul_le_mul h.p2' hhi hS.le (by norm_num)
      have m3 := mul_le_mul_of_nonneg_left e1 (show 0 ≤ Real.exp 9 * Real.exp 9 by positivity)
      have m4 := mul_le_mul_of_nonneg_left e9 (show 0 ≤ Real.exp 9 by positivity)
      rw [e19]
      linarith)))
  -- the logarithm of `y`
  have y1 : Acc L.toMathLib ρ r (s - (p.p0 : Expr Field)) (12 + 1 + 1) :=
    acc_sub_neg hs.acc (acc_lit p.p0) hS.le (by rw [evalR_lit]; linarith)
  have eY : evalR r (s - (p.p0 : Expr Field)) = s.evalR r - p.p0 := rfl
  have l3 := aa_mul (aa_lit (L := L.toMathLib) (ρ := ρ) (r := r) _ h.b) (aa_log (B := 10) y1 (by norm_num) (by rw [eY]; linarith) (by norm_num)
    (abs_log_le (by
      rw [eY]
      have : Real.exp (-10) ≤ Real.exp (-9) := Real.exp_le_exp.2 (by norm_num)
      linarith) (by
      rw [eY]
      have e10 : Real.exp 10 = Real.exp 9 * Real.exp 1 := by rw [← Real.exp_add]; norm_num
      have e1 := two_le_exp_one
      have := h.p01
      have m3 := mul_le_mul_of_nonneg_left e1 (show 0 ≤ Real.exp 9 by positivity)
      rw [e10]
      linarith)))
  -- the arc tangent
  have z := pa_div (pa_rng (L := L.toMathLib) (ρ := ρ) (r := r) h.Q) (pa_add (pa_mul two hs) (by norm_num) P2.na)
  have t0 := acc_atan z.acc z.pos.le
  have eZ : evalR r ((√(4 * p.p3 - p.p2 * p.p2) : ℝ) / (2 * s + (p.p2 : Expr Field))) = √(4 * p.p3 - p.p2 * p.p2) / (2 * s.evalR r + p.p2) := by
    simp
  have hQ := h.Q.pos
  have t1 := aa_mul (aa_lit (L := L.toMathLib) (ρ := ρ) (r := r) _ (le_refl |vwn_c p|)) (aa_of_acc (B := √(4 * p.p3 - p.p2 * p.p2) / p.p2) t0 (by norm_num) (by
      rw [evalR_atan, abs_of_nonneg (Real.arctan_nonneg.2 z.pos.le)]
      refine (arctan_le_self z.pos.le).trans ?_
      rw [eZ]
      exact div_le_div_of_nonneg_left hQ.le hp2 (by linarith)))
  have hc : |vwn_c p| * (√(4 * p.p3 - p.p2 * p.p2) / p.p2) ≤ 2.4 := by
    have e : vwn_c p * (√(4 * p.p3 - p.p2 * p.p2) / p.p2) =
        2 * (1 - p.p0 * (p.p2 + 2 * p.p0) / (p.p0 * p.p0 + p.p0 * p.p2 + p.p3)) := by
      have := h.X0.ne'
      have := h.t.ne'
      have := hQ.ne'
      rw [vwn_c]
      generalize √(4 * p.p3 - p.p2 * p.p2) = Q at *
      generalize hg : p.p0 * p.p0 + p.p0 * p.p2 + p.p3 = X at *
      generalize hg : p.p2 + 2 * p.p0 = T at *
      field_simp
    rw [← abs_of_pos (div_pos hQ hp2), ← abs_mul, e, abs_mul, abs_two]
    have := h.c
    linarith
  have t1 := t1.mono hc le_rfl
  have s1 := aa_add (l1.mono (d := 45) le_rfl (by norm_num)) (l2.mono (d := 45) le_rfl (by norm_num))
  have s2 := aa_sub (s1.mono (d := 46) le_rfl (by norm_num)) (l3.mono (d := 46) le_rfl (by norm_num))
  have s3 := aa_add (s2.mono (d := 47) le_rfl (by norm_num)) (t1.mono (d := 47) le_rfl (by norm_num))
  have s4 := aa_mul (aa_lit (L := L.toMathLib) (ρ := ρ) (r := r) (0.5 * p.p1) (le_refl _)) (s3.mono (D := 48) (d := 48) (by norm_num) (by norm_num))
  refine s4.mono (le_of_eq ?_) (by norm_num)
  rw [abs_mul, abs_of_pos (by norm_num : (0 : ℝ) < 0.5)]
  ring

theorem ok_vwn5_para : VwnOk vwn5_para := by rw [vwn5_para]; refine VwnOk.of ?_ ?_ ?_ ?_ ?_ ?_ ?_ ?_ ?_ ?_ ?_ <;> norm_num
theorem ok_vwn5_ferro : VwnOk vwn5_ferro := by rw [vwn5_ferro]; refine VwnOk.of ?_ ?_ ?_ ?_ ?_ ?_ ?_ ?_ ?_ ?_ ?_ <;> norm_num
theorem ok_vwn5_inter : VwnOk vwn5_inter := by rw [vwn5_inter]; refine VwnOk.of ?_ ?_ ?_ ?_ ?_ ?_ ?_ ?_ ?_ ?_ ?_ <;> norm_num
theorem ok_vwn3_para : VwnOk vwn3_para := by rw [vwn3_para]; refine VwnOk.of ?_ ?_ ?_ ?_ ?_ ?_ ?_ ?_ ?_ ?_ ?_ <;> norm_num
theorem ok_vwn3_ferro : VwnOk vwn3_ferro := by rw [vwn3_ferro]; refine VwnOk.of ?_ ?_ ?_ ?_ ?_ ?_ ?_ ?_ ?_ ?_ ?_ <;> norm_num

theorem aa_g (G : GivenS L.toMathLib ρ r) : AA L.toMathLib ρ r (1.92366105093154 * (Expr.ufunc d.zeta (4 / 3) - 2)) 14 1358 :=
  (aa_mul (aa_lit (B := 1.924) _ (by norm_num [abs_le])) (aa_ufunc G)).mono (by norm_num) (by norm_num)

theorem aa_vwn5_eps (G : GivenS L.toMathLib ρ r) : AA L.toMathLib ρ r vwn5_eps 49 1434 := by
  have hs := pa_s G
  have f0 := (aa_vwn_f hs ok_vwn5_para).mono (D := 1.5) (d := 50) (by norm_num [vwn5_para, abs_of_pos]) le_rfl
  have f1 := (aa_vwn_f hs ok_vwn5_ferro).mono (D := 0.75) (d := 50) (by norm_num [vwn5_ferro, abs_of_pos]) le_rfl
  have f2 := (aa_vwn_f hs ok_vwn5_inter).mono (D := 0.9) (d := 50) (by
    have := Real.pi_gt_three
    have h1 : (27 : ℝ) ≤ 3 * Real.pi * Real.pi := by nlinarith
    rw [vwn5_inter, abs_neg, Real.rpow_neg_one, abs_of_pos (by positivity)]
    have := inv_anti₀ (by norm_num) h1
    norm_num at this ⊢
    linarith) le_rfl
  have k1 := cbrt_two.1
  have k2 := cbrt_two.2
  have kc := aa_lit (L := L.toMathLib) (ρ := ρ) (r := r) (B := 0.6) (9 / 4 * ((2 : ℝ) ^ (1 / 3 : ℝ) - 1)) (by
    rw [abs_le]; norm_num at k1 k2 ⊢; constructor <;> linarith)
  have x1 := aa_mul (aa_sub f1 f0) (aa_zeta4 G)
  have x2 := aa_mul (aa_mul f2 (aa_one_sub_zeta4 G)) kc
  have x3 := aa_mul (aa_g G) (aa_add (x1.mono (d := 73) le_rfl (by norm_num)) (x2.mono (d := 73) le_rfl (by norm_num)))
  exact (aa_add (f0.mono (d := 1433) le_rfl (by norm_num)) (x3.mono (d := 1433) le_rfl (by norm_num))).mono (by norm_num) (by norm_num)

theorem aa_vwn3_eps (G : GivenS L.toMathLib ρ r) : AA L.toMathLib ρ r vwn3_eps 49 1434 := by
  have hs := pa_s G
  have f0 := (aa_vwn_f hs ok_vwn3_para).mono (D := 1.5) (d := 50) (by norm_num [vwn3_para, abs_of_pos]) le_rfl
  have f1 := (aa_vwn_f hs ok_vwn3_ferro).mono (D := 0.75) (d := 50) (by norm_num [vwn3_ferro, abs_of_pos]) le_rfl
  have x3 := aa_mul (aa_g G) (aa_sub f1 f0)
  exact (aa_add (f0.mono (d := 1433) le_rfl (by norm_num)) (x3.mono (d := 1433) le_rfl (by norm_num))).mono (by norm_num) (by norm_num)

theorem aa_n (G : GivenS L.toMathLib ρ r) : AA L.toMathLib ρ r d.n (r .n) 1 :=
  aa_of_acc G.n.acc (by norm_num) (le_of_eq (abs_of_pos G.n.pos))

theorem aa_vwn5c (G : GivenS L.toMathLib ρ r) : AA L.toMathLib ρ r vwn5c (49 * r .n) 1500 :=
  (aa_mul (aa_n G) (aa_vwn5_eps G)).mono (le_of_eq (mul_comm _ _)) (by norm_num)

theorem aa_vwn3c (G : GivenS L.toMathLib ρ r) : AA L.toMathLib ρ r vwn3c (49 * r .n) 1500 :=
  (aa_mul (aa_n G) (aa_vwn3_eps G)).mono (le_of_eq (mul_comm _ _)) (by norm_num)

end XCFun.RE
