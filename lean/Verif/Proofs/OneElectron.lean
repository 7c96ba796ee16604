/-
Helper lemmas for C83: correlation energies of densities with almost no electrons of one spin.
-/
import Verif.Props.Literature
import Verif.Spec.OneElectron

namespace XCFun.OneE
open XCFun Spec Lit Filter Topology

/-! ### The SCAN family where `τ = τ_W` -/

theorem pol_bounds {z : ℝ} (h0 : -1 ≤ z) (h1 : z ≤ 1) : 1 ≤ pol (4 / 3) z ∧ pol (4 / 3) z ≤ 1.26 := by
  unfold pol
  constructor
  · have e1 := one_add_mul_self_le_rpow_one_add h0 (show (1 : ℝ) ≤ 4 / 3 by norm_num)
    have e2 := one_add_mul_self_le_rpow_one_add (show -1 ≤ -z by linarith) (show (1 : ℝ) ≤ 4 / 3 by norm_num)
    rw [← sub_eq_add_neg] at e2
    linarith
  · have key : ∀ {x : ℝ}, 0 ≤ x → x ≤ 2 → x ^ (4 / 3 : ℝ) ≤ x * 1.26 := by
      intro x hx h2
      rw [show (4 / 3 : ℝ) = 1 + 1 / 3 by norm_num, Real.rpow_add' hx (by norm_num), Real.rpow_one]
      exact mul_le_mul_of_nonneg_left ((Real.rpow_le_rpow hx h2 (by norm_num)).trans Fun.cbrt_two_bounds.2.le) hx
    have e1 := key (show 0 ≤ 1 + z by linarith) (by linarith)
    have e2 := key (show 0 ≤ 1 - z by linarith) (by linarith)
    linarith

theorem gc_bound {z : ℝ} (h0 : -1 ≤ z) (h1 : z ≤ 1) : 0 ≤ gcScan z ∧ gcScan z ≤ 12 * (1 - z) := by
  obtain ⟨p1, p2⟩ := pol_bounds h0 h1
  have hz : 0 ≤ 1 - z ^ 12 := by
    have : z ^ 12 ≤ 1 := by
      rw [show z ^ 12 = (z ^ 2) ^ 6 by ring]
      exact pow_le_one₀ (sq_nonneg z) (by nlinarith)
    linarith
  have hb : 1 - z ^ 12 ≤ 12 * (1 - z) := by
    have := one_add_mul_le_pow (a := z - 1) (by linarith) 12
    rw [show 1 + (z - 1) = z by ring] at this
    push_cast at this
    linarith
  unfold gcScan
  constructor
  · exact mul_nonneg (by nlinarith) hz
  · nlinarith [mul_nonneg (sub_nonneg.2 p1) hz]

theorem ec0_bound {r p z : ℝ} (hr : 0 ≤ r) (hp : 0 ≤ p) (h0 : -1 ≤ z) (h1 : z ≤ 1) :
    -(0.0285764 * (12 * (1 - z))) ≤ ec0Scan r p z ∧ ec0Scan r p z ≤ 0 := by
  obtain ⟨g0, g1⟩ := gc_bound h0 h1
  set E := ecLda0 r with hE
  have hD : 1 ≤ 1 + 0.0889 * √r + 0.125541 * r := by
    have := Real.sqrt_nonneg r
    nlinarith
  have hE0 : E < 0 := by
    rw [hE, ecLda0]
    exact div_neg_of_neg_of_pos (by norm_num) (by linarith)
  have hE1 : -0.0285764 ≤ E := by
    rw [hE, ecLda0, le_div_iff₀ (by linarith)]
    nlinarith
  have hw : 0 < Real.exp (-E / 0.0285764) - 1 := by
    have : 1 < Real.exp (-E / 0.0285764) := Real.one_lt_exp_iff.2 (by apply div_pos <;> linarith)
    linarith
  set w := Real.exp (-E / 0.0285764) - 1 with hwd
  set q := 1 / (1 + 4 * 0.12802585262625815 * p) ^ (1 / 4 : ℝ) with hq
  have hb1 : 1 ≤ (1 + 4 * 0.12802585262625815 * p) ^ (1 / 4 : ℝ) := Real.one_le_rpow (by nlinarith) (by norm_num)
  have hq0 : 0 < q := by positivity
  have hq1 : q ≤ 1 := by rw [hq, div_le_one (by linarith)]; exact hb1
  have hl0 : 0 ≤ Real.log (1 + w * (1 - q)) := Real.log_nonneg (by nlinarith)
  have hl1 : Real.log (1 + w * (1 - q)) ≤ -E / 0.0285764 := by
    rw [← Real.log_exp (-E / 0.0285764)]
    have : 0 ≤ w * q := by positivity
    exact Real.log_le_log (by nlinarith) (by linarith)
  rw [le_div_iff₀ (by norm_num)] at hl1
  have hs : ec0Scan r p z = (E + 0.0285764 * Real.log (1 + w * (1 - q))) * gcScan z := rfl
  rw [hs]
  constructor
  · nlinarith
  · exact mul_nonpos_of_nonpos_of_nonneg (by linarith) g0

/-! ### LYP -/

theorem kinetic_factor : (2 : ℝ) ^ (11 / 3 : ℝ) * (3 / 10 * (3 * Real.pi ^ 2) ^ (2 / 3 : ℝ)) ≤ 36.6 := by
  have h1 : (2 : ℝ) ^ (11 / 3 : ℝ) ≤ 12.701 := by
    rw [show (11 / 3 : ℝ) = 3 + 1 / 3 + 1 / 3 by norm_num, Real.rpow_add two_pos, Real.rpow_add two_pos, show (2 : ℝ) ^ (3 : ℝ) = 8 by norm_num]
    have := Fun.cbrt_two_bounds.2
    have h0 : (0 : ℝ) < 2 ^ (1 / 3 : ℝ) := by positivity
    nlinarith
  have h2 : (3 * Real.pi ^ 2) ^ (2 / 3 : ℝ) ≤ 9.6 := by
    have hp := Real.pi_lt_d4
    have hp0 := Real.pi_pos
    have e : (3 * Real.pi ^ 2) ^ (2 / 3 : ℝ) = ((3 * Real.pi ^ 2) ^ 2) ^ (1 / 3 : ℝ) := by
      rw [← Real.rpow_natCast (3 * Real.pi ^ 2) 2, ← Real.rpow_mul (by positivity)]
      norm_num
    rw [e, show (9.6 : ℝ) = ((9.6 : ℝ) ^ (3 : ℕ)) ^ (1 / 3 : ℝ) by
      rw [← Real.rpow_natCast, ← Real.rpow_mul (by norm_num)]; norm_num]
    refine Real.rpow_le_rpow (by positivity) ?_ (by norm_num)
    have : Real.pi ^ 2 ≤ 9.87 := by nlinarith
    nlinarith [sq_nonneg Real.pi]
  have h3 : (0 : ℝ) < 2 ^ (11 / 3 : ℝ) := by positivity
  have h4 : (0 : ℝ) < (3 * Real.pi ^ 2) ^ (2 / 3 : ℝ) := by positivity
  nlinarith [mul_le_mul h1 h2 h4.le (by norm_num)]

/-- The bracket of the formula, in fractions `t`, `u` of the density; `x` is the damping. -/
theorem lyp_bracket {t u x δ r G : ℝ} (ht : 0 ≤ t) (hu : 0 ≤ u) (htu : t + u = 1) (hr : 0 ≤ r) (hG : 0 ≤ G)
    (hx : x = Real.exp (-0.2533 * r) / (1 + 0.349 * r)) (hδ : δ = 0.2533 * r + 0.349 * r / (1 + 0.349 * r)) :
    0 < x ∧ x ≤ 1 ∧ |x * (G * (t * (1 / 9 - δ / 3 - (δ - 11) * t / 9) - u))| ≤ 2 * G := by
  have hd : 1 ≤ 1 + 0.349 * r := by linarith
  have he : Real.exp (-0.2533 * r) ≤ 1 := Real.exp_le_one_iff.2 (by linarith)
  have he0 := Real.exp_pos (-0.2533 * r)
  have hx0 : 0 < x := by rw [hx]; positivity
  have hxe : x ≤ Real.exp (-0.2533 * r) := by rw [hx]; exact div_le_self he0.le hd
  have hq : 0 ≤ 0.349 * r / (1 + 0.349 * r) ∧ 0.349 * r / (1 + 0.349 * r) ≤ 1 := ⟨by positivity, by rw [div_le_one (by linarith)]; linarith⟩
  have hδ0 : 0 ≤ δ := by rw [hδ]; linarith
  have hxδ : x * δ ≤ 1.4 := by
    have h1 : Real.exp (-0.2533 * r) * (0.2533 * r) ≤ 0.4 := by
      have h := Real.add_one_le_exp (0.2533 * r - 1)
      have h2 : Real.exp (0.2533 * r - 1) * Real.exp (-0.2533 * r) = Real.exp (-1) := by rw [← Real.exp_add]; ring_nf
      have h3 : Real.exp (-1) ≤ 0.4 := by
        rw [Real.exp_neg, inv_le_comm₀ (Real.exp_pos _) (by norm_num)]
        have := Real.exp_one_gt_d9
        norm_num
        linarith
      nlinarith
    have h2 : x * (0.2533 * r) ≤ 0.4 := le_trans (mul_le_mul_of_nonneg_right hxe (by linarith)) h1
    have h3 : x * (0.349 * r / (1 + 0.349 * r)) ≤ 1 := by nlinarith
    rw [hδ]
    linarith
  have hx1 : x ≤ 1 := hxe.trans he
  refine ⟨hx0, hx1, ?_⟩
  have ht1 : t ≤ 1 := by linarith
  have e : x * (G * (t * (1 / 9 - δ / 3 - (δ - 11) * t / 9) - u)) = G * (x * (t / 9 + 11 / 9 * t ^ 2 - u) - x * δ * (t / 3 + t ^ 2 / 9)) := by ring
  have ht2 : 0 ≤ t ^ 2 ∧ t ^ 2 ≤ 1 := ⟨sq_nonneg t, by nlinarith⟩
  have hxδ0 : 0 ≤ x * δ := by positivity
  rw [e, abs_mul, abs_of_nonneg hG, mul_comm]
  refine mul_le_mul_of_nonneg_right (abs_le.2 ⟨?_, ?_⟩) hG
  · have h1 : x * δ * (t / 3 + t ^ 2 / 9) ≤ 1.4 * (4 / 9) := mul_le_mul hxδ (by linarith) (by positivity) (by norm_num)
    have h2 : -1 ≤ x * (t / 9 + 11 / 9 * t ^ 2 - u) := by nlinarith
    linarith
  · have h1 : 0 ≤ x * δ * (t / 3 + t ^ 2 / 9) := by positivity
    have h2 : x * (t / 9 + 11 / 9 * t ^ 2 - u) ≤ 4 / 3 := by nlinarith
    linarith

theorem lyp_form {a b n m r x δ K T G t u : ℝ} (hn : 0 < n) (hm : 0 < m) (ea : a = t * n) (eb : b = u * n) :
    -0.04918 * (4 / (1 + 0.349 * r)) * (a * b / n) - 0.04918 * 0.132 * (x * (1 / (n * m))) *
      (a * b * (K * (T * m) + (47 / 18 - 7 / 18 * δ) * (G + 2 * 0 + 0) - (5 / 2 - 1 / 18 * δ) * (G + 0) - (δ - 11) / 9 * (t * G + u * 0)) -
        2 / 3 * n ^ 2 * (G + 2 * 0 + 0) + (2 / 3 * n ^ 2 - a ^ 2) * 0 + (2 / 3 * n ^ 2 - b ^ 2) * G) =
      -(b * (0.04918 * 4 / (1 + 0.349 * r) * t + 0.04918 * 0.132 * (x * (t * K * T)) +
        0.04918 * 0.132 * (x * (G * (t * (1 / 9 - δ / 3 - (δ - 11) * t / 9) - u))) / m)) := by
  subst ea eb
  generalize 1 + 0.349 * r = y
  have e1 : t * n * (u * n) / n = u * n * t := by field_simp
  rw [e1]
  have : ∀ B : ℝ, x * (1 / (n * m)) * (t * n * (u * n) * (K * (T * m) + B * G) - (u * n) ^ 2 * G) =
      u * n * (x * (t * K * T)) + u * n * (x * (G * (t * B - u))) / m := by
    intro B
    field_simp
    ring
  have h := this (1 / 9 - δ / 3 - (δ - 11) * t / 9)
  linear_combination (-(0.04918 * 0.132)) * h

theorem lyp_sum {t r K T x m G B : ℝ} (ht0 : 0 ≤ t) (ht1 : t ≤ 1) (hr : 0 ≤ r) (hK0 : 0 ≤ K) (hK1 : K ≤ 36.6) (hT0 : 0 ≤ T) (hT1 : T ≤ 1) (hx0 : 0 ≤ x)
    (hx1 : x ≤ 1) (hm0 : 0 < m) (hB : |B| ≤ 2 * G) :
    |0.04918 * 4 / (1 + 0.349 * r) * t + 0.04918 * 0.132 * (x * (t * K * T)) + 0.04918 * 0.132 * B / m| ≤ 0.44 + 0.013 * (G / m) := by
  have h1 : 0 ≤ 0.04918 * 4 / (1 + 0.349 * r) * t ∧ 0.04918 * 4 / (1 + 0.349 * r) * t ≤ 0.04918 * 4 := by
    have : 0.04918 * 4 / (1 + 0.349 * r) ≤ 0.04918 * 4 := div_le_self (by norm_num) (by linarith)
    exact ⟨by positivity, by nlinarith⟩
  have h2 : 0 ≤ x * (t * K * T) ∧ x * (t * K * T) ≤ 36.6 := by
    refine ⟨by positivity, ?_⟩
    have a1 : t * K * T ≤ 1 * 36.6 * 1 := mul_le_mul (mul_le_mul ht1 hK1 hK0 (by norm_num)) hT1 hT0 (by norm_num)
    have a2 : 0 ≤ t * K * T := by positivity
    nlinarith
  generalize 0.04918 * 4 / (1 + 0.349 * r) * t = A at h1 ⊢
  generalize x * (t * K * T) = D at h2 ⊢
  have h3 : |0.04918 * 0.132 * B / m| ≤ 0.013 * (G / m) := by
    rw [abs_div, abs_of_pos hm0, abs_mul, abs_of_pos (show (0 : ℝ) < 0.04918 * 0.132 by norm_num), ← mul_div_assoc]
    refine div_le_div_of_nonneg_right ?_ hm0.le
    nlinarith [abs_nonneg B]
  refine (abs_add_le _ _).trans ?_
  rw [abs_of_nonneg (by linarith [h1.1, h2.1])]
  linarith [h1.2, h2.2]

/-- With `gab = gbb = 0` LYP is proportional to the density of the other spin. -/
theorem lyp_bound {g : Gas} (ha : 0 < g.a) (hb : 0 < g.b) (hg : 0 ≤ g.gaa) (h1 : g.gab = 0) (h2 : g.gbb = 0) :
    |lypC g| ≤ g.b * (0.44 + 0.013 * (g.gaa / g.n ^ (8 / 3 : ℝ))) := by
  obtain ⟨a, b, G, gab, gbb, ta, tb⟩ := g
  simp only at ha hb hg h1 h2
  subst h1 h2
  have hn : 0 < a + b := by linarith
  simp only [lypC, Gas.n, Gas.gnn]
  set n := a + b with hnd
  set r := n ^ (-1 / 3 : ℝ) with hr
  have hr0 : 0 < r := by positivity
  set x := Real.exp (-0.2533 * r) / (1 + 0.349 * r) with hx
  set δ := 0.2533 * r + 0.349 * r / (1 + 0.349 * r) with hδ
  set K := (2 : ℝ) ^ (11 / 3 : ℝ) * (3 / 10 * (3 * Real.pi ^ 2) ^ (2 / 3 : ℝ)) with hK
  have hK0 : 0 < K := by positivity
  have hK1 : K ≤ 36.6 := kinetic_factor
  set t := a / n with ht
  set u := b / n with hu
  have ht0 : 0 < t := by positivity
  have hu0 : 0 < u := by positivity
  have htu : t + u = 1 := by rw [ht, hu, ← add_div, ← hnd, div_self hn.ne']
  have ea : a = t * n := by rw [ht]; field_simp
  have eb : b = u * n := by rw [hu]; field_simp
  obtain ⟨hx0, hx1, hbr⟩ := lyp_bracket ht0.le hu0.le htu hr0.le hg hx hδ
  set m := n ^ (8 / 3 : ℝ) with hm
  have hm0 : 0 < m := by positivity
  have e11 : n ^ (-11 / 3 : ℝ) = 1 / (n * m) := by
    rw [show (-11 / 3 : ℝ) = -(1 + 8 / 3) by norm_num, Real.rpow_neg hn.le, Real.rpow_add hn, Real.rpow_one, one_div]
  set T := t ^ (8 / 3 : ℝ) + u ^ (8 / 3 : ℝ) with hT
  have eT : a ^ (8 / 3 : ℝ) + b ^ (8 / 3 : ℝ) = T * m := by
    rw [ea, eb, Real.mul_rpow ht0.le hn.le, Real.mul_rpow hu0.le hn.le, hT]
    ring
  have hT0 : 0 < T := by positivity
  have hT1 : T ≤ 1 := by
    have key : ∀ {y : ℝ}, 0 < y → y ≤ 1 → y ^ (8 / 3 : ℝ) ≤ y := fun h0 h1 => by
      simpa using Real.rpow_le_rpow_of_exponent_ge h0 h1 (show (1 : ℝ) ≤ 8 / 3 by norm_num)
    have := key ht0 (by linarith)
    have := key hu0 (by linarith)
    linarith
  rw [e11, eT]
  have main := lyp_form (r := r) (x := x) (δ := δ) (K := K) (T := T) (G := G) (t := t) (u := u) hn hm0 ea eb
  rw [main, abs_neg, abs_mul, abs_of_pos hb]
  refine mul_le_mul_of_nonneg_left ?_ hb.le
  exact lyp_sum ht0.le (by linarith) hr0.le hK0.le hK1 hT0.le hT1 hx0.le hx1 hm0 hbr

/-! ### Limits of the PBE correlation energy per electron -/

variable {ι : Type} {l : Filter ι}

theorem pwG_cont {A α β1 β2 β3 β4 r : ℝ} (hA : 0 < A) (h1 : 0 < β1) (h2 : 0 < β2) (h3 : 0 < β3) (h4 : 0 < β4) (hr : 0 < r) :
    ContinuousAt (pwG A α β1 β2 β3 β4) r := by
  have hs : 0 < √r := Real.sqrt_pos.2 hr
  have hd : 0 < 2 * A * (β1 * √r + β2 * r + β3 * r ^ (3 / 2 : ℝ) + β4 * r ^ 2) := by positivity
  have hp : ContinuousAt (fun r : ℝ => r ^ (3 / 2 : ℝ)) r := Real.continuousAt_rpow_const _ _ (.inl hr.ne')
  have hq : ContinuousAt (fun r : ℝ => 2 * A * (β1 * √r + β2 * r + β3 * r ^ (3 / 2 : ℝ) + β4 * r ^ 2)) r :=
    continuousAt_const.mul ((((continuousAt_const.mul Real.continuous_sqrt.continuousAt).add (continuousAt_const.mul continuousAt_id)).add
      (continuousAt_const.mul hp)).add (continuousAt_const.mul (continuousAt_id.pow 2)))
  unfold pwG
  exact (continuousAt_const.mul (continuousAt_const.add (continuousAt_const.mul continuousAt_id))).mul
    ((continuousAt_const.add (continuousAt_const.div hq hd.ne')).log (add_pos one_pos (div_pos one_pos hd)).ne')

theorem rs_tendsto {n : ι → ℝ} {N : ℝ} (hN : 0 < N) (hn : Tendsto n l (𝓝 N)) : Tendsto (fun i => Lit.rs (n i)) l (𝓝 (Lit.rs N)) := by
  have := Real.pi_pos
  unfold Lit.rs
  exact (tendsto_const_nhds.div (tendsto_const_nhds.mul hn) (by positivity)).rpow_const (.inr (by norm_num))

theorem rs_pos' {N : ℝ} (hN : 0 < N) : 0 < Lit.rs N := by
  have := Real.pi_pos
  unfold Lit.rs; positivity

theorem pol_tendsto {p : ℝ} (hp : 0 ≤ p) {z : ι → ℝ} {Z : ℝ} (hz : Tendsto z l (𝓝 Z)) : Tendsto (fun i => pol p (z i)) l (𝓝 (pol p Z)) := by
  unfold pol
  exact (((tendsto_const_nhds.add hz).rpow_const (.inr hp)).add ((tendsto_const_nhds.sub hz).rpow_const (.inr hp))).div_const _

theorem fPol_tendsto {z : ι → ℝ} {Z : ℝ} (hz : Tendsto z l (𝓝 Z)) : Tendsto (fun i => fPol (z i)) l (𝓝 (fPol Z)) := by
  unfold fPol
  exact ((((tendsto_const_nhds.add hz).rpow_const (.inr (by norm_num))).add ((tendsto_const_nhds.sub hz).rpow_const (.inr (by norm_num)))).sub_const _).div_const _

theorem pw92Eps_tendsto {n z : ι → ℝ} {N Z : ℝ} (hN : 0 < N) (hn : Tendsto n l (𝓝 N)) (hz : Tendsto z l (𝓝 Z)) :
    Tendsto (fun i => pw92Eps (n i) (z i)) l (𝓝 (pw92Eps N Z)) := by
  have hr := rs_tendsto hN hn
  have r0 := rs_pos' hN
  have hP : Tendsto (fun i => pw92P (Lit.rs (n i))) l (𝓝 (pw92P (Lit.rs N))) :=
    (pwG_cont (by norm_num) (by norm_num) (by norm_num) (by norm_num) (by norm_num) r0).tendsto.comp hr
  have hF : Tendsto (fun i => pw92F (Lit.rs (n i))) l (𝓝 (pw92F (Lit.rs N))) :=
    (pwG_cont (by norm_num) (by norm_num) (by norm_num) (by norm_num) (by norm_num) r0).tendsto.comp hr
  have hS : Tendsto (fun i => pw92S (Lit.rs (n i))) l (𝓝 (pw92S (Lit.rs N))) :=
    (pwG_cont (by norm_num) (by norm_num) (by norm_num) (by norm_num) (by norm_num) r0).tendsto.comp hr
  have hf := fPol_tendsto hz
  unfold pw92Eps
  exact (hP.sub (((hS.mul hf).div_const _).mul (tendsto_const_nhds.sub (hz.pow 4)))).add (((hF.sub hP).mul hf).mul (hz.pow 4))

theorem fPol_one : fPol 1 = 1 := by
  unfold fPol
  have h : (2 : ℝ) < 2 ^ (4 / 3 : ℝ) := by
    simpa using Real.rpow_lt_rpow_of_exponent_lt (show (1 : ℝ) < 2 by norm_num) (show (1 : ℝ) < 4 / 3 by norm_num)
  rw [show (1 : ℝ) + 1 = 2 by norm_num, sub_self, Real.zero_rpow (by norm_num), add_zero, div_self (by linarith)]

theorem phi_one : 0 < Lit.phi 1 := by
  unfold Lit.phi pol
  rw [sub_self, Real.zero_rpow (by norm_num)]
  positivity

theorem pw92Eps_one {N : ℝ} (hN : 0 < N) : pw92Eps N 1 < 0 := by
  have e : pw92Eps N 1 = pw92F (Lit.rs N) := by
    unfold pw92Eps
    rw [fPol_one]
    ring
  have r0 := rs_pos' hN
  have hs : 0 < √(Lit.rs N) := Real.sqrt_pos.2 r0
  rw [e, pw92F, pwG]
  have h0 : 0 < 1 / (2 * 0.01554535 * (14.1189 * √(Lit.rs N) + 6.1977 * Lit.rs N + 3.3662 * Lit.rs N ^ (3 / 2 : ℝ) + 0.62517 * Lit.rs N ^ 2)) := by positivity
  have : 0 < Real.log (1 + 1 / (2 * 0.01554535 * (14.1189 * √(Lit.rs N) + 6.1977 * Lit.rs N + 3.3662 * Lit.rs N ^ (3 / 2 : ℝ) + 0.62517 * Lit.rs N ^ 2))) :=
    Real.log_pos (by linarith)
  have h2 : 0 < 2 * 0.01554535 * (1 + 0.20548 * Lit.rs N) := by positivity
  nlinarith [mul_pos h2 this]

theorem tSq_tendsto {n z G : ι → ℝ} {N Z G0 : ℝ} (hN : 0 < N) (hZ : 0 < Lit.phi Z) (hn : Tendsto n l (𝓝 N)) (hz : Tendsto z l (𝓝 Z))
    (hG : Tendsto G l (𝓝 G0)) : Tendsto (fun i => tSq (n i) (z i) (G i)) l (𝓝 (tSq N Z G0)) := by
  have := Real.pi_pos
  have hk : 0 < ks N := by unfold ks kF; positivity
  have hks : Tendsto (fun i => ks (n i)) l (𝓝 (ks N)) := by
    unfold ks kF
    exact (((tendsto_const_nhds.mul ((tendsto_const_nhds.mul hn).rpow_const (.inr (by norm_num)))).div_const _)).sqrt
  have hφ : Tendsto (fun i => Lit.phi (z i)) l (𝓝 (Lit.phi Z)) := pol_tendsto (by norm_num) hz
  unfold tSq
  exact hG.div ((((tendsto_const_nhds.mul hφ).mul hks).mul hn).pow 2) (by positivity)

theorem gamma_pos : 0 < gammaPBE := by
  have := Real.log_two_lt_d9
  have := Real.pi_pos
  unfold gammaPBE
  exact div_pos (by linarith) (by positivity)

theorem pbeEps_tendsto {β n z G : ι → ℝ} {B N Z G0 : ℝ} (hB : 0 < B) (hN : 0 < N) (hZ : 0 < Lit.phi Z) (hE : pw92Eps N Z < 0) (hG0 : 0 ≤ G0)
    (hβ : Tendsto β l (𝓝 B)) (hn : Tendsto n l (𝓝 N)) (hz : Tendsto z l (𝓝 Z)) (hG : Tendsto G l (𝓝 G0)) :
    Tendsto (fun i => pbeEps (β i) (n i) (z i) (G i)) l (𝓝 (pbeEps B N Z G0)) := by
  have hγ := gamma_pos
  have hε := pw92Eps_tendsto hN hn hz
  have ht := tSq_tendsto hN hZ hn hz hG
  have hφ : Tendsto (fun i => Lit.phi (z i)) l (𝓝 (Lit.phi Z)) := pol_tendsto (by norm_num) hz
  have t0 : 0 ≤ tSq N Z G0 := by unfold tSq; positivity
  have hw : 0 < Real.exp (-pw92Eps N Z / (gammaPBE * Lit.phi Z ^ 3)) - 1 := by
    have : 1 < Real.exp (-pw92Eps N Z / (gammaPBE * Lit.phi Z ^ 3)) := Real.one_lt_exp_iff.2 (div_pos (by linarith) (by positivity))
    linarith
  have hA : Tendsto (fun i => pbeA (β i) (pw92Eps (n i) (z i)) (z i)) l (𝓝 (pbeA B (pw92Eps N Z) Z)) := by
    unfold pbeA
    exact (hβ.div_const _).div (((Real.continuous_exp.continuousAt.tendsto.comp (hε.neg.div (tendsto_const_nhds.mul (hφ.pow 3)) (by positivity)))).sub_const _) hw.ne'
  have A0 : 0 < pbeA B (pw92Eps N Z) Z := by unfold pbeA; positivity
  have hD : 0 < 1 + pbeA B (pw92Eps N Z) Z * tSq N Z G0 + pbeA B (pw92Eps N Z) Z ^ 2 * tSq N Z G0 ^ 2 := by positivity
  unfold pbeEps pbeH
  refine hε.add ((tendsto_const_nhds.mul (hφ.pow 3)).mul (Tendsto.log (tendsto_const_nhds.add (((hβ.div_const _).mul ht).mul
    ((tendsto_const_nhds.add (hA.mul ht)).div ((tendsto_const_nhds.add (hA.mul ht)).add ((hA.pow 2).mul (ht.pow 2))) hD.ne'))) ?_))
  positivity

/-! ### TPSS -/

theorem tpssCz_bound {g : Gas} {c0 c1 c2 c3 : ℝ} (h0 : 0 ≤ c0) (h1 : 0 ≤ c1) (h2 : 0 ≤ c2) (h3 : 0 ≤ c3) (ha : 0 < g.a) (hb : 0 < g.b)
    (hm : 0 ≤ g.b ^ 2 * g.gaa - 2 * g.a * g.b * g.gab + g.a ^ 2 * g.gbb) : |tpssCz g c0 c1 c2 c3| ≤ c0 + c1 + c2 + c3 := by
  have hn : 0 < g.n := by unfold Gas.n; linarith
  have hz1 : g.zeta ≤ 1 := by unfold Gas.zeta; rw [div_le_one hn]; unfold Gas.n; linarith
  have hz0 : -1 ≤ g.zeta := by unfold Gas.zeta; rw [le_div_iff₀ hn]; unfold Gas.n; linarith
  have hz2 : g.zeta ^ 2 ≤ 1 := by nlinarith
  have hz4 : g.zeta ^ 4 ≤ 1 := by rw [show g.zeta ^ 4 = (g.zeta ^ 2) ^ 2 by ring]; exact pow_le_one₀ (sq_nonneg _) hz2
  have hz6 : g.zeta ^ 6 ≤ 1 := by rw [show g.zeta ^ 6 = (g.zeta ^ 2) ^ 3 by ring]; exact pow_le_one₀ (sq_nonneg _) hz2
  have hx : 0 ≤ xiSq g * pol (-4 / 3) g.zeta := by
    unfold xiSq gradZetaSq pol
    have h1 : 0 ≤ (1 + g.zeta) ^ (-4 / 3 : ℝ) := Real.rpow_nonneg (by linarith) _
    have h2 : 0 ≤ (1 - g.zeta) ^ (-4 / 3 : ℝ) := Real.rpow_nonneg (by linarith) _
    exact mul_nonneg (div_nonneg (div_nonneg (mul_nonneg (by norm_num) hm) (by positivity)) (sq_nonneg _)) (by linarith)
  have hd : 1 ≤ (1 + xiSq g * pol (-4 / 3) g.zeta) ^ 4 := one_le_pow₀ (by linarith)
  have hN : 0 ≤ c0 + c1 * g.zeta ^ 2 + c2 * g.zeta ^ 4 + c3 * g.zeta ^ 6 := by positivity
  unfold tpssCz
  rw [abs_of_nonneg (div_nonneg hN (by linarith))]
  refine (div_le_self hN hd).trans ?_
  nlinarith

variable {g : ι → Gas} {n g2 : ℝ}

theorem n_tendsto (h : ToOneElectron l g n g2) : Tendsto (fun i => (g i).n) l (𝓝 n) := by
  simpa [Gas.n] using h.a.add h.b

theorem zeta_tendsto (h : ToOneElectron l g n g2) : Tendsto (fun i => (g i).zeta) l (𝓝 1) := by
  have := (h.a.sub h.b).div (n_tendsto h) h.n_pos.ne'
  rw [sub_zero, div_self h.n_pos.ne'] at this
  exact this

theorem gnn_tendsto (h : ToOneElectron l g n g2) : Tendsto (fun i => (g i).gnn) l (𝓝 g2) := by
  have := (h.gaa.add (tendsto_const_nhds (x := (2 : ℝ)).mul h.gab)).add h.gbb
  rw [mul_zero, add_zero, add_zero] at this
  exact this

theorem indicator_tendsto (h : ToOneElectron l g n g2) : Tendsto (fun i => Lit.tauW (g i).n (g i).gnn / (g i).tau) l (𝓝 1) := by
  have hn := h.n_pos
  have hg := h.g2_pos
  have h1 : Tendsto (fun i => Lit.tauW (g i).n (g i).gnn) l (𝓝 (g2 / (8 * n))) := (gnn_tendsto h).div (tendsto_const_nhds.mul (n_tendsto h)) (by positivity)
  have := h1.div h.tau (by positivity)
  rw [div_self (by positivity)] at this
  exact this

theorem abs_max_le {x e : ℝ} (hx : x ≤ 0) : |max x e| ≤ |e| := by
  rcases le_total x e with h | h
  · rw [max_eq_right h]
  · rw [max_eq_left h, abs_of_nonpos hx, abs_of_nonpos (h.trans hx)]
    linarith

theorem revPKZB_tendsto (h : ToOneElectron l g n g2) {ε : ℝ → ℝ → ℝ → ℝ} {C : ι → ℝ} {M e0 : ℝ} (hC : ∀ i, |C i| ≤ M)
    (h1 : Tendsto (fun i => ε (g i).n (g i).zeta (g i).gnn) l (𝓝 e0)) (h2 : Tendsto (fun i => ε (g i).a 1 (g i).gaa) l (𝓝 e0))
    (h3 : ∀ i, ε (g i).b 1 (g i).gbb ≤ 0) : Tendsto (fun i => revPKZB (g i) ε (C i)) l (𝓝 0) := by
  have hz := indicator_tendsto h
  have hn := n_tendsto h
  have hb0 : Tendsto (fun i => (g i).b / (g i).n * max (ε (g i).b 1 (g i).gbb) (ε (g i).n (g i).zeta (g i).gnn)) l (𝓝 0) := by
    have hq : Tendsto (fun i => (g i).b / (g i).n * |ε (g i).n (g i).zeta (g i).gnn|) l (𝓝 0) := by
      have := (h.b.div hn h.n_pos.ne').mul h1.abs
      rw [zero_div, zero_mul] at this
      exact this
    refine squeeze_zero_norm (fun i => ?_) hq
    have : 0 ≤ (g i).b / (g i).n := div_nonneg (h.b_pos i).le (by have := h.a_pos i; have := h.b_pos i; unfold Gas.n; linarith)
    rw [Real.norm_eq_abs, abs_mul, abs_of_nonneg this]
    exact mul_le_mul_of_nonneg_left (abs_max_le (h3 i)) this
  have hS : Tendsto (fun i => (g i).a / (g i).n * max (ε (g i).a 1 (g i).gaa) (ε (g i).n (g i).zeta (g i).gnn) +
      (g i).b / (g i).n * max (ε (g i).b 1 (g i).gbb) (ε (g i).n (g i).zeta (g i).gnn)) l (𝓝 e0) := by
    have := ((h.a.div hn h.n_pos.ne').mul (h2.max h1)).add hb0
    rw [div_self h.n_pos.ne', one_mul, max_self, add_zero] at this
    exact this
  have hA := h1.sub ((hz.pow 2).mul hS)
  have hB := (hz.pow 2).mul (h1.sub hS)
  rw [one_pow, one_mul, sub_self] at hA
  rw [sub_self, mul_zero] at hB
  have hD := bdd_le_mul_tendsto_zero' M (Eventually.of_forall hC) hB
  have := hA.add hD
  rw [add_zero] at this
  refine this.congr fun i => ?_
  unfold revPKZB
  ring

theorem tpssLike_tendsto (h : ToOneElectron l g n g2) {ε : ℝ → ℝ → ℝ → ℝ} {C : ι → ℝ} {M e0 : ℝ} (d : ℝ) (k : ℕ) (hC : ∀ i, |C i| ≤ M)
    (h1 : Tendsto (fun i => ε (g i).n (g i).zeta (g i).gnn) l (𝓝 e0)) (h2 : Tendsto (fun i => ε (g i).a 1 (g i).gaa) l (𝓝 e0))
    (h3 : ∀ i, ε (g i).b 1 (g i).gbb ≤ 0) : Tendsto (fun i => tpssLikeC (g i) ε (C i) d k) l (𝓝 0) := by
  have hR := revPKZB_tendsto h hC h1 h2 h3
  have := (n_tendsto h).mul (hR.mul ((tendsto_const_nhds (x := (1 : ℝ))).add ((tendsto_const_nhds (x := d).mul hR).mul ((indicator_tendsto h).pow k))))
  rw [zero_mul, mul_zero] at this
  exact this

/-- PBE with a coefficient `β` that depends on density and gradient. -/
theorem pbe_limits (h : ToOneElectron l g n g2) {β : ℝ → ℝ → ℝ → ℝ} (hβ : ∀ n z g, 0 < n → 0 ≤ g → 0 < β n z g)
    (h1 : Tendsto (fun i => β (g i).n (g i).zeta (g i).gnn) l (𝓝 (β n 1 g2))) (h2 : Tendsto (fun i => β (g i).a 1 (g i).gaa) l (𝓝 (β n 1 g2))) :
    Tendsto (fun i => pbeEps (β (g i).n (g i).zeta (g i).gnn) (g i).n (g i).zeta (g i).gnn) l (𝓝 (pbeEps (β n 1 g2) n 1 g2)) ∧
    Tendsto (fun i => pbeEps (β (g i).a 1 (g i).gaa) (g i).a 1 (g i).gaa) l (𝓝 (pbeEps (β n 1 g2) n 1 g2)) ∧
    (∀ i, pbeEps (β (g i).b 1 (g i).gbb) (g i).b 1 (g i).gbb ≤ 0) ∧ pbeEps (β n 1 g2) n 1 g2 < 0 := by
  have hB := hβ n 1 g2 h.n_pos h.g2_pos.le
  have hE := pw92Eps_one h.n_pos
  exact ⟨pbeEps_tendsto hB h.n_pos phi_one hE h.g2_pos.le h1 (n_tendsto h) (zeta_tendsto h) (gnn_tendsto h),
    pbeEps_tendsto hB h.n_pos phi_one hE h.g2_pos.le h2 h.a tendsto_const_nhds h.gaa,
    fun i => (Fun.pbeEps_neg (hβ _ _ _ (h.b_pos i) (h.gbb_nonneg i)) (h.b_pos i) phi_one (h.gbb_nonneg i) (pw92Eps_one (h.b_pos i))).le,
    Fun.pbeEps_neg hB h.n_pos phi_one h.g2_pos.le hE⟩

theorem betaRs_tendsto {m : ι → ℝ} (hn : 0 < n) (hm : Tendsto m l (𝓝 n)) : Tendsto (fun i => betaRs (Lit.rs (m i))) l (𝓝 (betaRs (Lit.rs n))) := by
  have hr := rs_tendsto hn hm
  have h0 := rs_pos' hn
  unfold betaRs
  exact (tendsto_const_nhds.mul (tendsto_const_nhds.add (tendsto_const_nhds.mul hr))).div (tendsto_const_nhds.add (tendsto_const_nhds.mul hr)) (by positivity)

/-- The coefficient of PBEloc. -/
noncomputable def locBeta (n z g2 : ℝ) : ℝ := 0.0375 + 0.08 * tSq n z g2 * (1 - Real.exp (-Lit.rs n ^ 2))

theorem locBeta_pos {n z g2 : ℝ} (hg : 0 ≤ g2) : 0 < locBeta n z g2 := by
  have : Real.exp (-Lit.rs n ^ 2) ≤ 1 := Real.exp_le_one_iff.2 (by nlinarith [sq_nonneg (Lit.rs n)])
  have h1 : 0 ≤ tSq n z g2 := by unfold tSq; positivity
  have : 0 ≤ 0.08 * tSq n z g2 * (1 - Real.exp (-Lit.rs n ^ 2)) := mul_nonneg (by positivity) (by linarith)
  unfold locBeta
  linarith

theorem locBeta_tendsto {m z G : ι → ℝ} (hn : 0 < n) (hm : Tendsto m l (𝓝 n)) (hz : Tendsto z l (𝓝 1)) (hG : Tendsto G l (𝓝 g2)) :
    Tendsto (fun i => locBeta (m i) (z i) (G i)) l (𝓝 (locBeta n 1 g2)) := by
  unfold locBeta
  exact tendsto_const_nhds.add ((tendsto_const_nhds.mul (tSq_tendsto hn phi_one hm hz hG)).mul
    (tendsto_const_nhds.sub (Real.continuous_exp.continuousAt.tendsto.comp ((rs_tendsto hn hm).pow 2).neg)))

end XCFun.OneE
