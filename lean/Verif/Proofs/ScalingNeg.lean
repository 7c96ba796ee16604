/-
Scaling of the SCAN exchange functionals away from their thresholds, and functionals that do not scale.
-/
import Verif.Proofs.ScalingFun
import Mathlib.Analysis.Real.Pi.Bounds

namespace XCFun.Fun
open Spec Expr

/-! ### SCAN exchange with the branches of the thresholds taken -/

noncomputable section

/-- `get_SCAN_Fx` (SCAN_like_eps.hpp:75-130) with `abs(d_tau - tauw) > 1.0e-14` and `abs(d_g) > 1.0e-16`. -/
def scanFxFar (d_n d_g d_tau : Expr Field) (IALPHA IINTERP IDELFX : ℕ) : Expr Field :=
  let tauw := d_g / (8 * d_n)
  let tauUnif := (0.3 * kF2 : ℝ) * pow d_n (5 / 3)
  let alpha := if IALPHA = 0 then (d_tau - tauw) / tauUnif else (d_tau - tauw) / (tauUnif + ETA * tauw)
  let p := d_g / ((4 * kF2 : ℝ) * pow d_n (8 / 3))
  SCAN_X_Fx p alpha IINTERP IDELFX

/-- `scanX` away from the thresholds. -/
def scanXFar (IALPHA IINTERP IDELFX : ℕ) : Expr Field :=
  let Fx_a := scanFxFar (2 * d.a) (4 * d.gaa) (2 * d.taua) IALPHA IINTERP IDELFX
  let epsxunif_a := fx_unif (2 * d.a)
  let Fx_b := scanFxFar (2 * d.b) (4 * d.gbb) (2 * d.taub) IALPHA IINTERP IDELFX
  let epsxunif_b := fx_unif (2 * d.b)
  0.5 * (Fx_a * epsxunif_a + Fx_b * epsxunif_b)

end

theorem Deg.pow0 {x : Expr Field} {m : ℝ} (c : ℝ) (hx : Deg x 0) (e : m = 0) : Deg (x.pow c) m := ⟨fun hg h => by
  rw [Expr.evalR_pow, Expr.evalR_pow, hx.eq hg h, e, Real.rpow_zero, one_mul, one_mul]⟩

theorem Deg.ieSum {x : Expr Field} (hx : Deg x 0) (c : List ℝ) : Deg (ieSum c x) 0 := by
  unfold Fun.ieSum
  have : ∀ (l : List (ℝ × ℕ)) (acc : Expr Field), Deg acc 0 →
      Deg (l.foldl (fun acc p => acc + p.1 * Expr.npow x p.2) acc) 0 := by
    intro l
    induction l with
    | nil => intro acc h; exact h
    | cons p l ih =>
      intro acc h
      exact ih _ (.add h (.mul (.lit _ rfl) (.npow hx (m := 0) (by simp)) (by simp)))
  exact this _ _ .zero

theorem deg_SCAN_X_Fx {p alpha : Expr Field} (hp : Deg p 0) (ha : Deg alpha 0) {i j : ℕ} (hi : i < 2) (hj : j < 3) :
    Deg (SCAN_X_Fx p alpha i j) 0 := by
  have homa : Deg (1 - alpha) 0 := .sub (.lit _ rfl) ha
  have h1 : Deg (scanIef i 0.667 0.8 1.24 IEx alpha) 0 := by
    have h0 := Deg.ieSum ha IEx
    rcases i with _ | _ | i
    · unfold scanIef
      simp only [if_true]
      repeat' (first | exact ha | exact homa | deg_step)
    · unfold scanIef
      simp only [if_true, Nat.zero_add, one_ne_zero, if_false]
      repeat' (first | exact h0 | exact ha | exact homa | deg_step)
    · omega
  have h2 : Deg (scanH1x j p (1 - alpha)) 0 := by
    rcases j with _ | _ | _ | j
    · unfold scanH1x
      simp only [if_true]
      repeat' (first | exact hp | exact homa | deg_step)
    · unfold scanH1x scanC2
      simp only [if_true, Nat.zero_add, one_ne_zero, if_false, true_or]
      repeat' (first | exact hp | exact homa | deg_step)
    · unfold scanH1x scanC2
      simp only [if_true, Nat.reduceAdd, OfNat.ofNat_ne_zero, if_false, or_true]
      repeat' (first | exact hp | exact homa | deg_step)
    · omega
  have h3 : Deg (scanDelFx j p alpha (1 - alpha)) 0 := by
    rcases j with _ | _ | _ | j
    · exact .zero
    · exact .zero
    · unfold scanDelFx scanC2
      simp only [if_true, Nat.reduceAdd]
      repeat' (first | exact hp | exact ha | exact homa | deg_step)
    · omega
  have h4 : Deg (pow p (1 / 4)) 0 := .pow0 _ hp rfl
  unfold SCAN_X_Fx
  repeat' (first | exact h1 | exact h2 | exact h3 | exact h4 | deg_step)

theorem deg_scanXFar {k i j : ℕ} (hi : i < 2) (hj : j < 3) : Deg (scanXFar k i j) 4 := by
  have hp : ∀ n g : Expr Field, Nn n → Deg n 3 → Deg g 8 → Deg (g / ((4 * kF2 : ℝ) * pow n (8 / 3))) 0 := fun n g h0 h1 h2 =>
    .div h2 (.mul (.lit _ rfl) (.pow _ h0 h1 rfl) rfl) (by norm_num)
  have key : ∀ n g t : Expr Field, Nn n → Deg n 3 → Deg g 8 → Deg t 5 → Deg (scanFxFar n g t k i j) 0 := by
    intro n g t h0 h1 h2 h3
    refine deg_SCAN_X_Fx (hp n g h0 h1 h2) ?_ hi hj
    have hw : Deg (g / (8 * n)) 5 := .div h2 (.mul (.lit _ rfl) h1 rfl) (by norm_num)
    have hu : Deg ((0.3 * kF2 : ℝ) * pow n (5 / 3)) 5 := .mul (.lit _ rfl) (.pow _ h0 h1 rfl) (by norm_num)
    split
    · exact .div (.sub h3 hw) hu (by norm_num)
    · exact .div (.sub h3 hw) (.add hu (.mul (.lit _ rfl) hw (by norm_num))) (by norm_num)
  have ha := key (2 * d.a) (4 * d.gaa) (2 * d.taua) (by nn) (by deg) (by deg) (by deg)
  have hb := key (2 * d.b) (4 * d.gbb) (2 * d.taub) (by nn) (by deg) (by deg) (by deg)
  unfold scanXFar
  repeat' (first | exact ha | exact hb | deg_step)

theorem ieSum_congr {x y : Expr Field} {ρ σ : Field → ℝ} (h : x.evalR ρ = y.evalR σ) (c : List ℝ) :
    (ieSum c x).evalR ρ = (ieSum c y).evalR σ := by
  unfold Fun.ieSum
  have : ∀ (l : List (ℝ × ℕ)) (u v : Expr Field), u.evalR ρ = v.evalR σ →
      (l.foldl (fun acc p => acc + p.1 * Expr.npow x p.2) u).evalR ρ =
      (l.foldl (fun acc p => acc + p.1 * Expr.npow y p.2) v).evalR σ := by
    intro l
    induction l with
    | nil => intro u v h; exact h
    | cons p l ih =>
      intro u v huv
      refine ih _ _ ?_
      rw [evalR_add, evalR_add, evalR_mul, evalR_mul, evalR_npow, evalR_npow, h, huv]
      rfl
  exact this _ _ _ rfl

theorem SCAN_X_Fx_congr {p q x y : Expr Field} {ρ : Field → ℝ} (hp : p.evalR ρ = q.evalR ρ) (h : x.evalR ρ = y.evalR ρ)
    {i j : ℕ} (hi : i < 2) (hj : j < 3) : (SCAN_X_Fx p x i j).evalR ρ = (SCAN_X_Fx q y i j).evalR ρ := by
  have hs := ieSum_congr h IEx
  have h1 : (scanIef i 0.667 0.8 1.24 IEx x).evalR ρ = (scanIef i 0.667 0.8 1.24 IEx y).evalR ρ := by
    rcases i with _ | _ | i
    · simp [scanIef, h]
    · simp [scanIef, h, hs]
    · omega
  have h2 : (scanH1x j p (1 - x)).evalR ρ = (scanH1x j q (1 - y)).evalR ρ := by
    rcases j with _ | _ | _ | j
    · simp [scanH1x, h, hp]
    · simp [scanH1x, hp]
    · simp [scanH1x, hp]
    · omega
  have h3 : (scanDelFx j p x (1 - x)).evalR ρ = (scanDelFx j q y (1 - y)).evalR ρ := by
    rcases j with _ | _ | _ | j
    · rfl
    · rfl
    · simp [scanDelFx, h, hp]
    · omega
  unfold SCAN_X_Fx
  simp [h1, h2, h3, hp]

theorem evalR_scanX {ρ : Field → ℝ} (ha : FarSpin (ρ .a) (ρ .gaa) (ρ .taua)) (hb : FarSpin (ρ .b) (ρ .gbb) (ρ .taub))
    {k i j : ℕ} (hk : k = 0 ∨ k = 2) (hi : i < 2) (hj : j < 3) : (scanX k i j).evalR ρ = (scanXFar k i j).evalR ρ := by
  have key : ∀ n g t : Expr Field, 1e-14 < |t.evalR ρ - g.evalR ρ / (8 * n.evalR ρ)| → 1e-16 < |g.evalR ρ| →
      (get_SCAN_Fx n g t k i j).evalR ρ = (scanFxFar n g t k i j).evalR ρ := by
    intro n g t h1 h2
    refine SCAN_X_Fx_congr ?_ ?_ hi hj
    · rw [evalR_iflt, if_pos (by rw [evalR_abs, evalR_ofScientific]; refine lt_of_eq_of_lt ?_ h2; norm_num)]
    · rcases hk with rfl | rfl
      · simp only [scanAlpha, if_true, zero_ne_one, if_false]
        rw [evalR_iflt, if_pos (by simp only [evalR_abs, evalR_sub, evalR_div, evalR_mul, evalR_ofNat, evalR_ofScientific]; refine lt_of_eq_of_lt ?_ h1; norm_num)]
      · simp only [scanAlpha, if_true, OfNat.ofNat_ne_zero, if_false, OfNat.ofNat_ne_one]
        rw [evalR_iflt, if_pos (by simp only [evalR_abs, evalR_sub, evalR_div, evalR_mul, evalR_ofNat, evalR_ofScientific]; refine lt_of_eq_of_lt ?_ h1; norm_num)]
        
  have ka := key (2 * d.a) (4 * d.gaa) (2 * d.taua) ha.1 ha.2
  have kb := key (2 * d.b) (4 * d.gbb) (2 * d.taub) hb.1 hb.2
  unfold scanX scanXFar
  simp only [evalR_mul, evalR_add, ka, kb]

theorem scan_scale {k i j : ℕ} (hk : k = 0 ∨ k = 2) (hi : i < 2) (hj : j < 3) {g : ℝ} (hg : 0 < g) {ρ : Field → ℝ}
    (h : Pos ρ) (ha : FarSpin (ρ .a) (ρ .gaa) (ρ .taua)) (hb : FarSpin (ρ .b) (ρ .gbb) (ρ .taub))
    (ha' : FarSpin (g ^ 3 * ρ .a) (g ^ 8 * ρ .gaa) (g ^ 5 * ρ .taua))
    (hb' : FarSpin (g ^ 3 * ρ .b) (g ^ 8 * ρ .gbb) (g ^ 5 * ρ .taub)) :
    (scanX k i j).evalR (scaleField g ρ) = g ^ 4 * (scanX k i j).evalR ρ := by
  rw [evalR_scanX (by exact_mod_cast ha') (by exact_mod_cast hb') hk hi hj, evalR_scanX ha hb hk hi hj,
    (deg_scanXFar hi hj).eq hg h]
  norm_cast

/-! ### Functionals that do not scale -/

theorem deg_tw : Deg tw 13 := by
  have h8 : Deg (d.gaa + d.gbb) 8 := by deg
  have h16 : Deg (pow (d.gaa + d.gbb) 2) 16 := ⟨fun {g ρ} hg h => by
    rw [evalR_pow, evalR_pow, h8.eq hg h]
    have e : ∀ y : ℝ, y ^ (2 : ℝ) = y ^ 2 := fun y => by exact_mod_cast Real.rpow_natCast y 2
    rw [e, e, mul_pow, show (16 : ℝ) = 8 + 8 by norm_num, Real.rpow_add hg]
    ring⟩
  exact .div (k := 16) (.mul (.lit _ rfl) h16 (by norm_num)) (.var _ rfl) (by norm_num [fieldDeg])

theorem ktx_not_scale : ∃ (g : ℝ) (ρ : Field → ℝ), 0 < g ∧ Pos ρ ∧ ktx.evalR (scaleField g ρ) ≠ g ^ 4 * ktx.evalR ρ := by
  refine ⟨2, fun _ => 1, by norm_num, ⟨by norm_num, by norm_num, by norm_num⟩, ?_⟩
  have e : ((2 : ℝ) ^ (3 : ℤ)) ^ (4 / 3 : ℝ) = 16 := by
    rw [show ((2 : ℝ) ^ (3 : ℤ)) = (2 : ℝ) ^ (3 : ℝ) by norm_cast, ← Real.rpow_mul (by norm_num)]
    norm_num
  simp only [ktx, evalR_add, evalR_div, evalR_pow, evalR_lit]
  show 2 ^ (8 : ℤ) * 1 / (0.1 + (2 ^ (3 : ℤ) * 1) ^ (4 / 3 : ℝ)) + 2 ^ (8 : ℤ) * 1 / (0.1 + (2 ^ (3 : ℤ) * 1) ^ (4 / 3 : ℝ)) ≠
    2 ^ 4 * (1 / (0.1 + 1 ^ (4 / 3 : ℝ)) + 1 / (0.1 + 1 ^ (4 / 3 : ℝ)))
  rw [mul_one, mul_one, e, Real.one_rpow]
  norm_num

/-- The witness for REVTPSSX: `n = 1`, `p = 1/1000`, `alpha = 1`. -/
noncomputable def revWitness : Field → ℝ
  | .a | .b => 1 / 2
  | .n => 1
  | .gaa | .gbb => kF2 / 1000
  | .taua | .taub => (kF2 / 2000 + 0.3 * kF2) / 2
  | _ => 0

theorem kF2_pos : 0 < kF2 := by unfold kF2 PI2; positivity

theorem kF2_le : kF2 ≤ 30 := by
  have h1 : 3 * PI2 ≤ 30 := by
    unfold PI2
    nlinarith [Real.pi_lt_d2, Real.pi_pos]
  have h2 : (0 : ℝ) ≤ 3 * PI2 := by unfold PI2; positivity
  calc kF2 ≤ (30 : ℝ) ^ (2 / 3 : ℝ) := Real.rpow_le_rpow h2 h1 (by norm_num)
    _ ≤ (30 : ℝ) ^ (1 : ℝ) := Real.rpow_le_rpow_of_exponent_le (by norm_num) (by norm_num)
    _ = 30 := Real.rpow_one _

/-- The value of `x` along the scaled witnesses: everything but the square root is constant. -/
theorem revtpssx_x_witness : ∃ C D : ℝ, 0 ≤ C ∧ 1 ≤ D ∧ ∀ g : ℝ, 0 < g → ∀ n G T : Expr Field,
    n.evalR (scaleField g revWitness) = g ^ 3 → G.evalR (scaleField g revWitness) = g ^ 8 * (4 * kF2 / 1000) →
    T.evalR (scaleField g revWitness) = g ^ 5 * (kF2 / 2000 + 0.3 * kF2) →
    (revtpssx_x n G T).evalR (scaleField g revWitness) =
      (C - 73 / 405 * (2 / 3000) * √(0.18 * (1 / 601) ^ 2 + 0.5 * (g ^ 8 * (4 * kF2) / 1000 ^ 2) ^ 2)) / D := by
  refine ⟨1 / 1000 * (10 / 81 + 2.35204 * (1 / 601) ^ 2 * (1 / 601) / (1 + (1 / 601) ^ 2) ^ 2) +
      146 * (2 / 3000) ^ 2 / 2025 + ((10 * (1 / 1000) / 81) ^ 2 / 0.804 +
      (√2.1677 * 0.6 * 0.6 * (1 / 601) ^ 2 * 20 / 81 + 2.1677 * 0.14 * (1 / 1000) ^ 3)),
    1 + √2.1677 * (1 / 1000), by positivity, by linarith [Real.sqrt_nonneg (2.1677 : ℝ)], ?_⟩
  intro g hg n G T hn hG hT
  have hK := kF2_pos
  have r : ∀ c : ℝ, (g ^ 3) ^ c = g ^ (3 * c) := fun c => by
    rw [← Real.rpow_natCast, ← Real.rpow_mul hg.le]; norm_num
  have r8 : (g ^ 3) ^ (8 / 3 : ℝ) = g ^ 8 := by rw [r, ← Real.rpow_natCast]; norm_num
  have r5 : (g ^ 3) ^ (5 / 3 : ℝ) = g ^ 5 := by rw [r, ← Real.rpow_natCast]; norm_num
  have hp : g ^ 8 * (4 * kF2 / 1000) / (4 * kF2 * g ^ 8) = 1 / 1000 := by field_simp
  have hw : g ^ 8 * (4 * kF2 / 1000) / (8 * g ^ 3) = g ^ 5 * (kF2 / 2000) := by field_simp; norm_num
  have hz : g ^ 5 * (kF2 / 2000) / (g ^ 5 * (kF2 / 2000 + 0.3 * kF2)) = 1 / 601 := by field_simp; norm_num
  have ha : (g ^ 5 * (kF2 / 2000 + 0.3 * kF2) - g ^ 5 * (kF2 / 2000)) / (0.3 * kF2 * g ^ 5) = 1 := by field_simp; ring
  have hs : g ^ 8 * (4 * kF2 / 1000) * √(0.5 * 0.6 * 0.6 * (8 * g ^ 3 * (g ^ 5 * (kF2 / 2000 + 0.3 * kF2))) ^ (-2 : ℤ) +
      0.5 * (1 / 1000) * (1 / 1000)) = √(0.18 * (1 / 601) ^ 2 + 0.5 * (g ^ 8 * (4 * kF2) / 1000 ^ 2) ^ 2) := by
    rw [← Real.sqrt_sq (show 0 ≤ g ^ 8 * (4 * kF2 / 1000) by positivity), ← Real.sqrt_mul (by positivity)]
    congr 1
    rw [show (-2 : ℤ) = -((2 : ℕ) : ℤ) by norm_num, zpow_neg, zpow_natCast]
    field_simp
    ring
  have e : (revtpssx_x n G T).evalR (scaleField g revWitness) = (1 / 1000 * (10 / 81 + 2.35204 * (1 / 601) ^ 2 * (1 / 601) /
      (1 + (1 / 601) ^ 2) ^ 2) + 146 * (2 / 3000) ^ 2 / 2025 - 73 / 405 * (2 / 3000) * (g ^ 8 * (4 * kF2 / 1000)) *
      √(0.5 * 0.6 * 0.6 * (8 * g ^ 3 * (g ^ 5 * (kF2 / 2000 + 0.3 * kF2))) ^ (-2 : ℤ) +
      0.5 * (1 / 1000) * (1 / 1000)) + (10 * (1 / 1000) / 81) ^ 2 / 0.804 +
      (√2.1677 * 0.6 * 0.6 * (1 / 601) ^ 2 * 20 / 81 + 2.1677 * 0.14 * (1 / 1000) ^ 3)) / (1 + √2.1677 * (1 / 1000)) := by
    have hpow : (powi (8 * n * T) (-2)).evalR (scaleField g revWitness) =
        (8 * g ^ 3 * (g ^ 5 * (kF2 / 2000 + 0.3 * kF2))) ^ (-2 : ℤ) := by
      refine (evalR_powi_negSucc (ρ := scaleField g revWitness) (8 * n * T) 1).trans ?_
      simp only [evalR_mul, evalR_ofNat, hn, hT, Real.rpow_intCast]
      rfl
    have hq : 9 * (1 - 1) / (20 * √(1 + 0.40 * 1 * (1 - 1))) + 2 * (1 / 1000) / 3 = (2 / 3000 : ℝ) := by norm_num
    unfold revtpssx_x
    simp only [evalR_add, evalR_sub, evalR_mul, evalR_div, evalR_pow, evalR_lit, evalR_one, evalR_ofNat, evalR_sqrt,
      evalR_pow2, evalR_pow3, evalR_ofScientific, hn, hG, hT, r8, r5, hp, hw, hz, ha]
    rw [hpow, hq]
  rw [e, mul_assoc (73 / 405 * (2 / 3000) : ℝ), hs]
  ring

theorem revtpssx_F_witness {C D x y : ℝ} (hC : 0 ≤ C) (hD : 1 ≤ D) (hxy : x < y) (hy : y ≤ 1) :
    (1 : ℝ) + 0.804 - 0.804 / (1 + (C - 73 / 405 * (2 / 3000) * y) / D / 0.804) ≠
      1 + 0.804 - 0.804 / (1 + (C - 73 / 405 * (2 / 3000) * x) / D / 0.804) := by
  have pos : ∀ z : ℝ, z ≤ 1 → 0 < 1 + (C - 73 / 405 * (2 / 3000) * z) / D / 0.804 := by
    intro z hz
    have : -(1 / 2) ≤ (C - 73 / 405 * (2 / 3000) * z) / D := by
      rw [le_div_iff₀ (by linarith)]
      nlinarith
    have h2 : -(1 / 2) / 0.804 ≤ (C - 73 / 405 * (2 / 3000) * z) / D / 0.804 := div_le_div_of_nonneg_right this (by norm_num)
    norm_num at h2 ⊢
    linarith
  have lt : 1 + (C - 73 / 405 * (2 / 3000) * y) / D / 0.804 < 1 + (C - 73 / 405 * (2 / 3000) * x) / D / 0.804 := by
    have : (C - 73 / 405 * (2 / 3000) * y) / D < (C - 73 / 405 * (2 / 3000) * x) / D :=
      div_lt_div_of_pos_right (by linarith) (by linarith)
    have := div_lt_div_of_pos_right this (show (0 : ℝ) < 0.804 by norm_num)
    linarith
  have := div_lt_div_of_pos_left (show (0 : ℝ) < 0.804 by norm_num) (pos y hy) lt
  intro h
  linarith

theorem revtpssx_not_scale : ∃ (g : ℝ) (ρ : Field → ℝ), 0 < g ∧ Pos ρ ∧ 0 < ρ .gaa ∧ 0 < ρ .gbb ∧
    revtpssx.evalR (scaleField g ρ) ≠ g ^ 4 * revtpssx.evalR ρ := by
  have hK := kF2_pos
  refine ⟨2, revWitness, by norm_num, ⟨by norm_num [revWitness], by norm_num [revWitness], by norm_num [revWitness]⟩,
    by simp only [revWitness]; positivity, by simp only [revWitness]; positivity, ?_⟩
  obtain ⟨C, D, hC, hD, hx⟩ := revtpssx_x_witness
  have s1 : scaleField 1 revWitness = revWitness := by
    funext f
    simp [scaleField]
  have xa : ∀ g : ℝ, 0 < g → _ := fun g hg => hx g hg (2 * d.a) (4 * d.gaa) (2 * d.taua)
    (by show (2 : ℝ) * (g ^ (3 : ℤ) * (1 / 2)) = _; norm_cast; ring)
    (by show (4 : ℝ) * (g ^ (8 : ℤ) * (kF2 / 1000)) = _; norm_cast; ring)
    (by show (2 : ℝ) * (g ^ (5 : ℤ) * ((kF2 / 2000 + 0.3 * kF2) / 2)) = _; norm_cast; ring)
  have xb : ∀ g : ℝ, 0 < g → _ := fun g hg => hx g hg (2 * d.b) (4 * d.gbb) (2 * d.taub)
    (by show (2 : ℝ) * (g ^ (3 : ℤ) * (1 / 2)) = _; norm_cast; ring)
    (by show (4 : ℝ) * (g ^ (8 : ℤ) * (kF2 / 1000)) = _; norm_cast; ring)
    (by show (2 : ℝ) * (g ^ (5 : ℤ) * ((kF2 / 2000 + 0.3 * kF2) / 2)) = _; norm_cast; ring)
  have xa2 := xa 2 (by norm_num)
  have xb2 := xb 2 (by norm_num)
  have xa1 := xa 1 (by norm_num)
  have xb1 := xb 1 (by norm_num)
  rw [s1] at xa1 xb1
  have ne := revtpssx_F_witness hC hD (x := √(0.18 * (1 / 601) ^ 2 + 0.5 * (1 ^ 8 * (4 * kF2) / 1000 ^ 2) ^ 2))
    (y := √(0.18 * (1 / 601) ^ 2 + 0.5 * (2 ^ 8 * (4 * kF2) / 1000 ^ 2) ^ 2))
    (Real.sqrt_lt_sqrt (by positivity) (by
      have : (0 : ℝ) < kF2 ^ 2 := by positivity
      norm_num
      nlinarith))
    (by
      refine Real.sqrt_le_one.2 ?_
      have := kF2_le
      have : kF2 ^ 2 ≤ 900 := by nlinarith
      norm_num
      nlinarith)
  have pos := (⟨by norm_num [revWitness], by norm_num [revWitness], by norm_num [revWitness]⟩ : Pos revWitness)
  have ea : Deg (revtpss_epsx_unif (2 * d.a)) 1 := by deg
  have eb : Deg (revtpss_epsx_unif (2 * d.b)) 1 := by deg
  have hea := ea.eq (g := 2) (by norm_num) pos
  have heb := eb.eq (g := 2) (by norm_num) pos
  have hval : ∀ x : Expr Field, x.evalR revWitness = 1 → (revtpss_epsx_unif x).evalR revWitness < 0 := by
    intro x h
    simp only [revtpss_epsx_unif, evalR_div, evalR_mul, evalR_neg, evalR_cbrt, evalR_lit, h]
    have : 0 < XCFun.cbrt (3 * PI2 * 1) := by
      unfold XCFun.cbrt PI2
      rw [if_pos (by positivity)]
      positivity
    have e3 : Expr.evalR revWitness (3 : Expr Field) = 3 := rfl
    rw [e3]
    exact div_neg_of_neg_of_pos (by nlinarith) (by positivity)
  have va := hval (2 * d.a) (by show (2 : ℝ) * (1 / 2) = 1; norm_num)
  have vb := hval (2 * d.b) (by show (2 : ℝ) * (1 / 2) = 1; norm_num)
  unfold revtpssx revtpssx_F_x
  simp only [evalR_add, evalR_sub, evalR_mul, evalR_div, evalR_lit, evalR_one, hea, heb, xa1, xa2, xb1, xb2]
  have h8 : ∀ f : Field, fieldDeg f = 3 → scaleField 2 revWitness f = 8 * revWitness f := by
    intro f hf
    rw [scaleField, hf]; norm_num
  show _ * _ * scaleField 2 revWitness .a + _ * _ * scaleField 2 revWitness .b ≠
    2 ^ 4 * (_ * _ * revWitness .a + _ * _ * revWitness .b)
  rw [h8 .a rfl, h8 .b rfl]
  simp only [revWitness]
  generalize (1 : ℝ) + 0.804 - 0.804 / (1 + (C - 73 / 405 * (2 / 3000) *
    √(0.18 * (1 / 601) ^ 2 + 0.5 * (2 ^ 8 * (4 * kF2) / 1000 ^ 2) ^ 2)) / D / 0.804) = F2 at ne ⊢
  generalize (1 : ℝ) + 0.804 - 0.804 / (1 + (C - 73 / 405 * (2 / 3000) *
    √(0.18 * (1 / 601) ^ 2 + 0.5 * (1 ^ 8 * (4 * kF2) / 1000 ^ 2) ^ 2)) / D / 0.804) = F1 at ne ⊢
  generalize (revtpss_epsx_unif (2 * d.a)).evalR revWitness = u at va ⊢
  generalize (revtpss_epsx_unif (2 * d.b)).evalR revWitness = w at vb ⊢
  intro h
  apply ne
  have : u + w ≠ 0 := by linarith
  apply mul_left_cancel₀ this
  rw [Real.rpow_one] at h
  linarith

/-! ### SCAN exchange at zero gradient and zero kinetic energy density -/

/-- The five (IALPHA, IINTERP, IDELFX) used. -/
def scanKinds : List (ℕ × ℕ × ℕ) := [(0, 0, 0), (1, 1, 0), (2, 1, 0), (2, 1, 1), (2, 1, 2)]

theorem scan_zero {ρ : Field → ℝ} {n g t : Expr Field} (hg : g.evalR ρ = 0) (ht : t.evalR ρ = 0) {k i j : ℕ}
    (h : (k, i, j) ∈ scanKinds) : (get_SCAN_Fx n g t k i j).evalR ρ =
      (1 + scanK0) * (1 - Real.exp (-4.9479 / (1e-16 / (4 * kF2 * n.evalR ρ ^ (8 / 3 : ℝ))) ^ (1 / 4 : ℝ))) := by
  have hE : (0 : ℝ) < 1.0e-14 := by norm_num
  have hE' : (0 : ℝ) < 1.0e-16 := by norm_num
  have hE3 : (0 : ℝ) < 1.0e-13 := by norm_num
  have hz : ∀ x : Expr Field, x.evalR ρ = 0 → (scanIef i 0.667 0.8 1.24 IEx x).evalR ρ = 1 ∧
      (scanDelFx j (iflt 1.0e-16 (Expr.abs g) (g / ((4 * kF2 : ℝ) * pow n (8 / 3)))
        (1e-16 / ((4 * kF2 : ℝ) * pow n (8 / 3)))) x (1 - x)).evalR ρ = 0 := by
    intro x hx
    simp only [scanKinds, List.mem_cons, Prod.mk.injEq, List.not_mem_nil, or_false] at h
    rcases h with ⟨rfl, rfl, rfl⟩ | ⟨rfl, rfl, rfl⟩ | ⟨rfl, rfl, rfl⟩ | ⟨rfl, rfl, rfl⟩ | ⟨rfl, rfl, rfl⟩ <;>
      simp [scanIef, scanDelFx, hx, hE3]
  have hal : (scanAlpha k (t - g / (8 * n)) (if k = 1 then (3 / 10 * kF2 : ℝ) * pow n (5 / 3) + TAU_R
      else (0.3 * kF2 : ℝ) * pow n (5 / 3)) (g / (8 * n))).evalR ρ = 0 := by
    simp only [scanKinds, List.mem_cons, Prod.mk.injEq, List.not_mem_nil, or_false] at h
    rcases h with ⟨rfl, rfl, rfl⟩ | ⟨rfl, rfl, rfl⟩ | ⟨rfl, rfl, rfl⟩ | ⟨rfl, rfl, rfl⟩ | ⟨rfl, rfl, rfl⟩ <;>
      simp [scanAlpha, hg, ht]
  unfold get_SCAN_Fx SCAN_X_Fx
  simp only [evalR_mul, evalR_add, evalR_sub, (hz _ hal).1, (hz _ hal).2, evalR_iflt, evalR_abs, hg, abs_zero, evalR_exp,
    evalR_div, evalR_pow, evalR_lit, evalR_one, evalR_ofScientific]
  rw [if_neg (hE'.le.not_gt)]
  ring

theorem scan_not_scale {k i j : ℕ} (h : (k, i, j) ∈ scanKinds) : ∃ (g : ℝ) (ρ : Field → ℝ), 0 < g ∧ Pos ρ ∧
    (scanX k i j).evalR (scaleField g ρ) ≠ g ^ 4 * (scanX k i j).evalR ρ := by
  let ρ : Field → ℝ := fun f => match f with
    | .a | .b => 1 / 2
    | .n => 1
    | _ => 0
  have pos : Pos ρ := ⟨by norm_num [ρ], by norm_num [ρ], by norm_num [ρ]⟩
  refine ⟨2, ρ, by norm_num, pos, ?_⟩
  have hK := kF2_pos
  have ua : Deg (fx_unif (2 * d.a)) 4 := by deg
  have ub : Deg (fx_unif (2 * d.b)) 4 := by deg
  have hua := ua.eq (g := 2) (by norm_num) pos
  have hub := ub.eq (g := 2) (by norm_num) pos
  have hn : ∀ x : Expr Field, x.evalR ρ = 1 → (fx_unif x).evalR ρ < 0 := by
    intro x hx
    simp only [fx_unif, evalR_mul, evalR_pow, evalR_lit, hx, Real.one_rpow, mul_one]
    have : 0 < (3 / Real.pi) ^ (1 / 3 : ℝ) := by positivity
    linarith
  have va := hn (2 * d.a) (by show (2 : ℝ) * (1 / 2) = 1; norm_num)
  have vb := hn (2 * d.b) (by show (2 : ℝ) * (1 / 2) = 1; norm_num)
  have r8 : (8 : ℝ) ^ (8 / 3 : ℝ) = 256 := by
    rw [show (8 : ℝ) = 2 ^ (3 : ℝ) by norm_num, ← Real.rpow_mul (by norm_num)]
    norm_num
  have f1a := scan_zero (ρ := ρ) (n := 2 * d.a) (g := 4 * d.gaa) (t := 2 * d.taua) (mul_zero _) (mul_zero _) h
  have f1b := scan_zero (ρ := ρ) (n := 2 * d.b) (g := 4 * d.gbb) (t := 2 * d.taub) (mul_zero _) (mul_zero _) h
  have z : ∀ (c : ℝ) (f : Field), ρ f = 0 → c * scaleField 2 ρ f = 0 := fun c f hf => by rw [scaleField, hf, mul_zero, mul_zero]
  have f2a := scan_zero (ρ := scaleField 2 ρ) (n := 2 * d.a) (g := 4 * d.gaa) (t := 2 * d.taua) (z _ _ rfl) (z _ _ rfl) h
  have f2b := scan_zero (ρ := scaleField 2 ρ) (n := 2 * d.b) (g := 4 * d.gbb) (t := 2 * d.taub) (z _ _ rfl) (z _ _ rfl) h
  rw [show (2 * d.a).evalR ρ = 1 by show (2 : ℝ) * (1 / 2) = 1; norm_num, Real.one_rpow] at f1a
  rw [show (2 * d.b).evalR ρ = 1 by show (2 : ℝ) * (1 / 2) = 1; norm_num, Real.one_rpow] at f1b
  rw [show (2 * d.a).evalR (scaleField 2 ρ) = 8 by show (2 : ℝ) * (2 ^ (3 : ℤ) * (1 / 2)) = 8; norm_num, r8] at f2a
  rw [show (2 * d.b).evalR (scaleField 2 ρ) = 8 by show (2 : ℝ) * (2 ^ (3 : ℤ) * (1 / 2)) = 8; norm_num, r8] at f2b
  have hlt : (1 : ℝ) - Real.exp (-4.9479 / (1e-16 / (4 * kF2 * 1)) ^ (1 / 4 : ℝ)) <
      1 - Real.exp (-4.9479 / (1e-16 / (4 * kF2 * 256)) ^ (1 / 4 : ℝ)) := by
    have h1 : (1e-16 / (4 * kF2 * 256)) ^ (1 / 4 : ℝ) < (1e-16 / (4 * kF2 * 1)) ^ (1 / 4 : ℝ) :=
      Real.rpow_lt_rpow (by positivity) (div_lt_div_of_pos_left (by norm_num) (by positivity) (by linarith)) (by norm_num)
    have h2 : (0 : ℝ) < (1e-16 / (4 * kF2 * 256)) ^ (1 / 4 : ℝ) := by positivity
    have h3 := div_lt_div_of_pos_left (show (0 : ℝ) < 4.9479 by norm_num) h2 h1
    have : Real.exp (-4.9479 / (1e-16 / (4 * kF2 * 256)) ^ (1 / 4 : ℝ)) <
        Real.exp (-4.9479 / (1e-16 / (4 * kF2 * 1)) ^ (1 / 4 : ℝ)) := by
      rw [Real.exp_lt_exp, neg_div, neg_div]
      linarith
    linarith
  unfold scanX
  simp only [evalR_add, evalR_mul, hua, hub, f1a, f1b, f2a, f2b]
  generalize 1 - Real.exp (-4.9479 / (1e-16 / (4 * kF2 * 1)) ^ (1 / 4 : ℝ)) = F1 at hlt ⊢
  generalize 1 - Real.exp (-4.9479 / (1e-16 / (4 * kF2 * 256)) ^ (1 / 4 : ℝ)) = F2 at hlt ⊢
  generalize (fx_unif (2 * d.a)).evalR ρ = u at va ⊢
  generalize (fx_unif (2 * d.b)).evalR ρ = w at vb ⊢
  rw [show (0.5 : Expr Field).evalR (scaleField 2 ρ) = 0.5 by simp, show (0.5 : Expr Field).evalR ρ = 0.5 by simp]
  intro hh
  have e2 : (2 : ℝ) ^ (4 : ℝ) = 16 := by norm_num
  rw [e2] at hh
  have hk0 : (1 + scanK0 : ℝ) * (u + w) ≠ 0 := by
    refine mul_ne_zero ?_ (by linarith)
    norm_num [scanK0]
  have : (1 + scanK0 : ℝ) * (u + w) * F2 = (1 + scanK0 : ℝ) * (u + w) * F1 := by linarith
  have := mul_left_cancel₀ hk0 this
  linarith
end XCFun.Fun
