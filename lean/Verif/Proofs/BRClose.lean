/-
How errors of the solver propagate to the Becke-Roussel energies.
-/
import Mathlib.Analysis.Calculus.Deriv.MeanValue
import Verif.Proofs.BREval

namespace XCFun.BR
open XCFun Spec

/-! ## Relative closeness -/

/-- Positive numbers whose ratio is between `exp (-ε)` and `exp ε`. -/
structure Close (ε a b : ℝ) : Prop where
  pos : 0 < a
  pos' : 0 < b
  le : a ≤ Real.exp ε * b
  ge : b ≤ Real.exp ε * a

theorem Close.refl {a : ℝ} (h : 0 < a) : Close 0 a a := ⟨h, h, by simp, by simp⟩

theorem Close.mono {ε δ a b : ℝ} (h : Close ε a b) (he : ε ≤ δ) : Close δ a b := by
  have := Real.exp_le_exp.2 he
  have h1 := h.pos
  have h2 := h.pos'
  exact ⟨h1, h2, h.le.trans (by gcongr), h.ge.trans (by gcongr)⟩

theorem Close.symm {ε a b : ℝ} (h : Close ε a b) : Close ε b a := ⟨h.pos', h.pos, h.ge, h.le⟩

theorem Close.mul {ε δ a b c d : ℝ} (h : Close ε a b) (k : Close δ c d) : Close (ε + δ) (a * c) (b * d) := by
  have h1 := h.pos
  have h2 := h.pos'
  have k1 := k.pos
  have k2 := k.pos'
  refine ⟨by positivity, by positivity, ?_, ?_⟩
  · rw [Real.exp_add]
    calc a * c ≤ (Real.exp ε * b) * (Real.exp δ * d) := mul_le_mul h.le k.le k1.le (by positivity)
      _ = _ := by ring
  · rw [Real.exp_add]
    calc b * d ≤ (Real.exp ε * a) * (Real.exp δ * c) := mul_le_mul h.ge k.ge k2.le (by positivity)
      _ = _ := by ring

theorem Close.smul {ε a b c : ℝ} (h : Close ε a b) (hc : 0 < c) : Close ε (c * a) (c * b) := by
  have := (Close.refl hc).mul h
  rwa [zero_add] at this

theorem Close.inv {ε a b : ℝ} (h : Close ε a b) : Close ε (1 / a) (1 / b) := by
  have h1 := h.pos
  have h2 := h.pos'
  refine ⟨by positivity, by positivity, ?_, ?_⟩
  · rw [mul_one_div, div_le_div_iff₀ h1 h2]; linarith [h.ge]
  · rw [mul_one_div, div_le_div_iff₀ h2 h1]; linarith [h.le]

theorem Close.add {ε a b c d : ℝ} (h : Close ε a b) (k : Close ε c d) : Close ε (a + c) (b + d) := by
  have h1 := h.pos
  have h2 := h.pos'
  have k1 := k.pos
  have k2 := k.pos'
  exact ⟨by positivity, by positivity, by linarith [h.le, k.le], by linarith [h.ge, k.ge]⟩

theorem Close.abs_sub {ε a b : ℝ} (h : Close ε a b) (c : ℝ) : |c * a - c * b| ≤ (Real.exp ε - 1) * |c * b| := by
  have h2 := h.pos'
  have h1 := h.pos
  rw [← mul_sub, abs_mul, abs_mul, abs_of_pos h2, ← mul_assoc, mul_comm (Real.exp ε - 1), mul_assoc]
  refine mul_le_mul_of_nonneg_left ?_ (abs_nonneg c)
  have he : 0 ≤ ε := by
    by_contra hn
    have : Real.exp ε < 1 := by rw [Real.exp_lt_one_iff]; linarith
    have a1 := h.le
    have a2 := h.ge
    nlinarith
  have h3 : 1 ≤ Real.exp ε := by rw [← Real.exp_zero]; exact Real.exp_le_exp.2 he
  rw [abs_le]
  constructor
  · have := h.ge
    have : b / Real.exp ε ≤ a := by rw [div_le_iff₀ (Real.exp_pos _)]; linarith
    have h4 : 2 - Real.exp ε ≤ 1 / Real.exp ε := by
      rw [le_div_iff₀ (Real.exp_pos _)]; nlinarith [sq_nonneg (Real.exp ε - 1)]
    have h5 : b * (2 - Real.exp ε) ≤ b * (1 / Real.exp ε) := mul_le_mul_of_nonneg_left h4 h2.le
    have : b * (1 / Real.exp ε) = b / Real.exp ε := by ring
    nlinarith
  · nlinarith [h.le]

/-- Functions that increase, at most in proportion. -/
def Sub (F : ℝ → ℝ) : Prop := ∀ x, 0 < x → 0 < F x ∧ ∀ y, x ≤ y → F x ≤ F y ∧ F y ≤ y / x * F x

theorem Close.sub {F : ℝ → ℝ} (hF : Sub F) {ε a b : ℝ} (h : Close ε a b) : Close ε (F a) (F b) := by
  have key : ∀ a b, Close ε a b → F a ≤ Real.exp ε * F b := by
    intro a b h
    have h1 := h.pos
    have h2 := h.pos'
    rcases le_total a b with hab | hab
    · have f1 := ((hF a h1).2 b hab).1
      have fb := (hF b h2).1
      have he : 1 ≤ Real.exp ε := by
        by_contra hn
        have := h.ge
        nlinarith
      nlinarith
    · have f1 := ((hF b h2).2 a hab).2
      have fb := (hF b h2).1
      have : a / b ≤ Real.exp ε := by rw [div_le_iff₀ h2]; exact h.le
      exact f1.trans (by gcongr)
  exact ⟨(hF a h.pos).1, (hF b h.pos').1, key _ _ h, key _ _ h.symm⟩

/-- The charge factor of the hole. -/
noncomputable def hole (x : ℝ) : ℝ := 1 - (1 + x / 2) * Real.exp (-x)

theorem hole_sub : Sub hole := by
  have hd : ∀ x, HasDerivAt hole ((1 + x) / 2 * Real.exp (-x)) x := by
    intro x
    have h1 : HasDerivAt (fun x : ℝ => Real.exp (-x)) (-Real.exp (-x)) x := by
      have := (hasDerivAt_neg x).exp
      simpa using this
    have h2 : HasDerivAt (fun x : ℝ => 1 + x / 2) (1 / 2) x := ((hasDerivAt_id x).div_const 2).const_add 1
    refine ((h2.mul h1).const_sub 1).congr_deriv ?_
    ring
  intro x hx
  refine ⟨Fun.hole_pos hx, fun y hxy => ⟨?_, ?_⟩⟩
  · have : MonotoneOn hole (Set.Ici 0) := by
      refine monotoneOn_of_deriv_nonneg (convex_Ici 0) (fun x _ => (hd x).continuousAt.continuousWithinAt)
        (fun x _ => (hd x).differentiableAt.differentiableWithinAt) fun x hx => ?_
      rw [(hd x).deriv]
      simp only [interior_Ici, Set.mem_Ioi] at hx
      positivity
    exact this hx.le (hx.le.trans hxy) hxy
  · have : AntitoneOn (fun x => hole x / x) (Set.Ioi 0) := by
      have hq : ∀ x ∈ Set.Ioi (0 : ℝ), HasDerivAt (fun x => hole x / x) (((1 + x) / 2 * Real.exp (-x) * x - hole x * 1) / x ^ 2) x :=
        fun x hx => (hd x).div (hasDerivAt_id x) (ne_of_gt hx)
      refine antitoneOn_of_deriv_nonpos (convex_Ioi 0) (fun x hx => (hq x hx).continuousAt.continuousWithinAt)
        (fun x hx => (hq x (by simpa using hx)).differentiableAt.differentiableWithinAt) fun x hx => ?_
      have hx : 0 < x := by simpa using hx
      rw [(hq x hx).deriv]
      refine div_nonpos_of_nonpos_of_nonneg ?_ (by positivity)
      have h1 := Real.quadratic_le_exp_of_nonneg hx.le
      have h2 : Real.exp (-x) * Real.exp x = 1 := by rw [← Real.exp_add]; simp
      have h3 := Real.exp_pos (-x)
      have h4 := mul_le_mul_of_nonneg_left h1 h3.le
      rw [h2] at h4
      rw [hole]
      nlinarith
    have hy := hx.trans_le hxy
    have := this (Set.mem_Ioi.2 hx) (Set.mem_Ioi.2 hy) hxy
    simp only at this
    rw [div_le_div_iff₀ hy hx] at this
    rw [div_mul_eq_mul_div, le_div_iff₀ hx]
    linarith

/-- The factor of the correlation energies. -/
noncomputable def corr (z : ℝ) : ℝ := 1 - Real.log (1 + z) / z

theorem corr_bound {z : ℝ} (hz : 0 ≤ z) : z ^ 2 / (1 + z) ≤ 2 * (z - Real.log (1 + z)) := by
  have hd : ∀ z ∈ Set.Ici (0 : ℝ), HasDerivAt (fun z => 2 * (z - Real.log (1 + z)) - z ^ 2 / (1 + z)) (z ^ 2 / (1 + z) ^ 2) z := by
    intro z hz
    have hz : 0 ≤ z := hz
    have h0 : (1 + z) ≠ 0 := by positivity
    have h1 : HasDerivAt (fun z : ℝ => 1 + z) 1 z := (hasDerivAt_id z).const_add 1
    have h2 := (((hasDerivAt_id z).sub (h1.log h0)).const_mul 2).sub (((hasDerivAt_id z).pow 2).div h1 h0)
    refine h2.congr_deriv ?_
    simp only [id]
    field_simp
    norm_num
    ring
  have : MonotoneOn (fun z => 2 * (z - Real.log (1 + z)) - z ^ 2 / (1 + z)) (Set.Ici 0) := by
    refine monotoneOn_of_deriv_nonneg (convex_Ici 0) (fun z hz => (hd z hz).continuousAt.continuousWithinAt)
      (fun z hz => (hd z (interior_subset hz)).differentiableAt.differentiableWithinAt) fun z hz => ?_
    rw [(hd z (interior_subset hz)).deriv]
    positivity
  have := this (Set.mem_Ici.2 le_rfl) (Set.mem_Ici.2 hz) hz
  simp at this
  linarith

theorem corr_sub : Sub corr := by
  have hd : ∀ z ∈ Set.Ioi (0 : ℝ), HasDerivAt corr (-((1 / (1 + z) * z - Real.log (1 + z) * 1) / z ^ 2)) z := by
    intro z hz
    have hz : 0 < z := hz
    have h1 : HasDerivAt (fun z : ℝ => 1 + z) 1 z := (hasDerivAt_id z).const_add 1
    exact ((h1.log (by positivity)).div (hasDerivAt_id z) hz.ne').const_sub 1
  have hlt : ∀ z, 0 < z → Real.log (1 + z) < z := fun z hz => by
    have := Real.log_lt_sub_one_of_pos (show 0 < 1 + z by positivity) (by linarith)
    linarith
  intro x hx
  refine ⟨?_, fun y hxy => ⟨?_, ?_⟩⟩
  · rw [corr, sub_pos, div_lt_one hx]; exact hlt x hx
  · have : MonotoneOn corr (Set.Ioi 0) := by
      refine monotoneOn_of_deriv_nonneg (convex_Ioi 0) (fun x hx => (hd x hx).continuousAt.continuousWithinAt)
        (fun x hx => (hd x (by simpa using hx)).differentiableAt.differentiableWithinAt) fun x hx => ?_
      have hx : 0 < x := by simpa using hx
      rw [(hd x hx).deriv, ← neg_div]
      refine div_nonneg ?_ (by positivity)
      have := Real.one_sub_inv_le_log_of_pos (show 0 < 1 + x by positivity)
      have e : 1 - (1 + x)⁻¹ = 1 / (1 + x) * x := by field_simp; ring
      linarith
    exact this hx (hx.trans_le hxy) hxy
  · have : AntitoneOn (fun x => corr x / x) (Set.Ioi 0) := by
      have hq := fun (x : ℝ) (hx : x ∈ Set.Ioi (0 : ℝ)) => (hd x hx).div (hasDerivAt_id x) (ne_of_gt hx)
      refine antitoneOn_of_deriv_nonpos (convex_Ioi 0) (fun x hx => (hq x hx).continuousAt.continuousWithinAt)
        (fun x hx => (hq x (by simpa using hx)).differentiableAt.differentiableWithinAt) fun x hx => ?_
      have hx : 0 < x := by simpa using hx
      have e := (hq x hx).deriv
      simp only [id] at e
      have h1 := corr_bound hx.le
      have h2 : deriv (fun x => corr x / x) x = (x ^ 2 / (1 + x) - 2 * (x - Real.log (1 + x))) * -1 / x ^ 3 * -1 := by
        refine Eq.trans e ?_
        rw [corr]
        field_simp
        ring
      rw [h2]
      have : (x ^ 2 / (1 + x) - 2 * (x - Real.log (1 + x))) / x ^ 3 ≤ 0 :=
        div_nonpos_of_nonpos_of_nonneg (by linarith) (by positivity)
      linarith [show (x ^ 2 / (1 + x) - 2 * (x - Real.log (1 + x))) * -1 / x ^ 3 * -1 =
        (x ^ 2 / (1 + x) - 2 * (x - Real.log (1 + x))) / x ^ 3 by ring]
    have hy := hx.trans_le hxy
    have := this (Set.mem_Ioi.2 hx) (Set.mem_Ioi.2 hy) hxy
    simp only at this
    rw [div_le_div_iff₀ hy hx] at this
    rw [div_mul_eq_mul_div, le_div_iff₀ hx]
    linarith

/-! ## The energies -/

theorem solve_close (z : ℝ) : Close (1.1e-14) (brSolve z) (holeRoot z) := by
  obtain ⟨h, -⟩ := brSolve_root (root_pos z)
  rw [curve_root] at h
  have hr := root_pos z
  obtain ⟨h1, h2⟩ := abs_le.1 h
  have he := Real.add_one_le_exp (1.1e-14 : ℝ)
  refine ⟨brSolve_pos z, hr, ?_, ?_⟩
  · nlinarith
  · have hp := brSolve_pos z
    have : holeRoot z * (1 - 1e-14) ≤ brSolve z := by linarith
    have : holeRoot z ≤ (1 + 1.1e-14) * brSolve z := by
      have : holeRoot z ≤ (1 + 1.1e-14) * (holeRoot z * (1 - 1e-14)) := by nlinarith
      nlinarith
    nlinarith

/-- The potential of a hole as a product. -/
theorem brPot_eq {x n : ℝ} (hx : 0 < x) (hn : 0 < n) :
    Fun.brPot x n = -((8 * Real.pi * n) ^ ((1 : ℝ) / 3) * (hole x * (Real.exp (x / 3) * (1 / x)))) := by
  have hp := Real.pi_pos
  have h8 : 0 < 8 * Real.pi * n := by positivity
  have e0 := Real.exp_pos (-x)
  have hc : XCFun.cbrt (x ^ 3 * Real.exp (-x) / (8 * Real.pi * n)) = x * Real.exp (-x / 3) / (8 * Real.pi * n) ^ ((1 : ℝ) / 3) := by
    rw [XCFun.cbrt, if_pos (by positivity), Real.div_rpow (by positivity) h8.le, Real.mul_rpow (by positivity) e0.le, ← Real.exp_mul,
      ← Real.rpow_natCast, ← Real.rpow_mul hx.le]
    norm_num
    rw [show -(x * (1 / 3)) = -x / 3 by ring]
  rw [Fun.brPot, hc, hole, show (0.5 : ℝ) * x = x / 2 by ring]
  have h1 : Real.exp (x / 3) = 1 / Real.exp (-x / 3) := by
    rw [eq_div_iff (Real.exp_pos _).ne', ← Real.exp_add]
    simp
    ring
  rw [h1]
  have := Real.exp_pos (-x / 3)
  have : 0 < (8 * Real.pi * n) ^ ((1 : ℝ) / 3) := by positivity
  field_simp

theorem pot_close {z n : ℝ} (hn : 0 < n) :
    Close (2e-14 * (1 + holeRoot z)) (-Fun.brPot (brSolve z) n) (-Fun.brPot (holeRoot z) n) := by
  have hp := Real.pi_pos
  have hr := root_pos z
  have hs := brSolve_pos z
  have c0 := solve_close z
  rw [brPot_eq hs hn, brPot_eq hr hn, neg_neg, neg_neg]
  obtain ⟨h, -⟩ := brSolve_root hr
  rw [curve_root] at h
  obtain ⟨h1, h2⟩ := abs_le.1 h
  have ce : Close (1e-14 / 3 * holeRoot z) (Real.exp (brSolve z / 3)) (Real.exp (holeRoot z / 3)) := by
    refine ⟨Real.exp_pos _, Real.exp_pos _, ?_, ?_⟩
    · rw [← Real.exp_add]; exact Real.exp_le_exp.2 (by linarith)
    · rw [← Real.exp_add]; exact Real.exp_le_exp.2 (by linarith)
  -- the charge factor increases at most in proportion, so that it and the denominator compensate
  have cq : Close (1.1e-14) (hole (brSolve z) * (1 / brSolve z)) (hole (holeRoot z) * (1 / holeRoot z)) := by
    have key : ∀ a b, Close (1.1e-14) a b → hole a * (1 / a) ≤ Real.exp (1.1e-14) * (hole b * (1 / b)) := by
      intro a b hc
      have ha := hc.pos
      have hb := hc.pos'
      have pa := (hole_sub a ha).1
      have pb := (hole_sub b hb).1
      have he : (1 : ℝ) ≤ Real.exp (1.1e-14) := by have := Real.add_one_le_exp (1.1e-14 : ℝ); linarith
      rw [mul_one_div, mul_one_div, mul_div_assoc', div_le_div_iff₀ ha hb]
      rcases le_total a b with hab | hab
      · obtain ⟨f1, f2⟩ := (hole_sub a ha).2 b hab
        have := hc.ge
        calc hole a * b ≤ hole b * (Real.exp (1.1e-14) * a) := mul_le_mul f1 this hb.le pb.le
          _ = _ := by ring
      · obtain ⟨f1, f2⟩ := (hole_sub b hb).2 a hab
        rw [div_mul_eq_mul_div, le_div_iff₀ hb] at f2
        have : 0 < hole b * a := by positivity
        nlinarith
    exact ⟨mul_pos (hole_sub _ hs).1 (by positivity), mul_pos (hole_sub _ hr).1 (by positivity), key _ _ c0, key _ _ c0.symm⟩
  have := (cq.mul ce).smul (c := (8 * Real.pi * n) ^ ((1 : ℝ) / 3)) (by positivity)
  have := this.mono (δ := 2e-14 * (1 + holeRoot z)) (by nlinarith)
  convert this using 1 <;> ring

theorem holeX_eq {n : ℝ} (hn : 0 < n) (g l t j : ℝ) : holeX n g l t j = holeRoot (Fun.brArg n g l t j) := by
  have hp : 0 < Real.pi ^ (2 / 3 : ℝ) := Real.rpow_pos_of_pos Real.pi_pos _
  have hr : n ^ (-5 / 3 : ℝ) = 1 / n ^ (5 / 3 : ℝ) := by
    rw [show (-5 / 3 : ℝ) = -(5 / 3) by norm_num, Real.rpow_neg hn.le, one_div]
  have : 0 < n ^ (5 / 3 : ℝ) := by positivity
  rw [holeX]
  congr 1
  rw [Fun.brArg, hr, holeQ, holeD]
  field_simp
  ring

theorem holeU_eq {n : ℝ} (hn : 0 < n) (g l t j : ℝ) : holeU n g l t j = Fun.brPot (holeRoot (Fun.brArg n g l t j)) n := by
  have hp := Real.pi_pos
  have hr := root_pos (Fun.brArg n g l t j)
  rw [holeU, holeX_eq hn, Fun.brPot, holeB, XCFun.cbrt, if_pos (by positivity)]
  congr 1
  ring

theorem holeU_close {n : ℝ} (hn : 0 < n) (g l t j : ℝ) :
    Close (2e-14 * (1 + holeX n g l t j)) (-Fun.brPot (brSolve (Fun.brArg n g l t j)) n) (-holeU n g l t j) := by
  rw [holeU_eq hn, holeX_eq hn]; exact pot_close hn

theorem exchange_close {ε n U V : ℝ} (h : Close ε (-U) (-V)) :
    |n * U / 2 - brExchange n V| ≤ (Real.exp ε - 1) * |brExchange n V| := by
  have := h.abs_sub (-n / 2)
  rw [brExchange]
  rw [show n * U / 2 = -n / 2 * -U by ring, show n * V / 2 = -n / 2 * -V by ring]
  exact this

theorem opposite_close {ε a b U V U' V' : ℝ} (h : Close ε (-U) (-V)) (h' : Close ε (-U') (-V')) :
    |brOpposite a b U U' - brOpposite a b V V'| ≤ (Real.exp (3 * ε) - 1) * |brOpposite a b V V'| := by
  have n1 := h.pos
  have n2 := h.pos'
  have n3 := h'.pos
  have n4 := h'.pos'
  have hz := ((h.inv).add h'.inv).smul (c := 0.63) (by norm_num)
  have hc := (((hz.mul hz).mul (hz.sub corr_sub)).mono (δ := 3 * ε) (by linarith)).abs_sub (-0.8 * a * b)
  rw [brOpposite, brOpposite, abs_of_neg (by linarith : U < 0), abs_of_neg (by linarith : U' < 0), abs_of_neg (by linarith : V < 0),
    abs_of_neg (by linarith : V' < 0)]
  rw [corr, corr] at hc
  ring_nf at hc ⊢
  exact hc

theorem equal_close {ε n D U V : ℝ} (h : Close ε (-U) (-V)) :
    |brEqual n D U - brEqual n D V| ≤ (Real.exp (5 * ε) - 1) * |brEqual n D V| := by
  have n1 := h.pos
  have n2 := h.pos'
  have hz := (h.inv).smul (c := 2 * 0.88) (by norm_num)
  have hz2 := hz.smul (c := 1 / 2) (by norm_num)
  have hc := ((((hz.mul hz).mul (hz.mul hz)).mul (hz2.sub corr_sub)).mono (δ := 5 * ε) (by linarith)).abs_sub (-0.01 * n * D)
  have e : ∀ z : ℝ, corr (1 / 2 * z) = 1 - 2 / z * Real.log (1 + z / 2) := by
    intro z
    rw [corr, show 1 / 2 * z = z / 2 by ring]
    congr 1
    rw [div_div_eq_mul_div]; ring
  rw [brEqual, brEqual, abs_of_neg (by linarith : U < 0), abs_of_neg (by linarith : V < 0)]
  rw [e, e] at hc
  simp only [mul_one_div] at hc
  ring_nf at hc ⊢
  exact hc

end XCFun.BR

namespace XCFun.Fun
open Spec Expr BR
variable {ρ : Field → ℝ}

theorem brECopp_eval {U V : Expr Field} (u : U.evalR ρ < 0) (w : V.evalR ρ < 0) :
    (brECopp U V).evalR ρ = brOpposite (ρ .a) (ρ .b) (U.evalR ρ) (V.evalR ρ) := by
  have h1 : 1 / U.evalR ρ < 0 := one_div_neg.2 u
  have h2 : 1 / V.evalR ρ < 0 := one_div_neg.2 w
  simp only [brECopp, brOpposite, evalR_mul, evalR_sub, evalR_div, evalR_log, evalR_add, evalR_abs, evalR_neg, evalR_one, evalR_ofScientific,
    evalR_lit, show d.a.evalR ρ = ρ .a from rfl, show d.b.evalR ρ = ρ .b from rfl]
  rw [abs_of_neg u, abs_of_neg w, abs_of_neg (show (0.63 : ℝ) * (1 / U.evalR ρ + 1 / V.evalR ρ) < 0 by nlinarith)]
  have : (-(0.63 * (1 / U.evalR ρ + 1 / V.evalR ρ)) : ℝ) = 0.63 * (1 / -U.evalR ρ + 1 / -V.evalR ρ) := by
    rw [one_div_neg_eq_neg_one_div, one_div_neg_eq_neg_one_div]; ring
  rw [this]
  ring

theorem brECss_eval {U na gaa taua jpaa : Expr Field} (u : U.evalR ρ < 0) (hn : 0 < na.evalR ρ) :
    (brECss U na gaa taua jpaa).evalR ρ =
      brEqual (na.evalR ρ) (holeD (na.evalR ρ) (gaa.evalR ρ) (2 * taua.evalR ρ) (jpaa.evalR ρ)) (U.evalR ρ) := by
  have h1 : 2 / U.evalR ρ < 0 := div_neg_of_pos_of_neg (by norm_num) u
  simp only [brECss, brEqual, evalR_mul, evalR_sub, evalR_div, evalR_log, evalR_add, evalR_abs, evalR_neg, evalR_one, evalR_ofScientific,
    evalR_lit, evalR_npow, evalR_ofNat]
  rw [abs_of_neg u, abs_of_neg (show (0.88 : ℝ) * (2 / U.evalR ρ) < 0 by nlinarith)]
  have : (-(0.88 * (2 / U.evalR ρ)) : ℝ) = 2 * 0.88 / -U.evalR ρ := by
    rw [div_neg]; ring
  have e : (2 * taua.evalR ρ - (0.25 * gaa.evalR ρ + jpaa.evalR ρ) / na.evalR ρ : ℝ) =
      holeD (na.evalR ρ) (gaa.evalR ρ) (2 * taua.evalR ρ) (jpaa.evalR ρ) := by
    rw [holeD]; field_simp; ring
  rw [this, e]

theorem abs_sum2 {p q P Q A B c : ℝ} (h1 : |p - P| ≤ c * A) (h2 : |q - Q| ≤ c * B) : |p + q - (P + Q)| ≤ c * (A + B) := by
  have := abs_add_le (p - P) (q - Q)
  rw [show p + q - (P + Q) = (p - P) + (q - Q) by ring]
  linarith

/-- The three energies and the published contributions. -/
theorem br_energies_close (ha : 0 < ρ .a) (hb : 0 < ρ .b) {X : ℝ}
    (hXa : holeX (ρ .a) (ρ .gaa) (ρ .lapa) (2 * ρ .taua) (ρ .jpaa) ≤ X) (hXb : holeX (ρ .b) (ρ .gbb) (ρ .lapb) (2 * ρ .taub) (ρ .jpbb) ≤ X)
    {id : ℕ} (hid : id = 10 ∨ id = 11 ∨ id = 12) {e : Expr Field} (he : Fun.energy id = some e) :
    |e.evalR ρ - (brParts ρ id).sum| ≤ (Real.exp (1e-13 * (1 + X)) - 1) * ((brParts ρ id).map fun p => |p|).sum := by
  set Ea := br_polarized d.a d.gaa d.lapa (2 * d.taua) d.jpaa with hEa
  set Eb := br_polarized d.b d.gbb d.lapb (2 * d.taub) d.jpbb with hEb
  have na := br_polarized_neg (ρ := ρ) (na := d.a) ha d.gaa d.lapa (2 * d.taua) d.jpaa
  have nb := br_polarized_neg (ρ := ρ) (na := d.b) hb d.gbb d.lapb (2 * d.taub) d.jpbb
  have ca : Close (2e-14 * (1 + X)) (-Ea.evalR ρ) (-holeU (ρ .a) (ρ .gaa) (ρ .lapa) (2 * ρ .taua) (ρ .jpaa)) := by
    rw [hEa, br_polarized_eval, evalR_mul, evalR_ofNat]
    exact (holeU_close ha (ρ .gaa) (ρ .lapa) (2 * ρ .taua) (ρ .jpaa)).mono (by linarith)
  have cb : Close (2e-14 * (1 + X)) (-Eb.evalR ρ) (-holeU (ρ .b) (ρ .gbb) (ρ .lapb) (2 * ρ .taub) (ρ .jpbb)) := by
    rw [hEb, br_polarized_eval, evalR_mul, evalR_ofNat]
    exact (holeU_close hb (ρ .gbb) (ρ .lapb) (2 * ρ .taub) (ρ .jpbb)).mono (by linarith)
  have x0 : 0 < 1 + X := by
    have : 0 < holeX (ρ .a) (ρ .gaa) (ρ .lapa) (2 * ρ .taua) (ρ .jpaa) := root_pos _
    linarith
  have m1 : Real.exp (2e-14 * (1 + X)) ≤ Real.exp (1e-13 * (1 + X)) := Real.exp_le_exp.2 (by nlinarith)
  have m3 : Real.exp (3 * (2e-14 * (1 + X))) ≤ Real.exp (1e-13 * (1 + X)) := Real.exp_le_exp.2 (by nlinarith)
  have m5 : Real.exp (5 * (2e-14 * (1 + X))) = Real.exp (1e-13 * (1 + X)) := by congr 1; ring
  have xa := (exchange_close (n := ρ .a) ca).trans (mul_le_mul_of_nonneg_right (sub_le_sub_right m1 1) (abs_nonneg _))
  have xb := (exchange_close (n := ρ .b) cb).trans (mul_le_mul_of_nonneg_right (sub_le_sub_right m1 1) (abs_nonneg _))
  have co := (opposite_close (a := ρ .a) (b := ρ .b) ca cb).trans (mul_le_mul_of_nonneg_right (sub_le_sub_right m3 1) (abs_nonneg _))
  have sa := equal_close (n := ρ .a) (D := holeD (ρ .a) (ρ .gaa) (2 * ρ .taua) (ρ .jpaa)) ca
  have sb := equal_close (n := ρ .b) (D := holeD (ρ .b) (ρ .gbb) (2 * ρ .taub) (ρ .jpbb)) cb
  rw [m5] at sa sb
  have e1 := brECopp_eval na nb
  have e2 := brECss_eval (gaa := d.gaa) (taua := d.taua) (jpaa := d.jpaa) na (na := d.a) ha
  have e3 := brECss_eval (gaa := d.gbb) (taua := d.taub) (jpaa := d.jpbb) nb (na := d.b) hb
  have hx : (brx : Expr Field).evalR ρ = ρ .a * Ea.evalR ρ / 2 + ρ .b * Eb.evalR ρ / 2 := by
    show (0.5 * (d.a * Ea + d.b * Eb)).evalR ρ = _
    simp only [evalR_mul, evalR_add, evalR_ofScientific, show d.a.evalR ρ = ρ .a from rfl, show d.b.evalR ρ = ρ .b from rfl]; ring
  have hc : (brc : Expr Field).evalR ρ = brOpposite (ρ .a) (ρ .b) (Ea.evalR ρ) (Eb.evalR ρ) +
      brEqual (ρ .a) (holeD (ρ .a) (ρ .gaa) (2 * ρ .taua) (ρ .jpaa)) (Ea.evalR ρ) +
      brEqual (ρ .b) (holeD (ρ .b) (ρ .gbb) (2 * ρ .taub) (ρ .jpbb)) (Eb.evalR ρ) := by
    show (brECopp Ea Eb).evalR ρ + (brECss Ea d.a d.gaa d.taua d.jpaa).evalR ρ + (brECss Eb d.b d.gbb d.taub d.jpbb).evalR ρ = _
    rw [e1, e2, e3]; rfl
  have hxc : (brxc : Expr Field).evalR ρ = (brx : Expr Field).evalR ρ + (brc : Expr Field).evalR ρ := by
    show (0.5 * (Ea * d.a + Eb * d.b)).evalR ρ + (brECopp Ea Eb).evalR ρ + (brECss Ea d.a d.gaa d.taua d.jpaa).evalR ρ +
      (brECss Eb d.b d.gbb d.taub d.jpbb).evalR ρ = (0.5 * (d.a * Ea + d.b * Eb)).evalR ρ +
      ((brECopp Ea Eb).evalR ρ + (brECss Ea d.a d.gaa d.taua d.jpaa).evalR ρ + (brECss Eb d.b d.gbb d.taub d.jpbb).evalR ρ)
    simp only [evalR_mul, evalR_add]; ring
  have bx := abs_sum2 xa xb
  have bc := abs_sum2 (abs_sum2 co sa) sb
  rcases hid with rfl | rfl | rfl <;> cases he
  · simp only [brParts, List.map_cons, List.map_nil, List.sum_cons, List.sum_nil, add_zero]
    rw [hx]; exact bx
  · simp only [brParts, List.map_cons, List.map_nil, List.sum_cons, List.sum_nil, add_zero]
    rw [hc]
    rw [← add_assoc, ← add_assoc]
    exact bc
  · simp only [brParts, List.map_append, List.sum_append, List.map_cons, List.map_nil, List.sum_cons, List.sum_nil, add_zero]
    rw [hxc, hx, hc]
    have := abs_sum2 bx bc
    simp only [add_assoc] at this ⊢
    exact this

end XCFun.Fun
