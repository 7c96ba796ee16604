/-
Lemmas for C85: derivatives of the energies per electron of the uniform gas.
-/
import Verif.Props.LiteratureDeriv
import Verif.Proofs.CorrNeg
import Mathlib.Analysis.SpecialFunctions.Arsinh

namespace XCFun.LdaPot
open XCFun Spec Lit Filter Topology

/-! ### Perdew and Wang -/

theorem log_bound {q : ℝ} (hq : 0 < q) : Real.log (1 + 1 / q) ≤ (2 * q + 1) / (2 * (q * (q + 1))) := by
  have h1 : 1 ≤ 1 + 1 / q := by have : 0 < 1 / q := by positivity
                                linarith
  have h := Real.self_le_sinh_iff.2 (Real.log_nonneg h1)
  rw [Real.sinh_log (by linarith)] at h
  refine h.trans (le_of_eq ?_)
  field_simp
  ring

theorem pwG_deriv {A α β1 β2 β3 β4 r : ℝ} (hA : 0 < A) (hα : 0 < α) (h1 : 0 < β1) (h2 : 0 < β2) (h3 : 0 < β3) (h4 : 0 < β4)
    (c1 : α ≤ 4 * A * β2) (c2 : α * β1 ≤ 3 * β3) (hr : 0 < r) : ∃ d, 0 < d ∧ HasDerivAt (pwG A α β1 β2 β3 β4) d r := by
  have hx : 0 < √r := Real.sqrt_pos.2 hr
  have hsq : √r ^ 2 = r := Real.sq_sqrt hr.le
  set x := √r with hxdef
  have e32 : r ^ (3 / 2 : ℝ) = x ^ 3 := by
    rw [hxdef, Real.sqrt_eq_rpow, ← Real.rpow_natCast, ← Real.rpow_mul hr.le]; norm_num
  have e12 : r ^ (3 / 2 - 1 : ℝ) = x := by
    rw [hxdef, Real.sqrt_eq_rpow]; norm_num
  set q := fun r : ℝ => 2 * A * (β1 * √r + β2 * r + β3 * r ^ (3 / 2 : ℝ) + β4 * r ^ 2) with hq
  set q' := 2 * A * (β1 * (1 / (2 * x)) + β2 * 1 + β3 * (3 / 2 * x) + β4 * (2 * r)) with hq'
  have hqr : q r = 2 * A * (β1 * x + β2 * x ^ 2 + β3 * x ^ 3 + β4 * x ^ 4) := by
    show 2 * A * (β1 * √r + β2 * r + β3 * r ^ (3 / 2 : ℝ) + β4 * r ^ 2) = _
    rw [e32, ← hxdef, show x ^ 4 = (x ^ 2) ^ 2 by ring, hsq]
  have hq0 : 0 < q r := by rw [hqr]; positivity
  have dq : HasDerivAt q q' r := by
    have d1 := (Real.hasDerivAt_sqrt hr.ne').const_mul β1
    have d2 := (hasDerivAt_id r).const_mul β2
    have d3 := (Real.hasDerivAt_rpow_const (x := r) (p := 3 / 2) (.inl hr.ne')).const_mul β3
    have d4 := (hasDerivAt_pow 2 r).const_mul β4
    refine ((((d1.fun_add d2).fun_add d3).fun_add d4).const_mul (2 * A)).congr_deriv ?_
    rw [e12, ← hxdef, hq']
    norm_num
  have hy : 1 + 1 / q r ≠ 0 := (add_pos one_pos (div_pos one_pos hq0)).ne'
  have dl : HasDerivAt (fun r => Real.log (1 + 1 / q r)) (-q' / q r ^ 2 / (1 + 1 / q r)) r := by
    have := ((dq.fun_inv hq0.ne').const_add 1).log (by rw [← one_div]; exact hy)
    simp only [← one_div] at this
    exact this
  have d := (((((hasDerivAt_id r).const_mul α).const_add 1).const_mul (-2 * A))).fun_mul dl
  refine ⟨_, ?_, d⟩
  have hl := log_bound hq0
  have key : α * (2 * q r + 1) / 2 < (1 + α * r) * q' := by
    have e : (1 + α * r) * q' - α * (2 * q r + 1) / 2 =
        A * (β1 / x) + (4 * A * β2 - α) / 2 + A * ((3 * β3 - α * β1) * x) + 4 * A * β4 * x ^ 2 + A * α * β3 * x ^ 3 + 2 * A * α * β4 * x ^ 4 := by
      rw [hqr, hq', ← hsq]
      field_simp
      ring
    have : 0 < A * (β1 / x) := by positivity
    have : 0 ≤ A * ((3 * β3 - α * β1) * x) := mul_nonneg hA.le (mul_nonneg (by linarith) hx.le)
    have : 0 ≤ 4 * A * β4 * x ^ 2 := by positivity
    have : 0 ≤ A * α * β3 * x ^ 3 := by positivity
    have : 0 ≤ 2 * A * α * β4 * x ^ 4 := by positivity
    linarith
  have hd : -q' / q r ^ 2 / (1 + 1 / q r) = -q' / (q r * (q r + 1)) := by
    have : q r + 1 ≠ 0 := by linarith
    field_simp
  rw [hd]
  simp only [id]
  have hqq : 0 < q r * (q r + 1) := by positivity
  have hb : α * Real.log (1 + 1 / q r) < (1 + α * r) * q' / (q r * (q r + 1)) := by
    refine (mul_le_mul_of_nonneg_left hl hα.le).trans_lt ?_
    rw [← mul_div_assoc, div_lt_div_iff₀ (by positivity) hqq]
    nlinarith [mul_lt_mul_of_pos_right key hqq]
  have e : -2 * A * (α * 1) * Real.log (1 + 1 / q r) + -2 * A * (1 + α * r) * (-q' / (q r * (q r + 1))) =
      2 * A * ((1 + α * r) * q' / (q r * (q r + 1)) - α * Real.log (1 + 1 / q r)) := by ring
  rw [e]
  exact mul_pos (by positivity) (by linarith)

theorem pw92P_deriv {r : ℝ} (hr : 0 < r) : ∃ d, 0 < d ∧ HasDerivAt pw92P d r := by
  unfold pw92P
  exact pwG_deriv (by norm_num) (by norm_num) (by norm_num) (by norm_num) (by norm_num) (by norm_num) (by norm_num) (by norm_num) hr

/-! ### Vosko, Wilk, Nusair -/

theorem sqrt_deriv_pos {f : ℝ → ℝ} {r : ℝ} (hr : 0 < r) (h : ∀ x, 0 < x → ∃ d, 0 < d ∧ HasDerivAt f d x) : ∃ d, 0 < d ∧ HasDerivAt (fun r => f √r) d r := by
  obtain ⟨d, hd, h⟩ := h _ (Real.sqrt_pos.2 hr)
  have hs := Real.sqrt_pos.2 hr
  exact ⟨_, mul_pos hd (by positivity), h.comp r (Real.hasDerivAt_sqrt hr.ne')⟩

theorem vwn_deriv {p : Fun.VwnP} {q : Vwn} (hp : Fun.VwnP.Good p) (h1 : 0 < p.p1) (he : ∀ x : ℝ, 0 < x → 0.5 * p.p1 * Fun.vwnF p x = vwn q x) {x : ℝ} (hx : 0 < x) :
    ∃ d, 0 < d ∧ HasDerivAt (vwn q) d x := by
  have hd := Fun.vwnD_pos hp hx
  refine ⟨0.5 * p.p1 * (2 * Fun.vwnD p x), by positivity, ?_⟩
  refine ((Fun.vwnF_deriv hp hx).const_mul (0.5 * p.p1)).congr_of_eventuallyEq ?_
  filter_upwards [lt_mem_nhds hx] with y hy
  exact (he y hy).symm

theorem vwn_para_eq {x : ℝ} (hx : 0 < x) : 0.5 * Fun.vwn5_para.p1 * Fun.vwnF Fun.vwn5_para x = vwn vwn5P x ∧
    0.5 * Fun.vwn3_para.p1 * Fun.vwnF Fun.vwn3_para x = vwn vwn3P x := by
  have e : (Expr.lit x : Expr Field).evalR (fun _ => 0) = x := Expr.evalR_lit _ _
  constructor
  · have := Fun.vwn5P_eq (ρ := fun _ => 0) (x := Expr.lit x) (by rw [e]; exact hx)
    rwa [Fun.vwn_f_evalR, e] at this
  · have := Fun.vwn3P_eq (ρ := fun _ => 0) (x := Expr.lit x) (by rw [e]; exact hx)
    rwa [Fun.vwn_f_evalR, e] at this

theorem vwn5P_deriv {r : ℝ} (hr : 0 < r) : ∃ d, 0 < d ∧ HasDerivAt (fun r => vwn vwn5P √r) d r :=
  sqrt_deriv_pos hr fun _ hx => vwn_deriv Fun.vwn5_para_good (by norm_num [Fun.vwn5_para]) (fun _ h => (vwn_para_eq h).1) hx

theorem vwn3P_deriv {r : ℝ} (hr : 0 < r) : ∃ d, 0 < d ∧ HasDerivAt (fun r => vwn vwn3P √r) d r :=
  sqrt_deriv_pos hr fun _ hx => vwn_deriv Fun.vwn3_para_good (by norm_num [Fun.vwn3_para]) (fun _ h => (vwn_para_eq h).2) hx

/-! ### Perdew and Zunger -/

/-- The unpolarised energy per electron. -/
noncomputable def pzU : ℝ → ℝ := pz (-0.1423) 1.0529 0.3334 0.0311 (-0.048) 0.0020 (-0.0116)

theorem pzU_deriv {r : ℝ} (hr : 0 < r) (h1 : r ≠ 1) : ∃ d, 0 < d ∧ HasDerivAt pzU d r := by
  rcases lt_or_gt_of_ne h1 with h | h
  · have d := (((((Real.hasDerivAt_log hr.ne').const_mul 0.0311).add_const (-0.048 : ℝ)).fun_add
      (((hasDerivAt_id r).const_mul 0.0020).fun_mul (Real.hasDerivAt_log hr.ne'))).fun_add ((hasDerivAt_id r).const_mul (-0.0116 : ℝ)))
    refine ⟨_, ?_, d.congr_of_eventuallyEq ?_⟩
    · simp only [id]
      have hl : -1 ≤ r * Real.log r := by
        have := Real.one_sub_inv_le_log_of_pos hr
        have := mul_le_mul_of_nonneg_left this hr.le
        rw [mul_sub, mul_one, mul_inv_cancel₀ hr.ne'] at this
        linarith
      have e : 0.0311 * r⁻¹ + (0.0020 * 1 * Real.log r + 0.0020 * r * r⁻¹) + -0.0116 * 1 =
          (0.0311 + 0.0020 * (r * Real.log r) + 0.0020 * r - 0.0116 * r) / r := by
        field_simp
        ring
      rw [e]
      exact div_pos (by linarith) hr
    · filter_upwards [gt_mem_nhds h] with y hy
      rw [pzU, pz, if_neg (not_le.2 hy)]
      rfl
  · have hx : 0 < √r := Real.sqrt_pos.2 hr
    have hden : 0 < 1 + 1.0529 * √r + 0.3334 * r := by positivity
    have d := (((((Real.hasDerivAt_sqrt hr.ne').const_mul 1.0529).const_add 1).fun_add ((hasDerivAt_id r).const_mul 0.3334)).fun_inv hden.ne').const_mul (-0.1423)
    refine ⟨_, ?_, d.congr_of_eventuallyEq ?_⟩
    · simp only [id]
      have : 0 < (1.0529 * (1 / (2 * √r)) + 0.3334 * 1) / (1 + 1.0529 * √r + 0.3334 * r) ^ 2 := by positivity
      rw [neg_div]
      linarith
    · filter_upwards [lt_mem_nhds h] with y hy
      rw [pzU, pz, if_pos hy.le, div_eq_mul_inv]
      rfl

theorem pzU_neg {r : ℝ} (hr : 0 < r) : pzU r < 0 := by
  have hx : 0 < √r := Real.sqrt_pos.2 hr
  unfold pzU pz
  split
  · rw [neg_div]; exact neg_neg_of_pos (by positivity)
  · next h =>
    have hl : Real.log r ≤ 0 := Real.log_nonpos hr.le (by linarith)
    have : 0.0020 * r * Real.log r ≤ 0 := mul_nonpos_of_nonneg_of_nonpos (by positivity) hl
    nlinarith

/-! ### Functions of the density -/

theorem rs_deriv {n : ℝ} (hn : 0 < n) : HasDerivAt Lit.rs (-Lit.rs n / (3 * n)) n := by
  have hp := Real.pi_pos
  have hf : 0 < 3 / (4 * Real.pi * n) := by positivity
  have d0 : HasDerivAt (fun n : ℝ => 3 / (4 * Real.pi * n)) (-(3 / (4 * Real.pi * n)) / n) n := by
    have := ((((hasDerivAt_id n).const_mul (4 * Real.pi)).fun_inv (by simp only [id]; positivity)).const_mul 3)
    simp only [id, ← div_eq_mul_inv] at this
    refine this.congr_deriv ?_
    field_simp
  refine (d0.rpow_const (p := 1 / 3) (.inl hf.ne')).congr_deriv ?_
  rw [Real.rpow_sub_one hf.ne']
  unfold Lit.rs
  field_simp

/-- The energy per volume from an energy per electron that grows with `r_s` and is negative. -/
theorem volume {ε : ℝ → ℝ} {n : ℝ} (hn : 0 < n) (h : ∃ d, 0 < d ∧ HasDerivAt ε d (Lit.rs n)) :
    ∃ v, HasDerivAt (fun n => n * ε (Lit.rs n)) v n ∧ v < ε (Lit.rs n) := by
  have hr : 0 < Lit.rs n := by
    have := Real.pi_pos
    unfold Lit.rs; positivity
  obtain ⟨d, hd, h⟩ := h
  refine ⟨_, (hasDerivAt_id n).fun_mul (h.comp n (rs_deriv hn)), ?_⟩
  simp only [id, one_mul]
  have e : n * (d * (-Lit.rs n / (3 * n))) = -(d * Lit.rs n / 3) := by field_simp
  rw [e]
  have : 0 < d * Lit.rs n / 3 := by positivity
  linarith

theorem exUnif_deriv {n : ℝ} (hn : 0 < n) : HasDerivAt exUnif (4 / 3 * (exUnif n / n)) n := by
  unfold exUnif
  refine ((Real.hasDerivAt_rpow_const (x := n) (p := 4 / 3) (.inl hn.ne')).const_mul _).congr_deriv ?_
  rw [Real.rpow_sub_one hn.ne']
  ring

theorem exUnif_neg {n : ℝ} (hn : 0 < n) : exUnif n < 0 := by
  have := Real.pi_pos
  unfold exUnif
  have : 0 < 3 / 4 * (3 / Real.pi) ^ (1 / 3 : ℝ) * n ^ (4 / 3 : ℝ) := by positivity
  linarith

/-- The local functionals: Dirac exchange, VWN3, VWN5, PW92, PZ81. -/
def ldaIds : List ℕ := [0, 2, 3, 28, 55]

/-- The energy per volume of the unpolarised uniform gas. -/
noncomputable def uniform : ℕ → ℝ → ℝ
  | 0 => exUnif
  | 2 => fun n => n * vwn vwn3P √(Lit.rs n)
  | 3 => fun n => n * vwn vwn5P √(Lit.rs n)
  | 28 => fun n => n * pw92P (Lit.rs n)
  | _ => fun n => n * pzU (Lit.rs n)

theorem published_uniform {g : Gas} {n : ℝ} (ha : g.a = n / 2) (hb : g.b = n / 2) {id : ℕ} (hid : id ∈ ldaIds) (q : Par) :
    ∃ F, published[id]? = some (some F) ∧ F.domain q g ∧ F.energy q g = uniform id n := by
  have h1 : g.n = n := by rw [Gas.n, ha, hb]; ring
  have h2 : g.zeta = 0 := by rw [Gas.zeta, ha, hb, sub_self, zero_div]
  have hf : ((1 : ℝ) + 0) ^ (4 / 3 : ℝ) + (1 - 0) ^ (4 / 3 : ℝ) - 2 = 0 := by norm_num
  have hp : fPol 0 = 0 := by unfold fPol; rw [hf, zero_div]
  simp only [ldaIds, List.mem_cons, List.not_mem_nil, or_false] at hid
  rcases hid with rfl | rfl | rfl | rfl | rfl
  · refine ⟨_, rfl, trivial, ?_⟩
    show slaterX g = exUnif n
    rw [slaterX, spinScaled, ha, hb, mul_div_cancel₀ n two_ne_zero]
    ring
  · refine ⟨_, rfl, trivial, ?_⟩
    show vwn3C g _ = _
    simp only [vwn3C, h1, h2, hf]
    show _ = n * vwn vwn3P √(Lit.rs n)
    ring
  · refine ⟨_, rfl, trivial, ?_⟩
    show vwn5C g _ = _
    simp only [vwn5C, vwn5Eps, h1, h2, hf]
    show _ = n * vwn vwn5P √(Lit.rs n)
    ring
  · refine ⟨_, rfl, trivial, ?_⟩
    show pw92C g = _
    simp only [pw92C, pw92Eps, h1, h2, hp]
    show _ = n * pw92P (Lit.rs n)
    ring
  · refine ⟨_, rfl, trivial, ?_⟩
    show pz81C g = _
    simp only [pz81C, pz81Eps, h1, h2, hp]
    show _ = n * pzU (Lit.rs n)
    unfold pzU
    ring

theorem rs_pos {n : ℝ} (hn : 0 < n) : 0 < Lit.rs n := by
  have := Real.pi_pos
  unfold Lit.rs; positivity

theorem rs_one {n : ℝ} (hn : 0 < n) (h : Lit.rs n = 1) : n = 3 / (4 * Real.pi) := by
  have hp := Real.pi_pos
  have h0 : (0 : ℝ) ≤ 3 / (4 * Real.pi * n) := by positivity
  have : 3 / (4 * Real.pi * n) = 1 := by
    unfold Lit.rs at h
    have := congrArg (fun t : ℝ => t ^ (3 : ℝ)) h
    simp only [← Real.rpow_mul h0, Real.one_rpow] at this
    norm_num at this
    exact this
  field_simp at this ⊢
  linarith

theorem pw92P_neg {r : ℝ} (hr : 0 < r) : pw92P r < 0 := by
  unfold pw92P pwG
  have hx : 0 < √r := Real.sqrt_pos.2 hr
  have : 0 < Real.log (1 + 1 / (2 * 0.0310907 * (7.5957 * √r + 3.5876 * r + 1.6382 * r ^ (3 / 2 : ℝ) + 0.49294 * r ^ 2))) := by
    apply Real.log_pos
    have : 0 < 1 / (2 * 0.0310907 * (7.5957 * √r + 3.5876 * r + 1.6382 * r ^ (3 / 2 : ℝ) + 0.49294 * r ^ 2)) := by positivity
    linarith
  have h2 : 0 < 2 * 0.0310907 * (1 + 0.21370 * r) := by positivity
  have := mul_pos h2 this
  linarith

/-- Potential, energy per electron, zero. -/
theorem uniform_deriv {n : ℝ} (hn : 0 < n) {id : ℕ} (hid : id ∈ ldaIds) (h55 : id = 55 → n ≠ 3 / (4 * Real.pi)) :
    ∃ v, HasDerivAt (uniform id) v n ∧ v < uniform id n / n ∧ uniform id n / n < 0 := by
  have hr := rs_pos hn
  have e : ∀ t : ℝ, n * t / n = t := fun t => by field_simp
  simp only [ldaIds, List.mem_cons, List.not_mem_nil, or_false] at hid
  rcases hid with rfl | rfl | rfl | rfl | rfl
  · have := div_neg_of_neg_of_pos (exUnif_neg hn) hn
    exact ⟨_, exUnif_deriv hn, by show _ < exUnif n / n; linarith, this⟩
  · obtain ⟨v, h1, h2⟩ := volume (ε := fun r => vwn vwn3P √r) hn (vwn3P_deriv hr)
    refine ⟨v, h1, by simp only [uniform]; rwa [e], ?_⟩
    simp only [uniform]
    rw [e, ← (vwn_para_eq (Real.sqrt_pos.2 hr)).2]
    exact mul_neg_of_pos_of_neg (by norm_num [Fun.vwn3_para]) (Fun.vwnF_neg Fun.vwn3_para_good (Real.sqrt_pos.2 hr))
  · obtain ⟨v, h1, h2⟩ := volume (ε := fun r => vwn vwn5P √r) hn (vwn5P_deriv hr)
    refine ⟨v, h1, by simp only [uniform]; rwa [e], ?_⟩
    simp only [uniform]
    rw [e, ← (vwn_para_eq (Real.sqrt_pos.2 hr)).1]
    exact mul_neg_of_pos_of_neg (by norm_num [Fun.vwn5_para]) (Fun.vwnF_neg Fun.vwn5_para_good (Real.sqrt_pos.2 hr))
  · obtain ⟨v, h1, h2⟩ := volume hn (pw92P_deriv hr)
    exact ⟨v, h1, by simp only [uniform]; rwa [e], by simp only [uniform]; rw [e]; exact pw92P_neg hr⟩
  · obtain ⟨v, h1, h2⟩ := volume hn (pzU_deriv hr fun h => h55 rfl (rs_one hn h))
    exact ⟨v, h1, by simp only [uniform]; rwa [e], by simp only [uniform]; rw [e]; exact pzU_neg hr⟩

theorem uniform_anti {id : ℕ} (hid : id ∈ [0, 2, 3, 28]) {n n' : ℝ} (hn : 0 < n) (h : n < n') : uniform id n' / n' < uniform id n / n := by
  have hid' : id ∈ ldaIds := by
    simp only [ldaIds, List.mem_cons, List.not_mem_nil, or_false] at hid ⊢
    omega
  have h55 : ∀ m : ℝ, id = 55 → m ≠ 3 / (4 * Real.pi) := fun m he => by subst he; exact absurd hid (by decide)
  have hd : ∀ m, 0 < m → ∃ d < 0, HasDerivAt (fun n => uniform id n / n) d m := fun m hm => by
    obtain ⟨v, h1, h2, -⟩ := uniform_deriv hm hid' (h55 m)
    refine ⟨_, ?_, h1.fun_div (hasDerivAt_id m) hm.ne'⟩
    simp only [mul_one]
    apply div_neg_of_neg_of_pos _ (by positivity)
    rw [lt_div_iff₀ hm] at h2
    linarith
  refine strictAntiOn_of_deriv_neg (f := fun n => uniform id n / n) (convex_Ioi 0) (fun m hm => ?_) (fun m hm => ?_) hn (hn.trans h) h
  · obtain ⟨d, -, h⟩ := hd m hm
    exact h.continuousAt.continuousWithinAt
  · rw [interior_Ioi] at hm
    obtain ⟨d, h0, h⟩ := hd m hm
    rw [h.deriv]; exact h0

end XCFun.LdaPot
