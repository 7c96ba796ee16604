/-
Smoothness of the functionals at physical densities.
-/
import Verif.Proofs.Smooth
import Verif.Proofs.Limits

namespace XCFun.Fun
open Spec Expr

variable {ρ : Field → ℝ}

section
variable (h : Sound ρ)
include h
theorem _root_.XCFun.Spec.Sound.zeta_bounds : 0 < 1 + ρ .zeta ∧ 0 < 1 - ρ .zeta := by
  have := h.s_lt
  have := h.lt_s
  have hn := h.n
  rw [h.zeta]
  constructor
  · rw [← div_self hn.ne', ← add_div]; apply div_pos <;> linarith
  · rw [← div_self hn.ne', ← sub_div]; apply div_pos <;> linarith
theorem _root_.XCFun.Spec.Sound.r_s_pos : 0 < ρ .r_s := by
  have := h.n
  rw [h.r_s]; positivity
theorem _root_.XCFun.Spec.Sound.n_m13_pos : 0 < ρ .n_m13 := by
  have := h.n
  rw [h.n_m13]; positivity
theorem _root_.XCFun.Spec.Sound.a_43_pos : 0 < ρ .a_43 := by
  have := h.a
  rw [h.a_43]; positivity
theorem _root_.XCFun.Spec.Sound.b_43_pos : 0 < ρ .b_43 := by
  have := h.b
  rw [h.b_43]; positivity
end

/-- Bring the signs of the density variables into the context. -/
macro "signs" h:term : tactic => `(tactic| (
  have ha := Physical.a (Sound.toPhysical $h)
  have hb := Physical.b (Sound.toPhysical $h)
  have hn := Physical.n (Sound.toPhysical $h)
  have hr := Sound.r_s_pos $h
  have hm := Sound.n_m13_pos $h
  have ha4 := Sound.a_43_pos $h
  have hb4 := Sound.b_43_pos $h
  have hgaa := Sound.gaa $h
  have hgbb := Sound.gbb $h
  have hgnn := Sound.gnn $h
  have hz := (Sound.zeta_bounds $h).1
  have hz' := (Sound.zeta_bounds $h).2
  have hpi := Real.pi_pos
  have hCF : (0 : ℝ) < CF := by (unfold CF PI2; positivity)))

/-- Smooth and positive. -/
structure PosReg (ρ : Field → ℝ) (e : Expr Field) : Prop where
  reg : e.Reg ρ
  pos : 0 < e.evalR ρ

/-- Smooth and non-negative. -/
structure NonnegReg (ρ : Field → ℝ) (e : Expr Field) : Prop where
  reg : e.Reg ρ
  nonneg : 0 ≤ e.evalR ρ

theorem PosReg.weak {e : Expr Field} (h : PosReg ρ e) : NonnegReg ρ e := ⟨h.reg, h.pos.le⟩

section Calculus
variable {x y : Expr Field} {c : ℝ}

theorem reg_div (hx : x.Reg ρ) (hy : PosReg ρ y) : (x / y).Reg ρ := by
  rw [Reg_div]; exact ⟨hx, hy.reg, hy.pos.ne'⟩
theorem reg_pow (hx : PosReg ρ x) : (Expr.pow x c).Reg ρ := ⟨hx.reg, hx.pos⟩
theorem reg_sqrt (hx : PosReg ρ x) : (Expr.sqrt x).Reg ρ := ⟨hx.reg, hx.pos⟩
theorem reg_cbrt (hx : PosReg ρ x) : (Expr.cbrt x).Reg ρ := ⟨hx.reg, hx.pos⟩
theorem reg_log (hx : PosReg ρ x) : (Expr.log x).Reg ρ := ⟨hx.reg, hx.pos⟩
theorem reg_npow {n : ℕ} (hx : x.Reg ρ) : (Expr.npow x n).Reg ρ := by
  cases n with
  | zero => trivial
  | succ n => exact (Reg_npow ρ x n).2 hx
theorem reg_powi_neg {n : ℕ} (hx : PosReg ρ x) : (Expr.powi x (Int.negSucc n)).Reg ρ := ⟨hx.reg, hx.pos⟩
theorem reg_powi_neg_two (hx : PosReg ρ x) : (Expr.powi x (-2)).Reg ρ := ⟨hx.reg, hx.pos⟩

theorem pos_add (hx : PosReg ρ x) (hy : NonnegReg ρ y) : PosReg ρ (x + y) := ⟨⟨hx.1, hy.1⟩, add_pos_of_pos_of_nonneg hx.2 hy.2⟩
theorem pos_add' (hx : NonnegReg ρ x) (hy : PosReg ρ y) : PosReg ρ (x + y) := ⟨⟨hx.1, hy.1⟩, add_pos_of_nonneg_of_pos hx.2 hy.2⟩
theorem pos_mul (hx : PosReg ρ x) (hy : PosReg ρ y) : PosReg ρ (x * y) := ⟨⟨hx.1, hy.1⟩, mul_pos hx.2 hy.2⟩
theorem pos_div (hx : PosReg ρ x) (hy : PosReg ρ y) : PosReg ρ (x / y) := by
  refine ⟨reg_div hx.1 hy, ?_⟩
  rw [evalR_div]; exact div_pos hx.2 hy.2
theorem pos_pow (hx : PosReg ρ x) : PosReg ρ (Expr.pow x c) := ⟨reg_pow hx, Real.rpow_pos_of_pos hx.2 _⟩
theorem pos_sqrt (hx : PosReg ρ x) : PosReg ρ (Expr.sqrt x) := ⟨reg_sqrt hx, Real.sqrt_pos.2 hx.2⟩
theorem pos_cbrt (hx : PosReg ρ x) : PosReg ρ (Expr.cbrt x) := ⟨reg_cbrt hx, by
  rw [evalR_cbrt]; have := hx.2; rw [XCFun.cbrt, if_pos this.le]; positivity⟩
theorem pos_exp (hx : x.Reg ρ) : PosReg ρ (Expr.exp x) := ⟨(Reg_exp ρ x).2 hx, Real.exp_pos _⟩
theorem pos_npow {n : ℕ} (hx : PosReg ρ x) : PosReg ρ (Expr.npow x n) := ⟨reg_npow hx.1, by
  rw [evalR_npow]; exact pow_pos hx.2 n⟩
theorem pos_powi_neg_two (hx : PosReg ρ x) : PosReg ρ (Expr.powi x (-2)) := ⟨⟨hx.reg, hx.pos⟩, Real.rpow_pos_of_pos hx.2 _⟩
theorem pos_pow2 (hx : PosReg ρ x) : PosReg ρ (Expr.pow2 x) := pos_mul hx hx
theorem pos_pow3 (hx : PosReg ρ x) : PosReg ρ (Expr.pow3 x) := pos_mul (pos_mul hx hx) hx
theorem pos_var {f : Field} (h : 0 < ρ f) : PosReg ρ (.var f) := ⟨trivial, h⟩
theorem pos_lit (h : 0 < c) : PosReg ρ (.lit c) := ⟨trivial, h⟩
theorem pos_one : PosReg ρ 1 := ⟨trivial, one_pos⟩
theorem pos_ofNat (n : ℕ) [n.AtLeastTwo] : PosReg ρ (ofNat(n) : Expr Field) := ⟨trivial, by
  rw [evalR_ofNat]; exact Nat.ofNat_pos'⟩
theorem pos_ofScientific {m e : ℕ} {s : Bool} (h : (0 : ℝ) < OfScientific.ofScientific m s e) :
    PosReg ρ (OfScientific.ofScientific m s e : Expr Field) := ⟨trivial, h⟩

theorem nonneg_add (hx : NonnegReg ρ x) (hy : NonnegReg ρ y) : NonnegReg ρ (x + y) := ⟨⟨hx.1, hy.1⟩, add_nonneg hx.2 hy.2⟩
theorem nonneg_mul (hx : NonnegReg ρ x) (hy : NonnegReg ρ y) : NonnegReg ρ (x * y) := ⟨⟨hx.1, hy.1⟩, mul_nonneg hx.2 hy.2⟩
theorem nonneg_div (hx : NonnegReg ρ x) (hy : PosReg ρ y) : NonnegReg ρ (x / y) := by
  refine ⟨reg_div hx.1 hy, ?_⟩
  rw [evalR_div]; exact div_nonneg hx.2 hy.2.le
theorem nonneg_npow {n : ℕ} (hx : NonnegReg ρ x) : NonnegReg ρ (Expr.npow x n) := ⟨reg_npow hx.1, by
  rw [evalR_npow]; exact pow_nonneg hx.2 n⟩
theorem nonneg_var {f : Field} (h : 0 ≤ ρ f) : NonnegReg ρ (.var f) := ⟨trivial, h⟩
theorem nonneg_zero : NonnegReg ρ 0 := ⟨trivial, le_refl _⟩
theorem nonneg_lit (h : 0 ≤ c) : NonnegReg ρ (.lit c) := ⟨trivial, h⟩
end Calculus

/-- One step of the calculus of smooth expressions. -/
macro "rg_step" : tactic => `(tactic| first
  | assumption
  | exact trivial
  | exact PosReg.reg (by assumption)
  | exact NonnegReg.reg (by assumption)
  | exact PosReg.weak (by assumption)
  | eapply reg_div
  | eapply reg_sqrt
  | eapply reg_cbrt
  | eapply reg_log
  | eapply reg_pow
  | eapply reg_npow
  | eapply reg_powi_neg_two
  | refine (Reg_exp _ _).2 ?_
  | refine (Reg_expm1 _ _).2 ?_
  | refine (Reg_atan _ _).2 ?_
  | refine (Reg_erf _ _).2 ?_
  | refine (Reg_pow2 _ _).2 ?_
  | refine (Reg_pow3 _ _).2 ?_
  | refine (Reg_add _ _ _).2 ⟨?_, ?_⟩
  | refine (Reg_sub _ _ _).2 ⟨?_, ?_⟩
  | refine (Reg_mul _ _ _).2 ⟨?_, ?_⟩
  | refine (Reg_neg _ _).2 ?_
  | exact pos_var (by assumption)
  | exact pos_one
  | exact pos_ofNat _
  | exact pos_ofScientific (by norm_num)
  | exact pos_lit (by first | positivity | (norm_num; done))
  | eapply pos_pow2
  | eapply pos_pow3
  | eapply pos_add
  | eapply pos_div
  | eapply pos_mul
  | eapply pos_pow
  | eapply pos_sqrt
  | eapply pos_cbrt
  | eapply pos_exp
  | eapply pos_npow
  | eapply pos_powi_neg_two
  | exact nonneg_var (by assumption)
  | exact nonneg_var (le_of_lt (by assumption))
  | exact nonneg_zero
  | exact nonneg_lit (by first | positivity | (norm_num; done))
  | eapply nonneg_add
  | eapply nonneg_div
  | eapply nonneg_mul
  | eapply nonneg_npow
  | eapply PosReg.weak)

/-- Smoothness of an expression by the signs of its parts. -/
macro "rg" : tactic => `(tactic| repeat' rg_step)

theorem S2const_nonneg : 0 ≤ S2const := S2const_pos.le

theorem S2_reg {n g : Expr Field} (hn : PosReg ρ n) (hg : NonnegReg ρ g) : NonnegReg ρ (S2 n g) := by
  have := S2const_pos
  unfold S2; rg

theorem prefactor_reg {n : Expr Field} (hn : PosReg ρ n) : (prefactor n).Reg ρ := by
  unfold prefactor; rg

theorem slaterx_reg : slaterx.Reg ρ := ⟨trivial, trivial, trivial⟩

theorem pw86x_reg (h : Sound ρ) : pw86x.Reg ρ := by
  signs h
  unfold pw86x pw86xSpin
  rg


theorem enhancement_reg {R : ℝ} {n g : Expr Field} (hR : 0 < R) (hn : PosReg ρ n) (hg : NonnegReg ρ g) : (enhancement R n g).Reg ρ := by
  have := S2_reg hn hg
  have := mu_pbe_pos
  unfold enhancement; rg

theorem pbex_reg (h : Sound ρ) : pbex.Reg ρ := by
  signs h
  unfold pbex energy_pbe_ab
  refine ⟨⟨prefactor_reg ?_, enhancement_reg R_pbe_pos ?_ ?_⟩, prefactor_reg ?_, enhancement_reg R_pbe_pos ?_ ?_⟩ <;> rg

theorem revpbex_reg (h : Sound ρ) : revpbex.Reg ρ := by
  signs h
  unfold revpbex energy_pbe_ab
  refine ⟨⟨prefactor_reg ?_, enhancement_reg R_revpbe_pos ?_ ?_⟩, prefactor_reg ?_, enhancement_reg R_revpbe_pos ?_ ?_⟩ <;> rg

theorem rpbex_reg (h : Sound ρ) : rpbex.Reg ρ := by
  signs h
  have s1 : NonnegReg ρ (S2 d.a d.gaa) := by apply S2_reg <;> rg
  have s2 : NonnegReg ρ (S2 d.b d.gbb) := by apply S2_reg <;> rg
  unfold rpbex prefactor enhancement_RPBE
  rg

theorem pbesolx_reg (h : Sound ρ) : pbesolx.Reg ρ := by
  signs h
  have s1 : NonnegReg ρ (S2 d.a d.gaa) := by apply S2_reg <;> rg
  have s2 : NonnegReg ρ (S2 d.b d.gbb) := by apply S2_reg <;> rg
  unfold pbesolx energy_pbesolx pbesol_enhancement
  rg

theorem apbex_reg (h : Sound ρ) : apbex.Reg ρ := by
  signs h
  have s1 : NonnegReg ρ (S2 d.a d.gaa) := by apply S2_reg <;> rg
  have s2 : NonnegReg ρ (S2 d.b d.gbb) := by apply S2_reg <;> rg
  unfold apbex energy_apbex apbe_enhancement
  rg

theorem pbeintx_reg (h : Sound ρ) : pbeintx.Reg ρ := by
  signs h
  have s1 : NonnegReg ρ (S2 d.a d.gaa) := by apply S2_reg <;> rg
  have s2 : NonnegReg ρ (S2 d.b d.gbb) := by apply S2_reg <;> rg
  unfold pbeintx energy_pbeintx pbeint_enhancement
  rg

theorem optx_reg (h : Sound ρ) : optx.Reg ρ := by
  signs h
  unfold optx
  rg

theorem optxcorr_reg (h : Sound ρ) : optxcorr.Reg ρ := by
  signs h
  unfold optxcorr
  rg

theorem ktx_reg (h : Sound ρ) : ktx.Reg ρ := by
  signs h
  unfold ktx
  rg

theorem tfk_reg (h : Sound ρ) : tfk.Reg ρ := by
  signs h
  unfold tfk
  rg

theorem vW_reg (h : Sound ρ) : vW.Reg ρ := by
  signs h
  unfold vW vW_alpha
  rg

theorem btk_reg (h : Sound ρ) : btk.Reg ρ := by
  signs h
  unfold btk btk_alpha
  rg

theorem tw_reg (h : Sound ρ) (hg : 0 < ρ .gaa + ρ .gbb) : tw.Reg ρ := by
  signs h
  have : PosReg ρ (d.gaa + d.gbb) := ⟨⟨trivial, trivial⟩, hg⟩
  unfold tw
  rg

theorem lypc_reg (h : Sound ρ) : lypc.Reg ρ := by
  signs h
  unfold lypc
  rg

theorem csc_reg (h : Sound ρ) : csc.Reg ρ := by
  signs h
  unfold csc
  rg

theorem omega_reg (h : Sound ρ) : (omega d.zeta).Reg ρ := by
  signs h
  have p1 : PosReg ρ (1 + d.zeta) := ⟨⟨trivial, trivial⟩, by assumption⟩
  have p2 : PosReg ρ (1 - d.zeta) := ⟨⟨trivial, trivial⟩, by assumption⟩
  have : (1 : ℝ) < 2 ^ (1 / 3 : ℝ) := Real.one_lt_rpow (by norm_num) (by norm_num)
  have hc : (0 : ℝ) < 2 * 2 ^ (1 / 3 : ℝ) - 2 := by linarith
  unfold omega Fun.ufunc Expr.ufunc
  refine reg_div ?_ (pos_lit hc)
  rg

/-- Parameters of PW92 for which the argument of the logarithm is positive. -/
structure Pw92P.Good (t : Pw92P) : Prop where
  t0 : 0 < t.t0
  t1 : 0 < t.t1
  t2 : 0 < t.t2
  t3 : 0 < t.t3
  t4 : 0 < t.t4
  t5 : 0 < t.t5

theorem pw92_0_good : pw92_0.Good := by constructor <;> norm_num [pw92_0]
theorem pw92_1_good : pw92_1.Good := by constructor <;> norm_num [pw92_1]
theorem pw92_2_good : pw92_2.Good := by constructor <;> norm_num [pw92_2]

theorem eopt_reg {s : Expr Field} {t : Pw92P} (ht : t.Good) (hs : PosReg ρ s) : (eopt s t).Reg ρ := by
  obtain ⟨h0, h1, h2, h3, h4, h5⟩ := ht
  unfold eopt
  rg

theorem pw92eps_reg (h : Sound ρ) : pw92eps.Reg ρ := by
  signs h
  have s : PosReg ρ (sqrt d.r_s) := by rg
  have e0 := eopt_reg pw92_0_good s
  have e1 := eopt_reg pw92_1_good s
  have e2 := eopt_reg pw92_2_good s
  have ho := omega_reg h
  have : (1 : ℝ) < 2 ^ (1 / 3 : ℝ) := Real.one_lt_rpow (by norm_num) (by norm_num)
  have hc : (0 : ℝ) < 8 / (9 * (2 * 2 ^ (1 / 3 : ℝ) - 2)) := by
    apply div_pos (by norm_num); linarith
  have hc' : PosReg ρ (Expr.lit (8 / (9 * (2 * 2 ^ (1 / 3 : ℝ) - 2)))) := pos_lit hc
  unfold pw92eps
  rg

theorem pw92c_reg (h : Sound ρ) : pw92c.Reg ρ := ⟨pw92eps_reg h, trivial⟩

theorem pw92eps_polarized_reg {a : Expr Field} (ha : PosReg ρ a) : (pw92eps_polarized a).Reg ρ := by
  unfold pw92eps_polarized
  have := Real.pi_pos
  refine eopt_reg pw92_1_good ?_
  rg

theorem spin_dens_gradient_reg {g m : Expr Field} (hg : g.Reg ρ) (h0 : g.evalR ρ ≠ 0) (hm : PosReg ρ m) :
    NonnegReg ρ (spin_dens_gradient_ab2 g m) := by
  have : NonnegReg ρ (Expr.abs g) := by
    refine ⟨?_, by rw [evalR_abs]; positivity⟩
    rw [Expr.abs, Reg_iflt]
    refine ⟨hg, trivial, h0, ?_⟩
    split
    · exact hg
    · exact hg
  unfold spin_dens_gradient_ab2
  rg

theorem b97enhancement_reg {Γ : ℝ} {c : ℝ × ℝ × ℝ} {x : Expr Field} (hΓ : 0 < Γ) (hx : NonnegReg ρ x) :
    (b97enhancement Γ c x).Reg ρ := by
  unfold b97enhancement ux_ab
  rg

theorem b97x_reg (c : ℝ × ℝ × ℝ) {m g : Expr Field} (hm : PosReg ρ m) (hg : g.Reg ρ) (h0 : g.evalR ρ ≠ 0) :
    (energy_b97x_ab b97x_Gamma c m g).Reg ρ := by
  have := b97enhancement_reg (Γ := b97x_Gamma) (c := c) (by norm_num [b97x_Gamma]) (spin_dens_gradient_reg hg h0 hm)
  unfold energy_b97x_ab e_x_LSDA_ab
  rg

theorem b97c_reg (c : (ℝ × ℝ × ℝ) × (ℝ × ℝ × ℝ)) (h : Sound ρ) (h1 : ρ .gaa ≠ 0) (h2 : ρ .gbb ≠ 0) : (b97cEn c).Reg ρ := by
  signs h
  have pa : PosReg ρ d.a := by rg
  have pb : PosReg ρ d.b := by rg
  have sa := spin_dens_gradient_reg (g := d.gaa) (m := d.a_43) trivial h1 (by rg)
  have sb := spin_dens_gradient_reg (g := d.gbb) (m := d.b_43) trivial h2 (by rg)
  have ea := b97enhancement_reg (Γ := 0.2) (c := c.2) (by norm_num) sa
  have eb := b97enhancement_reg (Γ := 0.2) (c := c.2) (by norm_num) sb
  have sm : NonnegReg ρ (0.5 * (spin_dens_gradient_ab2 d.gaa d.a_43 + spin_dens_gradient_ab2 d.gbb d.b_43)) := by rg
  have em := b97enhancement_reg (Γ := 0.006) (c := c.1) (by norm_num) sm
  have p1 := pw92eps_polarized_reg pa
  have p2 := pw92eps_polarized_reg pb
  have p3 := pw92eps_reg h
  unfold b97cEn energy_b97c_par energy_b97c_antipar b97c_eLSDA
  rg

theorem Cg_pos (h : Sound ρ) : PosReg ρ (Cg d.r_s) := by
  signs h
  unfold Cg
  rg

theorem p86c_corr_reg (h : Sound ρ) : p86c_corr.Reg ρ := by
  signs h
  have := Cg_pos h
  have : (0 : ℝ) < rcbrt 2 := by unfold rcbrt; positivity
  unfold p86c_corr Pg p86dz
  rg

theorem pz81eps_reg (h : Sound ρ) (h1 : ρ .r_s ≠ 1) : pz81eps.Reg ρ := by
  signs h
  have : (1 : ℝ) < 2 ^ (1 / 3 : ℝ) := Real.one_lt_rpow (by norm_num) (by norm_num)
  have hc : (0 : ℝ) < 2 * 2 ^ (1 / 3 : ℝ) - 2 := by linarith
  have hc' : PosReg ρ (Expr.lit (2 * 2 ^ (1 / 3 : ℝ) - 2)) := pos_lit hc
  have hf : pz81fz.Reg ρ := by unfold pz81fz; rg
  unfold pz81eps
  refine (Reg_iflt _ _ _ _ _).2 ⟨trivial, trivial, h1, ?_⟩
  split
  · unfold Ehd; rg
  · unfold Eld; rg

theorem pz81c_reg (h : Sound ρ) (h1 : ρ .r_s ≠ 1) : pz81c.Reg ρ := ⟨pz81eps_reg h h1, trivial⟩

theorem p86c_reg (h : Sound ρ) (h1 : ρ .r_s ≠ 1) : p86c.Reg ρ := ⟨⟨trivial, pz81eps_reg h h1⟩, p86c_corr_reg h⟩

theorem becke_corr_reg {n g : Expr Field} (hn : PosReg ρ n) (hg : NonnegReg ρ g)
    (h0 : g.evalR ρ * n.evalR ρ ^ (-8 / 3 : ℝ) ≠ 0.5) : (becke_corr n g).Reg ρ := by
  have hc : NonnegReg ρ (g * Expr.pow n (-8 / 3)) := by rg
  have hs : NonnegReg ρ (Expr.sqrtxAsinhSqrtx (g * Expr.pow n (-8 / 3))) :=
    ⟨(Reg_sqrtxAsinhSqrtx _ _).2 ⟨hc.reg, by have := hc.nonneg; linarith, h0⟩, sas_nonneg hc.nonneg⟩
  have hD : (0 : ℝ) < beckeD := by norm_num [beckeD]
  unfold becke_corr
  rg

end XCFun.Fun
