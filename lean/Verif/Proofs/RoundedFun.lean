/-
The relative errors of functionals.
-/
import Verif.Proofs.RoundedEnergy
import Verif.Model.Fun.Table
import Mathlib.Analysis.Real.Pi.Bounds

namespace XCFun.RE
open XCFun Spec Expr Fun

/-- `a` is between `exp(-l)` and `exp l`. -/
def Rng (l a : ℝ) : Prop := Real.exp (-l) ≤ a ∧ a ≤ Real.exp l

theorem Rng.pos {l a : ℝ} (h : Rng l a) : 0 < a := lt_of_lt_of_le (Real.exp_pos _) h.1
theorem Rng.mono {l k a : ℝ} (h : Rng l a) (hk : l ≤ k) : Rng k a :=
  ⟨(Real.exp_le_exp.2 (by linarith)).trans h.1, h.2.trans (Real.exp_le_exp.2 hk)⟩

theorem two_pow_le_exp (n : ℕ) : (2 : ℝ) ^ n ≤ Real.exp n := by
  rw [show Real.exp n = Real.exp 1 ^ n by rw [← Real.exp_nat_mul, mul_one]]
  exact pow_le_pow_left₀ (by norm_num) two_le_exp_one n

theorem rng_num {a : ℝ} (n : ℕ) (h1 : 1 ≤ 2 ^ n * a) (h2 : a ≤ 2 ^ n) : Rng n a := by
  refine ⟨?_, h2.trans (two_pow_le_exp n)⟩
  rw [Real.exp_neg]
  refine (inv_anti₀ (by positivity) (two_pow_le_exp n)).trans ?_
  rw [inv_eq_one_div, div_le_iff₀ (by positivity)]
  linarith

theorem Rng.mul {l k a b : ℝ} (h : Rng l a) (h' : Rng k b) : Rng (l + k) (a * b) := by
  rw [Rng, neg_add, Real.exp_add, Real.exp_add]
  exact ⟨mul_le_mul h.1 h'.1 (Real.exp_pos _).le h.pos.le, mul_le_mul h.2 h'.2 h'.pos.le (Real.exp_pos _).le⟩

theorem Rng.inv {l a : ℝ} (h : Rng l a) : Rng l a⁻¹ := by
  refine ⟨?_, ?_⟩
  · rw [Real.exp_neg]; exact inv_anti₀ h.pos h.2
  · rw [← neg_neg l, Real.exp_neg]; exact inv_anti₀ (Real.exp_pos _) h.1

theorem Rng.div {l k a b : ℝ} (h : Rng l a) (h' : Rng k b) : Rng (l + k) (a / b) := by
  rw [div_eq_mul_inv]; exact h.mul h'.inv

theorem Rng.rpow {l a : ℝ} (h : Rng l a) (p b : ℝ) (hb : |p| ≤ b) : Rng (b * l) (a ^ p) := by
  have hlog : |Real.log a| ≤ l := by
    rw [abs_le]
    exact ⟨(Real.le_log_iff_exp_le h.pos).2 h.1, (Real.log_le_iff_le_exp h.pos).2 h.2⟩
  have hb : |Real.log a * p| ≤ b * l := by
    rw [abs_mul, mul_comm]
    exact mul_le_mul hb hlog (abs_nonneg _) ((abs_nonneg _).trans hb)
  have := abs_le.1 hb
  constructor <;> rw [Real.rpow_def_of_pos h.pos] <;> apply Real.exp_le_exp.2 <;> linarith

theorem rng_pi : Rng 2 Real.pi := by
  have h1 := Real.pi_gt_three
  have h2 := Real.pi_le_four
  exact_mod_cast rng_num 2 (by linarith) (by linarith)

macro "rng" n:num : tactic => `(tactic| exact_mod_cast rng_num $n (by norm_num) (by norm_num))

theorem rng_slater : Rng 10 c_slater := by
  have h1 : Rng 7 (81 : ℝ) := by rng 7
  have h2 : Rng 5 (32 : ℝ) := by rng 5
  exact ((h1.div (h2.mul rng_pi)).rpow (1 / 3) (1 / 3) (by norm_num [abs_le])).mono (by norm_num)

theorem rng_cLda : Rng 10 cLda := by
  have h1 : Rng 7 (81 : ℝ) := by rng 7
  have h2 : Rng 2 (4 : ℝ) := by rng 2
  have h3 : Rng 1 (2 : ℝ) := by rng 1
  exact (((h1.div (h2.mul rng_pi)).rpow (1 / 3) (1 / 3) (by norm_num [abs_le])).div h3).mono (by norm_num)

theorem rng_CF : Rng 10 CF := by
  have h1 : Rng 2 (3 : ℝ) := by rng 2
  have h2 : Rng 2 (0.3 : ℝ) := by rng 2
  exact (h2.mul ((h1.mul (rng_pi.mul rng_pi)).rpow (2 / 3) (2 / 3) (by norm_num [abs_le]))).mono (by norm_num)

theorem rng_S2 : Rng 20 S2const := by
  have h1 : Rng 3 (6 : ℝ) := by rng 3
  have h2 : Rng 4 (12 : ℝ) := by rng 4
  exact (((h1.rpow (2 / 3) (2 / 3) (by norm_num [abs_le])).div (h2.mul (rng_pi.rpow (2 / 3) (2 / 3) (by norm_num [abs_le])))).rpow 2 2
    (by norm_num)).mono (by norm_num)

theorem rng_mu : Rng 10 mu_pbe := by
  have h1 : Rng 4 (0.066725 : ℝ) := by rng 4
  have h2 : Rng 2 (3 : ℝ) := by rng 2
  exact (((h1.mul rng_pi).mul rng_pi).div h2).mono (by norm_num)

theorem rng_R : Rng 10 R_pbe := by
  have : Rng 1 R_pbe := by rw [R_pbe]; rng 1
  exact this.mono (by norm_num)
theorem rng_Rrev : Rng 10 R_revpbe := by
  have : Rng 1 R_revpbe := by rw [R_revpbe]; rng 1
  exact this.mono (by norm_num)

theorem prefactor_neg : prefactorConst ≤ 0 := by
  rw [prefactorConst]
  have h1 : (0 : ℝ) ≤ 2 ^ (1 / 3 : ℝ) := by positivity
  have h2 : (0 : ℝ) ≤ (3 * Real.pi * Real.pi) ^ (1 / 3 : ℝ) := by positivity
  nlinarith [mul_nonneg h1 h2]

variable {V : Type} [Zero V] [One V] [Add V] [Sub V] [Mul V] [Neg V] {A : Rounded V} {L : MathLib A} {ρ : Field → V} {r : Field → ℝ}

theorem PA.mono {e : Expr Field} {c c' l l' : ℝ} (h : PA L ρ r e c l) (h1 : c ≤ c') (h2 : l ≤ l') : PA L ρ r e c' l' :=
  ⟨Within.mono h.acc (mul_le_mul_of_nonneg_right h1 (η_nonneg L)), (Real.exp_le_exp.2 (by linarith)).trans h.lo, h.hi.trans (Real.exp_le_exp.2 h2)⟩
theorem NA.mono {e : Expr Field} {c c' l l' : ℝ} (h : NA L ρ r e c l) (h1 : c ≤ c') (h2 : l ≤ l') : NA L ρ r e c' l' :=
  ⟨Within.mono h.acc (mul_le_mul_of_nonneg_right h1 (η_nonneg L)), h.lo, h.hi.trans (Real.exp_le_exp.2 h2)⟩
theorem Acc.mono {e : Expr Field} {c c' : ℝ} (h : Acc L ρ r e c) (h1 : c ≤ c') : Acc L ρ r e c' :=
  Within.mono h (mul_le_mul_of_nonneg_right h1 (η_nonneg L))
theorem MA.mono {e : Expr Field} {c c' : ℝ} (h : MA L ρ r e c) (h1 : c ≤ c') : MA L ρ r e c' := ⟨h.acc.mono h1, h.hi⟩

theorem pa_rng {a l : ℝ} (h : Rng l a) : PA L ρ r (Expr.lit a) 1 l := pa_lit a l h.1 h.2

/-- The density variables: exact inputs in range, and what is computed from them. -/
structure Given (L : MathLib A) (ρ : Field → V) (r : Field → ℝ) : Prop where
  a : PA L ρ r (var .a) 0 50
  b : PA L ρ r (var .b) 0 50
  gaa : NA L ρ r (var .gaa) 0 50
  gbb : NA L ρ r (var .gbb) 0 50
  n : PA L ρ r (var .n) 1 101
  a_43 : PA L ρ r (var .a_43) 68 67
  b_43 : PA L ρ r (var .b_43) 68 67

macro "expo" : tactic => `(tactic| norm_num [abs_le])

section
variable {na gaa : Expr Field}

theorem na_S2 (ha : PA L ρ r na 0 50) (hg : NA L ρ r gaa 0 50) : NA L ρ r (S2 na gaa) 139 204 :=
  (na_mul (na_div hg (pa_pow (8 / 3) (8 / 3) (by expo) ha)) (pa_rng rng_S2).na).mono (by norm_num) (by norm_num)

theorem ma_prefactor (ha : PA L ρ r na 0 50) : MA L ρ r (prefactor na) 73 :=
  (ma_div (ma_mul (ma_lit _ prefactor_neg) (pa_pow (4 / 3) (4 / 3) (by expo) ha).na) (pa_rng rng_pi)).mono (by norm_num)

theorem ma_lda (ha : PA L ρ r na 0 50) : MA L ρ r (((-cLda : ℝ) : Expr Field) * Expr.pow na (4 / 3)) 70 :=
  (ma_mul (ma_lit _ (by have := rng_cLda.pos; linarith)) (pa_pow (4 / 3) (4 / 3) (by expo) ha).na).mono (by norm_num)

/-- The enhancement factors `1 + R - R/(1 + m/R)`. -/
theorem na_enh {R c l : ℝ} (hR : Rng 10 R) (hR1 : R ≤ 1.5) {m : Expr Field} (hl : 0 ≤ l) (hc : c ≤ 2000) (hm : NA L ρ r m c l) :
    NA L ρ r (1 + (R : Expr Field) - (R : Expr Field) / (1 + m / (R : Expr Field))) (5 * c + 56) 2 := by
  have one : PA L ρ r (1 : Expr Field) 1 10 := pa_rng (by
    have : Rng 0 (1 : ℝ) := by simp [Rng]
    exact this.mono (by norm_num))
  have t1 := pa_add one (by linarith) (na_div hm (pa_rng hR))
  have q := pa_div (pa_rng (L := L) (ρ := ρ) (r := r) hR) t1
  have p := pa_add one (by norm_num) (pa_rng (L := L) (ρ := ρ) (r := r) hR).na
  have hm0 := hm.lo
  have hR0 := hR.pos
  have e1 : evalR r ((R : Expr Field) / (1 + m / (R : Expr Field))) ≤ R := by
    simp only [evalR_div, evalR_add, evalR_one, evalR_lit]
    rw [div_le_iff₀ (by positivity)]
    have : 0 ≤ R * (m.evalR r / R) := by positivity
    linarith
  have e2 : evalR r (1 + (R : Expr Field)) = 1 + R := rfl
  have e3 := two_pow_le_exp 2
  push_cast at e3
  have e4 := q.pos
  refine ⟨(acc_sub p.acc q.acc q.pos.le (by rw [e2]; linarith) (by norm_num; linarith)).mono (by norm_num; linarith), ?_, ?_⟩
  · rw [evalR_sub, e2]
    linarith
  · rw [evalR_sub, e2]
    linarith

end

variable (G : Given L ρ r)
include G

theorem acc_slaterx : Acc L ρ r slaterx 139 :=
  (acc_mul (acc_lit _) (pa_add G.a_43 (by norm_num) G.b_43.na).acc).mono (by norm_num)

theorem acc_pbe_ab {R : ℝ} (hR : Rng 10 R) (hR1 : R ≤ 1.5) :
    Acc L ρ r (energy_pbe_ab R (var .a) (var .gaa) + energy_pbe_ab R (var .b) (var .gbb)) 1700 := by
  have key : ∀ na gaa : Expr Field, PA L ρ r na 0 50 → NA L ρ r gaa 0 50 → MA L ρ r (energy_pbe_ab R na gaa) 840 := by
    intro na gaa ha hg
    have h := na_enh hR hR1 (by norm_num) (by norm_num) (na_mul (pa_rng rng_mu).na (na_S2 ha hg))
    exact (ma_mul (ma_prefactor ha) h).mono (by norm_num)
  exact (ma_add (key _ _ G.a G.gaa) (key _ _ G.b G.gbb)).acc.mono (by norm_num)

omit G in
theorem pa_one : PA L ρ r (1 : Expr Field) 1 0 := pa_rng (by simp [Rng])

theorem acc_pbex : Acc L ρ r pbex 1700 := acc_pbe_ab G rng_R (by norm_num [R_pbe])
theorem acc_revpbex : Acc L ρ r revpbex 1700 := acc_pbe_ab G rng_Rrev (by norm_num [R_revpbe])

theorem acc_rpbex : Acc L ρ r rpbex 450 := by
  have key : ∀ na gaa : Expr Field, PA L ρ r na 0 50 → NA L ρ r gaa 0 50 → MA L ρ r (prefactor na * enhancement_RPBE na gaa) 222 := by
    intro na gaa ha hg
    have h1 : MA L ρ r (Expr.expm1 (((-mu_rpbe / R_pbe : ℝ) : Expr Field) * S2 na gaa)) 142 :=
      (ma_expm1 (ma_mul (ma_lit _ (by norm_num [mu_rpbe, R_pbe])) (na_S2 ha hg))).mono (by norm_num)
    have h2 := ma_mul' (pa_rng rng_R).na h1
    have one := pa_one (L := L) (ρ := ρ) (r := r)
    have h3 : NA L ρ r (enhancement_RPBE na gaa) 146 1 := by
      refine ⟨(acc_sub_neg one.acc h2.acc one.pos.le h2.hi).mono (by norm_num), ?_, ?_⟩
      · show 0 ≤ evalR r (1 - _)
        rw [evalR_sub]
        have := h2.hi
        have : 0 < evalR r (1 : Expr Field) := one.pos
        linarith
      · show evalR r (1 - (R_pbe : Expr Field) * Expr.expm1 _) ≤ _
        have h4 := two_le_exp_one
        rw [evalR_sub, evalR_mul, evalR_expm1, evalR_one, evalR_lit, R_pbe]
        have := Real.exp_pos (evalR r (((-mu_rpbe / 0.804 : ℝ) : Expr Field) * S2 na gaa))
        linarith
    exact (ma_mul (ma_prefactor ha) h3).mono (by norm_num)
  exact (ma_add (key _ _ G.a G.gaa) (key _ _ G.b G.gbb)).acc.mono (by norm_num)

theorem acc_pbesolx : Acc L ρ r pbesolx 1700 := by
  have hm : Rng 10 (0.123456790123 : ℝ) := Rng.mono (l := 4) (by rng 4) (by norm_num)
  have hR : Rng 10 (0.804 : ℝ) := rng_R
  have key : ∀ na gaa : Expr Field, PA L ρ r na 0 50 → NA L ρ r gaa 0 50 → MA L ρ r (energy_pbesolx na gaa) 840 := by
    intro na gaa ha hg
    have h := na_enh hR (by norm_num) (by norm_num) (by norm_num) (na_mul (pa_rng hm).na (na_S2 ha hg))
    exact (ma_mul (ma_lda ha) h).mono (by norm_num)
  exact (ma_add (key _ _ G.a G.gaa) (key _ _ G.b G.gbb)).acc.mono (by norm_num)

theorem acc_apbex : Acc L ρ r apbex 1700 := by
  have hm : Rng 10 (0.26 : ℝ) := Rng.mono (l := 4) (by rng 4) (by norm_num)
  have hR : Rng 10 (0.804 : ℝ) := rng_R
  have key : ∀ na gaa : Expr Field, PA L ρ r na 0 50 → NA L ρ r gaa 0 50 → MA L ρ r (energy_apbex na gaa) 840 := by
    intro na gaa ha hg
    have h := na_enh hR (by norm_num) (by norm_num) (by norm_num) (na_mul (pa_rng hm).na (na_S2 ha hg))
    exact (ma_mul (ma_lda ha) h).mono (by norm_num)
  exact (ma_add (key _ _ G.a G.gaa) (key _ _ G.b G.gbb)).acc.mono (by norm_num)

theorem acc_pbeintx : Acc L ρ r pbeintx 4700 := by
  have hm : Rng 10 (0.123456790123 : ℝ) := Rng.mono (l := 4) (by rng 4) (by norm_num)
  have hd : Rng 10 ((0.21951 - 0.123456790123) * 0.197 : ℝ) := Rng.mono (l := 6) (by rng 6) (by norm_num)
  have ha0 : Rng 10 (0.197 : ℝ) := Rng.mono (l := 4) (by rng 4) (by norm_num)
  have hR : Rng 10 (0.804 : ℝ) := rng_R
  have key : ∀ na gaa : Expr Field, PA L ρ r na 0 50 → NA L ρ r gaa 0 50 → MA L ρ r (energy_pbeintx na gaa) 2300 := by
    intro na gaa ha hg
    have hs := na_S2 ha hg
    have hmu := pa_add (pa_rng hm) (by norm_num) (na_div (na_mul (pa_rng hd).na hs) (pa_add pa_one (by norm_num) (na_mul (pa_rng ha0).na hs)))
    have h := na_enh hR (by norm_num) (by norm_num) (by norm_num) (na_mul hmu.na hs)
    exact (ma_mul (ma_lda ha) h).mono (by norm_num)
  exact (ma_add (key _ _ G.a G.gaa) (key _ _ G.b G.gbb)).acc.mono (by norm_num)

theorem acc_tfk : Acc L ρ r tfk 174 :=
  (acc_mul (acc_lit _) (acc_pow (5 / 3) (5 / 3) (by expo) G.n)).mono (by norm_num)

theorem acc_vW : Acc L ρ r vW 10 := by
  have h8 : Rng 3 (8 : ℝ) := by rng 3
  exact (na_add (by norm_num) (by norm_num) (na_div G.gaa (pa_mul (pa_rng h8) G.a)) (na_div G.gbb (pa_mul (pa_rng h8) G.b))).acc.mono (by norm_num)

theorem acc_ktx : Acc L ρ r ktx 150 := by
  have h1 : Rng 4 (0.1 : ℝ) := by rng 4
  exact (na_add (by norm_num) (by norm_num)
    (na_div G.gaa (pa_add (pa_rng h1) (by norm_num) (pa_pow (4 / 3) (4 / 3) (by expo) G.a).na))
    (na_div G.gbb (pa_add (pa_rng h1) (by norm_num) (pa_pow (4 / 3) (4 / 3) (by expo) G.b).na))).acc.mono (by norm_num)

theorem acc_btk : Acc L ρ r btk 800 := by
  have h0 : Rng 1 (0.5 : ℝ) := by rng 1
  have h1 : Rng 1 (1.990328 : ℝ) := by rng 1
  have h2 : Rng 80 (1e-24 : ℝ) := by rng 80
  have h3 : Rng 1 (2 : ℝ) := by rng 1
  have h4 : Rng 2 (4 : ℝ) := by rng 2
  have key : ∀ na gaa : Expr Field, PA L ρ r na 2 51 → NA L ρ r gaa 2 52 → PA L ρ r (btk_alpha na gaa) 300 300 := by
    intro na gaa ha hg
    exact (pa_div (pa_mul (pa_mul (pa_rng h1) (pa_pow (5 / 3) (5 / 3) (by expo) ha))
      (pa_pow (0.5 * 0.3434125) 0.2 (by expo) (pa_add (pa_rng h2) (by norm_num) hg)))
      (pa_pow (4 / 3 * 0.3434125) 0.5 (by expo) ha)).mono (by norm_num) (by norm_num)
  exact (acc_mul (acc_lit _) (pa_add
    (key _ _ ((pa_mul (pa_rng h3) G.a).mono (by norm_num) (by norm_num)) ((na_mul (pa_rng h4).na G.gaa).mono (by norm_num) (by norm_num))) (by norm_num)
    (key _ _ ((pa_mul (pa_rng h3) G.b).mono (by norm_num) (by norm_num)) ((na_mul (pa_rng h4).na G.gbb).mono (by norm_num) (by norm_num))).na).acc).mono
      (by norm_num)

omit G in
/-- The factor `u²` of OPTX. -/
theorem na_opt {na gaa : Expr Field} (ha : PA L ρ r na 0 50) (hg : NA L ρ r gaa 0 50) :
    NA L ρ r (((0.006 : ℝ) : Expr Field) * gaa * Expr.pow na (-8 / 3)) 138 194 ∧
    PA L ρ r (Expr.powi (1 + ((0.006 : ℝ) : Expr Field) * gaa * Expr.pow na (-8 / 3)) (-2)) 674 390 := by
  have h0 : Rng 8 (0.006 : ℝ) := by rng 8
  have hg := (na_mul (na_mul (pa_rng h0).na hg) (pa_pow (-8 / 3) (8 / 3) (by expo) ha).na).mono (c' := 138) (l' := 194) (by norm_num) (by norm_num)
  refine ⟨hg, ?_⟩
  exact (pa_pow _ 2 (by norm_num) (pa_add pa_one (by norm_num) hg)).mono (by norm_num) (by norm_num)

theorem acc_optxcorr : Acc L ρ r optxcorr 2200 := by
  have key : ∀ na n43 gaa : Expr Field, PA L ρ r na 0 50 → PA L ρ r n43 68 67 → NA L ρ r gaa 0 50 →
      NA L ρ r (n43 * (Expr.npow (((0.006 : ℝ) : Expr Field) * gaa * Expr.pow na (-8 / 3)) 2 *
        Expr.powi (1 + ((0.006 : ℝ) : Expr Field) * gaa * Expr.pow na (-8 / 3)) (-2))) 1030 900 := by
    intro na n43 gaa ha h43 hg
    obtain ⟨h1, h2⟩ := na_opt ha hg
    exact (na_mul h43.na (na_mul (na_mul h1 h1) h2.na)).mono (by norm_num) (by norm_num)
  exact (na_add (by norm_num) (by norm_num) (key _ _ _ G.a G.a_43 G.gaa) (key _ _ _ G.b G.b_43 G.gbb)).acc.mono (by norm_num)

theorem acc_optx : Acc L ρ r optx 2200 := by
  have hc : Rng 11 (1.05151 * c_slater : ℝ) := by
    have h1 : Rng 1 (1.05151 : ℝ) := by rng 1
    exact (h1.mul rng_slater).mono (by norm_num)
  have h2 : Rng 1 (1.43169 : ℝ) := by rng 1
  have key : ∀ na n43 gaa : Expr Field, PA L ρ r na 0 50 → PA L ρ r n43 68 67 → NA L ρ r gaa 0 50 →
      NA L ρ r (n43 * (((1.05151 * c_slater : ℝ) : Expr Field) + ((1.43169 : ℝ) : Expr Field) *
        Expr.npow (((0.006 : ℝ) : Expr Field) * gaa * Expr.pow na (-8 / 3)) 2 *
        Expr.powi (1 + ((0.006 : ℝ) : Expr Field) * gaa * Expr.pow na (-8 / 3)) (-2))) 1030 900 := by
    intro na n43 gaa ha h43 hg
    obtain ⟨h1, h3⟩ := na_opt ha hg
    exact (na_mul h43.na (pa_add (pa_rng hc) (by norm_num) (na_mul (na_mul (pa_rng h2).na (na_mul h1 h1)) h3.na)).na).mono (by norm_num) (by norm_num)
  exact (ma_sub (ma_neg (key _ _ _ G.a G.a_43 G.gaa)) (key _ _ _ G.b G.b_43 G.gbb)).acc.mono (by norm_num)

theorem acc_pw86x : Acc L ρ r pw86x 1000 := by
  have h05 : Rng 1 (0.5 : ℝ) := by rng 1
  have h2 : Rng 1 (2 : ℝ) := by rng 1
  have h4 : Rng 2 (4 : ℝ) := by rng 2
  have h14 : Rng 4 (14 : ℝ) := by rng 4
  have hb : Rng 1 (1.296 : ℝ) := by rng 1
  have hd : Rng 3 (0.20 : ℝ) := by rng 3
  have h3 : Rng 2 (3 : ℝ) := by rng 2
  have h1 : Rng 0 (1 : ℝ) := by simp [Rng]
  have hk : Rng 6 (3 * Real.pi ^ 2 : ℝ) := by
    rw [pow_two]
    exact (h3.mul (rng_pi.mul rng_pi)).mono (by norm_num)
  have hA : (-(3 / Real.pi) ^ (1 / 3 : ℝ) * 3 / 4 : ℝ) ≤ 0 := by
    have : (0 : ℝ) ≤ (3 / Real.pi) ^ (1 / 3 : ℝ) := by positivity
    linarith
  have key : ∀ na gaa : Expr Field, PA L ρ r na 0 50 → NA L ρ r gaa 0 50 → MA L ρ r (pw86xSpin na gaa) 400 := by
    intro na gaa ha hg
    have rho := (pa_mul (pa_rng h2) ha).mono (c' := 2) (l' := 51) (by norm_num) (by norm_num)
    have kf := pa_pow (1 / 3) (1 / 3) (by expo) (pa_mul (pa_rng hk) rho)
    have den := pa_mul (pa_mul (pa_rng h2) kf) rho
    have s2 := (na_div (na_mul (pa_rng h4).na hg) (pa_mul den den)).mono (c' := 70) (l' := 200) (by norm_num) (by norm_num)
    have F := pa_pow (1 / 15) (1 / 15) (by expo) (pa_add (pa_rng h1) (by norm_num) (na_mul s2
      (pa_add (pa_rng hb) (by norm_num) (na_mul s2 (pa_add (pa_rng h14) (by norm_num) (na_mul (pa_rng hd).na s2)).na)).na))
    exact (ma_mul (ma_mul (ma_lit _ hA) (pa_pow (4 / 3) (4 / 3) (by expo) rho).na) F.na).mono (by norm_num)
  exact (ma_mul' (pa_rng h05).na (ma_add (key _ _ G.a G.gaa) (key _ _ G.b G.gbb))).acc.mono (by norm_num)

end XCFun.RE
