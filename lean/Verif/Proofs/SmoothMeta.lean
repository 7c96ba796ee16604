/-
Smoothness of the functionals of the kinetic energy density.
-/
import Verif.Proofs.SmoothGGA

noncomputable section

namespace XCFun.Fun
open Spec Expr

variable {ρ : Field → ℝ}

/-! ### M05 and M06 -/

theorem m0fw_reg (c : List ℝ) {n t : Expr Field} (hn : PosReg ρ n) (ht : PosReg ρ t) : (m0fw c n t).Reg ρ := by
  have hCF : (0 : ℝ) < CF := by unfold CF PI2; positivity
  have h1 : PosReg ρ (pw91k_prefactor n / t) := by unfold pw91k_prefactor; rg
  unfold m0fw
  refine Reg_poly (ρ := ρ) (x := (pw91k_prefactor n / t - 1) / (pw91k_prefactor n / t + 1)) ?_ c
  have := h1.reg
  rg

theorem energy_pbe_ab_reg {n g : Expr Field} (hn : PosReg ρ n) (hg : NonnegReg ρ g) : (energy_pbe_ab R_pbe n g).Reg ρ :=
  ⟨prefactor_reg hn, enhancement_reg R_pbe_pos hn hg⟩

theorem CF_lt : CF < 3 := by
  have h : (3 * PI2) < 31 := by
    have := Real.pi_lt_d2
    have := Real.pi_pos
    unfold PI2; nlinarith
  have h0 : 0 ≤ 3 * PI2 := by unfold PI2; positivity
  have e : (1000 : ℝ) ^ (1 / 3 : ℝ) = 10 := by
    rw [show (1000 : ℝ) = 10 ^ (3 : ℝ) by norm_num, ← Real.rpow_mul (by norm_num)]; norm_num
  have : (3 * PI2) ^ (2 / 3 : ℝ) < 10 := by
    rw [← e, show (2 / 3 : ℝ) = 2 * (1 / 3) by norm_num, Real.rpow_mul h0]
    apply Real.rpow_lt_rpow (by positivity) _ (by norm_num)
    rw [Real.rpow_two]; nlinarith
  unfold CF; linarith

theorem zet_reg {n t : Expr Field} (hn : PosReg ρ n) (ht : PosReg ρ t) : (zet n t).Reg ρ ∧ -9.53 < (zet n t).evalR ρ := by
  have hpos : PosReg ρ (2 * t / Expr.pow n (5 / 3)) := by rg
  refine ⟨⟨hpos.reg, trivial⟩, ?_⟩
  have := hpos.pos
  have e : (zet n t).evalR ρ = (2 * t / Expr.pow n (5 / 3)).evalR ρ - CF * scalefactorTFconst := rfl
  have := CF_lt
  rw [e, scalefactorTFconst]
  nlinarith

theorem m0h_reg {q : ParamD} {α : ℝ} {x z : Expr Field} (hα : 0 < α) (hα' : α < 0.01) (hx : NonnegReg ρ x) (hz : z.Reg ρ)
    (hz' : -20 < z.evalR ρ) : (m0h q α x z).Reg ρ := by
  have hxr := hx.reg
  have hg : PosReg ρ (m0gamma α x z) := by
    refine ⟨⟨trivial, trivial, hx.reg, hz⟩, ?_⟩
    have := hx.nonneg
    show 0 < 1 + α * (x.evalR ρ + z.evalR ρ)
    nlinarith
  unfold m0h
  rg

theorem chi2_reg {n g : Expr Field} (hn : PosReg ρ n) (hg : NonnegReg ρ g) : NonnegReg ρ (chi2 n g) := by
  unfold chi2; rg

theorem m0g_reg (c : List ℝ) {x : Expr Field} (hx : NonnegReg ρ x) : (m0g c x).Reg ρ := by
  unfold m0g
  refine Reg_poly (ρ := ρ) (x := x / (1 + x)) ?_ c
  rg

theorem ueg_c_para_reg {n : Expr Field} (hn : PosReg ρ n) : (ueg_c_para n).Reg ρ := ⟨pw92eps_polarized_reg hn, hn.reg⟩

section
variable (h : Sound ρ) (ta : 0 < ρ .taua) (tb : 0 < ρ .taub)
include h ta tb

theorem m05LikeX_reg (c : List ℝ) : (m05LikeX c).Reg ρ :=
  ⟨⟨energy_pbe_ab_reg (pos_var h.a) (nonneg_var h.gaa), m0fw_reg c (pos_var h.a) (pos_var ta)⟩,
    energy_pbe_ab_reg (pos_var h.b) (nonneg_var h.gbb), m0fw_reg c (pos_var h.b) (pos_var tb)⟩

theorem m06LikeX_reg (c : List ℝ) (q : ParamD) : (m06LikeX c q).Reg ρ := by
  have pa : PosReg ρ d.a := pos_var h.a
  have pb : PosReg ρ d.b := pos_var h.b
  have za := zet_reg pa (pos_var ta)
  have zb := zet_reg pb (pos_var tb)
  have ha : (m0h q alpha_x (chi2 d.a d.gaa) (zet d.a d.taua)).Reg ρ :=
    m0h_reg (by norm_num [alpha_x]) (by norm_num [alpha_x]) (chi2_reg pa (nonneg_var h.gaa)) za.1 (by have := za.2; change -9.53 < (zet d.a d.taua).evalR ρ at this; linarith)
  have hb : (m0h q alpha_x (chi2 d.b d.gbb) (zet d.b d.taub)).Reg ρ :=
    m0h_reg (by norm_num [alpha_x]) (by norm_num [alpha_x]) (chi2_reg pb (nonneg_var h.gbb)) zb.1 (by have := zb.2; change -9.53 < (zet d.b d.taub).evalR ρ at this; linarith)
  exact ⟨⟨⟨energy_pbe_ab_reg pa (nonneg_var h.gaa), m0fw_reg c pa (pos_var ta)⟩, ⟨trivial, reg_pow pa⟩, ha⟩,
    ⟨energy_pbe_ab_reg pb (nonneg_var h.gbb), m0fw_reg c pb (pos_var tb)⟩, ⟨trivial, reg_pow pb⟩, hb⟩

theorem Dsigma_reg : (Dsigma d.a d.gaa d.taua).Reg ρ ∧ (Dsigma d.b d.gbb d.taub).Reg ρ := by
  signs h
  constructor <;> (unfold Dsigma; rg)

omit ta tb in
theorem ueg_c_anti_reg : ueg_c_anti.Reg ρ :=
  ⟨⟨⟨pw92eps_reg h, trivial⟩, ueg_c_para_reg (pos_var h.a)⟩, ueg_c_para_reg (pos_var h.b)⟩

theorem m05LikeC_reg (c1 c2 : List ℝ) : (m05LikeC c1 c2).Reg ρ := by
  have pa : PosReg ρ d.a := pos_var h.a
  have pb : PosReg ρ d.b := pos_var h.b
  have ca := chi2_reg pa (nonneg_var h.gaa)
  have cb := chi2_reg pb (nonneg_var h.gbb)
  obtain ⟨da, db⟩ := Dsigma_reg h ta tb
  refine ⟨⟨⟨ueg_c_anti_reg h, m0g_reg _ ?_⟩, ueg_c_para_reg pa, m0g_reg _ ?_, da⟩, ueg_c_para_reg pb, m0g_reg _ ?_, db⟩
  · exact nonneg_mul (nonneg_lit (by norm_num)) (nonneg_add ca cb)
  · exact nonneg_mul (nonneg_lit (by norm_num)) ca
  · exact nonneg_mul (nonneg_lit (by norm_num)) cb

theorem m06LikeC_reg (c1 : List ℝ) (q1 : ParamD) (c2 : List ℝ) (q2 : ParamD) : (m06LikeC c1 q1 c2 q2).Reg ρ := by
  have pa : PosReg ρ d.a := pos_var h.a
  have pb : PosReg ρ d.b := pos_var h.b
  have ca := chi2_reg pa (nonneg_var h.gaa)
  have cb := chi2_reg pb (nonneg_var h.gbb)
  have za := zet_reg pa (pos_var ta)
  have zb := zet_reg pb (pos_var tb)
  obtain ⟨da, db⟩ := Dsigma_reg h ta tb
  have za2 := za.2
  have zb2 := zb.2
  refine ⟨⟨⟨ueg_c_anti_reg h, m0g_reg _ ?_, ?_⟩, ueg_c_para_reg pa, ⟨m0g_reg _ ?_, ?_⟩, da⟩, ueg_c_para_reg pb, ⟨m0g_reg _ ?_, ?_⟩, db⟩
  · exact nonneg_mul (nonneg_lit (by norm_num)) (nonneg_add ca cb)
  · refine m0h_reg (by norm_num [alpha_c_antiparallel]) (by norm_num [alpha_c_antiparallel]) (nonneg_add ca cb) ⟨za.1, zb.1⟩ ?_
    show -20 < (zet d.a d.taua).evalR ρ + (zet d.b d.taub).evalR ρ
    change -9.53 < (zet d.a d.taua).evalR ρ at za2
    change -9.53 < (zet d.b d.taub).evalR ρ at zb2
    linarith
  · exact nonneg_mul (nonneg_lit (by norm_num)) ca
  · exact m0h_reg (by norm_num [alpha_c_parallel]) (by norm_num [alpha_c_parallel]) ca za.1 (by change -9.53 < (zet d.a d.taua).evalR ρ at za2; linarith)
  · exact nonneg_mul (nonneg_lit (by norm_num)) cb
  · exact m0h_reg (by norm_num [alpha_c_parallel]) (by norm_num [alpha_c_parallel]) cb zb.1 (by change -9.53 < (zet d.b d.taub).evalR ρ at zb2; linarith)

end

/-! ### TPSS and BLOC exchange -/

/-- The numerator of the TPSS variable `x` is not negative. -/
theorem tpss_numerator {p z q S K : ℝ} (hp : 0 ≤ p) (hK : 0 ≤ K) (hS : S ^ 2 = 0.18 * z ^ 2 + 0.5 * p ^ 2) :
    0 ≤ p * (10 / 81 + K) + 146 * (q * q) / 2025 - 73 / 405 * q * S + (p * 10 / 81) * (p * 10 / 81) / 0.804 +
      (2 * √1.537 * 0.6 * 0.6 * (z * z) * 10 / 81 + 1.537 * 0.21951 * (p * p * p)) := by
  have h1 : 146 * (q * q) / 2025 - 73 / 405 * q * S + 73 / 648 * S ^ 2 ≥ 0 := by
    have : 146 * (q * q) / 2025 - 73 / 405 * q * S + 73 / 648 * S ^ 2 = 146 / 2025 * (q - 5 / 4 * S) ^ 2 := by ring
    rw [this]; positivity
  have h2 : (1 : ℝ) ≤ √1.537 := by
    rw [show (1 : ℝ) = √1 by simp]; exact Real.sqrt_le_sqrt (by norm_num)
  have hz : 0 ≤ z ^ 2 := sq_nonneg z
  have h3 : z ^ 2 ≤ √1.537 * z ^ 2 := by nlinarith
  have h4 : 0 ≤ p * K := mul_nonneg hp hK
  have h5 : 0 ≤ p * (10 / 81 - 73 / 1296 * p + 1.537 * 0.21951 * p ^ 2) := by
    apply mul_nonneg hp; nlinarith [sq_nonneg (p - 0.1)]
  have h6 : 0 ≤ (p * 10 / 81) * (p * 10 / 81) / 0.804 := by positivity
  nlinarith

/-- The parts of the TPSS variable `x`. -/
def tP0 (n : Expr Field) : Expr Field := 1 / (Expr.lit (4 * kF2) * pow n (8 / 3))
def tTauw (n g : Expr Field) : Expr Field := g / (8 * n)
def tAlpha (n g t : Expr Field) : Expr Field := (t - tTauw n g) / (Expr.lit (0.3 * kF2) * pow n (5 / 3))
def tQb (n g t : Expr Field) : Expr Field :=
  Expr.lit (9 / 20) * (tAlpha n g t - 1) / sqrt (1 + Expr.lit 0.40 * tAlpha n g t * (tAlpha n g t - 1)) + 2 * (g * tP0 n) / 3
def tRoot (n t : Expr Field) : Expr Field :=
  sqrt (Expr.lit (0.5 * 0.6 * 0.6) * powi (8 * n * t) (-2) + 0.5 * tP0 n * tP0 n)

/-- The TPSS variable `x` with the term `k` that differs between TPSS and BLOC. -/
def tX (n g t k T : Expr Field) : Expr Field :=
  (g * tP0 n * (Expr.lit (10 / 81) + k) + 146 * pow2 (tQb n g t) / 2025 + T +
    pow2 (g * tP0 n * 10 / 81) / Expr.lit 0.804 +
    (Expr.lit (2 * √1.537 * 0.6 * 0.6) * pow2 (tTauw n g / t) * 10 / 81 + Expr.lit (1.537 * 0.21951) * pow3 (g * tP0 n))) /
    pow2 (1 + Expr.lit (√1.537) * (g * tP0 n))

theorem sqrt_e_pos : (0 : ℝ) < √1.537 := Real.sqrt_pos.2 (by norm_num)

section
variable {n g t : Expr Field} (hn : PosReg ρ n) (hg : NonnegReg ρ g) (ht : PosReg ρ t)
include hn hg ht

theorem tpss_parts : PosReg ρ (tP0 n) ∧ NonnegReg ρ (tTauw n g / t) ∧ (tQb n g t).Reg ρ ∧ (tRoot n t).Reg ρ ∧
    (g.evalR ρ * (tRoot n t).evalR ρ) ^ 2 = 0.18 * (tTauw n g / t).evalR ρ ^ 2 + 0.5 * (g * tP0 n).evalR ρ ^ 2 := by
  have hk : 0 < kF2 := by unfold kF2 PI2; positivity
  have hnr := hn.reg
  have hgr := hg.reg
  have htr := ht.reg
  have hp0 : PosReg ρ (tP0 n) := by unfold tP0; rg
  have hpr := hp0.reg
  have hz : NonnegReg ρ (tTauw n g / t) := by unfold tTauw; rg
  have ha : (tAlpha n g t).Reg ρ := by unfold tAlpha tTauw; rg
  have hq : PosReg ρ (1 + Expr.lit 0.40 * tAlpha n g t * (tAlpha n g t - 1)) := by
    refine ⟨⟨trivial, ⟨trivial, ha⟩, ha, trivial⟩, ?_⟩
    show 0 < 1 + 0.40 * (tAlpha n g t).evalR ρ * ((tAlpha n g t).evalR ρ - 1)
    nlinarith [sq_nonneg ((tAlpha n g t).evalR ρ - 1 / 2)]
  have hr : PosReg ρ (Expr.lit (0.5 * 0.6 * 0.6) * powi (8 * n * t) (-2) + 0.5 * tP0 n * tP0 n) := by rg
  refine ⟨hp0, hz, ?_, ⟨hr.reg, hr.pos⟩, ?_⟩
  · unfold tQb; rg
  have pn := hn.pos
  have pt := ht.pos
  have e1 : (tRoot n t).evalR ρ ^ 2 = 0.5 * 0.6 * 0.6 * ((8 * n.evalR ρ * t.evalR ρ) ^ 2)⁻¹ + 0.5 * (tP0 n).evalR ρ * (tP0 n).evalR ρ := by
    have := hr.pos
    rw [show (tRoot n t).evalR ρ = √((Expr.lit (0.5 * 0.6 * 0.6) * powi (8 * n * t) (-2) + 0.5 * tP0 n * tP0 n).evalR ρ) from rfl, Real.sq_sqrt this.le]
    have e : (powi (8 * n * t) (-2)).evalR ρ = ((8 * n.evalR ρ * t.evalR ρ) ^ 2)⁻¹ := by
      have h := evalR_powi_negSucc (ρ := ρ) (8 * n * t) 1
      refine h.trans ?_
      rw [evalR_mul, evalR_mul, evalR_ofNat, show ((Int.negSucc 1 : ℤ) : ℝ) = -2 by norm_num, Real.rpow_neg (by positivity), Real.rpow_two]
    simp only [evalR_add, evalR_mul, evalR_lit, evalR_ofScientific, e]
  have e3 : (tTauw n g / t).evalR ρ = g.evalR ρ / (8 * n.evalR ρ) / t.evalR ρ := by
    simp only [tTauw, evalR_div, evalR_mul, evalR_ofNat]
  rw [mul_pow, e1, e3, evalR_mul]
  field_simp
  ring

theorem tX_nonneg {k T : Expr Field} (hk : NonnegReg ρ k) (hT : T.Reg ρ)
    (hTe : T.evalR ρ = -(73 / 405 * (tQb n g t).evalR ρ * (g.evalR ρ * (tRoot n t).evalR ρ))) : NonnegReg ρ (tX n g t k T) := by
  obtain ⟨hp0, hz, hq, hroot, hS⟩ := tpss_parts hn hg ht
  have hgr := hg.reg
  have hp : NonnegReg ρ (g * tP0 n) := nonneg_mul hg hp0.weak
  have hden : PosReg ρ (pow2 (1 + Expr.lit (√1.537) * (g * tP0 n))) :=
    pos_pow2 (pos_add pos_one (nonneg_mul (nonneg_lit sqrt_e_pos.le) hp))
  refine nonneg_div ⟨?_, ?_⟩ hden
  · have r1 := hp.reg
    have r2 := hz.reg
    have r3 := hk.reg
    exact ⟨⟨⟨⟨⟨r1, trivial, r3⟩, reg_div ⟨trivial, (Reg_pow2 _ _).2 hq⟩ (pos_ofNat 2025)⟩, hT⟩,
      reg_div ((Reg_pow2 _ _).2 (reg_div ⟨r1, trivial⟩ (pos_ofNat 81))) (pos_lit (by norm_num))⟩,
      reg_div ⟨⟨trivial, (Reg_pow2 _ _).2 r2⟩, trivial⟩ (pos_ofNat 81), trivial, (Reg_pow3 _ _).2 r1⟩
  · have := tpss_numerator (q := (tQb n g t).evalR ρ) hp.nonneg hk.nonneg hS
    simp only [evalR_add, evalR_mul, evalR_div, evalR_pow2, evalR_pow3, evalR_lit, evalR_ofNat, hTe] at this ⊢
    rw [← sub_eq_add_neg]
    simp only [pow_succ, pow_zero, one_mul]
    exact this

omit hn hg ht in
theorem tpssx_x_eq : (tpssx_x n g t).evalR ρ = (tX n g t (Expr.lit 1.59096 * pow2 (tTauw n g / t) / pow2 (1 + pow2 (tTauw n g / t)))
    (-(Expr.lit (73 / 405) * tQb n g t * g * tRoot n t))).evalR ρ := rfl

theorem tpssx_x_nonneg : NonnegReg ρ (tpssx_x n g t) := by
  obtain ⟨hp0, hz, hq, hroot, hS⟩ := tpss_parts hn hg ht
  have hz2 : NonnegReg ρ (pow2 (tTauw n g / t)) := nonneg_mul hz hz
  have hK : NonnegReg ρ (Expr.lit 1.59096 * pow2 (tTauw n g / t) / pow2 (1 + pow2 (tTauw n g / t))) :=
    nonneg_div (nonneg_mul (nonneg_lit (by norm_num)) hz2) (pos_pow2 (pos_add pos_one hz2))
  have hr : Reg ρ (Expr.lit (73 / 405) * tQb n g t * g * tRoot n t) := ⟨⟨⟨trivial, hq⟩, hg.reg⟩, hroot⟩
  have := tX_nonneg hn hg ht hK (T := -(Expr.lit (73 / 405) * tQb n g t * g * tRoot n t)) hr
    (by simp only [evalR_neg, evalR_mul, evalR_lit, mul_assoc])
  exact ⟨this.reg, this.nonneg⟩

theorem tpssx_F_x_reg : (tpssx_F_x n g t).Reg ρ := by
  have hx := tpssx_x_nonneg hn hg ht
  have hxr := hx.reg
  unfold tpssx_F_x
  rg

theorem tpssx_F_x_bounds : 1 ≤ (tpssx_F_x n g t).evalR ρ ∧ (tpssx_F_x n g t).evalR ρ ≤ 1.804 := by
  have hx := (tpssx_x_nonneg hn hg ht).nonneg
  have := pbe_form (κ := 0.804) (by norm_num) hx
  have e : (tpssx_F_x n g t).evalR ρ = 1 + 0.804 - 0.804 / (1 + (tpssx_x n g t).evalR ρ / 0.804) := by
    simp only [tpssx_F_x, evalR_add, evalR_sub, evalR_div, evalR_one, evalR_lit]
  rw [e]; exact ⟨this.1, this.2.trans (by norm_num)⟩

/-- BLOC exchange is the uniform gas times a factor between 1 and 1.804. -/
theorem energy_blocx_form (hg0 : 0 < g.evalR ρ) : (energy_blocx n g t).Reg ρ ∧
    ∃ F, 1 ≤ F ∧ F ≤ 1.804 ∧ (energy_blocx n g t).evalR ρ = (fx_unif n).evalR ρ * F := by
  obtain ⟨hp0, hz, hq, hroot, hS⟩ := tpss_parts hn hg ht
  have hgp : PosReg ρ g := ⟨hg.reg, hg0⟩
  have hz2 : NonnegReg ρ (pow2 (tTauw n g / t)) := nonneg_mul hz hz
  have hzp : PosReg ρ (tTauw n g / t) := by unfold tTauw; rg
  have hzf : PosReg ρ (exp (log (tTauw n g / t) * (4 - 3.3 * (tTauw n g / t)))) :=
    pos_exp ⟨reg_log hzp, trivial, trivial, hzp.reg⟩
  have hK : NonnegReg ρ (Expr.lit 1.59096 * exp (log (tTauw n g / t) * (4 - 3.3 * (tTauw n g / t))) / pow2 (1 + pow2 (tTauw n g / t))) :=
    nonneg_div (nonneg_mul (nonneg_lit (by norm_num)) hzf.weak) (pos_pow2 (pos_add pos_one hz2))
  have hr : Reg ρ (Expr.lit (-73 / 405) * tQb n g t * g * tRoot n t) := ⟨⟨⟨trivial, hq⟩, hg.reg⟩, hroot⟩
  have hX := tX_nonneg hn hg ht hK (T := Expr.lit (-73 / 405) * tQb n g t * g * tRoot n t) hr
    (by simp only [evalR_mul, evalR_lit]; ring)
  have hXr := hX.reg
  have hF : energy_blocx n g t = fx_unif n * (1 + Expr.lit 0.804 - Expr.lit 0.804 / (1 + (tX n g t
      (Expr.lit 1.59096 * exp (log (tTauw n g / t) * (4 - 3.3 * (tTauw n g / t))) / pow2 (1 + pow2 (tTauw n g / t)))
      (Expr.lit (-73 / 405) * tQb n g t * g * tRoot n t)) / Expr.lit 0.804)) := rfl
  rw [hF]
  generalize tX n g t _ _ = X at hX hXr
  constructor
  · refine ⟨⟨trivial, reg_pow hn⟩, ?_⟩
    rg
  · have := pbe_form (κ := 0.804) (by norm_num) hX.nonneg
    refine ⟨1 + 0.804 - 0.804 / (1 + X.evalR ρ / 0.804), this.1, this.2.trans (by norm_num), ?_⟩
    simp only [evalR_add, evalR_sub, evalR_div, evalR_mul, evalR_one, evalR_lit]

end

theorem fx_unif_reg {n : Expr Field} (hn : PosReg ρ n) : (fx_unif n).Reg ρ := ⟨trivial, reg_pow hn⟩

theorem tpssx_reg (h : Sound ρ) (ta : 0 < ρ .taua) (tb : 0 < ρ .taub) : tpssx.Reg ρ := by
  signs h
  have A : PosReg ρ d.taua := pos_var ta
  have B : PosReg ρ d.taub := pos_var tb
  exact ⟨trivial, ⟨fx_unif_reg (pos_mul (pos_ofNat 2) (pos_var h.a)), tpssx_F_x_reg (pos_mul (pos_ofNat 2) (pos_var h.a))
      (nonneg_mul (pos_ofNat 4).weak (nonneg_var h.gaa)) (pos_mul (pos_ofNat 2) A)⟩,
    fx_unif_reg (pos_mul (pos_ofNat 2) (pos_var h.b)), tpssx_F_x_reg (pos_mul (pos_ofNat 2) (pos_var h.b))
      (nonneg_mul (pos_ofNat 4).weak (nonneg_var h.gbb)) (pos_mul (pos_ofNat 2) B)⟩

theorem blocx_reg (h : Sound ρ) (ga : 0 < ρ .gaa) (gb : 0 < ρ .gbb) (ta : 0 < ρ .taua) (tb : 0 < ρ .taub) : blocx.Reg ρ := by
  have e1 := energy_blocx_form (ρ := ρ) (pos_mul (pos_ofNat 2) (pos_var h.a) : PosReg ρ (2 * d.a))
      (nonneg_mul (pos_ofNat 4).weak (nonneg_var h.gaa) : NonnegReg ρ (4 * d.gaa)) (pos_mul (pos_ofNat 2) (pos_var ta) : PosReg ρ (2 * d.taua))
      (mul_pos (by norm_num) ga)
  have e2 := energy_blocx_form (ρ := ρ) (pos_mul (pos_ofNat 2) (pos_var h.b) : PosReg ρ (2 * d.b))
      (nonneg_mul (pos_ofNat 4).weak (nonneg_var h.gbb) : NonnegReg ρ (4 * d.gbb)) (pos_mul (pos_ofNat 2) (pos_var tb) : PosReg ρ (2 * d.taub))
      (mul_pos (by norm_num) gb)
  exact reg_div ⟨e1.1, e2.1⟩ (pos_ofNat 2)

end XCFun.Fun
