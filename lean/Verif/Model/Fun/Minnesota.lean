/-
The M05/M06 family of meta-GGA functionals.  Files are in src/functionals/.
The twelve functionals differ in their parameter arrays; the four shapes of body are
written once, and the citation at each functional is to its own file.
-/
import Verif.Model.Fun.Correlation

namespace XCFun.Fun

noncomputable section

/-! m0xy_fun.hpp -/

/-- m0xy_fun.hpp:35 -/
def alpha_x : ℝ := 0.00186726
/-- m0xy_fun.hpp:36 -/
def alpha_c_parallel : ℝ := 0.00515088
/-- m0xy_fun.hpp:37 -/
def alpha_c_antiparallel : ℝ := 0.00304966
/-- m0xy_fun.hpp:46 -/
def scalefactorTFconst : ℝ := 3.17480210393640

/-- m0xy_fun.hpp:64-68 -/
def zet (rho tau : Expr Field) : Expr Field :=
  2 * tau / pow rho (5 / 3) - (CF * scalefactorTFconst : ℝ)

/-- m0xy_fun.hpp:73-76 -/
def m0gamma (alpha : ℝ) (chi2 zet : Expr Field) : Expr Field := 1 + alpha * (chi2 + zet)

/-- the array `d[6]` (m0xy_fun.hpp:85) -/
structure ParamD where
  d0 : ℝ
  d1 : ℝ
  d2 : ℝ
  d3 : ℝ
  d4 : ℝ
  d5 : ℝ

/-- m0xy_fun.hpp:84-97 -/
def m0h (q : ParamD) (alpha : ℝ) (chi2 zet : Expr Field) : Expr Field :=
  let gam1 := m0gamma alpha chi2 zet
  let t1 := q.d0 / gam1
  let t2 := (q.d1 * chi2 + q.d2 * zet) / (gam1 * gam1)
  let t3 := (chi2 * (q.d3 * chi2 + q.d4 * zet) + q.d5 * zet * zet) / (gam1 * gam1 * gam1)
  t1 + t2 + t3

/-- m0xy_fun.hpp:106-128 -/
def m0fw (a : List ℝ) (rho tau : Expr Field) : Expr Field :=
  let tau_lsda := pw91k_prefactor rho
  let t := tau_lsda / tau
  let w := (t - 1) / (t + 1)
  poly w a

/-- m0xy_fun.hpp:140-150 -/
def Dsigma (na gaa taua : Expr Field) : Expr Field := 1 - 0.125 * gaa / (na * taua)

/-- m0xy_fun.hpp:164-176 -/
def m0g (c : List ℝ) (gamma_chi_squared : Expr Field) : Expr Field :=
  let b := gamma_chi_squared / (1 + gamma_chi_squared)
  poly b c

/-- m0xy_fun.hpp:186-200 -/
def m06_c_anti (c : List ℝ) (q : ParamD) (chi_a2 zet_a chi_b2 zet_b : Expr Field) : Expr Field :=
  let gamma_c_anti : ℝ := 0.0031
  let zet_ab := zet_a + zet_b
  let chi_ab2 := chi_a2 + chi_b2
  m0g c (gamma_c_anti * chi_ab2) + m0h q alpha_c_antiparallel chi_ab2 zet_ab

/-- m0xy_fun.hpp:202-214 -/
def m06_c_para (c : List ℝ) (q : ParamD) (chi2 zet Dsigma : Expr Field) : Expr Field :=
  let gamma_c_parallel : ℝ := 0.06;
  (m0g c (gamma_c_parallel * chi2) + m0h q alpha_c_parallel chi2 zet) * Dsigma

/-- m0xy_fun.hpp:222-232 -/
def m05_c_anti (c : List ℝ) (chi_a2 chi_b2 : Expr Field) : Expr Field :=
  let gamma_c_anti : ℝ := 0.0031
  let chi_ab2 := chi_a2 + chi_b2
  m0g c (gamma_c_anti * chi_ab2)

/-- m0xy_fun.hpp:234-242; the argument `zet` is not used -/
def m05_c_para (c : List ℝ) (chi2 _zet Dsigma : Expr Field) : Expr Field :=
  let gamma_c_parallel : ℝ := 0.06
  m0g c (gamma_c_parallel * chi2) * Dsigma

/-- m0xy_fun.hpp:250-252 -/
def ueg_c_para (rho : Expr Field) : Expr Field := pw92eps_polarized rho * rho

/-- m0xy_fun.hpp:254-256 -/
def ueg_c_anti : Expr Field := pw92eps * d.n - ueg_c_para d.a - ueg_c_para d.b

/-- m0xy_fun.hpp:260-262 -/
def lsda_x (rho : Expr Field) : Expr Field :=
  (-(3 / 2) * (3 / (4 * Real.pi)) ^ (1 / 3 : ℝ) : ℝ) * pow rho (4 / 3)

/-! The four shapes -/

/-- m05x.cpp:37-38, m05x2x.cpp:37-38, m06x2x.cpp:39-40 -/
def m05LikeX (a : List ℝ) : Expr Field :=
  energy_pbe_ab R_pbe d.a d.gaa * m0fw a d.a d.taua +
    energy_pbe_ab R_pbe d.b d.gbb * m0fw a d.b d.taub

/-- m06x.cpp:47-53, m06lx.cpp:47-53, m06hfx.cpp:47-53 -/
def m06LikeX (a : List ℝ) (q : ParamD) : Expr Field :=
  let chia2 := chi2 d.a d.gaa
  let chib2 := chi2 d.b d.gbb;
  (energy_pbe_ab R_pbe d.a d.gaa * m0fw a d.a d.taua +
      lsda_x d.a * m0h q alpha_x chia2 (zet d.a d.taua)) +
    (energy_pbe_ab R_pbe d.b d.gbb * m0fw a d.b d.taub +
      lsda_x d.b * m0h q alpha_x chib2 (zet d.b d.taub))

/-- m05c.cpp:36-47, m05x2c.cpp:36-47 -/
def m05LikeC (anti para : List ℝ) : Expr Field :=
  let chi_a2 := chi2 d.a d.gaa
  let chi_b2 := chi2 d.b d.gbb
  let zet_a := zet d.a d.taua
  let zet_b := zet d.b d.taub
  let Dsigma_a := Dsigma d.a d.gaa d.taua
  let Dsigma_b := Dsigma d.b d.gbb d.taub
  let Ec_ab := ueg_c_anti * m05_c_anti anti chi_a2 chi_b2
  let Ec_aa := ueg_c_para d.a * m05_c_para para chi_a2 zet_a Dsigma_a
  let Ec_bb := ueg_c_para d.b * m05_c_para para chi_b2 zet_b Dsigma_b
  Ec_ab + Ec_aa + Ec_bb

/-- m06c.cpp:48-62, m06lc.cpp:48-61, m06hfc.cpp:48-62, m06x2c.cpp:48-62 -/
def m06LikeC (anti : List ℝ) (danti : ParamD) (para : List ℝ) (dpara : ParamD) : Expr Field :=
  let chi_a2 := chi2 d.a d.gaa
  let chi_b2 := chi2 d.b d.gbb
  let zet_a := zet d.a d.taua
  let zet_b := zet d.b d.taub
  let Dsigma_a := Dsigma d.a d.gaa d.taua
  let Dsigma_b := Dsigma d.b d.gbb d.taub
  let Ec_ab := ueg_c_anti * m06_c_anti anti danti chi_a2 zet_a chi_b2 zet_b
  let Ec_aa := ueg_c_para d.a * m06_c_para para dpara chi_a2 zet_a Dsigma_a
  let Ec_bb := ueg_c_para d.b * m06_c_para para dpara chi_b2 zet_b Dsigma_b
  Ec_ab + Ec_aa + Ec_bb

/-! The twelve functionals -/

/-- m05x.cpp:24-35 -/
def m05x_a : List ℝ :=
  [1.000000e0, 8.151000e-2, -4.395600e-1, -3.224220e0, 2.018190e0, 8.794310e0, -2.950000e-3, 9.820290e0, -4.823510e0, -4.817574e1, 3.648020e0, 3.402248e1]

/-- m05x.cpp:21-39 -/
def m05x : Expr Field := m05LikeX m05x_a

/-- m05x2x.cpp:24-35 -/
def m05x2x_a : List ℝ :=
  [1.000000e0, -5.683300e-1, -1.300570e0, 5.500700e0, 9.064020e0, -3.221075e1, -2.373298e1, 7.022996e1, 2.988614e1, -6.025778e1, -1.322205e1, 1.523694e1]

/-- m05x2x.cpp:21-39 -/
def m05x2x : Expr Field := m05LikeX m05x2x_a

/-- m06x2x.cpp:26-37 -/
def m06x2x_a : List ℝ :=
  [4.600000e-1, -2.206052e-1, -9.431788e-2, 2.164494e0, -2.556466e0, -1.422133e1, 1.555044e1, 3.598078e1, -2.722754e1, -3.924093e1, 1.522808e1, 1.522227e1]

/-- m06x2x.cpp:23-41 -/
def m06x2x : Expr Field := m05LikeX m06x2x_a

/-- m06x.cpp:28-39 -/
def m06x_a : List ℝ :=
  [5.877943e-1, -1.371776e-1, 2.682367e-1, -2.515898e0, -2.978892e0, 8.710679e0, 1.688195e1, -4.489724e0, -3.299983e1, -1.449050e1, 2.043747e1, 1.256504e1]
/-- m06x.cpp:40-45 -/
def m06x_d : ParamD := ⟨1.422057e-1, 7.370319e-4, -1.601373e-2, 0.000000e0, 0.000000e0, 0.000000e0⟩

/-- m06x.cpp:21-54 -/
def m06x : Expr Field := m06LikeX m06x_a m06x_d

/-- m06lx.cpp:28-39 -/
def m06lx_a : List ℝ :=
  [3.987756e-1, 2.548219e-1, 3.923994e-1, -2.103655e0, -6.302147e0, 1.097615e1, 3.097273e1, -2.318489e1, -5.673480e1, 2.160364e1, 3.421814e1, -9.049762e0]
/-- m06lx.cpp:40-45 -/
def m06lx_d : ParamD := ⟨6.012244e-1, 4.748822e-3, -8.635108e-3, -9.308062e-6, 4.482811e-5, 0.000000e0⟩

/-- m06lx.cpp:21-54 -/
def m06lx : Expr Field := m06LikeX m06lx_a m06lx_d

/-- m06hfx.cpp:28-39 -/
def m06hfx_a : List ℝ :=
  [1.179732e-1, -1.066708e0, -1.462405e-1, 7.481848e0, 3.776679e0, -4.436118e1, -1.830962e1, 1.003903e2, 3.864360e1, -9.806018e1, -2.557716e1, 3.590404e1]
/-- m06hfx.cpp:40-45 -/
def m06hfx_d : ParamD := ⟨-1.179732e-1, -2.500000e-3, -1.180056e-2, 0.000000e0, 0.000000e0, 0.000000e0⟩

/-- m06hfx.cpp:21-54 -/
def m06hfx : Expr Field := m06LikeX m06hfx_a m06hfx_d

/-- m05c.cpp:29-30 -/
def m05c_anti : List ℝ := [1.000000e0, 3.785690e0, -1.415261e1, -7.465890e0, 1.794491e1]
/-- m05c.cpp:33-34 -/
def m05c_para : List ℝ := [1.000000e0, 3.773440e0, -2.604463e1, 3.069913e1, -9.226950e0]

/-- m05c.cpp:20-48 -/
def m05c : Expr Field := m05LikeC m05c_anti m05c_para

/-- m05x2c.cpp:29-30 -/
def m05x2c_anti : List ℝ := [1.000000e0, 1.092970e0, -3.791710e0, 2.828100e0, -1.058909e1]
/-- m05x2c.cpp:33-34 -/
def m05x2c_para : List ℝ := [1.000000e0, -3.054300e0, 7.618540e0, 1.476650e0, -1.192365e1]

/-- m05x2c.cpp:20-48 -/
def m05x2c : Expr Field := m05LikeC m05x2c_anti m05x2c_para

/-- m06c.cpp:29-30 -/
def m06c_anti : List ℝ := [3.741539e0, 2.187098e2, -4.531252e2, 2.936479e2, -6.287470e1]
/-- m06c.cpp:31-36 -/
def m06c_danti : ParamD := ⟨-2.741539e0, -6.720113e-1, -7.932688e-2, 1.918681e-3, -2.032902e-3, 0.000000e0⟩
/-- m06c.cpp:39-40 -/
def m06c_para : List ℝ := [5.094055e-1, -1.491085e0, 1.723922e1, -3.859018e1, 2.845044e1]
/-- m06c.cpp:41-46 -/
def m06c_dpara : ParamD := ⟨4.905945e-1, -1.437348e-1, 2.357824e-1, 1.871015e-3, -3.788963e-3, 0.000000e0⟩

/-- m06c.cpp:20-63 -/
def m06c : Expr Field := m06LikeC m06c_anti m06c_danti m06c_para m06c_dpara

/-- m06lc.cpp:29-30 -/
def m06lc_anti : List ℝ := [6.042374e-1, 1.776783e2, -2.513252e2, 7.635173e1, -1.255699e1]
/-- m06lc.cpp:31-36 -/
def m06lc_danti : ParamD := ⟨3.957626e-1, -5.614546e-1, 1.403963e-2, 9.831442e-4, -3.577176e-3, 0.000000e0⟩
/-- m06lc.cpp:39-40 -/
def m06lc_para : List ℝ := [5.349466e-1, 5.396620e-1, -3.161217e1, 5.149592e1, -2.919613e1]
/-- m06lc.cpp:41-46 -/
def m06lc_dpara : ParamD := ⟨4.650534e-1, 1.617589e-1, 1.833657e-1, 4.692100e-4, -4.990573e-3, 0.000000e0⟩

/-- m06lc.cpp:20-62 -/
def m06lc : Expr Field := m06LikeC m06lc_anti m06lc_danti m06lc_para m06lc_dpara

/-- m06hfc.cpp:29-30 -/
def m06hfc_anti : List ℝ := [1.674634e0, 5.732017e1, 5.955416e1, -2.311007e2, 1.255199e2]
/-- m06hfc.cpp:31-36 -/
def m06hfc_danti : ParamD := ⟨-6.746338e-1, -1.534002e-1, -9.021521e-2, -1.292037e-3, -2.352983e-4, 0.000000e0⟩
/-- m06hfc.cpp:39-40 -/
def m06hfc_para : List ℝ := [1.023254e-1, -2.453783e0, 2.913180e1, -3.494358e1, 2.315955e1]
/-- m06hfc.cpp:41-46 -/
def m06hfc_dpara : ParamD := ⟨8.976746e-1, -2.345830e-1, 2.368173e-1, -9.913890e-4, -1.146165e-2, 0.000000e0⟩

/-- m06hfc.cpp:20-63 -/
def m06hfc : Expr Field := m06LikeC m06hfc_anti m06hfc_danti m06hfc_para m06hfc_dpara

/-- m06x2c.cpp:29-30 -/
def m06x2c_anti : List ℝ := [8.833596e-1, 3.357972e1, -7.043548e1, 4.978271e1, -1.852891e1]
/-- m06x2c.cpp:31-36 -/
def m06x2c_danti : ParamD := ⟨1.166404e-1, -9.120847e-2, -6.726189e-2, 6.720580e-5, 8.448011e-4, 0.000000e0⟩
/-- m06x2c.cpp:39-40 -/
def m06x2c_para : List ℝ := [3.097855e-1, -5.528642e0, 1.347420e1, -3.213623e1, 2.846742e1]
/-- m06x2c.cpp:41-46 -/
def m06x2c_dpara : ParamD := ⟨6.902145e-1, 9.847204e-2, 2.214797e-1, -1.968264e-3, -6.775479e-3, 0.000000e0⟩

/-- m06x2c.cpp:20-63 -/
def m06x2c : Expr Field := m06LikeC m06x2c_anti m06x2c_danti m06x2c_para m06x2c_dpara

end
end XCFun.Fun
