/-
The published formula of each functional, by functional id.
-/
import Verif.Spec.LiteratureMeta

namespace XCFun.Lit

noncomputable section

/-- The settings that enter functionals: the range-separation length and the two coefficients of the Coulomb-attenuated exchange. -/
structure Par where
  μ : ℝ
  α : ℝ
  β : ℝ

/-- A published energy per volume, and the gases for which the code is claimed to evaluate it. -/
structure Formula where
  energy : Par → Gas → ℝ
  domain : Par → Gas → Prop := fun _ _ => True

/-- `C_F` of the M06 family with the code's value of `2^(5/3)`. -/
def cfCode : ℝ := 3 / 10 * (3 * Real.pi ^ 2) ^ (2 / 3 : ℝ) * 3.17480210393640

/-- The code evaluates the error-function formula for `1e-9 ≤ μ/(2 k_F) < 100`, and limiting forms elsewhere. -/
def InErfWindow (μ a : ℝ) : Prop :=
  1e-9 ≤ μ / (2 * (3.093667726280136 * (2 * a) ^ (1 / 3 : ℝ))) ∧ μ / (2 * (3.093667726280136 * (2 * a) ^ (1 / 3 : ℝ))) < 100

/-- Published formulas in the order of the functional ids. `none`: no comparison is made here (the Becke-Roussel functionals, for which see `Spec.brParts`, Colle-Salvetti with its
placeholder parameters) or the code differs from the publication (SPBEC, TW, REVTPSSC, REVTPSSX). -/
def published : List (Option Formula) := [
  some { energy := fun _ g => slaterX g }, -- 0 SLATERX
  some { energy := fun _ g => pw86X g }, -- 1 PW86X
  some { energy := fun _ g => vwn3C g 1.92366105093154 }, -- 2 VWN3C
  some { energy := fun _ g => vwn5C g 1.92366105093154 }, -- 3 VWN5C
  some { energy := fun _ g => pbeC g }, -- 4 PBEC
  some { energy := fun _ g => pbeX g }, -- 5 PBEX
  some { energy := fun _ g => b88X g, domain := fun _ g => 0.5 ≤ chiSq g.a g.gaa ∧ 0.5 ≤ chiSq g.b g.gbb }, -- 6 BECKEX
  some { energy := fun _ g => b88Corr g, domain := fun _ g => 0.5 ≤ chiSq g.a g.gaa ∧ 0.5 ≤ chiSq g.b g.gbb }, -- 7 BECKECORRX
  some { energy := fun q g => b88srX g q.μ, domain := fun _ g => 0.5 ≤ chiSq g.a g.gaa ∧ 0.5 ≤ chiSq g.b g.gbb }, -- 8 BECKESRX
  some { energy := fun q g => b88camX g q.α q.β q.μ, domain := fun _ g => 0.5 ≤ chiSq g.a g.gaa ∧ 0.5 ≤ chiSq g.b g.gbb }, -- 9 BECKECAMX
  none, -- 10 BRX
  none, -- 11 BRC
  none, -- 12 BRXC
  some { energy := fun q g => ldaSrX g 3.093667726280136 q.μ, domain := fun q g => InErfWindow q.μ g.a ∧ InErfWindow q.μ g.b }, -- 13 LDAERFX
  some { energy := fun q g => ldaErfC g q.μ }, -- 14 LDAERFC
  some { energy := fun q g => ldaErfJT g 3.39530545262710070631 1.92366105093154 q.μ }, -- 15 LDAERFC_JT
  some { energy := fun _ g => lypC g }, -- 16 LYPC
  some { energy := fun _ g => optX g }, -- 17 OPTX
  some { energy := fun _ g => optXCorr g }, -- 18 OPTXCORR
  some { energy := fun _ g => revpbeX g }, -- 19 REVPBEX
  some { energy := fun _ g => rpbeX g }, -- 20 RPBEX
  none, -- 21 SPBEC
  some { energy := fun _ g => vwnPbeC g 1.92366105093154 }, -- 22 VWN_PBEC
  some { energy := fun _ g => ktX g }, -- 23 KTX
  some { energy := fun _ g => tfK g }, -- 24 TFK
  none, -- 25 TW
  some { energy := fun _ g => pw91X g, domain := fun _ g => 0.5 ≤ 7.7956 ^ 2 * sSq (2 * g.a) (4 * g.gaa) ∧ 0.5 ≤ 7.7956 ^ 2 * sSq (2 * g.b) (4 * g.gbb) }, -- 26 PW91X
  some { energy := fun _ g => pw91K g, domain := fun _ g => 0.5 ≤ 76.320 ^ 2 * sSq (2 * g.a) (4 * g.gaa) ∧ 0.5 ≤ 76.320 ^ 2 * sSq (2 * g.b) (4 * g.gbb) }, -- 27 PW91K
  some { energy := fun _ g => pw92C g }, -- 28 PW92C
  some { energy := fun _ g => m05X g m05Xa, domain := fun _ g => 0 < g.taua ∧ 0 < g.taub }, -- 29 M05X
  some { energy := fun _ g => m05X g m052Xa, domain := fun _ g => 0 < g.taua ∧ 0 < g.taub }, -- 30 M05X2X
  some { energy := fun _ g => m06X g cfCode m06Xa m06Xd, domain := fun _ g => 0 < g.taua ∧ 0 < g.taub }, -- 31 M06X
  some { energy := fun _ g => m05X g m062Xa, domain := fun _ g => 0 < g.taua ∧ 0 < g.taub }, -- 32 M06X2X
  some { energy := fun _ g => m06X g cfCode m06LXa m06LXd, domain := fun _ g => 0 < g.taua ∧ 0 < g.taub }, -- 33 M06LX
  some { energy := fun _ g => m06X g cfCode m06HFXa m06HFXd, domain := fun _ g => 0 < g.taua ∧ 0 < g.taub }, -- 34 M06HFX
  some { energy := fun _ g => m05C g m052Cc.1 m052Cc.2, domain := fun _ g => 0 < g.taua ∧ 0 < g.taub }, -- 35 M05X2C
  some { energy := fun _ g => m05C g m05Cc.1 m05Cc.2, domain := fun _ g => 0 < g.taua ∧ 0 < g.taub }, -- 36 M05C
  some { energy := fun _ g => m06C g cfCode m06Cc.1.1 m06Cc.1.2 m06Cc.2.1 m06Cc.2.2, domain := fun _ g => 0 < g.taua ∧ 0 < g.taub }, -- 37 M06C
  some { energy := fun _ g => m06C g cfCode m06HFCc.1.1 m06HFCc.1.2 m06HFCc.2.1 m06HFCc.2.2, domain := fun _ g => 0 < g.taua ∧ 0 < g.taub }, -- 38 M06HFC
  some { energy := fun _ g => m06C g cfCode m06LCc.1.1 m06LCc.1.2 m06LCc.2.1 m06LCc.2.2, domain := fun _ g => 0 < g.taua ∧ 0 < g.taub }, -- 39 M06LC
  some { energy := fun _ g => m06C g cfCode m062Cc.1.1 m062Cc.1.2 m062Cc.2.1 m062Cc.2.2, domain := fun _ g => 0 < g.taua ∧ 0 < g.taub }, -- 40 M06X2C
  some { energy := fun _ g => tpssC g, domain := fun _ g => 0 < g.tau }, -- 41 TPSSC
  some { energy := fun _ g => tpssX g, domain := fun _ g => (0 ≤ g.gaa ∧ 0 ≤ g.gbb) ∧ 0 < g.taua ∧ 0 < g.taub }, -- 42 TPSSX
  none, -- 43 REVTPSSC
  none, -- 44 REVTPSSX
  some { energy := fun _ g => scanC g 0.031090690869655 0.51984209978974632953442121455650, domain := fun _ g => ScanC g ∧ alphaScan g.tau (tauW g.n g.gnn) (tauTF g.n * pol (5 / 3) g.zeta) ≠ 1 }, -- 45 SCANC
  some { energy := fun _ g => scanX g, domain := fun _ g => ScanX g ∧ alphaScan (2 * g.taua) (tauW (2 * g.a) (4 * g.gaa)) (tauTF (2 * g.a)) ≠ 1 ∧ alphaScan (2 * g.taub) (tauW (2 * g.b) (4 * g.gbb)) (tauTF (2 * g.b)) ≠ 1 }, -- 46 SCANX
  some { energy := fun _ g => rscanC g 0.031090690869655 0.51984209978974632953442121455650, domain := fun _ g => 0 ≤ g.gnn ∧ OutsideGap (alphaR (alphaScan g.tau (tauW g.n g.gnn) ((tauTF g.n + 0.0001) * pol (5 / 3) g.zeta))) }, -- 47 RSCANC
  some { energy := fun _ g => rscanX g, domain := fun _ g => ScanX g ∧ OutsideGap (alphaR (alphaScan (2 * g.taua) (tauW (2 * g.a) (4 * g.gaa)) (tauTF (2 * g.a) + 0.0001))) ∧ OutsideGap (alphaR (alphaScan (2 * g.taub) (tauW (2 * g.b) (4 * g.gbb)) (tauTF (2 * g.b) + 0.0001))) }, -- 48 RSCANX
  some { energy := fun _ g => rppscanC g 0.031090690869655 0.51984209978974632953442121455650, domain := fun _ g => ScanC g ∧ OutsideGap (alphaBar g.tau (tauW g.n g.gnn) (tauTF g.n * pol (5 / 3) g.zeta)) }, -- 49 RPPSCANC
  some { energy := fun _ g => rppscanX g, domain := fun _ g => ScanX g ∧ OutsideGap (alphaBar (2 * g.taua) (tauW (2 * g.a) (4 * g.gaa)) (tauTF (2 * g.a))) ∧ OutsideGap (alphaBar (2 * g.taub) (tauW (2 * g.b) (4 * g.gbb)) (tauTF (2 * g.b))) }, -- 50 RPPSCANX
  some { energy := fun _ g => r2scanC g 0.031090690869655 0.51984209978974632953442121455650, domain := fun _ g => ScanC g ∧ OutsideGap (alphaBar g.tau (tauW g.n g.gnn) (tauTF g.n * pol (5 / 3) g.zeta)) }, -- 51 R2SCANC
  some { energy := fun _ g => r2scanX g, domain := fun _ g => ScanX g ∧ OutsideGap (alphaBar (2 * g.taua) (tauW (2 * g.a) (4 * g.gaa)) (tauTF (2 * g.a))) ∧ OutsideGap (alphaBar (2 * g.taub) (tauW (2 * g.b) (4 * g.gbb)) (tauTF (2 * g.b))) }, -- 52 R2SCANX
  some { energy := fun _ g => r2scanC g 0.031090690869655 0.51984209978974632953442121455650, domain := fun _ g => ScanC g ∧ OutsideGap (alphaBar g.tau (tauW g.n g.gnn) (tauTF g.n * pol (5 / 3) g.zeta)) }, -- 53 R4SCANC
  some { energy := fun _ g => r4scanX g 0.232 0.232, domain := fun _ g => ScanX g ∧ OutsideGap (alphaBar (2 * g.taua) (tauW (2 * g.a) (4 * g.gaa)) (tauTF (2 * g.a))) ∧ OutsideGap (alphaBar (2 * g.taub) (tauW (2 * g.b) (4 * g.gbb)) (tauTF (2 * g.b))) }, -- 54 R4SCANX
  some { energy := fun _ g => pz81C g }, -- 55 PZ81C
  some { energy := fun _ g => p86C g (1 / 2 ^ 52) }, -- 56 P86C
  some { energy := fun _ g => p86Corr g (1 / 2 ^ 52) }, -- 57 P86CORRC
  some { energy := fun _ g => btK g 1e-24, domain := fun _ g => 0 ≤ g.gaa ∧ 0 ≤ g.gbb }, -- 58 BTK
  some { energy := fun _ g => vwK g }, -- 59 VWK
  some { energy := fun _ g => b97X g 0.9305257363491002 0.8094 0.5073 0.7481, domain := fun _ g => 0 ≤ g.gaa ∧ 0 ≤ g.gbb }, -- 60 B97X
  some { energy := fun _ g => b97C g 0.1737 2.3487 (-2.4868) 0.9454 0.7471 (-4.5961), domain := fun _ g => 0 ≤ g.gaa ∧ 0 ≤ g.gbb }, -- 61 B97C
  some { energy := fun _ g => b97X g 0.9305257363491002 0.789518 0.573805 0.660975, domain := fun _ g => 0 ≤ g.gaa ∧ 0 ≤ g.gbb }, -- 62 B97_1X
  some { energy := fun _ g => b97C g 0.0820011 2.71681 (-2.87103) 0.955689 0.788552 (-5.47869), domain := fun _ g => 0 ≤ g.gaa ∧ 0 ≤ g.gbb }, -- 63 B97_1C
  some { energy := fun _ g => b97X g 0.9305257363491002 0.827642 0.0478400 1.76125, domain := fun _ g => 0 ≤ g.gaa ∧ 0 ≤ g.gbb }, -- 64 B97_2X
  some { energy := fun _ g => b97C g 0.585808 (-0.691682) 0.394796 0.999849 1.40626 (-7.44060), domain := fun _ g => 0 ≤ g.gaa ∧ 0 ≤ g.gbb }, -- 65 B97_2C
  none, -- 66 CSC
  some { energy := fun _ g => apbeC g }, -- 67 APBEC
  some { energy := fun _ g => apbeX g }, -- 68 APBEX
  some { energy := fun _ g => zvPbeC g 0.046 1.8 }, -- 69 ZVPBESOLC
  some { energy := fun _ g => blocX g, domain := fun _ g => (0 < g.gaa ∧ 0 < g.gbb) ∧ 0 < g.taua ∧ 0 < g.taub }, -- 70 BLOCX
  some { energy := fun _ g => pbeintC g }, -- 71 PBEINTC
  some { energy := fun _ g => pbeintX g 0.123456790123 }, -- 72 PBEINTX
  some { energy := fun _ g => pbelocC g }, -- 73 PBELOCC
  some { energy := fun _ g => pbesolX g 0.123456790123 }, -- 74 PBESOLX
  some { energy := fun _ g => tpsslocC g, domain := fun _ g => 0 < g.tau }, -- 75 TPSSLOCC
  some { energy := fun _ g => zvPbeC g 0.052 1.0 }, -- 76 ZVPBEINTC
  some { energy := fun _ g => pw91C g } -- 77 PW91C
]

end
end XCFun.Lit
