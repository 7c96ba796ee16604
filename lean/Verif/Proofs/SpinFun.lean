/-
Every functional is symmetric under exchange of the spins.
-/
import Verif.Proofs.Spin

namespace XCFun.Fun

/-- Sum of two mirror images, syntactically. -/
macro "mirror" : tactic => `(tactic| exact Flip.pair (Flip.of_eq rfl) (Flip.of_eq rfl))

theorem sym_slaterx : Sym slaterx := .mul (.lit _) (by mirror)
theorem sym_pw86x : Sym pw86x := .mul (.lit _) (by mirror)
theorem sym_pbex : Sym pbex := by mirror
theorem sym_beckex : Sym beckex := by mirror
theorem sym_beckexcorr : Sym beckexcorr := by mirror
theorem sym_beckesrx : Sym beckesrx := by mirror
theorem sym_beckecamx : Sym beckecamx := by mirror
theorem sym_brx : Sym brx := .mul (.lit _) (by mirror)
theorem sym_lda_erfx : Sym lda_erfx := .mul (.lit _) (by mirror)
theorem sym_optx : Sym optx := .negPair (.of_eq rfl) (.of_eq rfl)
theorem sym_optxcorr : Sym optxcorr := by mirror
theorem sym_revpbex : Sym revpbex := by mirror
theorem sym_rpbex : Sym rpbex := by mirror
theorem sym_ktx : Sym ktx := by mirror
theorem sym_tfk : Sym tfk := .of_eq rfl
theorem sym_tw : Sym tw := .div (.mul (.lit _) (.pow (by mirror) _)) (.of_eq rfl)
theorem sym_pw91x : Sym pw91x := by mirror
theorem sym_pw91k : Sym pw91k := by mirror
theorem sym_tpssx : Sym tpssx := .mul (.lit _) (by mirror)
theorem sym_revtpssx : Sym revtpssx := by mirror
theorem sym_btk : Sym btk := .mul (.lit _) (by mirror)
theorem sym_vW : Sym vW := by mirror
theorem sym_b97x : Sym b97x := by mirror
theorem sym_b97_1x : Sym b97_1x := by mirror
theorem sym_b97_2x : Sym b97_2x := by mirror
theorem sym_apbex : Sym apbex := by mirror
theorem sym_blocx : Sym blocx := .div (by mirror) (.lit _)
theorem sym_pbeintx : Sym pbeintx := by mirror
theorem sym_pbesolx : Sym pbesolx := by mirror
theorem sym_m05x : Sym m05x := by mirror
theorem sym_m05x2x : Sym m05x2x := by mirror
theorem sym_m06x2x : Sym m06x2x := by mirror
theorem sym_m06x : Sym m06x := by mirror
theorem sym_m06lx : Sym m06lx := by mirror
theorem sym_m06hfx : Sym m06hfx := by mirror
theorem sym_scanx : Sym scanx := .mul (.lit _) (by mirror)
theorem sym_rscanx : Sym rscanx := .mul (.lit _) (by mirror)
theorem sym_rppscanx : Sym rppscanx := .mul (.lit _) (by mirror)
theorem sym_r2scanx : Sym r2scanx := .mul (.lit _) (by mirror)
theorem sym_r4scanx : Sym r4scanx := .mul (.lit _) (by mirror)

theorem sym_u (c : ℝ) : Sym (ufunc d.zeta c) := .ufunc anti_zeta c
theorem sym_z2 : Sym (pow2 d.zeta) := .pow2_anti anti_zeta
theorem sym_z4 : Sym (npow d.zeta 4) := (Flip.npow_anti anti_zeta 2).1
theorem sym_z6 : Sym (npow d.zeta 6) := (Flip.npow_anti anti_zeta 3).1
theorem sym_z12 : Sym (npow d.zeta 12) := (Flip.npow_anti anti_zeta 6).1
theorem sym_zz3 : Sym (d.zeta * npow d.zeta 3) := .anti_mul anti_zeta (Flip.npow_anti anti_zeta 1).2

theorem sym_vwn5_eps : Sym vwn5_eps :=
  .add (.of_eq rfl) (.mul (.mul (.lit _) (.sub (sym_u _) (.lit _)))
    (.add (.mul (.of_eq rfl) sym_z4) (.mul (.mul (.of_eq rfl) (.sub (.lit _) sym_z4)) (.lit _))))
theorem sym_vwn3_eps : Sym vwn3_eps :=
  .add (.of_eq rfl) (.mul (.mul (.lit _) (.sub (sym_u _) (.lit _))) (.of_eq rfl))
theorem sym_vwn3c : Sym vwn3c := .mul (.of_eq rfl) sym_vwn3_eps
theorem sym_vwn5c : Sym vwn5c := .mul (.of_eq rfl) sym_vwn5_eps
theorem sym_omega : Sym (omega d.zeta) := .div (.sub (sym_u _) (.lit _)) (.lit _)
theorem sym_pw92eps : Sym pw92eps :=
  .add (.sub (.of_eq rfl) (.div (.mul (.mul (.of_eq rfl) sym_omega) (.sub (.lit _) sym_z4)) (.lit _)))
    (.mul (.mul (.of_eq rfl) sym_omega) sym_z4)
theorem sym_pw92c : Sym pw92c := .mul sym_pw92eps (.of_eq rfl)
theorem sym_phi : Sym phi := .mul (.of_eq rfl) (by mirror)
theorem sym_pbecD2 : Sym (pbecD2 phi) := .div (.of_eq rfl) (.mul (.mul sym_phi sym_phi) (.of_eq rfl))
theorem sym_pbecA {e u : Expr Field} (he : Sym e) (hu : Sym u) : Sym (pbecA e u) :=
  .div (.lit _) (.expm1 (.div (.neg he) (.mul (.lit _) hu)))
theorem sym_pbecH {t e u : Expr Field} (ht : Sym t) (he : Sym e) (hu : Sym u) : Sym (pbecH t e u) :=
  have hA := ht.mul (sym_pbecA he hu)
  .mul (.mul (.lit _) hu) (.log (.add (.lit _) (.div (.mul (.mul (.lit _) ht) (.add (.lit _) hA))
    (.add (.lit _) (.mul hA (.add (.lit _) hA))))))
theorem sym_pbec_eps : Sym pbec_eps := .add sym_pw92eps (sym_pbecH sym_pbecD2 sym_pw92eps sym_phi.pow3)
theorem sym_pbec : Sym pbec := .mul (.of_eq rfl) sym_pbec_eps
theorem sym_vwn_pbec : Sym vwn_pbec :=
  .mul (.of_eq rfl) (.add sym_vwn5_eps (sym_pbecH sym_pbecD2 sym_vwn5_eps sym_phi.pow3))
theorem sym_pbeLikeH {g e u t : Expr Field} (hg : Sym g) (he : Sym e) (hu : Sym u) (ht : Sym t) :
    Sym (pbeLikeH g e u t) :=
  have hA := ht.mul (hg.div (.expm1 (.div (.neg he) (.mul (.lit param_gamma) hu))))
  .mul (.mul (.lit _) hu) (.log (.add (.lit _) (.div (.mul (.mul hg ht) (.add (.lit _) hA))
    (.add (.lit _) (.mul hA (.add (.lit _) hA))))))
theorem sym_apbec : Sym apbec :=
  .mul (.of_eq rfl) (.add sym_pw92eps (sym_pbeLikeH (.lit _) sym_pw92eps sym_phi.pow3 sym_pbecD2))
theorem sym_pbeintc : Sym pbeintc :=
  .mul (.of_eq rfl) (.add sym_pw92eps (sym_pbeLikeH (.lit _) sym_pw92eps sym_phi.pow3 sym_pbecD2))
theorem sym_pbeloc_eps : Sym pbeloc_eps :=
  .add sym_pw92eps (sym_pbeLikeH (.div (.add (.lit _) (.mul (.mul (.lit _) sym_pbecD2) (.of_eq rfl))) (.lit _))
    sym_pw92eps sym_phi.pow3 sym_pbecD2)
theorem sym_pbelocc : Sym pbelocc := .mul (.of_eq rfl) sym_pbeloc_eps
theorem sym_zvFit : Sym zvFit := by
  have z := anti_zeta
  have z2 {x} (h : Sym x) : Sym (x * d.zeta * d.zeta) := (Flip.mul_anti h z).anti_mul z
  exact z2 (z2 (.sub (.add (.sub (.add (.lit _) (z2 (.lit _))) (z2 (z2 (.lit _)))) (z2 (z2 (z2 (.lit _)))))
    (z2 (z2 (z2 (z2 (.lit _)))))))
theorem sym_zvpbe (b c) : Sym (zvpbe b c) := by
  have v := ((sym_pbecD2.pow 0.5).mul sym_phi).mul (.of_eq (x := pow (d.r_s / 3) (-1 / 6)) rfl)
  exact .mul (.of_eq rfl) (.add sym_pw92eps (.mul (.exp (.mul (.mul (.lit _) v.pow3) sym_zvFit))
    (sym_pbeLikeH (.lit _) sym_pw92eps sym_phi.pow3 sym_pbecD2)))
theorem sym_spbec : Sym spbec := by
  have t : Sym ((rcbrt (Real.pi / 3) / 16 : ℝ) * d.gnn * d.n_m13 / pow2 (phi * d.n)) :=
    .div (.of_eq rfl) (.pow2 (.mul sym_phi (.of_eq rfl)))
  exact .mul (.of_eq rfl) (.add sym_vwn5_eps (.mul (.mul (.lit _) sym_phi.pow3) (.log (.add (.lit _)
    (.div (.mul (.lit _) t) (.add (.lit _) (.mul t (.div (.lit _) (.expm1 (.div (.neg sym_vwn5_eps)
      (.mul (.lit _) sym_phi.pow3)))))))))))
theorem sym_uf (c) : Sym (uf c) := .mul (by mirror) (.of_eq rfl)
theorem sym_pw91cEc : Sym pw91cEc :=
  have hf : Sym ((uf (4 / 3) - 2) / (2 * (2 : ℝ) ^ (1 / 3 : ℝ) - 2 : ℝ)) := .div (.sub (sym_uf _) (.lit _)) (.lit _)
  .add (.sub (.of_eq rfl) (.div (.mul (.mul (.of_eq rfl) hf) (.sub (.lit _) sym_z4)) (.lit _)))
    (.mul (.mul (.of_eq rfl) hf) sym_z4)

theorem sym_pw91c : Sym pw91c := by
  have g : Sym (0.5 * uf (2 / 3)) := .mul (.lit _) (sym_uf _)
  have T : Sym (0.25 * d.gnn / npow (0.5 * uf (2 / 3) *
      ((√4 : ℝ) * sqrt (cbrt ((3 * Real.pi * Real.pi : ℝ) * d.n) / Real.pi)) * d.n) 2) :=
    .div (.of_eq rfl) (.npow (.mul (.mul g (.of_eq rfl)) (.of_eq rfl)) _)
  have A := Flip.div (.lit (2 * 0.09 / (16 * rcbrt (3 * Real.pi * Real.pi) / Real.pi * 0.004235)))
    (.expm1 (.div (.mul (.of_eq (x := (-2)) rfl) (.mul (.lit 0.09) sym_pw91cEc))
      (.mul (.mul (g.npow 3) (.lit (16 * rcbrt (3 * Real.pi * Real.pi) / Real.pi * 0.004235)))
        (.lit (16 * rcbrt (3 * Real.pi * Real.pi) / Real.pi * 0.004235)))))
  exact .mul (.of_eq rfl) (.add (.add sym_pw91cEc
    (.mul (.div (.mul (.mul (.mul (.lit _) (g.npow 3)) (.lit _)) (.lit _)) (.lit _))
      (.log (.add (.lit _) (.div (.mul (.lit _) (.mul (.lit _) (.add T (.mul (.mul A T) T))))
        (.mul (.lit _) (.add (.lit _) (.mul (.mul A T) (.add (.lit _) (.mul A T))))))))))
    (.mul (.mul (.mul (.of_eq rfl) (g.npow 3)) T)
      (.exp (.div (.mul (.mul (.mul (.of_eq rfl) (g.npow 4)) (.of_eq rfl)) T) (.of_eq rfl)))))

theorem flip_a : Flip d.a d.b := .of_eq rfl
theorem flip_b : Flip d.b d.a := .of_eq rfl

theorem sym_lypc : Sym lypc := by
  refine .mul (.lit _) (.add (.div (.mul (.mulPair' (.lit _) flip_a flip_b) (.of_eq rfl)) (.of_eq rfl))
    (.mul (.of_eq rfl) (.addPair (.sub (.mul (.mulPair flip_a flip_b) ?_) (.of_eq rfl)) (.of_eq rfl) (.of_eq rfl))))
  exact .sub (.sub (.add (.mul (.lit _) (by mirror)) (.of_eq rfl)) (.mul (.of_eq rfl) (by mirror)))
    (.div (.mul (.of_eq rfl) (by mirror)) (.of_eq rfl))

theorem sym_pz81fz : Sym pz81fz :=
  .div (.sub (.div (.mul (.mul (.lit _) (by mirror)) (.of_eq rfl)) (.of_eq rfl)) (.lit _)) (.lit _)
theorem sym_pz81eps : Sym pz81eps :=
  .iflt (.of_eq rfl) (.lit _) (.add (.of_eq rfl) (.mul (.of_eq rfl) sym_pz81fz))
    (.add (.of_eq rfl) (.mul (.of_eq rfl) sym_pz81fz))
theorem sym_pz81c : Sym pz81c := .mul sym_pz81eps (.of_eq rfl)
theorem sym_p86dz : Sym p86dz := .mul (.mul (.lit _) (.sqrt (by mirror))) (.of_eq rfl)
theorem sym_p86c_corr : Sym p86c_corr := .div (.of_eq rfl) (.mul (.of_eq rfl) sym_p86dz)
theorem sym_p86c : Sym p86c := .add (.mul (.of_eq rfl) sym_pz81eps) sym_p86c_corr

theorem sym_ecorrlr {mu ec : Expr Field} (hm : Sym mu) (he : Sym ec) : Sym (ecorrlr mu ec) := by
  have z := anti_zeta
  have zz : Sym (d.zeta * d.zeta) := z.anti_mul z
  have p (c : ℝ) : Flip (pow (1 + d.zeta) c) (pow (1 - d.zeta) c) := z.one_add.pow c
  have q (c : ℝ) : Flip (pow (1 - d.zeta) c) (pow (1 + d.zeta) c) := z.one_sub.pow c
  have ph : Sym ((pow (1 + d.zeta) (2 / 3) + pow (1 - d.zeta) (2 / 3)) / 2) := .div (.pair (p _) (q _)) (.lit _)
  have dp {x x' : Expr Field} (h : Flip x x') : Flip (dpol x) (dpol x') :=
    .div (.mul (.div (.lit _) (.mul h h)) (.add (.lit _) (.mul (.lit _) h)))
      (.add (.add (.lit _) (.mul (.lit _) h)) (.mul (.lit _) (.mul h h)))
  have rs : Sym d.r_s := .of_eq rfl
  have dpp {x x' : Expr Field} (h : Flip x x') : Flip (npow (x / 2) 2 * dpol (d.r_s * pow (2 / x) (1 / 3)))
      (npow (x' / 2) 2 * dpol (d.r_s * pow (2 / x') (1 / 3))) :=
    .mul (.npow (.div h (.lit _)) _) (dp (.mul rs (.pow (.div (.lit _) h) _)))
  have dd := Flip.pair (dpp z.one_add) (dpp z.one_sub)
  have Q {x : Expr Field} (h : Sym x) : Sym (Qrpa x) :=
    .mul (.lit _) (.log (.div (.add (.lit _) (.mul h (.add (.lit _) (.mul h (.add (.lit _) (.mul (.lit _) h))))))
      (.add (.lit _) (.mul h (.add (.lit _) (.mul (.lit _) h))))))
  have omz : Sym (1 - d.zeta * d.zeta) := .sub (.lit _) zz
  refine .div (.add (.add (.add (.add (.add (.mul (.npow ph _) (Q (.div (.mul hm (.of_eq rfl)) ph)))
    (.mul (.add ?_ (.mul (.of_eq rfl) ?c5)) (.npow hm _))) (.mul (.add (.add ?_ (.mul (.of_eq rfl) ?c4)) ?_) (.npow hm _)))
    (.mul ?_ (.npow hm _))) (.mul ?_ (.npow hm _))) (.mul (.npow (.mul (.of_eq rfl) hm) _) he))
    (.npow (.add (.lit _) (.npow (.mul (.of_eq rfl) hm) _)) _)
  case c5 => exact .mul (.of_eq rfl) (.add dd (.mul omz (.of_eq rfl)))
  case c4 => exact .mul (.of_eq rfl) (.sub (.add dd (.mul omz (.of_eq rfl)))
    (.div (.mul (.lit _) (.pair (p _) (q _))) (.of_eq rfl)))
  all_goals
    have c2 : Sym ((-3 / 8 : ℝ) / (d.r_s * d.r_s * d.r_s) * (1 - d.zeta * d.zeta) * (g0f d.r_s - 0.5)) :=
      .mul (.mul (.of_eq rfl) omz) (.of_eq rfl)
    have c3 : Sym (-(1 - d.zeta * d.zeta) * g0f d.r_s / ((√(2 * Real.pi) : ℝ) * (d.r_s * d.r_s * d.r_s))) :=
      .div (.mul (.neg omz) (.of_eq rfl)) (.of_eq rfl)
  · exact .mul (.of_eq rfl) c3
  · exact .mul (.of_eq rfl) c2
  · exact .mul (.of_eq rfl) he
  · exact .mul (.of_eq rfl) c3
  · exact .mul (.of_eq rfl) (.add (.mul (.of_eq rfl) c2) (.mul (.lit _) he))
theorem sym_ldaerfc : Sym ldaerfc := .mul (.of_eq rfl) (.sub sym_pw92eps (sym_ecorrlr (.of_eq rfl) sym_pw92eps))
theorem sym_ldaerfc_jt : Sym ldaerfc_jt := by
  have h : Sym (d.n * vwn5_eps) := .mul (.of_eq rfl) sym_vwn5_eps
  exact .div h (.add (.of_eq rfl) (.mul (.mul (.div h (.of_eq rfl)) (.of_eq rfl)) (.of_eq rfl)))

theorem sym_b97cEn (c) : Sym (b97cEn c) := by
  refine .add (by mirror) (.mul (.subPair (.mul sym_pw92eps (.of_eq rfl)) (.of_eq rfl) (.of_eq rfl)) ?_)
  have s : Sym (0.5 * (spin_dens_gradient_ab2 d.gaa d.a_43 + spin_dens_gradient_ab2 d.gbb d.b_43)) :=
    .mul (.lit _) (by mirror)
  have u := Flip.div (Flip.mul (.lit 0.006) s) (.add (.lit 1) (.mul (.lit 0.006) s))
  exact .add (.add (.lit _) (.mul (.lit _) u)) (.mul (.mul (.lit _) u) u)

theorem sym_csc : Sym csc := by
  refine .div (.mul (.mul (.lit _) (.mul (.lit _) (.sub (.lit _) (.div (by mirror) (.of_eq rfl)))))
    (.add (.of_eq rfl) (.mul (.mul (.of_eq rfl) ?_) (.of_eq rfl)))) (.of_eq rfl)
  exact .sub (.sub (by mirror) (.of_eq rfl)) (by mirror)

theorem sym_ueg_c_anti : Sym ueg_c_anti := .subPair (.mul sym_pw92eps (.of_eq rfl)) (.of_eq rfl) (.of_eq rfl)
theorem sym_m0g (c : List ℝ) {x : Expr Field} (h : Sym x) : Sym (m0g c x) := .poly (.div h (.add (.lit _) h)) _
theorem sym_m0h (q : ParamD) (al : ℝ) {x z : Expr Field} (hx : Sym x) (hz : Sym z) : Sym (m0h q al x z) :=
  have g : Sym (m0gamma al x z) := .add (.lit _) (.mul (.lit _) (.add hx hz))
  .add (.add (.div (.lit _) g) (.div (.add (.mul (.lit _) hx) (.mul (.lit _) hz)) (.mul g g)))
    (.div (.add (.mul hx (.add (.mul (.lit _) hx) (.mul (.lit _) hz))) (.mul (.mul (.lit _) hz) hz)) (.mul (.mul g g) g))
theorem sym_m05c : Sym m05c := .addPair (.mul sym_ueg_c_anti (sym_m0g _ (.mul (.lit _) (by mirror)))) (.of_eq rfl) (.of_eq rfl)
theorem sym_m05x2c : Sym m05x2c := .addPair (.mul sym_ueg_c_anti (sym_m0g _ (.mul (.lit _) (by mirror)))) (.of_eq rfl) (.of_eq rfl)
theorem sym_m06c : Sym m06c :=
  .addPair (.mul sym_ueg_c_anti (.add (sym_m0g _ (.mul (.lit _) (by mirror))) (sym_m0h _ _ (by mirror) (by mirror))))
    (.of_eq rfl) (.of_eq rfl)
theorem sym_m06lc : Sym m06lc :=
  .addPair (.mul sym_ueg_c_anti (.add (sym_m0g _ (.mul (.lit _) (by mirror))) (sym_m0h _ _ (by mirror) (by mirror))))
    (.of_eq rfl) (.of_eq rfl)
theorem sym_m06hfc : Sym m06hfc :=
  .addPair (.mul sym_ueg_c_anti (.add (sym_m0g _ (.mul (.lit _) (by mirror))) (sym_m0h _ _ (by mirror) (by mirror))))
    (.of_eq rfl) (.of_eq rfl)
theorem sym_m06x2c : Sym m06x2c :=
  .addPair (.mul sym_ueg_c_anti (.add (sym_m0g _ (.mul (.lit _) (by mirror))) (sym_m0h _ _ (by mirror) (by mirror))))
    (.of_eq rfl) (.of_eq rfl)

theorem sym_tpss_xi2 : Sym tpss_xi2 := by
  refine .div (.div (.add (.sub (.of_eq rfl) ?_) (.mul (.pow2_anti anti_s) (.of_eq rfl))) (.of_eq rfl)) (.of_eq rfl)
  exact (Flip.mul_anti (.of_eq rfl) anti_s).anti_mul anti_gns
theorem sym_C0 (p q r s : ℝ) : Sym (p + q * pow2 d.zeta + r * npow d.zeta 4 + s * npow d.zeta 6) :=
  .add (.add (.add (.lit _) (.mul (.lit _) sym_z2)) (.mul (.lit _) sym_z4)) (.mul (.lit _) sym_z6)
theorem sym_tpss_C : Sym tpss_C :=
  .mul (sym_C0 _ _ _ _) (.powi (.add (.lit _) (.mul (.mul (.lit _) sym_tpss_xi2) (sym_u _))) _)
theorem sym_tpssloc_C : Sym tpssloc_C :=
  .mul (sym_C0 _ _ _ _) (.powi (.add (.lit _) (.mul (.mul (.lit _) sym_tpss_xi2) (sym_u _))) _)
theorem sym_revtpss_C : Sym revtpss_C :=
  .div (sym_C0 _ _ _ _) (.npow (.add (.lit _) (.mul (.mul (.lit _) sym_tpss_xi2) (sym_u _))) _)
theorem sym_summax {e x y : Expr Field} (he : Sym e) (h : Flip x y) (k : Flip y x) :
    Sym ((d.a * max e x + d.b * max e y) / d.n) :=
  .div (.pair (.mul flip_a (.max he h)) (.mul flip_b (.max he k))) (.of_eq rfl)
theorem sym_revpkzb {e c m : Expr Field} (he : Sym e) (hc : Sym c) (hm : Sym m) :
    Sym (e * (1 + c * pow2 (d.gnn / (8 * d.n * d.tau))) - (1 + c) * pow2 (d.gnn / (8 * d.n * d.tau)) * m) :=
  .sub (.mul he (.add (.lit _) (.mul hc (.of_eq rfl)))) (.mul (.mul (.add (.lit _) hc) (.of_eq rfl)) hm)
theorem sym_tpss_revpkzb : Sym tpss_epsc_revpkzb :=
  sym_revpkzb sym_pbec_eps sym_tpss_C (sym_summax sym_pbec_eps (.of_eq rfl) (.of_eq rfl))
theorem sym_tpssc : Sym tpssc := .mul (.of_eq rfl)
  (.mul sym_tpss_revpkzb (.add (.lit _) (.mul (.mul (.lit _) sym_tpss_revpkzb) (.of_eq rfl))))
theorem sym_tpssloc_revpkzb : Sym tpssloc_epsc_revpkzb :=
  sym_revpkzb sym_pbeloc_eps sym_tpssloc_C (sym_summax sym_pbeloc_eps (.of_eq rfl) (.of_eq rfl))
theorem sym_tpsslocc : Sym tpsslocc := .mul (.mul (.of_eq rfl) sym_tpssloc_revpkzb)
  (.add (.lit _) (.mul (.mul (.lit _) sym_tpssloc_revpkzb) (.of_eq rfl)))
theorem sym_revtpss_pbec_eps : Sym revtpss_pbec_eps :=
  .add sym_pw92eps (sym_pbeLikeH (.of_eq rfl) sym_pw92eps sym_phi.pow3 sym_pbecD2)
theorem sym_revtpss_revpkzb : Sym revtpss_epsc_revpkzb :=
  sym_revpkzb sym_revtpss_pbec_eps sym_revtpss_C (sym_summax sym_revtpss_pbec_eps (.of_eq rfl) (.of_eq rfl))
theorem sym_revtpssc : Sym revtpssc := .mul (.of_eq rfl)
  (.mul sym_revtpss_revpkzb (.add (.lit _) (.mul (.mul (.lit _) sym_revtpss_revpkzb) (.of_eq rfl))))

theorem sym_brECopp {x y : Expr Field} (h : Flip x y) (k : Flip y x) : Sym (brECopp x y) := by
  have z : Sym (abs ((0.63 : ℝ) * (1 / x + 1 / y))) :=
    .abs (.mul (.lit _) (.pair (.div (.lit _) h) (.div (.lit _) k)))
  exact .mul (.mul (.mul (.mulPair' (.of_eq rfl) flip_a flip_b) z) z)
    (.sub (.lit _) (.div (.log (.add (.lit _) z)) z))
theorem sym_brc : Sym brc := .addPair (sym_brECopp (.of_eq rfl) (.of_eq rfl)) (.of_eq rfl) (.of_eq rfl)
theorem sym_brxc : Sym brxc :=
  .addPair (.add (.mul (.lit _) (by mirror)) (sym_brECopp (.of_eq rfl) (.of_eq rfl))) (.of_eq rfl) (.of_eq rfl)

theorem sym_gc_z : Sym (gc_z d.zeta) :=
  .mul (.sub (.lit _) (.mul (.lit _) (.sub (.div (sym_u _) (.lit _)) (.lit _)))) (.sub (.lit _) sym_z12)
theorem sym_scanf : Sym ((ufunc d.zeta (4 / 3) - 2) / scanGAM) := .div (.sub (sym_u _) (.lit _)) (.lit _)

/-- the Seitz radius of SCAN_C -/
noncomputable def scanRs : Expr Field := pow ((4 * Real.pi : ℝ) * d.n / 3) (-(1 / 3))
/-- the reduced gradient of SCAN_C -/
noncomputable def scanS : Expr Field := sqrt d.gnn / ((2 * (3 * PI2) ^ (1 / 3 : ℝ) : ℝ) * pow d.n (4 / 3))

theorem sym_lsda1 : Sym (lsda1 scanRs (sqrt scanRs) d.zeta) :=
  .sub (.add (.mul (.of_eq rfl) (.sub (.lit _) (.mul sym_scanf sym_zz3))) (.mul (.mul (.of_eq rfl) sym_scanf) sym_zz3))
    (.div (.mul (.mul (.of_eq rfl) sym_scanf) (.sub (.lit _) sym_zz3)) (.lit _))
theorem sym_lsda1_drs : Sym (lsda1_drs scanRs (sqrt scanRs) d.zeta) :=
  .sub (.add (.mul (.sub (.lit _) (.mul sym_zz3 sym_scanf)) (.of_eq rfl)) (.mul (.mul sym_zz3 sym_scanf) (.of_eq rfl)))
    (.div (.mul (.mul (.sub (.lit _) sym_zz3) sym_scanf) (.of_eq rfl)) (.lit _))
theorem sym_scan_ec0 : Sym (scan_ec0 scanRs scanS d.zeta) := .mul (.of_eq rfl) sym_gc_z
theorem sym_scanDelY (k : ℕ) {p w : Expr Field} (hp : Sym p) (hw : Sym w) : Sym (scanDelY k scanRs scanS d.zeta p w) := by
  unfold scanDelY
  split
  · exact .lit _
  split
  · refine .mul (.mul (.mul (.div (.of_eq rfl) (.mul (.mul (.mul (.lit _) (.div (sym_u _) (.lit _))) hp) hw))
      (.sub (.mul (.of_eq rfl) (.sub ?_ sym_lsda1_drs)) (.mul (.lit _) (.sub (.mul (.of_eq rfl) sym_gc_z) sym_lsda1))))
      (.of_eq rfl)) (.of_eq rfl)
    exact .div (.mul (.mul sym_gc_z (.of_eq rfl)) (.of_eq rfl)) (.lit _)
  · exact .lit _
theorem sym_scan_ec1 (k : ℕ) : Sym (scan_ec1 scanRs scanS d.zeta k) := by
  have ph : Sym (ufunc d.zeta (2 / 3) / 2) := .div (sym_u _) (.lit _)
  have w := Flip.sub (Flip.exp (.div (.neg sym_lsda1) (.mul (.lit 0.031090690869655) (ph.npow 3)))) (.lit 1)
  refine .add sym_lsda1 (.mul (.mul (.lit _) (ph.npow _)) (.log (.add (.lit _) (.mul w (.sub (.lit _)
    (.div (.lit _) (.pow (.add (.lit _) (.mul (.lit _) (.sub ?_ (sym_scanDelY k (ph.npow _) w)))) _)))))))
  exact .mul (.div (.of_eq rfl) (.mul (.lit _) w)) (.pow2 (.div (.of_eq rfl) (.mul (.of_eq rfl) ph)))
theorem sym_scanAlpha (k : ℕ) {x y z : Expr Field} (hx : Sym x) (hy : Sym y) (hz : Sym z) : Sym (scanAlpha k x y z) := by
  unfold scanAlpha
  split
  · exact .iflt (.lit _) hx.abs (hx.div hy) (.lit _)
  split
  · exact .div (.npow (hx.div hy) _) (.add (.pow2 (hx.div hy)) (.lit _))
  split
  · exact .iflt (.lit _) hx.abs (hx.div (.add hy (.mul (.lit _) hz))) (.lit _)
  · exact .lit _
theorem sym_ieSum (c : List ℝ) {x : Expr Field} (h : Sym x) : Sym (ieSum c x) := by
  have : ∀ (l : List (ℝ × ℕ)) (acc : Expr Field), Sym acc →
      Sym (l.foldl (fun acc p => acc + p.1 * npow x p.2) acc) := by
    intro l
    induction l with
    | nil => exact fun _ h => h
    | cons p l ih => exact fun acc ha => ih _ (.add ha (.mul (.lit _) (h.npow _)))
  exact this _ _ (.lit 0)
theorem sym_scanIef (k : ℕ) (p q r : ℝ) (c : List ℝ) {x : Expr Field} (h : Sym x) : Sym (scanIef k p q r c x) := by
  have l := Flip.exp (.div (.mul (.lit (-p)) h) (.sub (.lit 1) h))
  have m := Flip.mul (.lit (-r)) (.exp (.div (.lit q) (.sub (.lit 1) h)))
  unfold scanIef
  dsimp only
  split
  · exact .iflt h (.lit _) l m
  split
  · exact .iflt h (.lit _) l (.iflt h (.lit _) (sym_ieSum c h) m)
  · exact .lit _
theorem sym_SCAN_C (i j k : ℕ) : Sym (SCAN_C i j k) := by
  have ds : Sym (ufunc d.zeta (5 / 3) / 2) := .div (sym_u _) (.lit _)
  have al : Sym (scanAlpha i (d.tau - d.gnn / (8 * d.n)) (if i = 1 then (((3 / 10 * kF2 : ℝ) : Expr Field) *
      pow d.n (5 / 3) + TAU_R) * (ufunc d.zeta (5 / 3) / 2) else ((3 / 10 * kF2 : ℝ) : Expr Field) * pow d.n (5 / 3) *
      (ufunc d.zeta (5 / 3) / 2)) (d.gnn / (8 * d.n))) := by
    refine sym_scanAlpha i (.of_eq rfl) ?_ (.of_eq rfl)
    split <;> exact .mul (.of_eq rfl) ds
  exact .mul (.add (sym_scan_ec1 k) (.mul (sym_scanIef j _ _ _ _ al) (.sub sym_scan_ec0 (sym_scan_ec1 k)))) (.of_eq rfl)

/-- All functionals. -/
theorem sym_all : ∀ e ∈ energies, Sym e := by
  simp only [energies, List.forall_mem_cons, List.not_mem_nil, false_implies, implies_true, and_true]
  exact ⟨
    sym_slaterx, sym_pw86x, sym_vwn3c, sym_vwn5c, sym_pbec, sym_pbex, sym_beckex, sym_beckexcorr, sym_beckesrx,
    sym_beckecamx, sym_brx, sym_brc, sym_brxc, sym_lda_erfx, sym_ldaerfc, sym_ldaerfc_jt, sym_lypc, sym_optx,
    sym_optxcorr, sym_revpbex, sym_rpbex, sym_spbec, sym_vwn_pbec, sym_ktx, sym_tfk, sym_tw, sym_pw91x, sym_pw91k,
    sym_pw92c, sym_m05x, sym_m05x2x, sym_m06x, sym_m06x2x, sym_m06lx, sym_m06hfx, sym_m05x2c, sym_m05c, sym_m06c,
    sym_m06hfc, sym_m06lc, sym_m06x2c, sym_tpssc, sym_tpssx, sym_revtpssc, sym_revtpssx, sym_SCAN_C _ _ _,
    sym_scanx, sym_SCAN_C _ _ _, sym_rscanx, sym_SCAN_C _ _ _, sym_rppscanx, sym_SCAN_C _ _ _, sym_r2scanx,
    sym_SCAN_C _ _ _, sym_r4scanx, sym_pz81c, sym_p86c, sym_p86c_corr, sym_btk, sym_vW, sym_b97x, sym_b97cEn _,
    sym_b97_1x, sym_b97cEn _, sym_b97_2x, sym_b97cEn _, sym_csc, sym_apbec, sym_apbex, sym_zvpbe _ _, sym_blocx,
    sym_pbeintc, sym_pbeintx, sym_pbelocc, sym_pbesolx, sym_tpsslocc, sym_zvpbe _ _, sym_pw91c⟩

end XCFun.Fun
