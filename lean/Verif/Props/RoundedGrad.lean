/-
C89, continued: rounding errors of the derivatives of two functionals of the gradient, which divide expansions.
-/
import Verif.Props.RoundedJet

namespace XCFun.Props
open XCFun Spec RE RJ Expr

variable {V : Type} [Zero V] [One V] [Add V] [Sub V] [Mul V] [Neg V] {A : Rounded V}

private theorem reg_eq {N : ℕ} {x : ℕ → CT V N} (hx : ∀ i < 2, 1.01e-14 ≤ A.val (x i).c0) {i : ℕ} (hi : i < 2) :
    (Expr.reg (.var i)).evalCT (fun i => (x i).map A.val) = (x i).map A.val :=
  regularize_of_le (by show _ ≤ ((x i).map A.val).c0; rw [c0_map]; exact hx i hi)

private theorem c0_smul (a : ℝ) {N : ℕ} (x : CT ℝ N) : (CT.smul a x).c0 = a * x.c0 := by
  rw [CT.smul]; exact c0_map _ _

omit [Zero V] [One V] [Add V] [Sub V] [Neg V] in
private theorem c0_smulV (a : V) {N : ℕ} (x : CT V N) : (CT.smul a x).c0 = a * x.c0 := by
  rw [CT.smul]; exact c0_map _ _

/-- `gaa / (8 * na)`. -/
private theorem ja_vw_alpha (L : JetLib A) {N : ℕ} (hN : N ≤ 6) (x y : CT V N) (hx : 1.01e-14 ≤ A.val x.c0) :
    JA A (178 * η L.toMathLib) (multoV (composeV (CT.smul (L.const 8) x) (invExpandV L (CT.smul (L.const 8) x).c0)) y)
      ((CT.const N 8 * x.map A.val).prim .inv * y.map A.val)
      (invBound (CT.const N 8 * (x.map A.val).map _root_.abs) (8 * (x.map A.val).c0) * (y.map A.val).map _root_.abs) := by
  have hη := η_nonneg L.toMathLib
  have hpos : 0 < A.val x.c0 := lt_of_lt_of_le (by norm_num) hx
  have h8 := JA.smul L.toMathLib (nb_lit L (c := 8)) (JA.of_val (A := A) x)
  have hc : (CT.smul 8 (x.map A.val)).c0 = 8 * A.val x.c0 := by rw [c0_smul, c0_map]
  have hw : Within ((2 : ℕ) * η L.toMathLib) (CT.smul 8 (x.map A.val)).c0 (A.val (CT.smul (L.const 8) x).c0) := by
    rw [hc, c0_smulV]
    have h1 : Within (η L.toMathLib) 8 (A.val (L.const 8)) := step_w (L.const_err 8)
    have h2 := (h1.mul (Within.refl (m := 0) (x := A.val x.c0) le_rfl)).trans (step_u (L := L.toMathLib) (A.mul_err _ _))
    exact h2.mono (by push_cast; linarith)
  have hd := ja_div L (kx := 2) (k0 := 2) (ky := 0) hN (h8.mono (by push_cast; linarith)) hw (by rw [hc]; positivity)
    ((JA.of_val (A := A) y).mono (by simp))
  rw [abs_of_pos (by norm_num : (0 : ℝ) < 8), CT.smul_eq 8, CT.smul_eq 8] at hd
  have hc' : (CT.const N 8 * x.map A.val).c0 = 8 * (x.map A.val).c0 := by rw [← CT.smul_eq, c0_smul]
  rw [hc'] at hd
  refine JA.mono (m := (7 * 2 + 6 * 2 + 0 + 152 : ℕ) * η L.toMathLib) (by push_cast; linarith) ?_
  rw [CT.prim, hc']
  exact hd

theorem ja_vwk (L : JetLib A) (par : ℕ → ℝ) {N : ℕ} (hN : N ≤ 6) (x : ℕ → CT V N) (hx : ∀ i < 2, 1.01e-14 ≤ A.val (x i).c0) :
    JA A (179 * η L.toMathLib) (jetFp L .A_B_GAA_GAB_GBB par 59 x) ((fullExpr par .A_B_GAA_GAB_GBB 59).evalCT fun i => (x i).map A.val)
      (gradBound 59 ((x 0).map A.val) ((x 1).map A.val) ((x 2).map A.val) ((x 4).map A.val)) := by
  have hη := η_nonneg L.toMathLib
  have h := JA.add L.toMathLib (ja_vw_alpha L hN (x 0) (x 2) (hx 0 (by norm_num))) (ja_vw_alpha L hN (x 1) (x 4) (hx 1 (by norm_num)))
  have e1 : jetFp L .A_B_GAA_GAB_GBB par 59 x =
      multoV (composeV (CT.smul (L.const 8) (evalCTV L x (.reg (.var 0)))) (invExpandV L (CT.smul (L.const 8) (evalCTV L x (.reg (.var 0)))).c0)) (x 2) +
      multoV (composeV (CT.smul (L.const 8) (evalCTV L x (.reg (.var 1)))) (invExpandV L (CT.smul (L.const 8) (evalCTV L x (.reg (.var 1)))).c0)) (x 4) := rfl
  have e2 : (fullExpr par .A_B_GAA_GAB_GBB 59).evalCT (fun i => (x i).map A.val) =
      (CT.const N 8 * (Expr.reg (.var 0)).evalCT fun i => (x i).map A.val).prim .inv * (x 2).map A.val +
      (CT.const N 8 * (Expr.reg (.var 1)).evalCT fun i => (x i).map A.val).prim .inv * (x 4).map A.val := rfl
  rw [e1, e2, evalCTV_reg L (hx 0 (by norm_num)), evalCTV_reg L (hx 1 (by norm_num)), reg_eq hx (by norm_num), reg_eq hx (by norm_num)]
  refine JA.mono (by linarith) h

/-- `gaa / (DELTA + pow(na, 4/3))`. -/
private theorem ja_ktx_alpha (L : JetLib A) {N : ℕ} (hN : N ≤ 6) (x y : CT V N) (hx : 1.01e-14 ≤ A.val x.c0 ∧ A.val x.c0 ≤ 1e21) :
    let p := (composeV x (powExpandV L x.c0 (L.const (4 / 3)))).addScalar (L.const 0.1)
    JA A (4481 * η L.toMathLib) (multoV (composeV p (invExpandV L p.c0)) y)
      ((CT.const N 0.1 + (x.map A.val).prim (.pow (4 / 3))).prim .inv * y.map A.val)
      (invBound (CT.const N 0.1 + powBound ((x.map A.val).map _root_.abs) (x.map A.val).c0 (4 / 3)) (0.1 + (x.map A.val).c0 ^ (4 / 3 : ℝ)) *
        (y.map A.val).map _root_.abs) := by
  intro p
  have hη := η_nonneg L.toMathLib
  have hpos : 0 < A.val x.c0 := lt_of_lt_of_le (by norm_num) hx.1
  have hr := jet_range_exp hx
  have hc : (x.map A.val).c0 = A.val x.c0 := c0_map _ _
  have lo : Real.exp (-51) ≤ A.val x.c0 := (Real.exp_le_exp.2 (by norm_num)).trans hr.1
  have hi : A.val x.c0 ≤ Real.exp 51 := hr.2.trans (Real.exp_le_exp.2 (by norm_num))
  have hp := ja_pow L (a := 4 / 3) (.inl rfl) hN ((JA.of_val x).mono hη) (by rw [hc]; exact Within.refl hη) (by rw [hc]; exact lo) (by rw [hc]; exact hi)
  have hs := JA.addScalar L.toMathLib ((nb_lit L (c := 0.1)).mono (show η L.toMathLib ≤ 612 * η L.toMathLib by linarith)) hp
  rw [CT.addScalar_eq, CT.addScalar_eq, abs_of_pos (by norm_num : (0 : ℝ) < 0.1), add_comm _ (CT.const N (0.1 : ℝ)),
    add_comm _ (CT.const N (0.1 : ℝ))] at hs
  have hc0 : (CT.const N 0.1 + (x.map A.val).compose (powExpand (x.map A.val).c0 (4 / 3))).c0 = 0.1 + A.val x.c0 ^ (4 / 3 : ℝ) := by
    rw [CT.c0_add, CT.c0_const, CT.c0_compose, hc, powExpand]
  have hw : Within ((93 : ℕ) * η L.toMathLib) (0.1 + A.val x.c0 ^ (4 / 3 : ℝ)) (A.val p.c0) := by
    have h1 := within_pow L (a := 4 / 3) (.inl rfl) (Within.refl hη) lo hi 0 (by norm_num)
    have h2 := h1.trans (c0_composeV L.toMathLib x (powExpandV L x.c0 (L.const (4 / 3))))
    have h3 : Within (η L.toMathLib) 0.1 (A.val (L.const 0.1)) := step_w (L.const_err _)
    have h4 := (h2.add h3 (by rw [powExpand]; positivity) (by norm_num)).trans (step_u (L := L.toMathLib) (A.add_err _ _))
    have e : p.c0 = (composeV x (powExpandV L x.c0 (L.const (4 / 3)))).c0 + L.const 0.1 := by
      show (CT.setC0 _ _).c0 = _
      generalize composeV x (powExpandV L x.c0 (L.const (4 / 3))) = z
      clear h4 h2 h1 hs hp hc0
      have : ∀ {M : ℕ} (u : CT V M) (r : V), (u.setC0 r).c0 = r := by
        intro M u r
        induction u with
        | leaf => rfl
        | node lo hi ih _ => exact ih
      exact this _ _
    rw [e, add_comm (0.1 : ℝ)]
    refine h4.mono ?_
    push_cast
    linarith
  have hd := ja_div L (kx := 613) (k0 := 93) (ky := 0) hN (hs.mono (by push_cast; linarith)) (by rw [hc0]; exact hw) (by rw [hc0]; positivity)
    ((JA.of_val (A := A) y).mono (by simp))
  rw [hc0] at hd
  refine JA.mono (m := (7 * 93 + 6 * 613 + 0 + 152 : ℕ) * η L.toMathLib) (by push_cast; linarith) ?_
  rw [CT.prim, CT.prim, show Prim.coef (.pow (4 / 3)) N (x.map A.val).c0 = powExpand (x.map A.val).c0 (4 / 3) from rfl, hc0]
  rw [hc] at hd ⊢
  exact hd

theorem ja_ktx (L : JetLib A) (par : ℕ → ℝ) {N : ℕ} (hN : N ≤ 6) (x : ℕ → CT V N) (hx : JetRange A x) :
    JA A (4482 * η L.toMathLib) (jetFp L .A_B_GAA_GAB_GBB par 23 x) ((fullExpr par .A_B_GAA_GAB_GBB 23).evalCT fun i => (x i).map A.val)
      (gradBound 23 ((x 0).map A.val) ((x 1).map A.val) ((x 2).map A.val) ((x 4).map A.val)) := by
  have hη := η_nonneg L.toMathLib
  have h := JA.add L.toMathLib (ja_ktx_alpha L hN (x 0) (x 2) (hx 0 (by norm_num))) (ja_ktx_alpha L hN (x 1) (x 4) (hx 1 (by norm_num)))
  let p := fun i => (composeV (evalCTV L x (.reg (.var i))) (powExpandV L (evalCTV L x (.reg (.var i))).c0 (L.const (4 / 3)))).addScalar (L.const 0.1)
  have e1 : jetFp L .A_B_GAA_GAB_GBB par 23 x =
      multoV (composeV (p 0) (invExpandV L (p 0).c0)) (x 2) + multoV (composeV (p 1) (invExpandV L (p 1).c0)) (x 4) := rfl
  have e2 : (fullExpr par .A_B_GAA_GAB_GBB 23).evalCT (fun i => (x i).map A.val) =
      (CT.const N 0.1 + ((Expr.reg (.var 0)).evalCT fun i => (x i).map A.val).prim (.pow (4 / 3))).prim .inv * (x 2).map A.val +
      (CT.const N 0.1 + ((Expr.reg (.var 1)).evalCT fun i => (x i).map A.val).prim (.pow (4 / 3))).prim .inv * (x 4).map A.val := rfl
  have hx' : ∀ i < 2, 1.01e-14 ≤ A.val (x i).c0 := fun i hi => (hx i hi).1
  have p0 : ∀ i < 2, p i = (composeV (x i) (powExpandV L (x i).c0 (L.const (4 / 3)))).addScalar (L.const 0.1) := fun i hi => by
    simp only [p]
    rw [evalCTV_reg L (hx' i hi)]
  rw [e1, e2, p0 0 (by norm_num), p0 1 (by norm_num), reg_eq hx' (by norm_num), reg_eq hx' (by norm_num)]
  refine JA.mono (by linarith) h

/-- **C89.** Every coefficient of VWK and KTX, which divide by expansions, computed from expansions of the densities and of the squares of
their gradients in up to six variables, is wrong by at most `(1-w)^(-K) - 1` of what it would be if all terms in it had the same sign:
`K = 179` for VWK and `K = 4482` for KTX, for arbitrary increments. -/
theorem C89_gradient (L : JetLib A) (par : ℕ → ℝ) {N : ℕ} (hN : N ≤ 6) (x : ℕ → CT V N) (hx : JetRange A x) {id : ℕ}
    (hid : id = 59 ∨ id = 23) (S : ℕ) :
    |A.val ((jetFp L .A_B_GAA_GAB_GBB par id x).get S) - ((fullExpr par .A_B_GAA_GAB_GBB id).evalCT fun i => (x i).map A.val).get S| ≤
      ((1 - L.w)⁻¹ ^ (if id = 59 then 179 else 4482) - 1) *
        (gradBound id ((x 0).map A.val) ((x 1).map A.val) ((x 2).map A.val) ((x 4).map A.val)).get S := by
  rw [← exp_steps]
  rcases hid with rfl | rfl
  · exact_mod_cast ((ja_vwk L par hN x fun i hi => (hx i hi).1).get S).err
  · exact_mod_cast ((ja_ktx L par hN x hx).get S).err

/-- **C89.** A polynomial divided by a constant: three steps more, relative to the polynomial with all terms positive over the size of the
constant. -/
theorem C89_over_constant (L : JetLib A) {ι : Type} {N : ℕ} (x : ι → CT V N) (e : Expr ι) (he : IsPoly e) {c : ℝ} (hc : c ≠ 0) (S : ℕ) :
    |A.val ((evalCTV L x (e / .lit c)).get S) - (e.evalCT fun i => (x i).map A.val).get S / c| ≤
      ((1 - L.w)⁻¹ ^ (polySteps N e + 3) - 1) * ((polyBound (fun i => (x i).map A.val) e).get S / |c|) := by
  have hw : Within (η L.toMathLib) c (A.val (L.const c)) := step_w (L.const_err c)
  have h0 : A.val (L.const c) ≠ 0 := by
    obtain ⟨θ, -, h⟩ := hw
    rw [h]
    exact mul_ne_zero hc (Real.exp_ne_zero _)
  have d := L.div_err 1 (L.const c) h0
  rw [A.val_one, one_div] at d
  have h1 := JA.smul L.toMathLib (NB.of_within (hw.inv.trans (step_w d))) (ja_poly L x e he)
  have h2 := (h1.get S).err
  rw [CT.smul_eq c⁻¹, CT.smul_eq |c⁻¹|, CT.get_const_mul, CT.get_const_mul, abs_inv, ← div_eq_inv_mul, ← div_eq_inv_mul,
    show η L.toMathLib + η L.toMathLib + polySteps N e * η L.toMathLib + η L.toMathLib = (polySteps N e + 3 : ℕ) * η L.toMathLib by push_cast; ring,
    exp_steps] at h2
  exact h2

/-- **C89.** A constant divided by an expansion with positive constant term: 135 steps, for arbitrary increments. -/
theorem C89_constant_over (L : JetLib A) {N : ℕ} (hN : N ≤ 6) (x : Unit → CT V N) (c : ℝ) (hx : 0 < A.val (x ()).c0) (S : ℕ) :
    |A.val ((evalCTV L x (.lit c / .var ())).get S) - ((Expr.lit c / .var () : Expr Unit).evalCT fun i => (x i).map A.val).get S| ≤
      ((1 - L.w)⁻¹ ^ 135 - 1) * (|c| * (invBound (((x ()).map A.val).map _root_.abs) (A.val (x ()).c0)).get S) := by
  have hη := η_nonneg L.toMathLib
  set y := x () with hy
  have hc : (y.map A.val).c0 = A.val y.c0 := c0_map _ _
  have hw : Within (η L.toMathLib) c (A.val (L.const c)) := step_w (L.const_err c)
  have hk := JA.compose L.toMathLib (kx := 0) (kc := 15) ((JA.of_val (A := A) y).mono (by simp)) (t := fun i => invExpandV L y.c0 i * L.const c)
    (te := fun i => invExpand (A.val y.c0) i * c) (tb := fun i => 1 / |A.val y.c0| ^ (i + 1) * |c|) fun j hj => by
      have hj6 : (j : ℝ) ≤ 6 := by exact_mod_cast hj.trans hN
      have h1 := ((within_inv L (Within.refl (m := 0) le_rfl) hx j).mul hw).trans (step_u (L := L.toMathLib) (A.mul_err _ _))
      rw [← abs_invExpand hx, ← abs_mul]
      refine NB.of_within (h1.mono ?_)
      have : (j : ℝ) * η L.toMathLib ≤ 6 * η L.toMathLib := mul_le_mul_of_nonneg_right hj6 hη
      push_cast
      linarith
  have lin : ∀ (z : CT ℝ N) (t : ℕ → ℝ) (r : ℝ), (z.compose fun i => t i * r) = CT.const N r * z.compose t := by
    intro z t r
    rw [CT.compose_eq_sum, CT.compose_eq_sum, Finset.mul_sum]
    refine Finset.sum_congr rfl fun i _ => ?_
    rw [← mul_assoc, CT.const_mul, mul_comm (CT.const N (t i))]
  have h := (hk.get S).err
  rw [lin, lin, CT.get_const_mul |c|] at h
  have e2 : ((Expr.lit c / .var () : Expr Unit).evalCT fun i => (x i).map A.val) = (y.map A.val).compose (invExpand (y.map A.val).c0) * CT.const N c := rfl
  rw [e2, hc, mul_comm _ (CT.const N c)]
  refine h.trans (mul_le_mul_of_nonneg_right ?_ ?_)
  · rw [← exp_steps]
    refine sub_le_sub_right (Real.exp_le_exp.2 (mul_le_mul_of_nonneg_right ?_ hη)) 1
    have : 15 + N * (0 + 4 + 2 ^ (N - 2)) ≤ 135 := by interval_cases N <;> norm_num
    exact_mod_cast this
  · have := (hk.get S).b0
    rwa [lin, CT.get_const_mul |c|] at this

/-! Partial derivatives of VWK. -/

private theorem node_add {n : ℕ} (a b c d : CT ℝ n) : CT.node a b + CT.node c d = .node (a + c) (b + d) := rfl
private theorem leaf_add (a b : ℝ) : CT.leaf a + CT.leaf b = .leaf (a + b) := rfl
private theorem node_mul {n : ℕ} (x y : CT ℝ n) : x * y = CT.mul x y := rfl

private theorem top1 (τ : ℕ → ℝ) (a s g t : ℝ) :
    ((CT.const 1 8 * CT.node (.leaf a) (.leaf s)).compose τ * CT.node (.leaf g) (.leaf t)).get 1 = 8 * τ 1 * s * g + τ 0 * t := by
  simp only [CT.compose, CT.horner, CT.const, CT.mulSkip, node_mul, CT.mul, CT.smul, CT.map, CT.setC0, CT.c0, node_add, leaf_add, CT.get]
  norm_num
  exact .inl (by ring)

private theorem top2 (τ : ℕ → ℝ) (a s s' g t t' : ℝ) :
    ((CT.const 2 8 * CT.node (.node (.leaf a) (.leaf s)) (.node (.leaf s') (.leaf 0))).compose τ *
      CT.node (.node (.leaf g) (.leaf t)) (.node (.leaf t') (.leaf 0))).get 3 = 128 * τ 2 * s * s' * g + 8 * τ 1 * (s * t' + s' * t) := by
  simp only [CT.compose, CT.horner, CT.const, CT.mulSkip, node_mul, CT.mul, CT.smul, CT.map, CT.setC0, CT.c0, node_add, leaf_add, CT.get]
  norm_num
  ring

private theorem top3 (τ : ℕ → ℝ) (a s s' s'' g t t' t'' : ℝ) :
    ((CT.const 3 8 * CT.node (.node (.node (.leaf a) (.leaf s)) (.node (.leaf s') (.leaf 0)))
        (.node (.node (.leaf s'') (.leaf 0)) (.node (.leaf 0) (.leaf 0)))).compose τ *
      CT.node (.node (.node (.leaf g) (.leaf t)) (.node (.leaf t') (.leaf 0)))
        (.node (.node (.leaf t'') (.leaf 0)) (.node (.leaf 0) (.leaf 0)))).get 7 =
      3072 * τ 3 * s * s' * s'' * g + 128 * τ 2 * (s * s' * t'' + s * s'' * t' + s' * s'' * t) := by
  simp only [CT.compose, CT.horner, CT.const, CT.mulSkip, node_mul, CT.mul, CT.smul, CT.map, CT.setC0, CT.c0, node_add, leaf_add, CT.get]
  norm_num
  ring

private theorem ev_vwk (par : ℕ → ℝ) {N : ℕ} (x : ℕ → CT ℝ N) (hx : ∀ i < 2, 1.01e-14 ≤ (x i).c0) :
    (fullExpr par .A_B_GAA_GAB_GBB 59).evalCT x = (CT.const N 8 * x 0).compose (invExpand (8 * (x 0).c0)) * x 2 +
      (CT.const N 8 * x 1).compose (invExpand (8 * (x 1).c0)) * x 4 := by
  have e2 : (fullExpr par .A_B_GAA_GAB_GBB 59).evalCT x = (CT.const N 8 * (Expr.reg (.var 0)).evalCT x).prim .inv * x 2 +
      (CT.const N 8 * (Expr.reg (.var 1)).evalCT x).prim .inv * x 4 := rfl
  have r : ∀ i < 2, (Expr.reg (.var i)).evalCT x = x i := fun i hi => regularize_of_le (hx i hi)
  have c : ∀ y : CT ℝ N, (CT.const N 8 * y).c0 = 8 * y.c0 := fun y => by rw [← CT.smul_eq, c0_smul]
  rw [e2, r 0 (by norm_num), r 1 (by norm_num), CT.prim, CT.prim, c, c]
  rfl

private theorem bd_vwk {N : ℕ} (a b g h : CT ℝ N) (ha : 0 < a.c0) (hb : 0 < b.c0) :
    gradBound 59 a b g h = (CT.const N 8 * a.map _root_.abs).compose (fun i => |invExpand (8 * a.c0) i|) * g.map _root_.abs +
      (CT.const N 8 * b.map _root_.abs).compose (fun i => |invExpand (8 * b.c0) i|) * h.map _root_.abs := by
  simp only [gradBound, if_true, invBound, abs_invExpand (mul_pos (by norm_num : (0 : ℝ) < 8) ha), abs_invExpand (mul_pos (by norm_num : (0 : ℝ) < 8) hb)]

/-- Of the terms of a partial derivative of VWK only one is not zero. -/
private theorem vwk_top (par : ℕ → ℝ) (x : ℕ → ℝ) (hx : ∀ i < 2, 1.01e-14 ≤ x i) {i j k : ℕ} (hi : i < 5) (hj : j < 5) (hk : k < 5) :
    let E := fullExpr par .A_B_GAA_GAB_GBB 59
    let B := fun {N : ℕ} (y : ℕ → CT ℝ N) => gradBound 59 (y 0) (y 1) (y 2) (y 4)
    |(E.evalCT (seed1 x (some i))).get 1| = (B (seed1 x (some i))).get 1 ∧
    |(E.evalCT (seed2 x (some i) (some j))).get 3| = (B (seed2 x (some i) (some j))).get 3 ∧
    |(E.evalCT (seed3 x (some i) (some j) (some k))).get 7| = (B (seed3 x (some i) (some j) (some k))).get 7 := by
  intro E B
  have p0 : 0 < x 0 := lt_of_lt_of_le (by norm_num) (hx 0 (by norm_num))
  have p1 : 0 < x 1 := lt_of_lt_of_le (by norm_num) (hx 1 (by norm_num))
  refine ⟨?_, ?_, ?_⟩
  · simp only [E, B]
    rw [ev_vwk par (seed1 x (some i)) hx, bd_vwk _ _ _ _ (by exact p0) (by exact p1), CT.get_add, CT.get_add]
    simp only [seed1, CT.map, top1]
    generalize invExpand _ = τ
    generalize invExpand _ = σ
    interval_cases i <;> simp [Spec.unit, abs_mul]
  · simp only [E, B]
    rw [ev_vwk par (seed2 x (some i) (some j)) hx, bd_vwk _ _ _ _ (by exact p0) (by exact p1), CT.get_add, CT.get_add]
    simp only [seed2, CT.map, abs_zero, top2]
    generalize invExpand _ = τ
    generalize invExpand _ = σ
    interval_cases i <;> interval_cases j <;> simp [Spec.unit, abs_mul]
  · simp only [E, B]
    rw [ev_vwk par (seed3 x (some i) (some j) (some k)) hx, bd_vwk _ _ _ _ (by exact p0) (by exact p1), CT.get_add, CT.get_add]
    simp only [seed3, seed2, CT.map, abs_zero, top3]
    generalize invExpand _ = τ
    generalize invExpand _ = σ
    interval_cases i <;> interval_cases j <;> interval_cases k <;> simp [Spec.unit, abs_mul]

/-- **C89.** The partial derivatives of first, second and third order of VWK with respect to the densities and the products of their
gradients, computed with rounding, have the relative error `(1-w)^(-179) - 1`, whatever the gradients. -/
theorem C89_vwk_partials (L : JetLib A) (par : ℕ → ℝ) (x : ℕ → V) (hx : ∀ i < 2, 1.01e-14 ≤ A.val (x i)) {i j k : ℕ}
    (hi : i < 5) (hj : j < 5) (hk : k < 5) :
    let E := fullExpr par .A_B_GAA_GAB_GBB 59
    let y := fun l => A.val (x l)
    let close := fun v e : ℝ => |v - e| ≤ ((1 - L.w)⁻¹ ^ 179 - 1) * |e|
    close (A.val ((jetFp L .A_B_GAA_GAB_GBB par 59 (seed1 x (some i))).get 1)) (pderiv i E.evalR y) ∧
    close (A.val ((jetFp L .A_B_GAA_GAB_GBB par 59 (seed2 x (some i) (some j))).get 3)) (pderiv i (pderiv j E.evalR) y) ∧
    close (A.val ((jetFp L .A_B_GAA_GAB_GBB par 59 (seed3 x (some i) (some j) (some k))).get 7))
      (pderiv i (pderiv j (pderiv k E.evalR)) y) := by
  intro E y close
  have hu : ∀ o l, A.val (Spec.unit o l) = Spec.unit o l := by
    intro o l
    simp only [Spec.unit]
    split
    · exact A.val_one
    · exact A.val_zero
  have hreg : E.Reg y := by
    have h : ∀ i < 2, 1e-14 < y i := fun i hi => lt_of_lt_of_le (by norm_num) (hx i hi)
    have g : ∀ i < 2, (8 : ℝ) * (if y i < 1e-14 then (1e-14 : ℝ) else y i) ≠ 0 := fun i hi => by
      rw [if_neg (not_lt.2 (h i hi).le)]
      have : 0 < y i := lt_trans (by norm_num) (h i hi)
      positivity
    exact ⟨⟨⟨⟨trivial, trivial, h 0 (by norm_num)⟩, g 0 (by norm_num)⟩, trivial⟩, ⟨⟨trivial, trivial, h 1 (by norm_num)⟩, g 1 (by norm_num)⟩, trivial⟩
  obtain ⟨t1, t2, t3⟩ := vwk_top par y hx hi hj hk
  have m1 : ∀ o l, (seed1 x o l).map A.val = seed1 y o l := fun o l => by simp only [seed1, CT.map, hu, y]
  have m2 : ∀ o p l, (seed2 x o p l).map A.val = seed2 y o p l := fun o p l => by simp only [seed2, CT.map, hu, A.val_zero, y]
  have m3 : ∀ o p q l, (seed3 x o p q l).map A.val = seed3 y o p q l := fun o p q l => by simp only [seed3, CT.map, m2, hu, A.val_zero]
  have hs : Real.exp (179 * η L.toMathLib) = (1 - L.w)⁻¹ ^ 179 := by have := exp_steps L.toMathLib 179; exact_mod_cast this
  refine ⟨?_, ?_, ?_⟩
  · have := ((ja_vwk L par (by norm_num) (seed1 x (some i)) hx).get 1).err
    simp only [m1] at this
    rw [hs, ← t1, coef1_pderiv (n := 5) hreg hi] at this
    exact this
  · have := ((ja_vwk L par (by norm_num) (seed2 x (some i) (some j)) hx).get 3).err
    simp only [m2] at this
    rw [hs, ← t2, coef2_pderiv (n := 5) hreg hi hj] at this
    exact this
  · have := ((ja_vwk L par (by norm_num) (seed3 x (some i) (some j) (some k)) hx).get 7).err
    simp only [m3] at this
    rw [hs, ← t3, coef3_pderiv (n := 5) hreg hi hj hk] at this
    exact this

private theorem mid2 (τ : ℕ → ℝ) (a s s' g t t' : ℝ) :
    let P := (CT.const 2 8 * CT.node (.node (.leaf a) (.leaf s)) (.node (.leaf s') (.leaf 0))).compose τ *
      CT.node (.node (.leaf g) (.leaf t)) (.node (.leaf t') (.leaf 0))
    P.get 1 = 8 * τ 1 * s * g + τ 0 * t ∧ P.get 2 = 8 * τ 1 * s' * g + τ 0 * t' := by
  simp only [CT.compose, CT.horner, CT.const, CT.mulSkip, node_mul, CT.mul, CT.map, CT.setC0, CT.c0, node_add, leaf_add, CT.get]
  constructor <;> ring_nf <;> norm_num

private theorem bot (τ : ℕ → ℝ) {N : ℕ} (a g : CT ℝ N) : ((CT.const N 8 * a).compose τ * g).get 0 = τ 0 * g.c0 := by
  rw [← CT.c0_eq_get, CT.c0_mul, CT.c0_compose]

/-- The coefficients that `xcfun_eval` reads. -/
private theorem vwk_read (par : ℕ → ℝ) (x : ℕ → ℝ) (hx : ∀ i < 2, 1.01e-14 ≤ x i) (hg : 0 ≤ x 2 ∧ 0 ≤ x 4) :
    let E := fullExpr par .A_B_GAA_GAB_GBB 59
    let same := fun {N : ℕ} (y : ℕ → CT ℝ N) (S : ℕ) => |(E.evalCT y).get S| = (gradBound 59 (y 0) (y 1) (y 2) (y 4)).get S
    same (fun l => CT.leaf (x l)) 0 ∧ (∀ i, ∀ c < 2, same (seed1 x (some i)) c) ∧ (∀ i j, ∀ c < 4, same (seed2 x (some i) (some j)) c) ∧
      ∀ i j k, same (seed3 x (some i) (some j) (some k)) 7 := by
  intro E same
  have p0 : 0 < x 0 := lt_of_lt_of_le (by norm_num) (hx 0 (by norm_num))
  have p1 : 0 < x 1 := lt_of_lt_of_le (by norm_num) (hx 1 (by norm_num))
  have zero : ∀ {N : ℕ} (y : ℕ → CT ℝ N), (∀ l, (y l).c0 = x l) → same y 0 := by
    intro N y hy
    have hm : ∀ l, ((y l).map _root_.abs).c0 = |x l| := fun l => by rw [c0_map, hy]
    simp only [same, E]
    rw [ev_vwk par y (fun i hi => by rw [hy]; exact hx i hi), bd_vwk _ _ _ _ (by rw [hy]; exact p0) (by rw [hy]; exact p1), CT.get_add, CT.get_add,
      bot, bot, bot, bot, hm, hm, hy, hy, hy, hy, abs_of_nonneg hg.1, abs_of_nonneg hg.2]
    have t0 : 0 ≤ invExpand (8 * x 0) 0 := by rw [invExpand]; positivity
    have t1 : 0 ≤ invExpand (8 * x 1) 0 := by rw [invExpand]; positivity
    rw [abs_of_nonneg t0, abs_of_nonneg t1, abs_of_nonneg (add_nonneg (mul_nonneg t0 hg.1) (mul_nonneg t1 hg.2))]
  have split : ∀ i : ℕ, i = 0 ∨ i = 1 ∨ i = 2 ∨ i = 4 ∨ (i ≠ 0 ∧ i ≠ 1 ∧ i ≠ 2 ∧ i ≠ 4) := by intro i; omega
  refine ⟨zero _ fun l => rfl, ?_, ?_, ?_⟩
  · intro i c hc
    interval_cases c
    · exact zero _ fun l => rfl
    · simp only [same, E]
      rw [ev_vwk par (seed1 x (some i)) hx, bd_vwk _ _ _ _ (by exact p0) (by exact p1), CT.get_add, CT.get_add]
      simp only [seed1, CT.map, top1]
      generalize invExpand _ = τ
      generalize invExpand _ = σ
      rcases split i with rfl | rfl | rfl | rfl | h <;> simp [Spec.unit, abs_mul, *]
  · intro i j c hc
    interval_cases c
    · exact zero _ fun l => rfl
    all_goals
      simp only [same, E]
      rw [ev_vwk par (seed2 x (some i) (some j)) hx, bd_vwk _ _ _ _ (by exact p0) (by exact p1), CT.get_add, CT.get_add]
      simp only [seed2, CT.map, abs_zero, top2, (mid2 _ _ _ _ _ _ _).1, (mid2 _ _ _ _ _ _ _).2]
      generalize invExpand _ = τ
      generalize invExpand _ = σ
    · rcases split i with rfl | rfl | rfl | rfl | h <;> simp [Spec.unit, abs_mul, *]
    · rcases split j with rfl | rfl | rfl | rfl | h <;> simp [Spec.unit, abs_mul, *]
    · rcases split i with rfl | rfl | rfl | rfl | h <;> rcases split j with rfl | rfl | rfl | rfl | h' <;> simp [Spec.unit, abs_mul, *]
  · intro i j k
    simp only [same, E]
    rw [ev_vwk par (seed3 x (some i) (some j) (some k)) hx, bd_vwk _ _ _ _ (by exact p0) (by exact p1), CT.get_add, CT.get_add]
    simp only [seed3, seed2, CT.map, abs_zero, top3]
    generalize invExpand _ = τ
    generalize invExpand _ = σ
    rcases split i with rfl | rfl | rfl | rfl | h <;> rcases split j with rfl | rfl | rfl | rfl | h' <;>
      rcases split k with rfl | rfl | rfl | rfl | h'' <;> simp [Spec.unit, abs_mul, *]

/-- One coefficient of what an object for VWK adds up. -/
private theorem total_vwk (L : JetLib A) {K : Kernel V} {s : State V} {s' : State ℝ} (hs : Matches A s s') (hK : ComputesJets L K s .A_B_GAA_GAB_GBB)
    (ha : s.active = [59]) {N : ℕ} (hN : N ≤ 6) (X : ℕ → CT V N) (hx : ∀ i < 2, 1.01e-14 ≤ A.val (X i).c0) (S : ℕ)
    (hS : |((fullExpr s'.settings .A_B_GAA_GAB_GBB 59).evalCT fun i => (X i).map A.val).get S| =
      (gradBound 59 ((X 0).map A.val) ((X 1).map A.val) ((X 2).map A.val) ((X 4).map A.val)).get S) :
    |A.val ((total K s .A_B_GAA_GAB_GBB 0 X).get S) - (total codeKernel s' .A_B_GAA_GAB_GBB 0 fun i => (X i).map A.val).get S| ≤
      ((1 - L.w)⁻¹ ^ 181 - 1) * |(total codeKernel s' .A_B_GAA_GAB_GBB 0 fun i => (X i).map A.val).get S| := by
  have hη := η_nonneg L.toMathLib
  have hset : (fun i => A.val (s.settings i)) = s'.settings := funext fun i => (hs.settings i).symm
  have hsm := JA.smul L.toMathLib (NB.of_val (A := A) (s.settings 59)) (ja_vwk L s'.settings hN X hx)
  rw [zero_add] at hsm
  have h2 := JA.add L.toMathLib (JA.const (NB.zero (A := A) (m := 179 * η L.toMathLib + η L.toMathLib) (b := 0) (by linarith) le_rfl) N) hsm
  have e1 : total K s .A_B_GAA_GAB_GBB 0 X = CT.const N 0 + CT.smul (s.settings 59) (jetFp L .A_B_GAA_GAB_GBB s'.settings 59 X) := by
    rw [total, ha, List.foldl_cons, List.foldl_nil, hK.2.2 59 (by rw [ha]; simp), hset]
    rfl
  have e2 : (total codeKernel s' .A_B_GAA_GAB_GBB 0 fun i => (X i).map A.val) = CT.const N 0 +
      CT.smul (A.val (s.settings 59)) ((fullExpr s'.settings .A_B_GAA_GAB_GBB 59).evalCT fun i => (X i).map A.val) := by
    rw [total, hs.active, ha, List.foldl_cons, List.foldl_nil, hs.settings]
    rfl
  rw [e1, e2]
  have h3 := (h2.get S).err
  have hz : ∀ i, (CT.const N (0 : ℝ)).get i = 0 := fun i => by
    have := CT.get_const_mul (n := N) (0 : ℝ) (CT.const N 0) i
    rw [zero_mul, ← CT.const_mul, mul_zero] at this
    exact this
  have gs : ∀ (a : ℝ) (x : CT ℝ N), (CT.smul a x).get S = a * x.get S := fun a x => by rw [CT.smul_eq, CT.get_const_mul]
  rw [CT.get_add (CT.const N (0 : ℝ)) (CT.smul |_| _), gs, hz, zero_add, ← hS, ← abs_mul] at h3
  rw [CT.get_add, gs, hz, zero_add] at h3 ⊢
  rw [← exp_steps]
  push_cast
  rw [show 179 * η L.toMathLib + η L.toMathLib + η L.toMathLib = 181 * η L.toMathLib by ring] at h3
  exact h3

private theorem result_vwk (L : JetLib A) {K : Kernel V} {s : State V} {s' : State ℝ} (hs : Matches A s s') (hK : ComputesJets L K s .A_B_GAA_GAB_GBB)
    (ha : s.active = [59]) (x : ℕ → V) (hx : ∀ i < 2, 1.01e-14 ≤ A.val (x i)) (hg : 0 ≤ A.val (x 2) ∧ 0 ≤ A.val (x 4)) {k : ℕ} (hk : k ≤ 3) :
    List.Forall₂ (fun a b => |A.val a - b| ≤ ((1 - L.w)⁻¹ ^ 181 - 1) * |b|) (resultOf K s .A_B_GAA_GAB_GBB x k)
      (resultOf codeKernel s' .A_B_GAA_GAB_GBB (fun l => A.val (x l)) k) := by
  have hu : ∀ o l, A.val (Spec.unit o l) = Spec.unit o l := by
    intro o l
    simp only [Spec.unit]
    split
    · exact A.val_one
    · exact A.val_zero
  obtain ⟨z0, z1, z2, z3⟩ := vwk_read s'.settings (fun l => A.val (x l)) hx hg
  have m1 : ∀ o l, (seed1 x o l).map A.val = seed1 (fun l => A.val (x l)) o l := fun o l => by simp only [seed1, CT.map, hu]
  have m2 : ∀ o p l, (seed2 x o p l).map A.val = seed2 (fun l => A.val (x l)) o p l := fun o p l => by simp only [seed2, CT.map, hu, A.val_zero]
  have m3 : ∀ o p q l, (seed3 x o p q l).map A.val = seed3 (fun l => A.val (x l)) o p q l := fun o p q l => by
    simp only [seed3, CT.map, m2, hu, A.val_zero]
  have h0 := total_vwk L hs hK ha (N := 0) (by norm_num) (fun l => CT.leaf (x l)) hx 0 (by exact z0)
  have h1 : ∀ i, ∀ c < 2, |A.val ((total K s .A_B_GAA_GAB_GBB 0 (seed1 x (some i))).get c) -
        (total codeKernel s' .A_B_GAA_GAB_GBB 0 (seed1 (fun l => A.val (x l)) (some i))).get c| ≤
      ((1 - L.w)⁻¹ ^ 181 - 1) * |(total codeKernel s' .A_B_GAA_GAB_GBB 0 (seed1 (fun l => A.val (x l)) (some i))).get c| := fun i c hc => by
    have := total_vwk L hs hK ha (N := 1) (by norm_num) (seed1 x (some i)) hx c (by simp only [m1]; exact z1 i c hc)
    simpa only [m1] using this
  have h2 : ∀ i j, ∀ c < 4, |A.val ((total K s .A_B_GAA_GAB_GBB 0 (seed2 x (some i) (some j))).get c) -
        (total codeKernel s' .A_B_GAA_GAB_GBB 0 (seed2 (fun l => A.val (x l)) (some i) (some j))).get c| ≤
      ((1 - L.w)⁻¹ ^ 181 - 1) * |(total codeKernel s' .A_B_GAA_GAB_GBB 0 (seed2 (fun l => A.val (x l)) (some i) (some j))).get c| := fun i j c hc => by
    have := total_vwk L hs hK ha (N := 2) (by norm_num) (seed2 x (some i) (some j)) hx c (by simp only [m2]; exact z2 i j c hc)
    simpa only [m2] using this
  have h3 : ∀ i j t, |A.val ((total K s .A_B_GAA_GAB_GBB 0 (seed3 x (some i) (some j) (some t))).get 7) -
        (total codeKernel s' .A_B_GAA_GAB_GBB 0 (seed3 (fun l => A.val (x l)) (some i) (some j) (some t))).get 7| ≤
      ((1 - L.w)⁻¹ ^ 181 - 1) * |(total codeKernel s' .A_B_GAA_GAB_GBB 0 (seed3 (fun l => A.val (x l)) (some i) (some j) (some t))).get 7| := fun i j t => by
    have := total_vwk L hs hK ha (N := 3) (by norm_num) (seed3 x (some i) (some j) (some t)) hx 7 (by simp only [m3]; exact z3 i j t)
    simpa only [m3] using this
  have r2 : List.Forall₂ (fun a b => |A.val a - b| ≤ ((1 - L.w)⁻¹ ^ 181 - 1) * |b|) (res2 K s .A_B_GAA_GAB_GBB x)
      (res2 codeKernel s' .A_B_GAA_GAB_GBB fun l => A.val (x l)) := by
    unfold res2
    refine forall₂_append' (forall₂_append' (.cons ?_ .nil) ?_) ?_
    · exact h2 _ _ _ (by norm_num)
    · exact forall₂_map_same _ fun i => h2 _ _ _ (by norm_num)
    · exact forall₂_map_same _ fun p => h2 _ _ _ (by norm_num)
  unfold resultOf
  interval_cases k
  · simp only [if_true]
    exact .cons h0 .nil
  · rw [if_neg (by norm_num), if_pos rfl, if_neg (by norm_num), if_pos rfl]
    unfold res1
    refine forall₂_append' (.cons ?_ .nil) (forall₂_map_same _ fun i => ?_)
    · split
      · exact h1 _ _ (by norm_num)
      · exact h2 _ _ _ (by norm_num)
    · split
      · exact h1 _ _ (by norm_num)
      · exact h2 _ _ _ (by split <;> norm_num)
  · rw [if_neg (by norm_num), if_neg (by norm_num), if_pos rfl, if_neg (by norm_num), if_neg (by norm_num), if_pos rfl]
    exact r2
  · rw [if_neg (by norm_num), if_neg (by norm_num), if_neg (by norm_num), if_neg (by norm_num), if_neg (by norm_num), if_neg (by norm_num)]
    exact forall₂_append' r2 (forall₂_map_same _ fun p => h3 _ _ _)

/-- **C89, `xcfun_eval` for VWK.** An object for VWK, of any weight, on densities and gradient products in partial-derivative mode, order 0
to 3: what `xcfun_eval` writes when everything is computed with rounding is, entry by entry, within `(1-w)^(-181) - 1` of what it writes in
exact arithmetic, relative to that entry. -/
theorem C89_vwk_eval (L : JetLib A) (K : Kernel V) (s : State V) (s' : State ℝ) (hs : Matches A s s') (hK : ComputesJets L K s .A_B_GAA_GAB_GBB)
    (hv : s.vars = some .A_B_GAA_GAB_GBB) (hm : s.mode = PARTIAL_DERIVATIVES) (ho : 0 ≤ s.order ∧ s.order ≤ 3) (ha : s.active = [59])
    (x : ℕ → V) (hx : ∀ i < 2, 1.01e-14 ≤ A.val (x i)) (hg : 0 ≤ A.val (x 2) ∧ 0 ≤ A.val (x 4)) :
    ∃ (res : List V) (res' : List ℝ), outputLength s = .ok (res.length : ℤ) ∧
      (∀ rest output junk, res.length ≤ output.length →
        xcfunEval K junk s ((List.range 5).map x ++ rest) output = .ok (res ++ output.drop res.length)) ∧
      (∀ rest output junk, res.length ≤ output.length →
        xcfunEval codeKernel junk s' ((List.range 5).map (fun l => A.val (x l)) ++ rest) output = .ok (res' ++ output.drop res.length)) ∧
      List.Forall₂ (fun a b => |A.val a - b| ≤ ((1 - L.w)⁻¹ ^ 181 - 1) * |b|) res res' := by
  obtain ⟨k, hk⟩ : ∃ k : ℕ, s.order = k := ⟨s.order.toNat, by omega⟩
  have hk3 : k ≤ 3 := by omega
  have hr := result_vwk L hs hK ha x hx hg hk3
  have hlen : Vars.A_B_GAA_GAB_GBB.len = 5 := by decide
  refine ⟨resultOf K s .A_B_GAA_GAB_GBB x k, resultOf codeKernel s' .A_B_GAA_GAB_GBB (fun l => A.val (x l)) k, ?_, ?_, ?_, hr⟩
  · have h1 : ¬ (PARTIAL_DERIVATIVES = MODE_UNSET) := by decide
    have h2 : ¬ ((k : ℤ) = -1) := by omega
    simp only [outputLength, hm, h1, hv, hk, h2, if_false, if_true]
    exact length_resultOf K s .A_B_GAA_GAB_GBB _ hk3
  · intro rest output junk hl
    rw [xcfunEval_partial hv hm ho.1]
    have hR : Ready K .A_B_GAA_GAB_GBB ((List.range 5).map x ++ rest) x :=
      ⟨hK.1, Option.ne_none_iff_exists'.mp hK.2.1, len_le _, fun i hi => by
        rw [hlen] at hi
        rw [List.getElem?_append_left (by simpa using hi)]; simp [hi]⟩
    rw [eval_resultOf hR junk hk3 hk hl, splice_zero]
  · intro rest output junk hl
    rw [hr.length_eq] at hl ⊢
    rw [xcfunEval_partial (hs.vars.trans hv) (hs.mode.trans hm) (by rw [hs.order]; exact ho.1)]
    have hR : Ready codeKernel .A_B_GAA_GAB_GBB ((List.range 5).map (fun l => A.val (x l)) ++ rest) fun l => A.val (x l) :=
      ⟨codeKernel_local, ⟨_, rfl⟩, len_le _, fun i hi => by
        rw [hlen] at hi
        rw [List.getElem?_append_left (by simpa using hi)]; simp [hi]⟩
    rw [eval_resultOf hR junk hk3 (hs.order.trans hk) hl, splice_zero]

/-- **C89, contracted mode with gradients.** An object for VWK or KTX, of any weight, in contracted mode, order 0 to 6, on arbitrary
expansions of the densities and the gradient products: each of the `2^N` coefficients that `xcfun_eval` writes when everything is computed with
rounding is within `(1-w)^(-K) - 1` of the one it writes in exact arithmetic, relative to the weight times what the coefficient of the
functional would be if all terms had the same sign; `K = 181` for VWK and `K = 4484` for KTX. -/
theorem C89_gradient_contracted (L : JetLib A) (K : Kernel V) (s : State V) (s' : State ℝ) (hs : Matches A s s')
    (hK : ComputesJets L K s .A_B_GAA_GAB_GBB) (hv : s.vars = some .A_B_GAA_GAB_GBB) (hm : s.mode = CONTRACTED) {N : ℕ} (ho : s.order = N)
    (hN : N ≤ 6) {id : ℕ} (ha : s.active = [id]) (hid : id = 59 ∨ id = 23) (y : ℕ → V)
    (hx : ∀ i < 2, 1.01e-14 ≤ A.val (y (i * 2 ^ N)) ∧ A.val (y (i * 2 ^ N)) ≤ 1e21) :
    ∃ (P : ℕ → V) (P' : ℕ → ℝ),
      (∀ rest output junk, 2 ^ N ≤ output.length →
        xcfunEval K junk s ((List.range (5 * 2 ^ N)).map y ++ rest) output = .ok ((List.range (2 ^ N)).map P ++ output.drop (2 ^ N))) ∧
      (∀ rest output junk, 2 ^ N ≤ output.length →
        xcfunEval codeKernel junk s' ((List.range (5 * 2 ^ N)).map (fun l => A.val (y l)) ++ rest) output =
          .ok ((List.range (2 ^ N)).map P' ++ output.drop (2 ^ N))) ∧
      ∀ S < 2 ^ N, |A.val (P S) - P' S| ≤ ((1 - L.w)⁻¹ ^ (if id = 59 then 181 else 4484) - 1) * (|A.val (s.settings id)| *
        (gradBound id (CT.ofFn N fun c => A.val (y c)) (CT.ofFn N fun c => A.val (y (2 ^ N + c)))
          (CT.ofFn N fun c => A.val (y (2 * 2 ^ N + c))) (CT.ofFn N fun c => A.val (y (4 * 2 ^ N + c)))).get S) := by
  obtain ⟨sl, hsl⟩ := Option.ne_none_iff_exists'.mp hK.2.1
  have hlen : Vars.A_B_GAA_GAB_GBB.len = 5 := by decide
  refine ⟨(total K s .A_B_GAA_GAB_GBB 0 (seedC N y)).get, (total codeKernel s' .A_B_GAA_GAB_GBB 0 (seedC N fun l => A.val (y l))).get, ?_, ?_, ?_⟩
  · intro rest output junk hl
    rw [xcfunEval_contracted hv hm ho hN, evalContractedN_ok hK.1 hsl (len_le _) (y := y)
      (fun k hk => by rw [hlen] at hk; rw [List.getElem?_append_left (by simpa using hk)]; simp [hk]) junk s hl, splice_zero]
    simp
  · intro rest output junk hl
    rw [xcfunEval_contracted (hs.vars.trans hv) (hs.mode.trans hm) (hs.order.trans ho) hN,
      evalContractedN_ok codeKernel_local (v := .A_B_GAA_GAB_GBB) rfl (len_le _) (y := fun l => A.val (y l))
      (fun k hk => by rw [hlen] at hk; rw [List.getElem?_append_left (by simpa using hk)]; simp [hk]) junk s' hl, splice_zero]
    simp
  · intro S hS
    have hη := η_nonneg L.toMathLib
    have hset : (fun i => A.val (s.settings i)) = s'.settings := funext fun i => (hs.settings i).symm
    have c0s : ∀ i, (seedC N y i).c0 = y (i * 2 ^ N) := by
      intro i
      rw [CT.c0_eq_get, seedC, CT.get_ofFn _ (by positivity), Nat.add_zero]
    have em : ∀ l, (seedC N y l).map A.val = seedC N (fun l => A.val (y l)) l := by
      intro l; unfold seedC; rw [CT.map_ofFn']
    have hr : JetRange A (seedC N y) := fun i hi => by rw [c0s]; exact hx i hi
    have h : JA A (((if id = 59 then 179 else 4482 : ℕ) : ℝ) * η L.toMathLib) (jetFp L .A_B_GAA_GAB_GBB s'.settings id (seedC N y))
        ((fullExpr s'.settings .A_B_GAA_GAB_GBB id).evalCT fun i => (seedC N y i).map A.val)
        (gradBound id ((seedC N y 0).map A.val) ((seedC N y 1).map A.val) ((seedC N y 2).map A.val) ((seedC N y 4).map A.val)) := by
      rcases hid with rfl | rfl
      · exact_mod_cast ja_vwk L s'.settings hN _ fun i hi => (hr i hi).1
      · exact_mod_cast ja_ktx L s'.settings hN _ hr
    simp only [em] at h
    have hm0 : (0 : ℝ) ≤ ((if id = 59 then 179 else 4482 : ℕ) : ℝ) := Nat.cast_nonneg _
    have hsm := JA.smul L.toMathLib (NB.of_val (A := A) (s.settings id)) h
    rw [zero_add] at hsm
    have h2 := JA.add L.toMathLib (JA.const (NB.zero (A := A) (m := ((if id = 59 then 179 else 4482 : ℕ) : ℝ) * η L.toMathLib + η L.toMathLib)
      (b := 0) (by positivity) le_rfl) N) hsm
    have e1 : total K s .A_B_GAA_GAB_GBB 0 (seedC N y) =
        CT.const N 0 + CT.smul (s.settings id) (jetFp L .A_B_GAA_GAB_GBB s'.settings id (seedC N y)) := by
      rw [total, ha, List.foldl_cons, List.foldl_nil, hK.2.2 id (by rw [ha]; simp), hset]
      rfl
    have e2 : total codeKernel s' .A_B_GAA_GAB_GBB 0 (seedC N fun l => A.val (y l)) = CT.const N 0 +
        CT.smul (A.val (s.settings id)) ((fullExpr s'.settings .A_B_GAA_GAB_GBB id).evalCT (seedC N fun l => A.val (y l))) := by
      rw [total, hs.active, ha, List.foldl_cons, List.foldl_nil, hs.settings]
      rcases hid with rfl | rfl <;> rfl
    rw [e1, e2]
    have h3 := (h2.get S).err
    have hz : ∀ i, (CT.const N (0 : ℝ)).get i = 0 := fun i => by
      have := CT.get_const_mul (n := N) (0 : ℝ) (CT.const N 0) i
      rw [zero_mul, ← CT.const_mul, mul_zero] at this
      exact this
    rw [CT.get_add (CT.const N (0 : ℝ)) (CT.smul |_| _), CT.smul_eq |_|, CT.get_const_mul, hz, zero_add] at h3
    rw [← exp_steps]
    have ek : (((if id = 59 then 179 else 4482 : ℕ) : ℝ)) * η L.toMathLib + η L.toMathLib + η L.toMathLib =
        (((if id = 59 then 181 else 4484 : ℕ) : ℝ)) * η L.toMathLib := by
      split <;> push_cast <;> ring
    rw [ek] at h3
    have e0 : seedC N (fun l => A.val (y l)) 0 = CT.ofFn N fun c => A.val (y c) := by simp only [seedC, Nat.zero_mul, Nat.zero_add]
    have e1' : seedC N (fun l => A.val (y l)) 1 = CT.ofFn N fun c => A.val (y (2 ^ N + c)) := by simp only [seedC, Nat.one_mul]
    rw [e0, e1'] at h3
    exact h3

/-! Cases. -/

private noncomputable def point {p : ℕ} : ℕ → Bits p := fun i => ⟨if i = 0 then 3 else 2⟩

private theorem point_range {p : ℕ} : ∀ i < 2, 1.01e-14 ≤ (Bits.rounded p).val (point i) ∧ (Bits.rounded p).val (point i) ≤ 1e21 := by
  intro i _
  simp only [point, Bits.rounded]
  split <;> norm_num

/-- Increments of opposite sign. -/
private noncomputable def slanted {p : ℕ} : ℕ → CT (Bits p) 2 := fun i =>
  .node (.node (.leaf (point i)) (.leaf ⟨if i = 0 then 1 else -1⟩)) (.node (.leaf ⟨1⟩) (.leaf ⟨0⟩))

example (S : ℕ) := C89_gradient (Bits.jetLib 53 (by norm_num)) (fun _ => 0) (by norm_num) slanted (fun i hi => point_range i hi) (id := 23) (.inr rfl) S
example (S : ℕ) := C89_gradient (Bits.jetLib 53 (by norm_num)) (fun _ => 0) (by norm_num) slanted (fun i hi => point_range i hi) (id := 59) (.inl rfl) S

/-- `(a b - a / 3) / 7` and `2 / a`. -/
example (S : ℕ) := C89_over_constant (Bits.jetLib 53 (by norm_num)) slanted (.sub (.mul (.var 0) (.var 1)) (.mul (.lit (1 / 3)) (.var 0)))
  ⟨⟨trivial, trivial⟩, trivial, trivial⟩ (c := 7) (by norm_num) S
example (S : ℕ) := C89_constant_over (Bits.jetLib 53 (by norm_num)) (by norm_num) (fun _ => slanted 0) 2
  (lt_of_lt_of_le (by norm_num) (point_range 0 (by norm_num)).1) S

/-- The derivative of third order, twice with respect to the density `a` and once with respect to its gradient. -/
example := C89_vwk_partials (Bits.jetLib 53 (by norm_num)) (fun _ => 0) point (fun i hi => (point_range i hi).1) (i := 0) (j := 2) (k := 0)
  (by norm_num) (by norm_num) (by norm_num)

private noncomputable def third (W : Type) (c : ℝ → W) : State W :=
  { active := [59], order := 2, depends := 3, mode := PARTIAL_DERIVATIVES, vars := some .A_B_GAA_GAB_GBB, settings := fun _ => c (1 / 3) }

/-- A third of the von Weizsaecker energy: all 21 numbers that `xcfun_eval` writes at order 2 in arithmetic with 53 bits. -/
example : ∃ (res : List (Bits 53)) (res' : List ℝ), res.length = 21 ∧
    (∀ junk, xcfunEval (jetKernel (Bits.jetLib 53 (by norm_num))) junk (third _ Bits.mk) [⟨3⟩, ⟨2⟩, ⟨2⟩, ⟨2⟩, ⟨2⟩] (List.replicate 21 0) = .ok res) ∧
    (∀ junk, xcfunEval codeKernel junk (third ℝ id) [3, 2, 2, 2, 2] (List.replicate 21 0) = .ok res') ∧
    List.Forall₂ (fun a b => |a.real - b| ≤ ((1 - (Bits.jetLib 53 (by norm_num)).w)⁻¹ ^ 181 - 1) * |b|) res res' := by
  obtain ⟨res, res', h1, h2, h3, h4⟩ := C89_vwk_eval (Bits.jetLib 53 (by norm_num)) (jetKernel (Bits.jetLib 53 (by norm_num))) (third _ Bits.mk)
    (third ℝ id) ⟨rfl, rfl, rfl, rfl, fun i => rfl⟩ (jetKernel_computes _ _ (by decide)) rfl rfl (by simp [third]) rfl point
    (fun i hi => (point_range i hi).1) (by norm_num [point, Bits.rounded])
  have hl : res.length = 21 := by
    have : outputLength (third (Bits 53) Bits.mk) = .ok 21 := by decide
    rw [this] at h1
    have := Outcome.ok.inj h1
    omega
  refine ⟨res, res', hl, fun junk => ?_, fun junk => ?_, h4⟩
  · have := h2 [] (List.replicate 21 0) junk (by simp [hl])
    simpa [hl, point, List.range_succ] using this
  · have := h3 [] (List.replicate 21 0) junk (by simp [hl])
    simpa [hl, point, List.range_succ, Bits.rounded] using this

private noncomputable def kt (W : Type) (c : ℝ → W) : State W :=
  { active := [23], order := 2, depends := 3, mode := CONTRACTED, vars := some .A_B_GAA_GAB_GBB, settings := fun _ => c (-0.006) }

/-- KT exchange as in KT1: all four coefficients of contracted mode at order 2 in arithmetic with 53 bits, all densities and gradient
products 3 and moving by 1 in both directions. -/
example : ∃ (P : ℕ → Bits 53) (P' : ℕ → ℝ),
    (∀ junk, xcfunEval (jetKernel (Bits.jetLib 53 (by norm_num))) junk (kt _ Bits.mk)
      ((List.range 20).map fun l => ⟨if l % 4 = 0 then 3 else if l % 4 = 3 then 0 else 1⟩) (List.replicate 4 0) = .ok ((List.range 4).map P)) ∧
    ∀ S < 4, |(P S).real - P' S| ≤ ((1 - (Bits.jetLib 53 (by norm_num)).w)⁻¹ ^ 4484 - 1) * (|Bits.real (p := 53) ⟨-0.006⟩| *
      (gradBound 23 (CT.ofFn 2 fun c => Bits.real (p := 53) ⟨if c % 4 = 0 then 3 else if c % 4 = 3 then 0 else 1⟩)
        (CT.ofFn 2 fun c => Bits.real (p := 53) ⟨if (4 + c) % 4 = 0 then 3 else if (4 + c) % 4 = 3 then 0 else 1⟩)
        (CT.ofFn 2 fun c => Bits.real (p := 53) ⟨if (8 + c) % 4 = 0 then 3 else if (8 + c) % 4 = 3 then 0 else 1⟩)
        (CT.ofFn 2 fun c => Bits.real (p := 53) ⟨if (16 + c) % 4 = 0 then 3 else if (16 + c) % 4 = 3 then 0 else 1⟩)).get S) := by
  obtain ⟨P, P', h1, _, h3⟩ := C89_gradient_contracted (Bits.jetLib 53 (by norm_num)) (jetKernel (Bits.jetLib 53 (by norm_num))) (kt _ Bits.mk)
    (kt ℝ id) ⟨rfl, rfl, rfl, rfl, fun i => rfl⟩ (jetKernel_computes _ _ (by decide)) rfl rfl (N := 2) rfl (by norm_num) rfl (Or.inr rfl)
    (fun l => ⟨if l % 4 = 0 then 3 else if l % 4 = 3 then 0 else 1⟩) (by
      intro i hi
      interval_cases i <;> norm_num [Bits.rounded])
  exact ⟨P, P', fun junk => by simpa using h1 [] (List.replicate 4 0) junk (by simp), fun S hS => h3 S (by simpa using hS)⟩

end XCFun.Props
