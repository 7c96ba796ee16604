/-
C89: rounding errors of derivatives.

`jetFp` evaluates a functional on truncated expansions operation by operation in the order of the source, with the operations of the
arithmetic `A` (relative error at most `A.u` each) and the constants, powers and divisions of `L` (relative error at most `L.w`).
-/
import Verif.Proofs.RoundedJet
import Verif.Props.RoundedEnergy
import Verif.Proofs.Partials

namespace XCFun.Props
open XCFun Spec RE RJ Expr

variable {V : Type} [Zero V] [One V] [Add V] [Sub V] [Mul V] [Neg V] {A : Rounded V}

omit [Zero V] [One V] [Add V] [Sub V] [Mul V] [Neg V] in
theorem c0_map {W : Type} (f : V → W) {N : ℕ} (x : CT V N) : (x.map f).c0 = f x.c0 := by
  induction x with
  | leaf => rfl
  | node lo hi ih _ => exact ih

theorem evalCTV_reg (L : JetLib A) {N : ℕ} {ρ : ℕ → CT V N} {i : ℕ} (h : 1.01e-14 ≤ A.val (ρ i).c0) : evalCTV L ρ (.reg (.var i)) = ρ i := by
  have h1 := (abs_le.1 (L.const_err 1e-14)).2
  rw [abs_of_pos (by norm_num)] at h1
  have h2 := L.w_le
  have : ¬ A.val (ρ i).c0 < A.val (L.const 1e-14) := by
    rw [not_lt]
    refine le_trans ?_ h
    have : L.w * 1e-14 ≤ 1e-6 * 1e-14 := mul_le_mul_of_nonneg_right h2 (by norm_num)
    norm_num at this h1 ⊢
    linarith
  simp only [evalCTV, this, if_false]

theorem regularize_of_le {N : ℕ} {x : CT ℝ N} (h : 1.01e-14 ≤ x.c0) : x.regularize = x := by
  rw [CT.regularize, if_neg]
  rw [not_lt]
  linarith

/-- The two densities are between `1.01·10⁻¹⁴` and `10²¹`. -/
def JetRange (A : Rounded V) {N : ℕ} (x : ℕ → CT V N) : Prop :=
  ∀ i < 2, 1.01e-14 ≤ A.val (x i).c0 ∧ A.val (x i).c0 ≤ 1e21

theorem jet_range_exp {r : ℝ} (h : 1.01e-14 ≤ r ∧ r ≤ 1e21) : Real.exp (-50) ≤ r ∧ r ≤ Real.exp 50 := by
  constructor
  · refine le_trans ?_ h.1
    rw [Real.exp_neg]
    refine (inv_anti₀ (by positivity) (two_pow_le_exp 50)).trans ?_
    norm_num
  · refine h.2.trans ?_
    have : (2.7 : ℝ) ≤ Real.exp 1 := by have := Real.exp_one_gt_d9; linarith
    rw [show (50 : ℝ) = ((50 : ℕ) : ℝ) * 1 by norm_num, Real.exp_nat_mul]
    exact le_trans (by norm_num) (pow_le_pow_left₀ (by norm_num) this 50)

private theorem nb_const (L : JetLib A) {c : ℝ} : NB A (η L.toMathLib) (L.const c) c |c| := NB.of_within (step_w (L.const_err c))

theorem ja_slaterx (L : JetLib A) (par : ℕ → ℝ) {N : ℕ} (hN : N ≤ 6) (x : ℕ → CT V N) (hx : JetRange A x) :
    JA A (620 * η L.toMathLib) (jetFp L .A_B par 0 x) ((fullExpr par .A_B 0).evalCT fun i => (x i).map A.val)
      (jetBound 0 ((x 0).map A.val) ((x 1).map A.val)) := by
  have hη := η_nonneg L.toMathLib
  have one : ∀ i < 2, JA A (612 * η L.toMathLib) (composeV (evalCTV L x (.reg (.var i))) (powExpandV L (evalCTV L x (.reg (.var i))).c0 (L.const (4 / 3))))
      (((Expr.reg (.var i)).evalCT fun i => (x i).map A.val).prim (.pow (4 / 3)))
      (powBound (((x i).map A.val).map _root_.abs) ((x i).map A.val).c0 (4 / 3)) := by
    intro i hi
    have h := hx i hi
    have hr := jet_range_exp h
    rw [evalCTV_reg L h.1]
    have e1 : (Expr.reg (.var i)).evalCT (fun i => (x i).map A.val) = (x i).map A.val :=
      regularize_of_le (by show _ ≤ ((x i).map A.val).c0; rw [c0_map]; exact h.1)
    rw [e1]
    have hc : ((x i).map A.val).c0 = A.val (x i).c0 := c0_map _ _
    refine ja_pow L (.inl rfl) hN ((JA.of_val (x i)).mono hη) ?_ ?_ ?_
    · rw [hc]; exact Within.refl hη
    · rw [hc]; exact (Real.exp_le_exp.2 (by norm_num)).trans hr.1
    · rw [hc]; exact hr.2.trans (Real.exp_le_exp.2 (by norm_num))
  have hs := JA.add L.toMathLib (one 0 (by norm_num)) (one 1 (by norm_num))
  have hm := JA.smul L.toMathLib (nb_const L (c := -Fun.c_slater)) hs
  have hcs : |(-Fun.c_slater : ℝ)| = (81 / (32 * Real.pi)) ^ (1 / 3 : ℝ) := by
    rw [abs_neg, abs_of_nonneg] <;> rw [Fun.c_slater]
    positivity
  rw [hcs, CT.smul_eq (-Fun.c_slater), CT.smul_eq (_ ^ _)] at hm
  refine JA.mono ?_ hm
  linarith

theorem ja_tfk (L : JetLib A) (par : ℕ → ℝ) {N : ℕ} (hN : N ≤ 6) (x : ℕ → CT V N) (hx : JetRange A x) :
    JA A (620 * η L.toMathLib) (jetFp L .A_B par 24 x) ((fullExpr par .A_B 24).evalCT fun i => (x i).map A.val)
      (jetBound 24 ((x 0).map A.val) ((x 1).map A.val)) := by
  have hη := η_nonneg L.toMathLib
  have h0 := hx 0 (by norm_num)
  have h1 := hx 1 (by norm_num)
  have r0 := jet_range_exp h0
  have r1 := jet_range_exp h1
  have e : ∀ i < 2, (Expr.reg (.var i)).evalCT (fun i => (x i).map A.val) = (x i).map A.val := fun i hi =>
    regularize_of_le (by show _ ≤ ((x i).map A.val).c0; rw [c0_map]; exact (hx i hi).1)
  have hsum : JA A (η L.toMathLib) (evalCTV L x (.reg (.var 0) + .reg (.var 1))) ((Expr.reg (.var 0) + .reg (.var 1)).evalCT fun i => (x i).map A.val)
      (((x 0).map A.val).map _root_.abs + ((x 1).map A.val).map _root_.abs) := by
    have := JA.add L.toMathLib (JA.of_val (A := A) (x 0)) (JA.of_val (x 1))
    rw [zero_add] at this
    have v : evalCTV L x (.reg (.var 0) + .reg (.var 1)) = x 0 + x 1 := by
      show evalCTV L x (.reg (.var 0)) + evalCTV L x (.reg (.var 1)) = _
      rw [evalCTV_reg L h0.1, evalCTV_reg L h1.1]
    rw [v, evalCT_add, e 0 (by norm_num), e 1 (by norm_num)]
    exact this
  have hc : ((Expr.reg (.var 0) + .reg (.var 1) : Expr ℕ).evalCT fun i => (x i).map A.val).c0 = A.val (x 0).c0 + A.val (x 1).c0 := by
    rw [evalCT_add, e 0 (by norm_num), e 1 (by norm_num), CT.c0_add, c0_map, c0_map]
  have two : (2 : ℝ) ≤ Real.exp 1 := by have := Real.exp_one_gt_d9; linarith
  have e51 : Real.exp 50 + Real.exp 50 ≤ Real.exp 51 := by
    rw [show (51 : ℝ) = 50 + 1 by norm_num, Real.exp_add]
    nlinarith [Real.exp_pos 50]
  have hp := ja_pow L (.inr rfl) hN hsum
    (by
      have v : (evalCTV L x (.reg (.var 0) + .reg (.var 1))).c0 = (x 0 + x 1).c0 := by
        show (evalCTV L x (.reg (.var 0)) + evalCTV L x (.reg (.var 1))).c0 = _
        rw [evalCTV_reg L h0.1, evalCTV_reg L h1.1]
      have cc : ∀ {M : ℕ} (p q : CT V M), (p + q).c0 = p.c0 + q.c0 := by
        intro M p q
        induction p with
        | leaf => cases q; rfl
        | node lo hi ih _ => cases q with | node lo' hi' => exact ih lo'
      rw [hc, v, cc]
      exact step_u (A.add_err _ _))
    (by
      rw [hc]
      refine (Real.exp_le_exp.2 (by norm_num)).trans (r0.1.trans ?_)
      linarith [h1.1])
    (by rw [hc]; linarith [r0.2, r1.2])
  have hm := JA.smul L.toMathLib (nb_const L (c := Fun.CF)) hp
  have hcf : |(Fun.CF : ℝ)| = 0.3 * (3 * Real.pi ^ 2) ^ (2 / 3 : ℝ) := by
    rw [abs_of_nonneg] <;> rw [Fun.CF, Fun.PI2, ← sq]
    positivity
  have hb : ((Expr.reg (.var 0) + .reg (.var 1) : Expr ℕ).evalCT fun i => (x i).map A.val).c0 = ((x 0).map A.val).c0 + ((x 1).map A.val).c0 := by
    rw [hc, c0_map, c0_map]
  have hjb : jetBound 24 ((x 0).map A.val) ((x 1).map A.val) = CT.const N (0.3 * (3 * Real.pi ^ 2) ^ (2 / 3 : ℝ)) *
      powBound (((x 0).map A.val).map _root_.abs + ((x 1).map A.val).map _root_.abs)
        ((Expr.reg (.var 0) + .reg (.var 1) : Expr ℕ).evalCT fun i => (x i).map A.val).c0 (5 / 3) := by
    rw [hb]; rfl
  rw [hcf, CT.smul_eq Fun.CF, CT.smul_eq (0.3 * _)] at hm
  rw [hjb]
  refine JA.mono ?_ hm
  linarith

theorem exp_steps (L : MathLib A) (K : ℕ) : Real.exp (K * η L) = (1 - L.w)⁻¹ ^ K := by
  rw [Real.exp_nat_mul, ← exp_η, Real.exp_neg, inv_inv]

/-- **C89.** Every coefficient of SLATERX and TFK computed on expansions in up to six variables is wrong by at most `(1-w)^(-620) - 1` of
what the coefficient would be if all terms in it had the same sign: for arbitrary increments of the densities. -/
theorem C89_jet (L : JetLib A) (par : ℕ → ℝ) {N : ℕ} (hN : N ≤ 6) (x : ℕ → CT V N) (hx : JetRange A x) {id : ℕ} (hid : id = 0 ∨ id = 24) (S : ℕ) :
    |A.val ((jetFp L .A_B par id x).get S) - ((fullExpr par .A_B id).evalCT fun i => (x i).map A.val).get S| ≤
      ((1 - L.w)⁻¹ ^ 620 - 1) * (jetBound id ((x 0).map A.val) ((x 1).map A.val)).get S := by
  have h : JA A (620 * η L.toMathLib) (jetFp L .A_B par id x) ((fullExpr par .A_B id).evalCT fun i => (x i).map A.val)
      (jetBound id ((x 0).map A.val) ((x 1).map A.val)) := by
    rcases hid with rfl | rfl
    · exact ja_slaterx L par hN x hx
    · exact ja_tfk L par hN x hx
  have := (h.get S).err
  rw [← exp_steps]
  exact_mod_cast this

/-- **C89.** Polynomials in expansions (sums, differences, products, and the overloads for a constant operand), with rounding in the order of
the source: every coefficient is wrong by at most `(1-w)^(-K) - 1` of what it would be if all terms had the same sign, `K` the number of
steps `polySteps`. -/
theorem C89_polynomial (L : JetLib A) {ι : Type} {N : ℕ} (x : ι → CT V N) (e : Expr ι) (he : IsPoly e) (S : ℕ) :
    |A.val ((evalCTV L x e).get S) - (e.evalCT fun i => (x i).map A.val).get S| ≤
      ((1 - L.w)⁻¹ ^ polySteps N e - 1) * (polyBound (fun i => (x i).map A.val) e).get S := by
  have := ((ja_poly L x e he).get S).err
  rwa [exp_steps] at this

/-- The composition with an increment linear in each variable. -/
private def lin (s : ℕ → ℝ) (t : ℕ → ℝ) : (N : ℕ) → ℕ → CT ℝ N
  | 0, j => .leaf (j.factorial * t j)
  | n + 1, j => .node (lin s t n j) (CT.smul (s n) (lin s t n (j + 1)))

private theorem node_add {n : ℕ} (a b c d : CT ℝ n) : CT.node a b + CT.node c d = .node (a + c) (b + d) := rfl
private theorem leaf_add (a b : ℝ) : CT.leaf a + CT.leaf b = .leaf (a + b) := rfl

private theorem compose_seeded (x0 : ℝ) (s t : ℕ → ℝ) {N : ℕ} (hN : N ≤ 3) : (seeded N x0 s).compose t = lin s t N 0 := by
  interval_cases N <;>
  simp only [seeded, lin, CT.compose, CT.horner, CT.const, CT.mulSkip, CT.mul, CT.smul, CT.map, CT.setC0, CT.c0, Nat.factorial, node_add, leaf_add,
    CT.node.injEq, CT.leaf.injEq] <;> (try repeat' apply And.intro) <;> push_cast <;> ring

private def sg (σ : ℕ → ℝ) : ℕ → ℕ → ℕ → ℝ
  | 0, j, _ => σ j
  | n + 1, j, S => if S < 2 ^ n then sg σ n j S else sg σ n (j + 1) (S - 2 ^ n)

private theorem abs_sg {σ : ℕ → ℝ} (h : ∀ j, |σ j| = 1) : ∀ N j S, |sg σ N j S| = 1
  | 0, j, _ => h j
  | n + 1, j, S => by simp only [sg]; split <;> exact abs_sg h _ _ _

private theorem get_smul (a : ℝ) {N : ℕ} (x : CT ℝ N) (S : ℕ) : (CT.smul a x).get S = a * x.get S := by
  rw [CT.smul_eq, CT.get_const_mul]

private theorem lin_sign {σ t : ℕ → ℝ} (h : ∀ j, t j = σ j * |t j|) (s : ℕ → ℝ) : ∀ N j S,
    (lin s t N j).get S = sg σ N j S * (lin s (fun j => |t j|) N j).get S
  | 0, j, _ => by
    show (j.factorial : ℝ) * t j = σ j * (j.factorial * |t j|)
    rw [h j, abs_mul, abs_abs]
    have := h j
    by_cases h0 : t j = 0
    · simp [h0]
    · have : |σ j| = 1 := by
        have h1 := congrArg _root_.abs this
        rw [abs_mul, abs_abs] at h1
        have : |t j| ≠ 0 := abs_ne_zero.2 h0
        field_simp at h1
        exact h1.symm
      rw [this]; ring
  | n + 1, j, S => by
    simp only [lin, sg, CT.get]
    split
    · exact lin_sign h s n j S
    · rw [get_smul, get_smul, lin_sign h s n (j + 1)]; ring

private theorem lin_nonneg {s t : ℕ → ℝ} (hs : ∀ k, 0 ≤ s k) (ht : ∀ j, 0 ≤ t j) : ∀ N j S, 0 ≤ (lin s t N j).get S
  | 0, j, _ => mul_nonneg (Nat.cast_nonneg _) (ht j)
  | n + 1, j, S => by
    simp only [lin, CT.get]
    split
    · exact lin_nonneg hs ht n j S
    · rw [get_smul]; exact mul_nonneg (hs n) (lin_nonneg hs ht n _ _)

/-- The sign of a coefficient of a power does not depend on where it is expanded. -/
private theorem pow_sign (p : ℝ) : ∃ σ : ℕ → ℝ, (∀ j, |σ j| = 1) ∧ ∀ x, 0 < x → ∀ j, powExpand x p j = σ j * |powExpand x p j| := by
  have : ∃ q : ℕ → ℝ, ∀ x, 0 < x → ∀ j, powExpand x p j = q j * (x ^ p * (1 / x) ^ j) := by
    refine ⟨fun j => Nat.rec 1 (fun i r => r * (p - ((i + 1 : ℕ) : ℝ) + 1) / ((i + 1 : ℕ) : ℝ)) j, fun x hx j => ?_⟩
    induction j with
    | zero => simp [powExpand]
    | succ i ih => simp only [powExpand, ih, pow_succ]; ring
  obtain ⟨q, hq⟩ := this
  refine ⟨fun j => if q j < 0 then -1 else 1, fun j => by dsimp only; split <;> simp, fun x hx j => ?_⟩
  have hy : 0 < x ^ p * (1 / x) ^ j := mul_pos (Real.rpow_pos_of_pos hx _) (by positivity)
  rw [hq x hx j, abs_mul, abs_of_pos hy]
  dsimp only
  split
  · next h => rw [abs_of_neg h]; ring
  · next h => rw [abs_of_nonneg (not_lt.1 h)]; ring

omit [One V] [Add V] [Sub V] [Mul V] [Neg V] in
private theorem map_seeded (f : V → ℝ) (h0 : f 0 = 0) (x0 : V) (s : ℕ → V) : (N : ℕ) → (seeded N x0 s).map f = seeded N (f x0) fun k => f (s k)
  | 0 => rfl
  | n + 1 => by
    have hc : ∀ (m : ℕ) (c : V), (CT.const m c).map f = CT.const m (f c) := by
      intro m
      induction m with
      | zero => intro c; rfl
      | succ m ih => intro c; simp only [CT.const, CT.map, ih, h0]
    simp only [seeded, CT.map, map_seeded f h0 x0 s n, hc]

private theorem map_abs_seeded {x0 : ℝ} (s : ℕ → ℝ) (hx : 0 ≤ x0) (hs : ∀ k, 0 ≤ s k) (N : ℕ) : (seeded N x0 s).map _root_.abs = seeded N x0 s := by
  rw [map_seeded _ abs_zero, abs_of_nonneg hx]
  simp only [abs_of_nonneg (hs _)]

private theorem seeded_add (x y : ℝ) (s t : ℕ → ℝ) : (N : ℕ) → seeded N x s + seeded N y t = seeded N (x + y) fun k => s k + t k
  | 0 => rfl
  | n + 1 => by simp only [seeded, node_add, seeded_add x y s t n, CT.const_add]

private theorem c0_seeded (x0 : ℝ) (s : ℕ → ℝ) : (N : ℕ) → (seeded N x0 s).c0 = x0
  | 0 => rfl
  | n + 1 => c0_seeded x0 s n

/-- **C89.** With increments that are linear and not negative in each variable, as in the derivatives up to third order, nothing cancels:
the bound of `C89_jet` is the exact coefficient itself. -/
theorem C89_no_cancellation (par : ℕ → ℝ) {N : ℕ} (hN : N ≤ 3) (x : ℕ → ℝ) (s : ℕ → ℕ → ℝ) (hs : ∀ i k, 0 ≤ s i k)
    (hx : ∀ i < 2, 1.01e-14 ≤ x i) {id : ℕ} (hid : id = 0 ∨ id = 24) (S : ℕ) :
    |((fullExpr par .A_B id).evalCT fun i => seeded N (x i) (s i)).get S| = (jetBound id (seeded N (x 0) (s 0)) (seeded N (x 1) (s 1))).get S := by
  have pos : ∀ i < 2, 0 < x i := fun i hi => lt_of_lt_of_le (by norm_num) (hx i hi)
  have e : ∀ i < 2, (Expr.reg (.var i)).evalCT (fun i => seeded N (x i) (s i)) = seeded N (x i) (s i) := fun i hi =>
    regularize_of_le (by show _ ≤ (seeded N (x i) (s i)).c0; rw [c0_seeded]; exact hx i hi)
  have h0 := pos 0 (by norm_num)
  have h1 := pos 1 (by norm_num)
  rcases hid with rfl | rfl
  · obtain ⟨σ, hσ, hp⟩ := pow_sign (4 / 3)
    have ev : (fullExpr par .A_B 0).evalCT (fun i => seeded N (x i) (s i)) = CT.const N (-Fun.c_slater) *
        (((Expr.reg (.var 0)).evalCT fun i => seeded N (x i) (s i)).prim (.pow (4 / 3)) +
          ((Expr.reg (.var 1)).evalCT fun i => seeded N (x i) (s i)).prim (.pow (4 / 3))) := rfl
    have hc : (0 : ℝ) ≤ (81 / (32 * Real.pi)) ^ (1 / 3 : ℝ) := by positivity
    rw [ev, e 0 (by norm_num), e 1 (by norm_num), jetBound, if_pos rfl, powBound, powBound, CT.get_const_mul, CT.get_const_mul,
      CT.get_add, CT.get_add, map_abs_seeded _ h0.le (hs 0), map_abs_seeded _ h1.le (hs 1), CT.prim, CT.prim, c0_seeded, c0_seeded,
      compose_seeded _ _ _ hN, compose_seeded _ _ _ hN, compose_seeded _ _ _ hN, compose_seeded _ _ _ hN]
    show |_ * ((lin (s 0) (powExpand (x 0) (4 / 3)) N 0).get S + (lin (s 1) (powExpand (x 1) (4 / 3)) N 0).get S)| = _
    rw [lin_sign (hp _ h0), lin_sign (hp _ h1), ← mul_add, abs_mul, abs_mul, abs_sg hσ, one_mul, abs_neg, Fun.c_slater, abs_of_nonneg hc,
      abs_of_nonneg]
    exact add_nonneg (lin_nonneg (hs 0) (fun _ => abs_nonneg _) _ _ _) (lin_nonneg (hs 1) (fun _ => abs_nonneg _) _ _ _)
  · obtain ⟨σ, hσ, hp⟩ := pow_sign (5 / 3)
    have ev : (fullExpr par .A_B 24).evalCT (fun i => seeded N (x i) (s i)) = CT.const N Fun.CF *
        ((((Expr.reg (.var 0)).evalCT fun i => seeded N (x i) (s i)) +
          ((Expr.reg (.var 1)).evalCT fun i => seeded N (x i) (s i))).prim (.pow (5 / 3))) := rfl
    have hc : (0 : ℝ) ≤ 0.3 * (3 * Real.pi ^ 2) ^ (2 / 3 : ℝ) := by positivity
    rw [ev, e 0 (by norm_num), e 1 (by norm_num), jetBound, if_neg (by norm_num), powBound, CT.get_const_mul, CT.get_const_mul,
      map_abs_seeded _ h0.le (hs 0), map_abs_seeded _ h1.le (hs 1), CT.prim, seeded_add, c0_seeded, c0_seeded, c0_seeded,
      compose_seeded _ _ _ hN, compose_seeded _ _ _ hN]
    show |_ * (lin (fun k => s 0 k + s 1 k) (powExpand (x 0 + x 1) (5 / 3)) N 0).get S| = _
    rw [lin_sign (hp _ (add_pos h0 h1)), abs_mul, abs_mul, abs_sg hσ, one_mul, Fun.CF, Fun.PI2, ← sq, abs_of_nonneg hc,
      abs_of_nonneg (lin_nonneg (fun k => add_nonneg (hs 0 k) (hs 1 k)) (fun _ => abs_nonneg _) _ _ _)]

/-- **C89.** Hence every coefficient has the relative error `(1-w)^(-620) - 1`. -/
theorem C89_relative (L : JetLib A) (par : ℕ → ℝ) {N : ℕ} (hN : N ≤ 3) (x : ℕ → V) (s : ℕ → ℕ → V) (hs : ∀ i k, 0 ≤ A.val (s i k))
    (hx : ∀ i < 2, 1.01e-14 ≤ A.val (x i) ∧ A.val (x i) ≤ 1e21) {id : ℕ} (hid : id = 0 ∨ id = 24) (S : ℕ) :
    |A.val ((jetFp L .A_B par id fun i => seeded N (x i) (s i)).get S) -
        ((fullExpr par .A_B id).evalCT fun i => seeded N (A.val (x i)) fun k => A.val (s i k)).get S| ≤
      ((1 - L.w)⁻¹ ^ 620 - 1) * |((fullExpr par .A_B id).evalCT fun i => seeded N (A.val (x i)) fun k => A.val (s i k)).get S| := by
  have c0s : ∀ i, (seeded N (x i) (s i)).c0 = x i := by
    intro i
    clear hN
    induction N with
    | zero => rfl
    | succ n ih => exact ih
  have h := C89_jet L par (hN.trans (by norm_num)) (fun i => seeded N (x i) (s i)) (fun i hi => by rw [c0s]; exact hx i hi) hid S
  simp only [map_seeded A.val A.val_zero] at h
  rwa [← C89_no_cancellation par hN _ _ hs (fun i hi => (hx i hi).1) hid S] at h

private theorem reg_id (par : ℕ → ℝ) {x : ℕ → ℝ} (hx : ∀ i < 2, 1.01e-14 ≤ x i) {id : ℕ} (hid : id = 0 ∨ id = 24) : (fullExpr par .A_B id).Reg x := by
  have h : ∀ i < 2, 1e-14 < x i := fun i hi => lt_of_lt_of_le (by norm_num) (hx i hi)
  have p : ∀ i < 2, 0 < x i := fun i hi => lt_of_lt_of_le (by norm_num) (hx i hi)
  have n : ∀ i < 2, ¬ x i < 1e-14 := fun i hi => not_lt.2 (h i hi).le
  have g : ∀ i < 2, 0 < if x i < 1e-14 then (1e-14 : ℝ) else x i := fun i hi => by rw [if_neg (n i hi)]; exact p i hi
  rcases hid with rfl | rfl
  · exact ⟨trivial, ⟨⟨trivial, h 0 (by norm_num)⟩, g 0 (by norm_num)⟩, ⟨trivial, h 1 (by norm_num)⟩, g 1 (by norm_num)⟩
  · exact ⟨trivial, ⟨⟨trivial, h 0 (by norm_num)⟩, trivial, h 1 (by norm_num)⟩, add_pos (g 0 (by norm_num)) (g 1 (by norm_num))⟩

/-- **C89.** The partial derivatives of first, second and third order of SLATERX and TFK with respect to the spin densities, computed with
rounding from the densities `x`, have the relative error `(1-w)^(-620) - 1`. -/
theorem C89_partials (L : JetLib A) (par : ℕ → ℝ) (x : ℕ → V) (hx : ∀ i < 2, 1.01e-14 ≤ A.val (x i) ∧ A.val (x i) ≤ 1e21) {id : ℕ}
    (hid : id = 0 ∨ id = 24) {i j k : ℕ} (hi : i < 2) (hj : j < 2) (hk : k < 2) :
    let E := fullExpr par .A_B id
    let y := fun l => A.val (x l)
    let close := fun v e : ℝ => |v - e| ≤ ((1 - L.w)⁻¹ ^ 620 - 1) * |e|
    close (A.val ((jetFp L .A_B par id (seed1 x (some i))).get 1)) (pderiv i E.evalR y) ∧
    close (A.val ((jetFp L .A_B par id (seed2 x (some i) (some j))).get 3)) (pderiv i (pderiv j E.evalR) y) ∧
    close (A.val ((jetFp L .A_B par id (seed3 x (some i) (some j) (some k))).get 7)) (pderiv i (pderiv j (pderiv k E.evalR)) y) := by
  have hreg := reg_id par (x := fun l => A.val (x l)) (fun i hi => (hx i hi).1) hid
  let s : ℕ → ℕ → V := fun l m => Spec.unit (if m = 0 then some i else if m = 1 then some j else some k) l
  have hu : ∀ o l, A.val (Spec.unit o l) = Spec.unit o l := by
    intro o l
    simp only [Spec.unit]
    split
    · exact A.val_one
    · exact A.val_zero
  have hs : ∀ l m, 0 ≤ A.val (s l m) := by
    intro l m
    show 0 ≤ A.val (Spec.unit _ l)
    rw [hu, Spec.unit]
    exact ite_nonneg zero_le_one le_rfl
  have hv : ∀ l m, A.val (s l m) = Spec.unit (if m = 0 then some i else if m = 1 then some j else some k) l := fun l m => hu _ _
  refine ⟨?_, ?_, ?_⟩
  · have := C89_relative L par (N := 1) (by norm_num) x s hs hx hid 1
    simp only [hv] at this
    rw [← coef1_pderiv (n := 2) hreg hi]
    exact this
  · have := C89_relative L par (N := 2) (by norm_num) x s hs hx hid 3
    simp only [hv] at this
    rw [← coef2_pderiv (n := 2) hreg hi hj]
    exact this
  · have := C89_relative L par (N := 3) (by norm_num) x s hs hx hid 7
    simp only [hv] at this
    rw [← coef3_pderiv (n := 2) hreg hi hj hk]
    exact this

/-- **C89.** With functions and operations good to `2^(-50)`, eight units in the last place of `double`: twelve correct digits. -/
theorem C89_double (L : JetLib A) (hw : L.w ≤ (1 / 2) ^ 50) : (1 - L.w)⁻¹ ^ 622 - 1 ≤ 1e-12 := by
  have hw0 := w_nonneg L.toMathLib
  have hη := η_nonneg L.toMathLib
  have hηw : η L.toMathLib ≤ 1.001 * (1 / 2) ^ 50 := by
    rw [η, ← Real.log_inv, Real.log_le_iff_le_exp (inv_pos.2 (by norm_num at hw ⊢; linarith))]
    have h := Real.add_one_le_exp (1.001 * (1 / 2) ^ 50 : ℝ)
    refine le_trans ?_ h
    rw [inv_eq_one_div, div_le_iff₀ (by norm_num at hw ⊢; linarith)]
    norm_num at hw ⊢
    nlinarith
  rw [← exp_steps]
  have h1 : Real.exp ((622 : ℕ) * η L.toMathLib) ≤ Real.exp (622 * (1.001 * (1 / 2) ^ 50)) :=
    Real.exp_le_exp.2 (by push_cast; linarith)
  have := Real.abs_exp_sub_one_sub_id_le (x := 622 * (1.001 * (1 / 2) ^ 50)) (by rw [abs_of_pos (by positivity)]; norm_num)
  have := (abs_le.1 this).2
  refine (sub_le_sub_right h1 1).trans ?_
  clear h1
  norm_num at this ⊢
  linarith

/-- The coefficients that the kernel computes are those of `evalCTV`. -/
def ComputesJets (L : JetLib A) (K : Kernel V) (s : State V) (v : Vars) : Prop :=
  K.Local ∧ K.reads v ≠ none ∧ ∀ id ∈ s.active, ∀ N, ∀ ρ : ℕ → CT V N,
    K.fp v s.settings id N ρ = jetFp L v (fun i => A.val (s.settings i)) id ρ

private theorem code_fp (par : ℕ → ℝ) {id : ℕ} (hid : id = 0 ∨ id = 24) {N : ℕ} (ρ : ℕ → CT ℝ N) :
    codeKernel.fp .A_B par id N ρ = (fullExpr par .A_B id).evalCT ρ := by
  rcases hid with rfl | rfl <;> rfl

/-- One coefficient of what an object with the functional `id` adds up. -/
private theorem total_close (L : JetLib A) {K : Kernel V} {s : State V} {s' : State ℝ} (hs : Matches A s s') (hK : ComputesJets L K s .A_B) {id : ℕ}
    (ha : s.active = [id]) (hid : id = 0 ∨ id = 24) {N : ℕ} (hN : N ≤ 3) (x : ℕ → V) (t : ℕ → ℕ → V) (ht : ∀ i k, 0 ≤ A.val (t i k))
    (hx : ∀ i < 2, 1.01e-14 ≤ A.val (x i) ∧ A.val (x i) ≤ 1e21) (S : ℕ) :
    |A.val ((total K s .A_B 0 fun i => seeded N (x i) (t i)).get S) -
        (total codeKernel s' .A_B 0 fun i => seeded N (A.val (x i)) fun k => A.val (t i k)).get S| ≤ ((1 - L.w)⁻¹ ^ 622 - 1) *
      |(total codeKernel s' .A_B 0 fun i => seeded N (A.val (x i)) fun k => A.val (t i k)).get S| := by
  have hη := η_nonneg L.toMathLib
  have hset : (fun i => A.val (s.settings i)) = s'.settings := funext fun i => (hs.settings i).symm
  have c0s : ∀ i, (seeded N (x i) (t i)).c0 = x i := by
    intro i
    clear hN
    induction N with
    | zero => rfl
    | succ n ih => exact ih
  have hN6 : N ≤ 6 := hN.trans (by norm_num)
  have hr : JetRange A fun i => seeded N (x i) (t i) := fun i hi => by rw [c0s]; exact hx i hi
  have h : JA A (620 * η L.toMathLib) (jetFp L .A_B s'.settings id fun i => seeded N (x i) (t i))
      ((fullExpr s'.settings .A_B id).evalCT fun i => (seeded N (x i) (t i)).map A.val)
      (jetBound id ((seeded N (x 0) (t 0)).map A.val) ((seeded N (x 1) (t 1)).map A.val)) := by
    rcases hid with rfl | rfl
    · exact ja_slaterx L s'.settings hN6 _ hr
    · exact ja_tfk L s'.settings hN6 _ hr
  simp only [map_seeded A.val A.val_zero] at h
  have hsm := JA.smul L.toMathLib (NB.of_val (A := A) (s.settings id)) h
  rw [zero_add] at hsm
  have h2 := JA.add L.toMathLib (JA.const (NB.zero (A := A) (m := 620 * η L.toMathLib + η L.toMathLib) (b := 0) (by linarith) le_rfl) N)
    hsm
  have e1 : total K s .A_B 0 (fun i => seeded N (x i) (t i)) =
      CT.const N 0 + CT.smul (s.settings id) (jetFp L .A_B s'.settings id fun i => seeded N (x i) (t i)) := by
    rw [total, ha, List.foldl_cons, List.foldl_nil, hK.2.2 id (by rw [ha]; simp), hset]
    rfl
  have e2 : total codeKernel s' .A_B 0 (fun i => seeded N (A.val (x i)) fun k => A.val (t i k)) = CT.const N 0 +
      CT.smul (A.val (s.settings id)) ((fullExpr s'.settings .A_B id).evalCT fun i => seeded N (A.val (x i)) fun k => A.val (t i k)) := by
    rw [total, hs.active, ha, List.foldl_cons, List.foldl_nil, code_fp _ hid, hs.settings]
    rfl
  rw [e1, e2]
  have h3 := (h2.get S).err
  have hz : ∀ i, (CT.const N (0 : ℝ)).get i = 0 := fun i => by
    have := CT.get_const_mul (n := N) (0 : ℝ) (CT.const N 0) i
    rw [zero_mul, ← CT.const_mul, mul_zero] at this
    exact this
  rw [CT.get_add (CT.const N (0 : ℝ)) (CT.smul |_| _), get_smul, hz, zero_add,
    ← C89_no_cancellation s'.settings hN _ _ ht (fun i hi => (hx i hi).1) hid S, ← abs_mul] at h3
  rw [CT.get_add, get_smul, hz, zero_add] at h3 ⊢
  rw [← exp_steps]
  push_cast
  rw [show 620 * η L.toMathLib + η L.toMathLib + η L.toMathLib = 622 * η L.toMathLib by ring] at h3
  exact h3

private theorem result_close (L : JetLib A) {K : Kernel V} {s : State V} {s' : State ℝ} (hs : Matches A s s') (hK : ComputesJets L K s .A_B) {id : ℕ}
    (ha : s.active = [id]) (hid : id = 0 ∨ id = 24) (x : ℕ → V) (hx : ∀ i < 2, 1.01e-14 ≤ A.val (x i) ∧ A.val (x i) ≤ 1e21) {k : ℕ} (hk : k ≤ 3) :
    List.Forall₂ (fun a b => |A.val a - b| ≤ ((1 - L.w)⁻¹ ^ 622 - 1) * |b|) (resultOf K s .A_B x k)
      (resultOf codeKernel s' .A_B (fun l => A.val (x l)) k) := by
  have key : ∀ N ≤ 3, ∀ i j k : ℕ, _ := fun N hN i j k =>
    total_close L hs hK ha hid hN x (fun l m => Spec.unit (if m = 0 then some i else if m = 1 then some j else some k) l) (by
      intro l m
      simp only [Spec.unit]
      split_ifs <;> simp [A.val_one, A.val_zero]) hx
  have hu : ∀ o l, A.val (Spec.unit o l) = Spec.unit o l := by
    intro o l
    simp only [Spec.unit]
    split
    · exact A.val_one
    · exact A.val_zero
  simp only [hu] at key
  have h1 : ∀ i c, |A.val ((total K s .A_B 0 (seed1 x (some i))).get c) - (total codeKernel s' .A_B 0 (seed1 (fun l => A.val (x l)) (some i))).get c| ≤
      ((1 - L.w)⁻¹ ^ 622 - 1) * |(total codeKernel s' .A_B 0 (seed1 (fun l => A.val (x l)) (some i))).get c| := fun i c =>
    key 1 (by norm_num) i 0 0 c
  have h2 : ∀ i j c, |A.val ((total K s .A_B 0 (seed2 x (some i) (some j))).get c) -
        (total codeKernel s' .A_B 0 (seed2 (fun l => A.val (x l)) (some i) (some j))).get c| ≤
      ((1 - L.w)⁻¹ ^ 622 - 1) * |(total codeKernel s' .A_B 0 (seed2 (fun l => A.val (x l)) (some i) (some j))).get c| := fun i j c =>
    key 2 (by norm_num) i j 0 c
  have h3 : ∀ i j t c, |A.val ((total K s .A_B 0 (seed3 x (some i) (some j) (some t))).get c) -
        (total codeKernel s' .A_B 0 (seed3 (fun l => A.val (x l)) (some i) (some j) (some t))).get c| ≤
      ((1 - L.w)⁻¹ ^ 622 - 1) * |(total codeKernel s' .A_B 0 (seed3 (fun l => A.val (x l)) (some i) (some j) (some t))).get c| := fun i j t c =>
    key 3 (by norm_num) i j t c
  have r2 : List.Forall₂ (fun a b => |A.val a - b| ≤ ((1 - L.w)⁻¹ ^ 622 - 1) * |b|) (res2 K s .A_B x) (res2 codeKernel s' .A_B fun l => A.val (x l)) := by
    unfold res2
    refine forall₂_append' (forall₂_append' (.cons ?_ .nil) ?_) ?_
    · exact h2 _ _ _
    · exact forall₂_map_same _ fun i => h2 _ _ _
    · exact forall₂_map_same _ fun p => h2 _ _ _
  unfold resultOf
  interval_cases k
  · simp only [if_true]
    exact .cons (key 0 (by norm_num) 0 0 0 0) .nil
  · rw [if_neg (by norm_num), if_pos rfl, if_neg (by norm_num), if_pos rfl]
    unfold res1
    refine forall₂_append' (.cons ?_ .nil) (forall₂_map_same _ fun i => ?_)
    · split
      · exact h1 _ _
      · exact h2 _ _ _
    · split
      · exact h1 _ _
      · exact h2 _ _ _
  · rw [if_neg (by norm_num), if_neg (by norm_num), if_pos rfl, if_neg (by norm_num), if_neg (by norm_num), if_pos rfl]
    exact r2
  · rw [if_neg (by norm_num), if_neg (by norm_num), if_neg (by norm_num), if_neg (by norm_num), if_neg (by norm_num), if_neg (by norm_num)]
    exact forall₂_append' r2 (forall₂_map_same _ fun p => h3 _ _ _ _)

/-- **C89, `xcfun_eval`.** An object for SLATERX or TFK, of any weight, on the two spin densities in partial-derivative mode, order 0 to 3:
what `xcfun_eval` writes when everything is computed with rounding is, entry by entry, within `(1-w)^(-622) - 1` of what it writes in exact
arithmetic, relative to that entry. -/
theorem C89_eval (L : JetLib A) (K : Kernel V) (s : State V) (s' : State ℝ) (hs : Matches A s s') (hK : ComputesJets L K s .A_B)
    (hv : s.vars = some .A_B) (hm : s.mode = PARTIAL_DERIVATIVES) (ho : 0 ≤ s.order ∧ s.order ≤ 3) {id : ℕ} (ha : s.active = [id])
    (hid : id = 0 ∨ id = 24) (x : ℕ → V) (hx : ∀ i < 2, 1.01e-14 ≤ A.val (x i) ∧ A.val (x i) ≤ 1e21) :
    ∃ (res : List V) (res' : List ℝ), outputLength s = .ok (res.length : ℤ) ∧
      (∀ rest output junk, res.length ≤ output.length →
        xcfunEval K junk s ((List.range 2).map x ++ rest) output = .ok (res ++ output.drop res.length)) ∧
      (∀ rest output junk, res.length ≤ output.length →
        xcfunEval codeKernel junk s' ((List.range 2).map (fun l => A.val (x l)) ++ rest) output = .ok (res' ++ output.drop res.length)) ∧
      List.Forall₂ (fun a b => |A.val a - b| ≤ ((1 - L.w)⁻¹ ^ 622 - 1) * |b|) res res' := by
  obtain ⟨k, hk⟩ : ∃ k : ℕ, s.order = k := ⟨s.order.toNat, by omega⟩
  have hk3 : k ≤ 3 := by omega
  have hr := result_close L hs hK ha hid x hx hk3
  have hlen : Vars.A_B.len = 2 := by decide
  refine ⟨resultOf K s .A_B x k, resultOf codeKernel s' .A_B (fun l => A.val (x l)) k, ?_, ?_, ?_, hr⟩
  · have h1 : ¬ (PARTIAL_DERIVATIVES = MODE_UNSET) := by decide
    have h2 : ¬ ((k : ℤ) = -1) := by omega
    simp only [outputLength, hm, h1, hv, hk, h2, if_false, if_true]
    exact length_resultOf K s .A_B _ hk3
  · intro rest output junk hl
    rw [xcfunEval_partial hv hm ho.1]
    have hR : Ready K .A_B ((List.range 2).map x ++ rest) x :=
      ⟨hK.1, Option.ne_none_iff_exists'.mp hK.2.1, len_le _, fun i hi => by
        rw [hlen] at hi
        rw [List.getElem?_append_left (by simpa using hi)]; simp [hi]⟩
    rw [eval_resultOf hR junk hk3 hk hl, splice_zero]
  · intro rest output junk hl
    rw [hr.length_eq] at hl ⊢
    rw [xcfunEval_partial (hs.vars.trans hv) (hs.mode.trans hm) (by rw [hs.order]; exact ho.1)]
    have hR : Ready codeKernel .A_B ((List.range 2).map (fun l => A.val (x l)) ++ rest) fun l => A.val (x l) :=
      ⟨codeKernel_local, ⟨_, rfl⟩, len_le _, fun i hi => by
        rw [hlen] at hi
        rw [List.getElem?_append_left (by simpa using hi)]; simp [hi]⟩
    rw [eval_resultOf hR junk hk3 (hs.order.trans hk) hl, splice_zero]

/-- **C89, contracted mode.** The same object in contracted mode, order 0 to 6, on arbitrary expansions of the two spin densities: each of
the `2^N` coefficients that `xcfun_eval` writes when everything is computed with rounding is within `(1-w)^(-622) - 1` of the one it writes
in exact arithmetic, relative to the weight times what the coefficient of the functional would be if all terms had the same sign. -/
theorem C89_contracted (L : JetLib A) (K : Kernel V) (s : State V) (s' : State ℝ) (hs : Matches A s s') (hK : ComputesJets L K s .A_B)
    (hv : s.vars = some .A_B) (hm : s.mode = CONTRACTED) {N : ℕ} (ho : s.order = N) (hN : N ≤ 6) {id : ℕ} (ha : s.active = [id])
    (hid : id = 0 ∨ id = 24) (y : ℕ → V) (hx : ∀ i < 2, 1.01e-14 ≤ A.val (y (i * 2 ^ N)) ∧ A.val (y (i * 2 ^ N)) ≤ 1e21) :
    ∃ (P : ℕ → V) (P' : ℕ → ℝ),
      (∀ rest output junk, 2 ^ N ≤ output.length →
        xcfunEval K junk s ((List.range (2 * 2 ^ N)).map y ++ rest) output = .ok ((List.range (2 ^ N)).map P ++ output.drop (2 ^ N))) ∧
      (∀ rest output junk, 2 ^ N ≤ output.length →
        xcfunEval codeKernel junk s' ((List.range (2 * 2 ^ N)).map (fun l => A.val (y l)) ++ rest) output =
          .ok ((List.range (2 ^ N)).map P' ++ output.drop (2 ^ N))) ∧
      ∀ S < 2 ^ N, |A.val (P S) - P' S| ≤ ((1 - L.w)⁻¹ ^ 622 - 1) * (|A.val (s.settings id)| *
        (jetBound id (CT.ofFn N fun c => A.val (y c)) (CT.ofFn N fun c => A.val (y (2 ^ N + c)))).get S) := by
  obtain ⟨sl, hsl⟩ := Option.ne_none_iff_exists'.mp hK.2.1
  have hlen : Vars.A_B.len = 2 := by decide
  refine ⟨(total K s .A_B 0 (seedC N y)).get, (total codeKernel s' .A_B 0 (seedC N fun l => A.val (y l))).get, ?_, ?_, ?_⟩
  · intro rest output junk hl
    rw [xcfunEval_contracted hv hm ho hN, evalContractedN_ok hK.1 hsl (len_le _) (y := y)
      (fun k hk => by rw [hlen] at hk; rw [List.getElem?_append_left (by simpa using hk)]; simp [hk]) junk s hl, splice_zero]
    simp
  · intro rest output junk hl
    rw [xcfunEval_contracted (hs.vars.trans hv) (hs.mode.trans hm) (hs.order.trans ho) hN,
      evalContractedN_ok codeKernel_local (v := .A_B) rfl (len_le _) (y := fun l => A.val (y l))
      (fun k hk => by rw [hlen] at hk; rw [List.getElem?_append_left (by simpa using hk)]; simp [hk]) junk s' hl, splice_zero]
    simp
  · intro S hS
    have hη := η_nonneg L.toMathLib
    have hset : (fun i => A.val (s.settings i)) = s'.settings := funext fun i => (hs.settings i).symm
    have c0s : ∀ i, (seedC N y i).c0 = y (i * 2 ^ N) := by
      intro i
      rw [CT.c0_eq_get, seedC, CT.get_ofFn _ (by positivity), Nat.add_zero]
    have em : ∀ l, (seedC N y l).map A.val = seedC N (fun l => A.val (y l)) l := by
      intro l; unfold seedC; rw [CT.map_ofFn']
    have hr : JetRange A (seedC N y) := fun i hi => by rw [c0s]; exact hx i hi
    have h : JA A (620 * η L.toMathLib) (jetFp L .A_B s'.settings id (seedC N y))
        ((fullExpr s'.settings .A_B id).evalCT fun i => (seedC N y i).map A.val)
        (jetBound id ((seedC N y 0).map A.val) ((seedC N y 1).map A.val)) := by
      rcases hid with rfl | rfl
      · exact ja_slaterx L s'.settings hN _ hr
      · exact ja_tfk L s'.settings hN _ hr
    simp only [em] at h
    have hsm := JA.smul L.toMathLib (NB.of_val (A := A) (s.settings id)) h
    rw [zero_add] at hsm
    have h2 := JA.add L.toMathLib (JA.const (NB.zero (A := A) (m := 620 * η L.toMathLib + η L.toMathLib) (b := 0) (by linarith) le_rfl) N)
      hsm
    have e1 : total K s .A_B 0 (seedC N y) =
        CT.const N 0 + CT.smul (s.settings id) (jetFp L .A_B s'.settings id (seedC N y)) := by
      rw [total, ha, List.foldl_cons, List.foldl_nil, hK.2.2 id (by rw [ha]; simp), hset]
      rfl
    have e2 : total codeKernel s' .A_B 0 (seedC N fun l => A.val (y l)) = CT.const N 0 +
        CT.smul (A.val (s.settings id)) ((fullExpr s'.settings .A_B id).evalCT (seedC N fun l => A.val (y l))) := by
      rw [total, hs.active, ha, List.foldl_cons, List.foldl_nil, code_fp _ hid, hs.settings]
      rfl
    rw [e1, e2]
    have h3 := (h2.get S).err
    have hz : ∀ i, (CT.const N (0 : ℝ)).get i = 0 := fun i => by
      have := CT.get_const_mul (n := N) (0 : ℝ) (CT.const N 0) i
      rw [zero_mul, ← CT.const_mul, mul_zero] at this
      exact this
    rw [CT.get_add (CT.const N (0 : ℝ)) (CT.smul |_| _), get_smul, hz, zero_add] at h3
    rw [← exp_steps]
    push_cast
    rw [show 620 * η L.toMathLib + η L.toMathLib + η L.toMathLib = 622 * η L.toMathLib by ring] at h3
    have j0 : (CT.ofFn N fun c => A.val (y c)) = seedC N (fun l => A.val (y l)) 0 := by simp only [seedC, Nat.zero_mul, Nat.zero_add]
    have j1 : (CT.ofFn N fun c => A.val (y (2 ^ N + c))) = seedC N (fun l => A.val (y l)) 1 := by simp only [seedC, Nat.one_mul]
    rw [j0, j1]
    exact h3

theorem evalCTV_congr (L : JetLib A) {ι : Type} {N : ℕ} {p : ι → Bool} {ρ ρ' : ι → CT V N} (h : ∀ i, p i = true → ρ i = ρ' i) (e : Expr ι)
    (he : e.usesOnly p = true) : evalCTV L ρ e = evalCTV L ρ' e := by
  suffices H : evalCTV L ρ e = evalCTV L ρ' e ∧ ∀ x, e = .prim .inv x → evalCTV L ρ x = evalCTV L ρ' x from H.1
  induction e with
  | prim q x ih => refine ⟨?_, ?_⟩ <;> cases q <;> simp_all [usesOnly, evalCTV]
  | mul x y ihx ihy =>
    simp only [usesOnly, Bool.and_eq_true] at he
    obtain ⟨h1, h2⟩ := ihx he.1
    obtain ⟨h3, -⟩ := ihy he.2
    refine ⟨?_, by simp⟩
    cases x with
    | prim q z =>
      cases q with
      | inv => simp only [evalCTV, h2 z rfl, h3]
      | _ => exact congrArg₂ (mulLit L _ _) h1 h3
    | _ => exact congrArg₂ (mulLit L _ _) h1 h3
  | _ => simp_all [usesOnly, evalCTV]

/-- The kernel of Spec/RoundedJet computes them. -/
theorem jetKernel_computes (L : JetLib A) (s : State V) {v : Vars} (hv : DV.reads v ≠ none) : ComputesJets L (jetKernel L) s v := by
  refine ⟨⟨fun v sl h => reads_lt h, ?_⟩, hv, fun id _ N ρ => rfl⟩
  intro v sl h par id N ρ ρ' hρ
  simp only [jetKernel, jetFp]
  cases hd : densvars (fun i => A.val (par i)) v with
  | none => rfl
  | some f =>
    cases Fun.energy id with
    | none => rfl
    | some e =>
      dsimp only
      congr 1
      funext fld
      exact evalCTV_congr L (p := fun i => sl.contains i) (fun i hi => by rw [hρ i (by simpa using hi)]) _ (densvars_uses h _ hd fld)

/-! Cases. -/

private noncomputable def dens {p : ℕ} : ℕ → Bits p := fun i => ⟨if i = 0 then 3 else 2⟩

private theorem dens_range {p : ℕ} : ∀ i < 2, 1.01e-14 ≤ (Bits.rounded p).val (dens i) ∧ (Bits.rounded p).val (dens i) ≤ 1e21 := by
  intro i _
  simp only [dens, Bits.rounded]
  split <;> norm_num

/-- Increments of opposite sign: one density grows, the other falls. -/
private noncomputable def tilted : ℕ → CT (Bits 53) 2 := fun i =>
  .node (.node (.leaf (dens i)) (.leaf ⟨if i = 0 then 1 else -1⟩)) (.node (.leaf ⟨0.5⟩) (.leaf ⟨0.25⟩))

example (S : ℕ) := C89_jet (Bits.jetLib 53 (by norm_num)) (fun _ => 0) (by norm_num) tilted (fun i hi => dens_range i hi) (id := 0) (.inl rfl) S

/-- The product of two expansions minus a third of one of them. -/
example (S : ℕ) := C89_polynomial (Bits.jetLib 53 (by norm_num)) tilted (.sub (.mul (.var 0) (.var 1)) (.mul (.lit (1 / 3)) (.var 0)))
  ⟨⟨trivial, trivial⟩, trivial, trivial⟩ S

/-- The second derivative of SLATERX along `(1, 0)` and `(1, 2)` at densities 3 and 2. -/
example := C89_no_cancellation (fun _ => 0) (N := 2) (by norm_num) (fun i => if i = 0 then 3 else 2)
  (fun i k => if k = 0 then (if i = 0 then 1 else 0) else (if i = 0 then 1 else 2)) (by intro i k; split_ifs <;> norm_num)
  (by intro i _; split <;> norm_num) (id := 0) (.inl rfl) 3

/-- The same along increments `(1, 0)` and `(1, 1)` with 53 bits. -/
example := C89_relative (Bits.jetLib 53 (by norm_num)) (fun _ => 0) (N := 2) (by norm_num) dens
  (fun i k => ⟨if i = 0 ∨ k = 1 then 1 else 0⟩) (by intro i k; simp only [Bits.rounded]; split <;> norm_num) dens_range (id := 24) (.inr rfl) 3

/-- The third derivatives of the Thomas-Fermi energy with respect to the densities with 53 bits. -/
example := C89_partials (Bits.jetLib 53 (by norm_num)) (fun _ => 0) dens dens_range (id := 24) (.inr rfl) (i := 0) (j := 1) (k := 1)
  (by norm_num) (by norm_num) (by norm_num)

example : (1 - (Bits.jetLib 53 (by norm_num)).w)⁻¹ ^ 622 - 1 ≤ (1e-12 : ℝ) := C89_double _ (by norm_num [Bits.jetLib, Bits.lib])

private noncomputable def half (W : Type) (c : ℝ → W) : State W :=
  { active := [0], order := 3, depends := 1, mode := PARTIAL_DERIVATIVES, vars := some .A_B, settings := fun _ => c (1 / 2) }

/-- Half of Slater exchange: all ten numbers that `xcfun_eval` writes at order 3 in arithmetic with 53 bits. -/
example : ∃ (res : List (Bits 53)) (res' : List ℝ), res.length = 10 ∧
    (∀ junk, xcfunEval (jetKernel (Bits.jetLib 53 (by norm_num))) junk (half _ Bits.mk) [⟨3⟩, ⟨2⟩] (List.replicate 10 0) = .ok res) ∧
    (∀ junk, xcfunEval codeKernel junk (half ℝ id) [3, 2] (List.replicate 10 0) = .ok res') ∧
    List.Forall₂ (fun a b => |a.real - b| ≤ 1e-12 * |b|) res res' := by
  obtain ⟨res, res', h1, h2, h3, h4⟩ := C89_eval (Bits.jetLib 53 (by norm_num)) (jetKernel (Bits.jetLib 53 (by norm_num))) (half _ Bits.mk) (half ℝ id)
    ⟨rfl, rfl, rfl, rfl, fun i => rfl⟩ (jetKernel_computes _ _ (by decide)) rfl rfl (by simp [half]) (id := 0) rfl (.inl rfl) dens dens_range
  have hl : res.length = 10 := by
    have : outputLength (half (Bits 53) Bits.mk) = .ok 10 := by decide
    rw [this] at h1
    have := Outcome.ok.inj h1
    omega
  refine ⟨res, res', hl, fun junk => ?_, fun junk => ?_, h4.imp fun a b h => h.trans (mul_le_mul_of_nonneg_right
    (C89_double _ (by norm_num [Bits.jetLib, Bits.lib])) (abs_nonneg _))⟩
  · have := h2 [] (List.replicate 10 0) junk (by simp [hl])
    simpa [hl, dens, List.range_succ] using this
  · have := h3 [] (List.replicate 10 0) junk (by simp [hl])
    simpa [hl, dens, List.range_succ, Bits.rounded] using this

/-- Half of Slater exchange in contracted mode at order 2, the densities 3 and 2 varied by `ε + 2 δ + 5 ε δ` and `-ε + 1/2 δ`. -/
example : ∃ (P : ℕ → Bits 53) (P' : ℕ → ℝ),
    (∀ junk, xcfunEval (jetKernel (Bits.jetLib 53 (by norm_num))) junk { half _ Bits.mk with mode := CONTRACTED, order := 2 }
      [⟨3⟩, ⟨1⟩, ⟨2⟩, ⟨5⟩, ⟨2⟩, ⟨-1⟩, ⟨1 / 2⟩, ⟨0⟩] [0, 0, 0, 0] = .ok [P 0, P 1, P 2, P 3]) ∧
    (∀ junk, xcfunEval codeKernel junk { half ℝ id with mode := CONTRACTED, order := 2 } [3, 1, 2, 5, 2, -1, 1 / 2, 0] [0, 0, 0, 0] =
      .ok [P' 0, P' 1, P' 2, P' 3]) ∧
    |(P 3).real - P' 3| ≤ 1e-12 * (1 / 2 * (jetBound 0 (.node (.node (.leaf 3) (.leaf 1)) (.node (.leaf 2) (.leaf 5)))
      (.node (.node (.leaf 2) (.leaf (-1))) (.node (.leaf (1 / 2)) (.leaf (0 : ℝ)))) : CT ℝ 2).get 3) := by
  have hb := C89_double (Bits.jetLib 53 (by norm_num)) (by norm_num [Bits.jetLib, Bits.lib])
  obtain ⟨P, P', h1, h2, h3⟩ := C89_contracted (Bits.jetLib 53 (by norm_num)) (jetKernel (Bits.jetLib 53 (by norm_num)))
    { half _ Bits.mk with mode := CONTRACTED, order := 2 } { half ℝ id with mode := CONTRACTED, order := 2 }
    ⟨rfl, rfl, rfl, rfl, fun i => rfl⟩ (jetKernel_computes _ _ (by decide)) rfl rfl (N := 2) rfl (by norm_num) (id := 0) rfl (.inl rfl)
    (fun l => ⟨[3, 1, 2, 5, 2, -1, 1 / 2, 0].getD l 0⟩) (by intro i hi; interval_cases i <;> norm_num [Bits.rounded])
  refine ⟨P, P', fun junk => ?_, fun junk => ?_, ?_⟩
  · simpa [List.range_succ] using h1 [] [0, 0, 0, 0] junk (by simp)
  · simpa [List.range_succ, Bits.rounded] using h2 [] [0, 0, 0, 0] junk (by simp)
  · have h := h3 3 (by norm_num)
    have e : |(1 / 2 : ℝ)| = 1 / 2 := by norm_num
    have hw : 0 < (Bits.jetLib 53 (by norm_num)).w ∧ (Bits.jetLib 53 (by norm_num)).w < 1 := by norm_num [Bits.jetLib, Bits.lib]
    have hc : 0 < (1 - (Bits.jetLib 53 (by norm_num)).w)⁻¹ ^ 622 - 1 :=
      sub_pos.2 (one_lt_pow₀ ((one_lt_inv₀ (by linarith)).2 (by linarith)) (by norm_num))
    have hX := nonneg_of_mul_nonneg_right ((abs_nonneg _).trans h) hc
    have h' := h.trans (mul_le_mul_of_nonneg_right hb hX)
    simp only [Bits.rounded, half, e] at h'
    exact h'

end XCFun.Props
