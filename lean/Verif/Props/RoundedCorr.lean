/-
C88: rounding errors of the correlation energies of the local density approximation.

As for C79, `evalV` evaluates an expression with rounded operations in the order of the source.  Here terms of both signs are added and
logarithms of numbers near 1 are taken, so that the error is bounded by multiples of the density instead of the energy.
-/
import Verif.Proofs.RoundedLdaC
import Verif.Props.RoundedEnergy

namespace XCFun.Props
open XCFun Spec RE Expr

variable {V : Type} [Zero V] [One V] [Add V] [Sub V] [Mul V] [Neg V] {A : Rounded V}

private abbrev ra : Expr ℕ := .reg (.var 0)
private abbrev rb : Expr ℕ := .reg (.var 1)

/-- The density variables computed from inputs in range. -/
private theorem givenS (L : MathLib A) (x : ℕ → V) (hx : InRangeSpin fun i => A.val (x i)) {f : Field → Expr ℕ}
    (hn : f .n = ra + rb) (hz : f .zeta = (ra - rb) / (ra + rb)) (hr : f .r_s = Expr.pow (3 / ((ra + rb) * 4 * (Real.pi : Expr ℕ))) (1 / 3)) :
    GivenS L (fun fld => evalV L x (f fld)) (fun fld => (f fld).evalR fun i => A.val (x i)) ∧
      (f .n).evalR (fun i => A.val (x i)) = A.val (x 0) + A.val (x 1) ∧
      (f .r_s).evalR (fun i => A.val (x i)) = wignerSeitz (A.val (x 0) + A.val (x 1)) := by
  have lo : Real.exp (-50) ≤ 1.01e-14 := by
    rw [Real.exp_neg]
    refine (inv_anti₀ (by positivity) (two_pow_le_exp 50)).trans ?_
    norm_num
  have e27 : (2.7 : ℝ) ≤ Real.exp 1 := by have := Real.exp_one_gt_d9; linarith
  have hi : (1e21 : ℝ) ≤ Real.exp 50 := by
    rw [show (50 : ℝ) = ((50 : ℕ) : ℝ) * 1 by norm_num, Real.exp_nat_mul]
    exact le_trans (by norm_num) (pow_le_pow_left₀ (by norm_num) e27 50)
  have hi51 : (9e21 : ℝ) ≤ Real.exp 51 := by
    rw [show (51 : ℝ) = ((51 : ℕ) : ℝ) * 1 by norm_num, Real.exp_nat_mul]
    exact le_trans (by norm_num) (pow_le_pow_left₀ (by norm_num) e27 51)
  set r : ℕ → ℝ := fun i => A.val (x i) with hr'
  obtain ⟨hxa, hxb, hab, hba⟩ := hx
  have ev : ∀ i, 1.01e-14 ≤ r i → (Expr.reg (.var i)).evalR r = r i := by
    intro i h
    rw [evalR_reg, evalR_var, if_neg (by rw [not_lt]; linarith)]
  have ea := ev 0 hxa.1
  have eb := ev 1 hxb.1
  have dens : ∀ i, 1.01e-14 ≤ r i ∧ r i ≤ 1e21 → PA L x r (.reg (.var i)) 0 50 := by
    intro i h
    refine ⟨?_, by rw [ev i h.1]; exact lo.trans h.1, by rw [ev i h.1]; exact h.2.trans hi⟩
    rw [RE.Acc, ev i h.1, val_reg L h.1]
    exact Within.refl (by simp)
  have ha := dens 0 hxa
  have hb := dens 1 hxb
  have pn : PA L x r (ra + rb) 1 101 := (pa_add ha (by norm_num) hb.na).cast (by norm_num) (by norm_num)
  have en : (ra + rb).evalR r = r 0 + r 1 := by rw [evalR_add, ea, eb]
  have a0 : 0 < r 0 := by linarith [hxa.1]
  have b0 : 0 < r 1 := by linarith [hxb.1]
  have n0 : 0 < r 0 + r 1 := by linarith
  have hpi := Real.pi_gt_three
  have hpi4 : Real.pi < 3.15 := Real.pi_lt_d2
  -- the radius
  have three : PA L x r (3 : Expr ℕ) 1 2 := pa_rng' (by rng 2)
  have four : PA L x r (4 : Expr ℕ) 1 2 := pa_rng' (by rng 2)
  have q := pa_div three (pa_mul (pa_mul pn four) (pa_rng' rng_pi))
  have eq : evalR r (3 / ((ra + rb) * 4 * (Real.pi : Expr ℕ))) = 3 / ((r 0 + r 1) * 4 * Real.pi) := by
    simp only [evalR_div, evalR_mul, en, evalR_ofNat, evalR_lit]
  have q51 : PA L x r (3 / ((ra + rb) * 4 * (Real.pi : Expr ℕ))) 8 51 := by
    refine ⟨q.acc.mono' (by norm_num), ?_, ?_⟩
    · rw [eq, le_div_iff₀ (by positivity), Real.exp_neg, inv_mul_le_iff₀ (Real.exp_pos _)]
      have m1 := mul_le_mul (show (r 0 + r 1) * 4 ≤ 8e21 by linarith [hxa.2, hxb.2]) hpi4.le (by linarith) (by norm_num)
      linarith
    · rw [eq, div_le_iff₀ (by positivity)]
      have m1 := mul_le_mul (show 8e-14 ≤ (r 0 + r 1) * 4 by linarith [hxa.1, hxb.1]) hpi.le (by linarith) (by positivity)
      have m2 := mul_le_mul hi51 m1 (by norm_num) (Real.exp_pos _).le
      linarith
  have rs := (pa_pow (1 / 3) (1 / 3) (by expo) q51).mono' (c' := 21) (l' := 17) (by norm_num) (by norm_num)
  -- the polarisation
  have za : AA L x r ra (r 0) 0 := aa_of_acc ha.acc le_rfl (by rw [ea, abs_of_pos a0])
  have zb : AA L x r rb (r 1) 0 := aa_of_acc hb.acc le_rfl (by rw [eb, abs_of_pos b0])
  have z := aa_div (D := (r 0 + r 1)⁻¹) (aa_sub za zb) pn (by norm_num) (by rw [en])
  have ez : ((ra - rb) / (ra + rb)).evalR r = (r 0 - r 1) / (r 0 + r 1) := by rw [evalR_div, evalR_sub, en, ea, eb]
  have zlo : -0.98 ≤ (r 0 - r 1) / (r 0 + r 1) := by rw [le_div_iff₀ n0]; linarith
  have zhi : (r 0 - r 1) / (r 0 + r 1) ≤ 0.98 := by rw [div_le_iff₀ n0]; linarith
  refine ⟨⟨?_, ?_, ?_, ?_, ?_⟩, ?_, ?_⟩
  · rw [← hn] at pn; exact ⟨pn.acc, pn.lo, pn.hi⟩
  · rw [← hr] at rs; exact ⟨rs.acc, rs.lo, rs.hi⟩
  · have z := z.mono (D := 1) (d := 4) (by rw [inv_mul_cancel₀ n0.ne']) (by norm_num)
    rw [← hz] at z
    exact ⟨z.c0, z.hi, z.err⟩
  · simp only [hz, ez]; exact zlo
  · simp only [hz, ez]; exact zhi
  · rw [hn, en]
  · rw [hr, evalR_pow, eq, wignerSeitz]
    congr 2
    ring

private theorem energy_aa (L : CorrLib A) (par : ℕ → ℝ) (x : ℕ → V) (hx : InRangeSpin fun i => A.val (x i)) {v : Vars}
    (hv : v = .A_B ∨ v = .A_B_GAA_GAB_GBB) {id : ℕ} {U : ℝ} (h : corrUnit (A.val (x 0) + A.val (x 1)) id = some U) :
    |(fullExpr par v id).evalR fun i => A.val (x i)| ≤ U ∧
    |A.val (evalV L.toMathLib x (fullExpr par v id)) - (fullExpr par v id).evalR fun i => A.val (x i)| ≤ ((1 - L.w)⁻¹ ^ 1500 - 1) * U := by
  obtain ⟨f, hf, hn, hz, hr⟩ : ∃ f, densvars par v = some f ∧ f .n = ra + rb ∧ f .zeta = (ra - rb) / (ra + rb) ∧
      f .r_s = Expr.pow (3 / ((ra + rb) * 4 * (Real.pi : Expr ℕ))) (1 / 3) := by
    rcases hv with rfl | rfl <;> exact ⟨_, rfl, rfl, rfl, rfl⟩
  obtain ⟨G, en, er⟩ := givenS L.toMathLib x hx hn hz hr
  have key : ∃ e, Fun.energy id = some e ∧ AA L.toMathLib (fun fld => evalV L.toMathLib x (f fld)) (fun fld => (f fld).evalR fun i => A.val (x i)) e U 1500 := by
    unfold corrUnit at h
    split at h <;> first | (simp only [Option.some.injEq] at h; subst h) | simp at h
    · exact ⟨_, rfl, by have := aa_vwn3c G; simp only [en] at this; exact this⟩
    · exact ⟨_, rfl, by have := aa_vwn5c G; simp only [en] at this; exact this⟩
    · exact ⟨_, rfl, by have := aa_pw92c G; simp only [en, er] at this; exact this⟩
  obtain ⟨e, he, ha⟩ := key
  have h1 : fullExpr par v id = e.subst f := by simp only [fullExpr, hf, he]
  have e1 : (1 - L.w)⁻¹ ^ 1500 = Real.exp (1500 * η L.toMathLib) := by
    rw [show (1500 : ℝ) = ((1500 : ℕ) : ℝ) by norm_num, Real.exp_nat_mul, ← exp_η, Real.exp_neg, inv_inv]
  rw [h1, evalV_subst, evalR_subst', e1, mul_comm]
  exact ⟨ha.hi, ha.err⟩

/-- **C88.** The correlation energy density of `VWN3C`, `VWN5C` or `PW92C` computed with rounding from the inputs `x` differs from the exact
one by at most `(1-w)^(-1500) - 1` units of `corrUnit`: for all spin densities in range. -/
theorem C88_energy (L : CorrLib A) (par : ℕ → ℝ) (x : ℕ → V) (hx : InRangeSpin fun i => A.val (x i)) {v : Vars}
    (hv : v = .A_B ∨ v = .A_B_GAA_GAB_GBB) {id : ℕ} {U : ℝ} (h : corrUnit (A.val (x 0) + A.val (x 1)) id = some U) :
    |A.val (evalV L.toMathLib x (fullExpr par v id)) - (fullExpr par v id).evalR fun i => A.val (x i)| ≤ ((1 - L.w)⁻¹ ^ 1500 - 1) * U :=
  (energy_aa L par x hx hv h).2

/-- **C88.** With functions and operations good to `2^(-50)`, eight units in the last place of `double`: `1.4·10⁻¹²` units, which is less than
`10⁻¹⁰` hartree per electron for the VWN functionals and `4·10⁻¹¹ (1 + r_s)` for PW92C. -/
theorem C88_double (L : CorrLib A) (hw : L.w ≤ (1 / 2) ^ 50) (par : ℕ → ℝ) (x : ℕ → V) (hx : InRangeSpin fun i => A.val (x i)) {v : Vars}
    (hv : v = .A_B ∨ v = .A_B_GAA_GAB_GBB) {id : ℕ} {U : ℝ} (h : corrUnit (A.val (x 0) + A.val (x 1)) id = some U) :
    |A.val (evalV L.toMathLib x (fullExpr par v id)) - (fullExpr par v id).evalR fun i => A.val (x i)| ≤ 1.4e-12 * U := by
  have hn : 0 < A.val (x 0) + A.val (x 1) := by have := hx.a.1; have := hx.b.1; norm_num at *; linarith
  have hU : 0 ≤ U := by
    unfold corrUnit at h
    have h1 : 0 ≤ wignerSeitz (A.val (x 0) + A.val (x 1)) := Real.rpow_nonneg (by positivity) _
    split at h <;> first | (simp only [Option.some.injEq] at h; subst h; positivity) | simp at h
  refine (C88_energy L par x hx hv h).trans (mul_le_mul_of_nonneg_right ?_ hU)
  have hw0 := w_nonneg L.toMathLib
  have hQ : (1 - L.w)⁻¹ ≤ 1 + (1.001 * (1 / 2) ^ 50 : ℝ) := by
    rw [inv_eq_one_div, div_le_iff₀ (by norm_num at hw ⊢; linarith)]
    norm_num at hw ⊢
    nlinarith
  have hQ1 : 0 ≤ (1 - L.w)⁻¹ := inv_nonneg.2 (by norm_num at hw ⊢; linarith)
  set q : ℝ := 1.001 * (1 / 2) ^ 50 with hq
  have hq0 : 0 ≤ q := by rw [hq]; positivity
  have h2 : (1 - L.w)⁻¹ ^ 1500 ≤ (1 + q) ^ 1500 := pow_le_pow_left₀ hQ1 hQ 1500
  have h3 : (1 + q) ^ 1500 ≤ Real.exp ((1500 : ℕ) * q) := by
    have := Real.add_one_le_exp q
    clear h2
    rw [Real.exp_nat_mul]
    exact pow_le_pow_left₀ (by linarith) (by linarith) 1500
  have h4 : Real.exp ((1500 : ℕ) * q) ≤ 1 + 1.4e-12 := by
    clear h2 h3
    rw [hq, Nat.cast_ofNat]
    have := Real.abs_exp_sub_one_sub_id_le (x := 1500 * (1.001 * (1 / 2) ^ 50)) (by rw [abs_of_pos (by positivity)]; norm_num)
    have := (abs_le.1 this).2
    norm_num at this ⊢
    linarith
  have h5 := h2.trans (h3.trans h4)
  clear h2 h3 h4
  linarith

/-- `xcfun_eval` with errors measured by any units. -/
private theorem eval_units (L : MathLib A) (K : Kernel V) (s : State V) (s' : State ℝ) (hs : Matches A s s') (hK : ComputesEnergies L K s .A_B_GAA_GAB_GBB)
    (hv : s.vars = some .A_B_GAA_GAB_GBB) (hm : s.mode = PARTIAL_DERIVATIVES) (ho : s.order = 0) (k : ℕ) (x : ℕ → V) (unit : ℕ → ℝ)
    (hunit : ∀ id ∈ s.active, |(fullExpr s'.settings .A_B_GAA_GAB_GBB id).evalR fun i => A.val (x i)| ≤ unit id ∧
      |A.val (evalV L x (fullExpr s'.settings .A_B_GAA_GAB_GBB id)) - (fullExpr s'.settings .A_B_GAA_GAB_GBB id).evalR fun i => A.val (x i)| ≤
        ((1 - L.w)⁻¹ ^ k - 1) * unit id) (junk : Junk V) (out : V) :
    ∃ res, xcfunEval K junk s ((List.range 5).map x) [out] = .ok [res] ∧
      |A.val res - energyAt s' .A_B_GAA_GAB_GBB fun i => A.val (x i)| ≤ ((1 - L.w)⁻¹ ^ (k + s.active.length + 1) - 1) *
        (s.active.map fun id => |A.val (s.settings id)| * unit id).sum := by
  obtain ⟨hloc, hreads, hfp⟩ := hK
  set r : ℕ → ℝ := fun i => A.val (x i) with hr
  have hset : (fun i => A.val (s.settings i)) = s'.settings := funext fun i => (hs.settings i).symm
  set E : ℕ → ℝ := fun id => (fullExpr s'.settings .A_B_GAA_GAB_GBB id).evalR r with hE
  set Q := (1 - L.w)⁻¹ with hQ
  have hw0 := w_nonneg L
  have hw1 := L.w_le
  have hQ1 : 1 + A.u ≤ Q := by
    rw [hQ, inv_eq_one_div, le_div_iff₀ (by linarith)]
    have := L.u_le
    have := A.u_nonneg
    nlinarith
  have hQ0 : 1 ≤ Q := by have := A.u_nonneg; linarith
  have hlen : Vars.A_B_GAA_GAB_GBB.len = 5 := by decide
  refine ⟨(total K s .A_B_GAA_GAB_GBB 0 fun i => CT.const 0 (x i)).get 0, ?_, ?_⟩
  · rw [xcfunEval_partial hv hm (by rw [ho])]
    have hR : Ready K .A_B_GAA_GAB_GBB ((List.range 5).map x) x :=
      ⟨hloc, Option.ne_none_iff_exists'.mp hreads, len_le _, fun i hi => by
        rw [hlen] at hi; simp [hi]⟩
    rw [eval_resultOf hR junk (k := 0) (by norm_num) (by rw [ho]; rfl) (by simp [resultOf]), splice_zero]
    simp [resultOf]
  · have ht : Tracks A K codeKernel s s' .A_B_GAA_GAB_GBB (fun id => unit id) (fun id => (Q ^ k - 1) * unit id) fun i => CT.const 0 (x i) := by
      intro id hid i hi
      obtain rfl : i = 0 := by simpa using hi
      have e1 : (codeKernel.fp .A_B_GAA_GAB_GBB s'.settings id 0 fun l => (CT.const 0 (x l)).map A.val).get 0 = E id := by
        obtain ⟨f, hf⟩ : ∃ f, densvars s'.settings .A_B_GAA_GAB_GBB = some f := ⟨_, rfl⟩
        cases he : Fun.energy id with
        | none => simp only [codeKernel, codeFp, hf, he, hE, fullExpr]; rfl
        | some e =>
          simp only [codeKernel, codeFp, hf, he, hE, fullExpr]
          rw [← CT.c0_eq_get, evalCT_c0 (by norm_num), evalR_subst']
          congr 1
          funext fld
          rw [evalCT_c0 (by norm_num)]
          rfl
      rw [e1]
      obtain ⟨h1, h2⟩ := hunit id hid
      refine ⟨?_, h1⟩
      rw [hfp id hid, hset]
      exact h2
    have h2 := tracks_total hs ht (i := 0) (by norm_num)
    have e2 : (total codeKernel s' .A_B_GAA_GAB_GBB 0 fun l => (CT.const 0 (x l)).map A.val).get 0 = energyAt s' .A_B_GAA_GAB_GBB r := by
      have h3 := eval_order0 s' (v := .A_B_GAA_GAB_GBB) (by decide) (hs.vars.trans hv) (hs.mode.trans hm) (hs.order.trans ho) r none 0
      have hR : Ready codeKernel .A_B_GAA_GAB_GBB ((List.range Vars.A_B_GAA_GAB_GBB.len).map r) r :=
        ⟨codeKernel_local, ⟨_, rfl⟩, len_le _, fun i hi => by simp [hi]⟩
      rw [xcfunEval_partial (hs.vars.trans hv) (hs.mode.trans hm) (by rw [hs.order, ho]),
        eval_resultOf hR _ (k := 0) (by norm_num) (by rw [hs.order, ho]; rfl) (by simp [resultOf]), splice_zero] at h3
      have h4 := Outcome.ok.inj h3
      simp only [resultOf, if_true, List.cons_append, List.cons.injEq] at h4
      exact h4.1
    rw [e2] at h2
    refine h2.trans ?_
    unfold sumBound
    set S := (s.active.map fun id => |A.val (s.settings id)| * unit id).sum with hS
    have hS0 : 0 ≤ S := List.sum_nonneg (by
      intro y hy
      obtain ⟨id, hid, rfl⟩ := List.mem_map.1 hy
      exact mul_nonneg (abs_nonneg _) ((abs_nonneg _).trans (hunit id hid).1))
    have s1 : (s.active.map fun id => |A.val (s.settings id)| * (unit id + (Q ^ k - 1) * unit id)).sum = Q ^ k * S := by
      rw [hS, ← List.sum_map_mul_left]; congr 1; apply List.map_congr_left; intro id _; ring
    have s2 : (s.active.map fun id => |A.val (s.settings id)| * ((Q ^ k - 1) * unit id)).sum = (Q ^ k - 1) * S := by
      rw [hS, ← List.sum_map_mul_left]; congr 1; apply List.map_congr_left; intro id _; ring
    rw [s1, s2]
    have p1 : (1 + A.u) ^ (s.active.length + 1) ≤ Q ^ (s.active.length + 1) :=
      pow_le_pow_left₀ (by have := A.u_nonneg; linarith) hQ1 _
    have p2 : 0 ≤ Q ^ k * S := by positivity
    rw [show k + s.active.length + 1 = (s.active.length + 1) + k by ring, pow_add Q]
    have p3 := mul_le_mul_of_nonneg_right p1 p2
    generalize (1 + A.u) ^ (s.active.length + 1) = P at p3 ⊢
    generalize Q ^ (s.active.length + 1) = R at p3 ⊢
    linarith

/-- **C88, `xcfun_eval`.** An object in partial-derivative mode at order 0 that combines exchange and correlation functionals with any weights:
the number that `xcfun_eval` writes when everything is computed with rounding is within `(1-w)^(-(k+n+1)) - 1` times the weighted sum of the
units of the exact energy, for `n` active functionals of at most `k` steps each. -/
theorem C88_eval (L : CorrLib A) (K : Kernel V) (s : State V) (s' : State ℝ) (hs : Matches A s s') (hK : ComputesEnergies L.toMathLib K s .A_B_GAA_GAB_GBB)
    (hv : s.vars = some .A_B_GAA_GAB_GBB) (hm : s.mode = PARTIAL_DERIVATIVES) (ho : s.order = 0) (k : ℕ)
    (hk : ∀ id ∈ s.active, ∃ j ≤ k, allSteps id = some j) (x : ℕ → V) (hx : InRange fun i => A.val (x i)) (hx' : InRangeSpin fun i => A.val (x i))
    (junk : Junk V) (out : V) :
    ∃ res, xcfunEval K junk s ((List.range 5).map x) [out] = .ok [res] ∧
      |A.val res - energyAt s' .A_B_GAA_GAB_GBB fun i => A.val (x i)| ≤ ((1 - L.w)⁻¹ ^ (k + s.active.length + 1) - 1) *
        (s.active.map fun id => |A.val (s.settings id)| * errUnit (A.val (x 0) + A.val (x 1))
          ((fullExpr s'.settings .A_B_GAA_GAB_GBB id).evalR fun i => A.val (x i)) id).sum := by
  refine eval_units L.toMathLib K s s' hs hK hv hm ho k x _ ?_ junk out
  intro id hid
  obtain ⟨j, hj, hst⟩ := hk id hid
  have hw0 := w_nonneg L.toMathLib
  have hw1 := L.w_le
  have hQ0 : 1 ≤ (1 - L.w)⁻¹ := by
    rw [inv_eq_one_div, le_div_iff₀ (by linarith)]; linarith
  cases hc : corrUnit (A.val (x 0) + A.val (x 1)) id with
  | some U =>
    have hj' : 1500 ≤ k := by
      unfold corrUnit at hc
      split at hc <;> first | (simp only [allSteps, Option.some.injEq] at hst; omega) | simp at hc
    have h1 := energy_aa L s'.settings x hx' (.inr rfl) hc
    rw [errUnit, hc, Option.getD_some]
    refine ⟨h1.1, h1.2.trans (mul_le_mul_of_nonneg_right ?_ ((abs_nonneg _).trans h1.1))⟩
    exact sub_le_sub_right (pow_le_pow_right₀ hQ0 hj') 1
  | none =>
    have hst' : steps id = some j := by
      unfold allSteps at hst
      split at hst
      · simp [corrUnit] at hc
      · simp [corrUnit] at hc
      · simp [corrUnit] at hc
      · exact hst
    rw [errUnit, hc, Option.getD_none]
    refine ⟨le_rfl, (C79_energy L.toMathLib s'.settings x hx hst').trans (mul_le_mul_of_nonneg_right ?_ (abs_nonneg _))⟩
    exact sub_le_sub_right (pow_le_pow_right₀ hQ0 hj) 1

/-! The bound on the polarisation is needed for derivatives: beyond it, `1 - zeta` is lost. -/

private theorem log_eq {y : ℝ} {k : ℤ} (h1 : (2 : ℝ) ^ k ≤ y) (h2 : y < (2 : ℝ) ^ (k + 1)) : Int.log 2 |y| = k := by
  have hy : 0 < y := lt_of_lt_of_le (zpow_pos (by norm_num) _) h1
  rw [abs_of_pos hy]
  refine le_antisymm ?_ ?_
  · rw [← Int.lt_add_one_iff, ← Int.lt_zpow_iff_log_lt (by norm_num) hy]
    exact_mod_cast h2
  · rw [← Int.zpow_le_iff_le_log (by norm_num) hy]
    exact_mod_cast h1

private theorem round_up (k : ℤ) {β : ℝ} (h0 : 0 ≤ β) (h1 : β < (2 : ℝ) ^ (k - 53)) : roundBits 53 ((2 : ℝ) ^ k + β) = (2 : ℝ) ^ k := by
  have hk : (0 : ℝ) < (2 : ℝ) ^ (k - 53) := zpow_pos (by norm_num) _
  have e0 : (2 : ℝ) ^ k = 2 ^ 53 * (2 : ℝ) ^ (k - 53) := by
    rw [← zpow_natCast, ← zpow_add₀ (by norm_num)]; congr 1; norm_num
  have e1 : (2 : ℝ) ^ (k + 1) = 2 * (2 : ℝ) ^ k := by rw [zpow_add_one₀ (by norm_num)]; ring
  have e2 : (2 : ℝ) ^ (k + 1 - (53 : ℕ)) = 2 * (2 : ℝ) ^ (k - 53) := by
    rw [show k + 1 - ((53 : ℕ) : ℤ) = k - 53 + 1 by push_cast; ring, zpow_add_one₀ (by norm_num)]; ring
  unfold roundBits
  rw [log_eq (k := k) (by linarith) (by rw [e1, e0]; linarith), e2, e0]
  set q := (2 : ℝ) ^ (k - 53)
  rw [show (2 ^ 53 * q + β) / (2 * q) = ((2 ^ 52 : ℤ) : ℝ) + β / (2 * q) by push_cast; field_simp; ring, round_intCast_add]
  have : round (β / (2 * q)) = 0 := by
    rw [round_eq_zero_iff]
    constructor
    · have : 0 ≤ β / (2 * q) := by positivity
      linarith
    · rw [div_lt_iff₀ (by positivity)]; linarith
  rw [this]
  push_cast
  ring

private theorem round_down (k : ℤ) {β : ℝ} (h0 : 0 < β) (h1 : β < (2 : ℝ) ^ (k - 54)) : roundBits 53 ((2 : ℝ) ^ k - β) = (2 : ℝ) ^ k := by
  have hk : (0 : ℝ) < (2 : ℝ) ^ (k - 54) := zpow_pos (by norm_num) _
  have e0 : (2 : ℝ) ^ k = 2 ^ 54 * (2 : ℝ) ^ (k - 54) := by
    rw [← zpow_natCast, ← zpow_add₀ (by norm_num)]; congr 1; norm_num
  have e1 : (2 : ℝ) ^ k = 2 * (2 : ℝ) ^ (k - 1) := by rw [zpow_sub_one₀ (by norm_num)]; ring
  have e2 : (2 : ℝ) ^ (k - 1 + 1 - (53 : ℕ)) = 2 * (2 : ℝ) ^ (k - 54) := by
    rw [show k - 1 + 1 - ((53 : ℕ) : ℤ) = k - 54 + 1 by push_cast; ring, zpow_add_one₀ (by norm_num)]; ring
  unfold roundBits
  rw [log_eq (k := k - 1) (by linarith) (by rw [sub_add_cancel]; linarith), e2, e0]
  set q := (2 : ℝ) ^ (k - 54)
  rw [show (2 ^ 54 * q - β) / (2 * q) = ((2 ^ 53 : ℤ) : ℝ) + -(β / (2 * q)) by push_cast; field_simp; ring, round_intCast_add]
  have : round (-(β / (2 * q))) = 0 := by
    rw [round_eq_zero_iff]
    have h2 : 0 < β / (2 * q) := by positivity
    have h3 : β / (2 * q) < 1 / 2 := by rw [div_lt_iff₀ (by positivity)]; linarith
    constructor <;> linarith
  rw [this]
  push_cast
  ring

private theorem round_two_pow (k : ℤ) : roundBits 53 ((2 : ℝ) ^ k) = (2 : ℝ) ^ k := by
  have := round_up k le_rfl (zpow_pos (by norm_num) (k - 53))
  rwa [add_zero] at this

/-- **C88.** In correctly rounded arithmetic with the 53 bits of `double`, one spin density `2^k` from 256 on and the other below the threshold
`1e-14`: the computed `1 - zeta` is exactly 0 although the exact one, at the regularised densities, is positive.  It is the argument of the
powers in `ufunc` (specmath.hpp:35-37), and `pow_expand` demands a positive one (tmath.hpp:155-160): the program stops at the assertion, or
divides by zero when a derivative is asked for. -/
theorem C88_polarised (par : ℕ → ℝ) {v : Vars} (hv : v = .A_B ∨ v = .A_B_GAA_GAB_GBB) {k : ℕ} (hk : 8 ≤ k) (x : ℕ → Bits 53)
    (ha : (x 0).real = 2 ^ k) (hb : (x 1).real ≤ 9e-15) :
    ∃ f, densvars par v = some f ∧ (evalV (Bits.lib 53 (by norm_num)) x (1 - f .zeta)).real = 0 ∧
      0 < (1 - f .zeta).evalR fun i => (x i).real := by
  obtain ⟨f, hf, hz⟩ : ∃ f, densvars par v = some f ∧ f .zeta = (ra - rb) / (ra + rb) := by
    rcases hv with rfl | rfl <;> exact ⟨_, rfl, rfl⟩
  refine ⟨f, hf, ?_, ?_⟩
  · set L := Bits.lib 53 (by norm_num) with hL
    set β := roundBits 53 (1e-14 : ℝ) with hβ
    have hβ1 := abs_le.1 (Bits.round_err (p := 53) (1e-14 : ℝ))
    rw [← hβ, abs_of_pos (by norm_num)] at hβ1
    have hβ0 : 9.9e-15 < β := by have := hβ1.1; norm_num at this ⊢; linarith
    have hβ2 : β < 1.01e-14 := by have := hβ1.2; norm_num at this ⊢; linarith
    have h256 : (256 : ℝ) ≤ 2 ^ k := by
      have := pow_le_pow_right₀ (show (1 : ℝ) ≤ 2 by norm_num) hk
      norm_num at this ⊢; exact this
    have va : evalV L x ra = ⟨(2 : ℝ) ^ (k : ℤ)⟩ := by
      have : ¬ (x 0).real < β := by rw [ha]; linarith
      show (if (x 0).real < β then _ else x 0) = _
      rw [if_neg this, ← show (⟨(x 0).real⟩ : Bits 53) = x 0 from rfl, ha, zpow_natCast]
    have vb : evalV L x rb = ⟨β⟩ := by
      have : (x 1).real < β := by linarith
      show (if (x 1).real < β then (⟨β⟩ : Bits 53) else x 1) = _
      rw [if_pos this]
    have hb54 : β < (2 : ℝ) ^ ((k : ℤ) - 54) := by
      rw [zpow_sub₀ (by norm_num), zpow_natCast, lt_div_iff₀ (by positivity)]
      refine lt_of_lt_of_le ?_ h256
      norm_num
      linarith
    have hb53 : β < (2 : ℝ) ^ ((k : ℤ) - 53) := hb54.trans (zpow_lt_zpow_right₀ (by norm_num) (by omega))
    have vs : evalV L x (ra - rb) = ⟨(2 : ℝ) ^ (k : ℤ)⟩ := by
      show evalV L x ra - evalV L x rb = _
      rw [va, vb]
      exact congrArg Bits.mk (round_down k (by linarith) hb54)
    have vn : evalV L x (ra + rb) = ⟨(2 : ℝ) ^ (k : ℤ)⟩ := by
      show evalV L x ra + evalV L x rb = _
      rw [va, vb]
      exact congrArg Bits.mk (round_up k (by linarith) hb53)
    have vi : evalV L x (prim .inv (ra + rb)) = ⟨(2 : ℝ) ^ (-(k : ℤ))⟩ := by
      show L.fn .inv (evalV L x (ra + rb)) = _
      rw [vn]
      refine congrArg Bits.mk ?_
      show roundBits 53 (1 / (2 : ℝ) ^ (k : ℤ)) = _
      rw [one_div, ← zpow_neg, round_two_pow]
    have one : roundBits 53 (1 : ℝ) = 1 := by have := round_two_pow 0; simpa using this
    have vz : evalV L x ((ra - rb) / (ra + rb)) = ⟨1⟩ := by
      show evalV L x (prim .inv (ra + rb)) * evalV L x (ra - rb) = _
      rw [vi, vs]
      refine congrArg Bits.mk ?_
      show roundBits 53 ((2 : ℝ) ^ (-(k : ℤ)) * (2 : ℝ) ^ (k : ℤ)) = 1
      rw [← zpow_add₀ (by norm_num), neg_add_cancel, zpow_zero, one]
    rw [hz]
    show (evalV L x (1 : Expr ℕ) - evalV L x ((ra - rb) / (ra + rb))).real = 0
    rw [vz]
    show roundBits 53 (roundBits 53 (1 : ℝ) - 1) = 0
    rw [one, sub_self]
    simp [roundBits]
  · have p : ∀ i, 0 < (Expr.reg (.var i)).evalR fun i => (x i).real := by
      intro i
      rw [evalR_reg, evalR_var]
      split <;> rename_i h
      · norm_num
      · rw [not_lt] at h; exact lt_of_lt_of_le (by norm_num) h
    have p0 := p 0
    have p1 := p 1
    rw [hz, evalR_sub, evalR_div, evalR_sub, evalR_add, evalR_one, sub_pos, div_lt_one (by linarith)]
    linarith

/-! Cases. -/

private noncomputable def case2 {p : ℕ} : ℕ → Bits p := fun i => ⟨[3, 2].getD i 0⟩

private theorem case2_range {p : ℕ} : InRangeSpin fun i => (Bits.rounded p).val (case2 i) := by
  constructor <;> norm_num [case2, Bits.rounded]

/-- VWN5C in arithmetic with 53 bits at densities 3 and 2: the error is at most `1.4·10⁻¹² · 49 · 5`. -/
example : |(evalV (Bits.lib 53 (by norm_num)) case2 (fullExpr (fun _ => 0) .A_B 3)).real -
      (fullExpr (fun _ => 0) .A_B 3).evalR fun i => (case2 (p := 53) i).real| ≤ 1.4e-12 * (49 * (3 + 2)) :=
  C88_double (Bits.corrLib 53 (by norm_num)) (by norm_num [Bits.corrLib, Bits.lib]) (fun _ => 0) case2 case2_range (.inl rfl) (id := 3)
    (by simp [corrUnit, case2, Bits.rounded])

/-- PW92C there. -/
example : |(evalV (Bits.lib 53 (by norm_num)) case2 (fullExpr (fun _ => 0) .A_B 28)).real -
      (fullExpr (fun _ => 0) .A_B 28).evalR fun i => (case2 (p := 53) i).real| ≤
    ((1 - (1 / 2) ^ 53)⁻¹ ^ 1500 - 1) * (24 * (1 + wignerSeitz (3 + 2)) * (3 + 2)) :=
  C88_energy (Bits.corrLib 53 (by norm_num)) (fun _ => 0) case2 case2_range (.inl rfl) (id := 28)
    (by simp [corrUnit, case2, Bits.rounded])

private noncomputable def case5s {p : ℕ} : ℕ → Bits p := fun i => ⟨[3, 2, 0.7, 0.1, 0.4].getD i 0⟩

private noncomputable def lda (W : Type) (c : ℝ → W) : State W :=
  { active := [0, 3], order := 0, depends := 1, mode := PARTIAL_DERIVATIVES, vars := some .A_B_GAA_GAB_GBB,
    settings := fun id => if id = 0 ∨ id = 3 then c 1 else c 0 }

/-- `xcfun_eval` for the local density approximation, Slater exchange and VWN5 correlation, in arithmetic with 53 bits. -/
example (junk : Junk (Bits 53)) : ∃ res,
    xcfunEval (roundedKernel (Bits.lib 53 (by norm_num))) junk (lda _ Bits.mk) ((List.range 5).map case5s) [0] = .ok [res] ∧
    |res.real - energyAt (lda ℝ id) .A_B_GAA_GAB_GBB fun i => (case5s (p := 53) i).real| ≤ ((1 - (1 / 2) ^ 53)⁻¹ ^ 1503 - 1) *
      (([0, 3] : List ℕ).map fun j => |((lda (Bits 53) Bits.mk).settings j).real| *
        errUnit (3 + 2) ((fullExpr (lda ℝ id).settings .A_B_GAA_GAB_GBB j).evalR fun i => (case5s (p := 53) i).real) j).sum :=
  C88_eval (Bits.corrLib 53 (by norm_num)) _ (lda _ Bits.mk) (lda ℝ id)
    ⟨rfl, rfl, rfl, rfl, fun i => by simp only [lda]; split <;> rfl⟩ (roundedKernel_computes _ _ (by decide)) rfl rfl rfl 1500
    (by
      intro id hid
      simp only [lda, List.mem_cons, List.not_mem_nil, or_false] at hid
      rcases hid with rfl | rfl
      · exact ⟨139, by norm_num, rfl⟩
      · exact ⟨1500, le_rfl, rfl⟩) case5s (by constructor <;> norm_num [case5s, Bits.rounded])
    (by constructor <;> norm_num [case5s, Bits.rounded]) junk 0

/-- A density of one spin only, 1024. -/
example : ∃ f, densvars (fun _ => 0) .A_B = some f ∧
    (evalV (Bits.lib 53 (by norm_num)) (fun i => (⟨[1024, 0].getD i 0⟩ : Bits 53)) (1 - f .zeta)).real = 0 ∧
    0 < (1 - f .zeta).evalR fun i => [1024, 0].getD i 0 :=
  C88_polarised (fun _ => 0) (.inl rfl) (k := 10) (by norm_num) (fun i => ⟨[1024, 0].getD i 0⟩) (by norm_num) (by norm_num)

end XCFun.Props
