/-
C79: rounding errors of complete functionals.

`A : Rounded V` is an arithmetic with relative error at most `A.u` per operation, `L : MathLib A` its constants and elementary functions with
relative error at most `L.w`; `evalV` evaluates an expression with them, operation by operation in the order of the source.
-/
import Verif.Proofs.RoundedFun
import Verif.Props.Rounding
import Verif.Props.Scaling
import Mathlib.Analysis.Complex.ExponentialBounds

namespace XCFun.Props
open XCFun Spec RE Expr

variable {V : Type} [Zero V] [One V] [Add V] [Sub V] [Mul V] [Neg V] {A : Rounded V}

theorem evalV_subst (L : MathLib A) {ι κ : Type} (σ : ι → Expr κ) (ρ : κ → V) (e : Expr ι) :
    evalV L ρ (e.subst σ) = evalV L (fun i => evalV L ρ (σ i)) e := by
  induction e with
  | prim p x ih => cases p <;> simp_all [subst, evalV]
  | _ => simp_all [subst, evalV]

theorem evalV_congr (L : MathLib A) {ι : Type} {p : ι → Bool} {ρ ρ' : ι → V} (h : ∀ i, p i = true → ρ i = ρ' i) (e : Expr ι)
    (he : e.usesOnly p = true) : evalV L ρ e = evalV L ρ' e := by
  induction e with
  | prim q x ih => cases q <;> simp_all [usesOnly, evalV]
  | _ => simp_all [usesOnly, evalV]

theorem val_reg (L : MathLib A) {ρ : ℕ → V} {i : ℕ} (h : 1.01e-14 ≤ A.val (ρ i)) : evalV L ρ (.reg (.var i)) = ρ i := by
  have h1 := (abs_le.1 (L.const_err 1e-14)).2
  rw [abs_of_pos (by norm_num)] at h1
  have h2 := L.w_le
  have : ¬ A.val (ρ i) < A.val (L.const 1e-14) := by
    rw [not_lt]
    refine le_trans ?_ h
    have : L.w * 1e-14 ≤ 1e-6 * 1e-14 := mul_le_mul_of_nonneg_right h2 (by norm_num)
    norm_num at this h1 ⊢
    linarith
  simp only [evalV, this, if_false]

/-- The density variables computed from inputs in range. -/
theorem given (L : MathLib A) (par : ℕ → ℝ) (x : ℕ → V) (hx : InRange fun i => A.val (x i)) {f : Field → Expr ℕ}
    (hf : densvars par .A_B_GAA_GAB_GBB = some f) :
    Given L (fun fld => evalV L x (f fld)) fun fld => (f fld).evalR fun i => A.val (x i) := by
  simp only [densvars, DV.select, DV.selectFrom, Option.map_some, Option.some.injEq] at hf
  subst hf
  have lo : Real.exp (-50) ≤ 1.01e-14 := by
    rw [Real.exp_neg]
    refine (inv_anti₀ (by positivity) (two_pow_le_exp 50)).trans ?_
    norm_num
  have hi : (1e21 : ℝ) ≤ Real.exp 50 := by
    have : (2.7 : ℝ) ≤ Real.exp 1 := by have := Real.exp_one_gt_d9; linarith
    rw [show (50 : ℝ) = ((50 : ℕ) : ℝ) * 1 by norm_num, Real.exp_nat_mul]
    exact le_trans (by norm_num) (pow_le_pow_left₀ (by norm_num) this 50)
  set r : ℕ → ℝ := fun i => A.val (x i) with hr
  have toP : ∀ {g : Field → Expr ℕ} {fld : Field} {c l : ℝ}, PA L x r (g fld) c l →
      PA L (fun fld => evalV L x (g fld)) (fun fld => (g fld).evalR r) (var fld) c l := fun h => ⟨h.acc, h.lo, h.hi⟩
  have toN : ∀ {g : Field → Expr ℕ} {fld : Field} {c l : ℝ}, NA L x r (g fld) c l →
      NA L (fun fld => evalV L x (g fld)) (fun fld => (g fld).evalR r) (var fld) c l := fun h => ⟨h.acc, h.lo, h.hi⟩
  have dens : ∀ i, 1.01e-14 ≤ r i ∧ r i ≤ 1e21 → PA L x r (.reg (.var i)) 0 50 := by
    intro i h
    have e : (Expr.reg (.var i)).evalR r = r i := by
      rw [evalR_reg, evalR_var, if_neg (by rw [not_lt]; linarith [h.1])]
    refine ⟨?_, by rw [e]; exact lo.trans h.1, by rw [e]; exact h.2.trans hi⟩
    rw [RE.Acc, e, val_reg L h.1]
    exact Within.refl (by simp)
  have grad : ∀ i, 0 ≤ r i ∧ r i ≤ 1e21 → NA L x r (.var i) 0 50 := fun i h =>
    ⟨Within.refl (by simp), h.1, h.2.trans hi⟩
  have ha := dens 0 hx.a
  have hb := dens 1 hx.b
  exact {
    a := toP ha
    b := toP hb
    gaa := toN (grad 2 hx.gaa)
    gbb := toN (grad 4 hx.gbb)
    n := toP ((pa_add ha (by norm_num) hb.na).cast (by norm_num) (by norm_num))
    a_43 := (toP (pa_pow (4 / 3) (4 / 3) (by expo) ha)).mono (by norm_num) (by norm_num)
    b_43 := (toP (pa_pow (4 / 3) (4 / 3) (by expo) hb)).mono (by norm_num) (by norm_num) }

private theorem acc_of_steps {L : MathLib A} {ρ : Field → V} {r : Field → ℝ} (G : Given L ρ r) {id K : ℕ} (h : steps id = some K) :
    ∃ e, Fun.energy id = some e ∧ RE.Acc L ρ r e K := by
  unfold steps at h
  split at h <;> first | (simp only [Option.some.injEq] at h; subst h) | simp at h
  · exact ⟨_, rfl, by simpa using acc_slaterx G⟩
  · exact ⟨_, rfl, by simpa using acc_pw86x G⟩
  · exact ⟨_, rfl, by simpa using acc_pbex G⟩
  · exact ⟨_, rfl, by simpa using acc_revpbex G⟩
  · exact ⟨_, rfl, by simpa using acc_apbex G⟩
  · exact ⟨_, rfl, by simpa using acc_pbesolx G⟩
  · exact ⟨_, rfl, by simpa using acc_pbeintx G⟩
  · exact ⟨_, rfl, by simpa using acc_optx G⟩
  · exact ⟨_, rfl, by simpa using acc_optxcorr G⟩
  · exact ⟨_, rfl, by simpa using acc_rpbex G⟩
  · exact ⟨_, rfl, by simpa using acc_ktx G⟩
  · exact ⟨_, rfl, by simpa using acc_tfk G⟩
  · exact ⟨_, rfl, by simpa using acc_btk G⟩
  · exact ⟨_, rfl, by simpa using acc_vW G⟩

/-- **C79.** The energy of a functional computed with rounding from the inputs `x` differs from the exact energy at these inputs by at most
`(1-w)^(-K) - 1` of it, `K` the number of steps of the functional: for all inputs in range. -/
theorem C79_energy (L : MathLib A) (par : ℕ → ℝ) (x : ℕ → V) (hx : InRange fun i => A.val (x i)) {id K : ℕ} (h : steps id = some K) :
    |A.val (evalV L x (fullExpr par .A_B_GAA_GAB_GBB id)) - (fullExpr par .A_B_GAA_GAB_GBB id).evalR fun i => A.val (x i)| ≤
      ((1 - L.w)⁻¹ ^ K - 1) * |(fullExpr par .A_B_GAA_GAB_GBB id).evalR fun i => A.val (x i)| := by
  obtain ⟨f, hf⟩ : ∃ f, densvars par .A_B_GAA_GAB_GBB = some f := ⟨_, rfl⟩
  obtain ⟨e, he, ha⟩ := acc_of_steps (given L par x hx hf) h
  have h1 : fullExpr par .A_B_GAA_GAB_GBB id = e.subst f := by simp only [fullExpr, hf, he]
  rw [h1, evalV_subst, evalR_subst']
  exact ha.err le_rfl

/-- **C79.** With functions and operations good to `2^(-50)`, eight units in the last place of `double`: eleven correct digits. -/
theorem C79_double (L : MathLib A) (hw : L.w ≤ (1 / 2) ^ 50) (par : ℕ → ℝ) (x : ℕ → V) (hx : InRange fun i => A.val (x i)) {id K : ℕ}
    (h : steps id = some K) :
    |A.val (evalV L x (fullExpr par .A_B_GAA_GAB_GBB id)) - (fullExpr par .A_B_GAA_GAB_GBB id).evalR fun i => A.val (x i)| ≤
      5e-12 * |(fullExpr par .A_B_GAA_GAB_GBB id).evalR fun i => A.val (x i)| := by
  refine (C79_energy L par x hx h).trans (mul_le_mul_of_nonneg_right ?_ (abs_nonneg _))
  have hK : K ≤ 4700 := by
    unfold steps at h
    split at h <;> first | (simp only [Option.some.injEq] at h; omega) | simp at h
  have hw0 := w_nonneg L
  have hQ : (1 - L.w)⁻¹ ≤ 1 + (1.001 * (1 / 2) ^ 50 : ℝ) := by
    rw [inv_eq_one_div, div_le_iff₀ (by norm_num at hw ⊢; linarith)]
    norm_num at hw ⊢
    nlinarith
  have hQ1 : 1 ≤ (1 - L.w)⁻¹ := by
    rw [inv_eq_one_div, le_div_iff₀ (by norm_num at hw ⊢; linarith)]
    linarith
  set q : ℝ := 1.001 * (1 / 2) ^ 50 with hq
  have hq0 : 0 ≤ q := by rw [hq]; positivity
  have h2 : (1 - L.w)⁻¹ ^ K ≤ (1 + q) ^ 4700 :=
    (pow_le_pow_right₀ hQ1 hK).trans (pow_le_pow_left₀ (by linarith) hQ 4700)
  have h3 : (1 + q) ^ 4700 ≤ Real.exp ((4700 : ℕ) * q) := by
    have := Real.add_one_le_exp q
    clear h2
    rw [Real.exp_nat_mul]
    exact pow_le_pow_left₀ (by linarith) (by linarith) 4700
  have h4 : Real.exp ((4700 : ℕ) * q) ≤ 1 + 5e-12 := by
    clear h2 h3
    rw [hq, Nat.cast_ofNat]
    have := Real.abs_exp_sub_one_sub_id_le (x := 4700 * (1.001 * (1 / 2) ^ 50)) (by rw [abs_of_pos (by positivity)]; norm_num)
    have := (abs_le.1 this).2
    norm_num at this ⊢
    linarith
  have h5 := h2.trans (h3.trans h4)
  clear h2 h3 h4
  linarith

/-- The computed energy of functional `id` at order 0 is `evalV` of its expression in the inputs. -/
def ComputesEnergies (L : MathLib A) (K : Kernel V) (s : State V) (v : Vars) : Prop :=
  K.Local ∧ K.reads v ≠ none ∧ ∀ id ∈ s.active, ∀ ρ : ℕ → CT V 0,
    (K.fp v s.settings id 0 ρ).get 0 = evalV L (fun i => (ρ i).get 0) (fullExpr (fun i => A.val (s.settings i)) v id)

private theorem sum_map_le {l : List ℕ} {f g : ℕ → ℝ} (h : ∀ i ∈ l, f i ≤ g i) : (l.map f).sum ≤ (l.map g).sum :=
  List.sum_le_sum h

private theorem sum_map_mul (c : ℝ) (l : List ℕ) (f : ℕ → ℝ) : (l.map fun i => c * f i).sum = c * (l.map f).sum :=
  List.sum_map_mul_left _ _ _

/-- **C79, `xcfun_eval`.** An object in partial-derivative mode at order 0 that combines functionals with a bounded number of steps with any
weights: the number that `xcfun_eval` writes when everything is computed with rounding is within `(1-w)^(-(k+n+1)) - 1` times the sum of
the sizes of the weighted terms of the exact energy, for `n` active functionals of at most `k` steps each. -/
theorem C79_eval (L : MathLib A) (K : Kernel V) (s : State V) (s' : State ℝ) (hs : Matches A s s') (hK : ComputesEnergies L K s .A_B_GAA_GAB_GBB)
    (hv : s.vars = some .A_B_GAA_GAB_GBB) (hm : s.mode = PARTIAL_DERIVATIVES) (ho : s.order = 0) (k : ℕ)
    (hk : ∀ id ∈ s.active, ∃ j ≤ k, steps id = some j) (x : ℕ → V) (hx : InRange fun i => A.val (x i)) (junk : Junk V) (out : V) :
    ∃ res, xcfunEval K junk s ((List.range 5).map x) [out] = .ok [res] ∧
      |A.val res - energyAt s' .A_B_GAA_GAB_GBB fun i => A.val (x i)| ≤ ((1 - L.w)⁻¹ ^ (k + s.active.length + 1) - 1) *
        (s.active.map fun id => |A.val (s.settings id)| * |(fullExpr s'.settings .A_B_GAA_GAB_GBB id).evalR fun i => A.val (x i)|).sum := by
  obtain ⟨hloc, hreads, hfp⟩ := hK
  set r : ℕ → ℝ := fun i => A.val (x i) with hr
  have hset : (fun i => A.val (s.settings i)) = s'.settings := funext fun i => (hs.settings i).symm
  set E : ℕ → ℝ := fun id => (fullExpr s'.settings .A_B_GAA_GAB_GBB id).evalR r with hE
  set Q := (1 - L.w)⁻¹ with hQ
  have hw0 := w_nonneg L
  have hw1 := L.w_le
  have hQ1 : 1 + A.u ≤ Q := by
    rw [hQ, inv_eq_one_div, le_div_iff₀ (by linarith)]
    have := L.u_le
    have := A.u_nonneg
    nlinarith
  have hQ0 : 1 ≤ Q := by have := A.u_nonneg; linarith
  have hlen : Vars.A_B_GAA_GAB_GBB.len = 5 := by decide
  refine ⟨(total K s .A_B_GAA_GAB_GBB 0 fun i => CT.const 0 (x i)).get 0, ?_, ?_⟩
  · rw [xcfunEval_partial hv hm (by rw [ho])]
    have hR : Ready K .A_B_GAA_GAB_GBB ((List.range 5).map x) x :=
      ⟨hloc, Option.ne_none_iff_exists'.mp hreads, len_le _, fun i hi => by
        rw [hlen] at hi; simp [hi]⟩
    rw [eval_resultOf hR junk (k := 0) (by norm_num) (by rw [ho]; rfl) (by simp [resultOf]), splice_zero]
    simp [resultOf]
  · have ht : Tracks A K codeKernel s s' .A_B_GAA_GAB_GBB (fun id => |E id|) (fun id => (Q ^ k - 1) * |E id|) fun i => CT.const 0 (x i) := by
      intro id hid i hi
      obtain rfl : i = 0 := by simpa using hi
      obtain ⟨j, hj, hst⟩ := hk id hid
      have e1 : (codeKernel.fp .A_B_GAA_GAB_GBB s'.settings id 0 fun l => (CT.const 0 (x l)).map A.val).get 0 = E id := by
        obtain ⟨f, hf⟩ : ∃ f, densvars s'.settings .A_B_GAA_GAB_GBB = some f := ⟨_, rfl⟩
        cases he : Fun.energy id with
        | none => simp only [codeKernel, codeFp, hf, he, hE, fullExpr]; rfl
        | some e =>
          simp only [codeKernel, codeFp, hf, he, hE, fullExpr]
          rw [← CT.c0_eq_get, evalCT_c0 (by norm_num), evalR_subst']
          congr 1
          funext fld
          rw [evalCT_c0 (by norm_num)]
          rfl
      rw [e1]
      refine ⟨?_, le_rfl⟩
      rw [hfp id hid, hset]
      have h1 := C79_energy L s'.settings x hx hst
      refine h1.trans (mul_le_mul_of_nonneg_right ?_ (abs_nonneg _))
      exact sub_le_sub_right (pow_le_pow_right₀ hQ0 hj) 1
    have h2 := tracks_total hs ht (i := 0) (by norm_num)
    have e2 : (total codeKernel s' .A_B_GAA_GAB_GBB 0 fun l => (CT.const 0 (x l)).map A.val).get 0 = energyAt s' .A_B_GAA_GAB_GBB r := by
      have h3 := eval_order0 s' (v := .A_B_GAA_GAB_GBB) (by decide) (hs.vars.trans hv) (hs.mode.trans hm) (hs.order.trans ho) r none 0
      have hR : Ready codeKernel .A_B_GAA_GAB_GBB ((List.range Vars.A_B_GAA_GAB_GBB.len).map r) r :=
        ⟨codeKernel_local, ⟨_, rfl⟩, len_le _, fun i hi => by simp [hi]⟩
      rw [xcfunEval_partial (hs.vars.trans hv) (hs.mode.trans hm) (by rw [hs.order, ho]),
        eval_resultOf hR _ (k := 0) (by norm_num) (by rw [hs.order, ho]; rfl) (by simp [resultOf]), splice_zero] at h3
      have h4 := Outcome.ok.inj h3
      simp only [resultOf, if_true, List.cons_append, List.cons.injEq] at h4
      exact h4.1
    rw [e2] at h2
    refine h2.trans ?_
    unfold sumBound
    set S := (s.active.map fun id => |A.val (s.settings id)| * |E id|).sum with hS
    have hS0 : 0 ≤ S := List.sum_nonneg (by
      intro y hy
      obtain ⟨id, -, rfl⟩ := List.mem_map.1 hy
      positivity)
    have s1 : (s.active.map fun id => |A.val (s.settings id)| * (|E id| + (Q ^ k - 1) * |E id|)).sum = Q ^ k * S := by
      rw [hS, ← sum_map_mul]; congr 1; apply List.map_congr_left; intro id _; ring
    have s2 : (s.active.map fun id => |A.val (s.settings id)| * ((Q ^ k - 1) * |E id|)).sum = (Q ^ k - 1) * S := by
      rw [hS, ← sum_map_mul]; congr 1; apply List.map_congr_left; intro id _; ring
    rw [s1, s2]
    have p1 : (1 + A.u) ^ (s.active.length + 1) ≤ Q ^ (s.active.length + 1) :=
      pow_le_pow_left₀ (by have := A.u_nonneg; linarith) hQ1 _
    have p2 : 0 ≤ Q ^ k * S := by positivity
    rw [show k + s.active.length + 1 = (s.active.length + 1) + k by ring, pow_add Q]
    have p3 := mul_le_mul_of_nonneg_right p1 p2
    generalize (1 + A.u) ^ (s.active.length + 1) = P at p3 ⊢
    generalize Q ^ (s.active.length + 1) = R at p3 ⊢
    linarith

/-- The kernel of Spec/RoundedEnergy computes them. -/
theorem roundedKernel_computes (L : MathLib A) (s : State V) {v : Vars} (hv : DV.reads v ≠ none) : ComputesEnergies L (roundedKernel L) s v := by
  refine ⟨⟨fun v sl h => reads_lt h, ?_⟩, hv, fun id _ ρ => rfl⟩
  intro v sl h par id N ρ ρ' hρ
  simp only [roundedKernel, fullExpr]
  cases hd : densvars (fun i => A.val (par i)) v with
  | none => rfl
  | some f =>
    cases Fun.energy id with
    | none => rfl
    | some e =>
      simp only [evalV_subst]
      congr 2
      funext fld
      exact evalV_congr L (p := fun i => sl.contains i) (fun i hi => by rw [hρ i (by simpa using hi)]) _ (densvars_uses h _ hd fld)

/-! Cases. -/

private noncomputable def case5 {p : ℕ} : ℕ → Bits p := fun i => ⟨[3, 2, 0.7, 0.1, 0.4].getD i 0⟩

private theorem case5_range {p : ℕ} : InRange fun i => (Bits.rounded p).val (case5 i) := by
  constructor <;> norm_num [case5, Bits.rounded]

/-- PBE exchange in arithmetic with 53 bits at densities 3 and 2: the relative error is at most `5·10⁻¹²`. -/
example : |(evalV (Bits.lib 53 (by norm_num)) case5 (fullExpr (fun _ => 0) .A_B_GAA_GAB_GBB 5)).real -
      (fullExpr (fun _ => 0) .A_B_GAA_GAB_GBB 5).evalR fun i => (case5 (p := 53) i).real| ≤
    5e-12 * |(fullExpr (fun _ => 0) .A_B_GAA_GAB_GBB 5).evalR fun i => (case5 (p := 53) i).real| :=
  C79_double (Bits.lib 53 (by norm_num)) (by norm_num [Bits.lib]) (fun _ => 0) case5 case5_range
    (id := 5) (K := 1700) rfl

private noncomputable def mixed (W : Type) (c : ℝ → W) : State W :=
  { active := [0, 5], order := 0, depends := 1, mode := PARTIAL_DERIVATIVES, vars := some .A_B_GAA_GAB_GBB,
    settings := fun id => if id = 0 then c (1 / 5) else c (4 / 5) }

/-- A fifth of Slater exchange and four fifths of PBE exchange: `xcfun_eval` in arithmetic with 53 bits. -/
example (junk : Junk (Bits 53)) : ∃ res,
    xcfunEval (roundedKernel (Bits.lib 53 (by norm_num))) junk (mixed _ Bits.mk) ((List.range 5).map case5) [0] = .ok [res] ∧
    |res.real - energyAt (mixed ℝ id) .A_B_GAA_GAB_GBB fun i => (case5 (p := 53) i).real| ≤ ((1 - (1 / 2) ^ 53)⁻¹ ^ 1703 - 1) *
      (([0, 5] : List ℕ).map fun j => |((mixed (Bits 53) Bits.mk).settings j).real| *
        |(fullExpr (mixed ℝ id).settings .A_B_GAA_GAB_GBB j).evalR fun i => (case5 (p := 53) i).real|).sum :=
  C79_eval (Bits.lib 53 (by norm_num)) _ (mixed _ Bits.mk) (mixed ℝ id)
    ⟨rfl, rfl, rfl, rfl, fun i => by simp only [mixed]; split <;> rfl⟩ (roundedKernel_computes _ _ (by decide)) rfl rfl rfl 1700
    (by
      intro id hid
      simp only [mixed, List.mem_cons, List.not_mem_nil, or_false] at hid
      rcases hid with rfl | rfl
      · exact ⟨139, by norm_num, rfl⟩
      · exact ⟨1700, le_rfl, rfl⟩) case5 case5_range junk 0

end XCFun.Props
