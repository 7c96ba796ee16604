/-
Truncated products, quotients and compositions.
-/
import Verif.Proofs.TaylorExpand
import Verif.Proofs.TaylorStretch

namespace XCFun.Tay
open XCFun Spec Polymul

/-! ### Orders -/

theorem same_order {A B : ℕ} {p q : MvPolynomial ℕ ℝ} (hp : SameTo A p 0) (hq : SameTo B q 0) : SameTo (A + B + 1) (p * q) 0 := by
  intro m hm
  rw [MvPolynomial.coeff_mul, MvPolynomial.coeff_zero]
  refine Finset.sum_eq_zero fun x hx => ?_
  have hd : x.1.degree + x.2.degree = m.degree := by rw [← map_add, Finset.mem_antidiagonal.1 hx]
  by_cases h : x.1.degree ≤ A
  · rw [hp _ h, MvPolynomial.coeff_zero, zero_mul]
  · rw [hq x.2 (by omega), MvPolynomial.coeff_zero, mul_zero]

theorem same_zero {w : MvPolynomial ℕ ℝ} (h : w.coeff 0 = 0) : SameTo 0 w 0 := fun m hm => by
  rw [(Finsupp.degree_eq_zero_iff m).1 (Nat.le_zero.1 hm), h, MvPolynomial.coeff_zero]

theorem same_pow {w : MvPolynomial ℕ ℝ} (h : w.coeff 0 = 0) (N : ℕ) : SameTo N (w ^ (N + 1)) 0 := by
  induction N with
  | zero => rw [zero_add, pow_one]; exact same_zero h
  | succ N ih =>
    rw [pow_succ]
    exact same_order (B := 0) ih (same_zero h)

theorem same_sub {N : ℕ} {p q : MvPolynomial ℕ ℝ} : SameTo N p q ↔ SameTo N (p - q) 0 := by
  refine ⟨fun h m hm => ?_, fun h m hm => ?_⟩
  · rw [MvPolynomial.coeff_sub, h m hm, sub_self, MvPolynomial.coeff_zero]
  · have := h m hm
    rw [MvPolynomial.coeff_sub, MvPolynomial.coeff_zero] at this
    linarith

theorem invExpand_mul {a : ℝ} (ha : a ≠ 0) (P : MvPolynomial ℕ ℝ) (h : P.coeff 0 = a) (N : ℕ) : SameTo N (compSum (invExpand a) N P * P) 1 := by
  set w := P - MvPolynomial.C a with hw
  have hw0 : w.coeff 0 = 0 := by rw [hw, MvPolynomial.coeff_sub, h, MvPolynomial.coeff_zero_C, sub_self]
  have hP : P = MvPolynomial.C a + w := by rw [hw]; ring
  have key : ∀ N, compSum (invExpand a) N P * P = 1 + MvPolynomial.C (invExpand a N) * w ^ (N + 1) := by
    intro N
    rw [compSum, h, ← hw]
    induction N with
    | zero =>
      rw [Finset.sum_range_one, pow_zero, mul_one, zero_add, pow_one]
      conv_lhs => rw [hP]
      rw [mul_add, ← map_mul, invExpand, one_div, inv_mul_cancel₀ ha, map_one]
    | succ N ih =>
      rw [Finset.sum_range_succ, add_mul, ih]
      have e : MvPolynomial.C (invExpand a N) = -(MvPolynomial.C (invExpand a (N + 1)) * MvPolynomial.C a : MvPolynomial ℕ ℝ) := by
        rw [← map_mul, ← map_neg, invExpand]; congr 1; field_simp
      rw [e, pow_succ w (N + 1)]
      conv_lhs => rw [hP]
      ring
  rw [key]
  have := SameTo.add (SameTo.refl N 1) (SameTo.mul (SameTo.refl N (MvPolynomial.C (invExpand a N))) (same_pow hw0 N))
  rwa [mul_zero, add_zero] at this

/-! ### Functions -/

/-- A function with the same derivatives inside. -/
theorem comp_inner {N : ℕ} {f p q : ℝ → ℝ} {x : ℝ} (hf : ContDiffAt ℝ N f (p x)) (hp : ContDiffAt ℝ N p x) (hq : ContDiffAt ℝ N q x)
    (h : ∀ k ≤ N, iteratedDeriv k p x = iteratedDeriv k q x) {k : ℕ} (hk : k ≤ N) :
    iteratedDeriv k (fun s => f (p s)) x = iteratedDeriv k (fun s => f (q s)) x := by
  have hk' : (k : WithTop ℕ∞) ≤ (N : WithTop ℕ∞) := by exact_mod_cast hk
  have h0 : p x = q x := by simpa using h 0 (Nat.zero_le _)
  have e1 := iteratedDeriv_comp_eq_sum_orderedFinpartition hf hp hk'
  have e2 := iteratedDeriv_comp_eq_sum_orderedFinpartition (g := f) (f := q) (h0 ▸ hf) hq hk'
  refine e1.trans (Eq.trans ?_ e2.symm)
  exact Finset.sum_congr rfl fun c _ => by
    rw [h0, Finset.prod_congr rfl fun j _ => h _ ((c.partSize_le j).trans hk)]

theorem eval_contDiff (v : ℕ → ℝ) (P : MvPolynomial ℕ ℝ) (N : ℕ) : ContDiff ℝ N (fun s : ℝ => MvPolynomial.eval (fun i => s * v i) P) := by
  simp only [eval_line]; exact poly_contDiff _ N

theorem eval_at_zero (v : ℕ → ℝ) (P : MvPolynomial ℕ ℝ) : MvPolynomial.eval (fun i => (0 : ℝ) * v i) P = P.coeff 0 := by
  rw [eval_line, ← Polynomial.coeff_zero_eq_eval_zero, line_zero]

theorem expands_zero {N : ℕ} {f : ℝ → ℝ} {P Q : MvPolynomial ℕ ℝ} (h : Expands N f P Q) : Q.coeff 0 = f (P.coeff 0) := by
  have := h (fun _ => 0) 0 (Nat.zero_le _)
  simp only [iteratedDeriv_zero] at this
  rwa [eval_at_zero, eval_at_zero] at this

theorem expands_comp {N : ℕ} {f g : ℝ → ℝ} {P Q R : MvPolynomial ℕ ℝ} (hf : ContDiffAt ℝ N f (P.coeff 0)) (hg : ContDiffAt ℝ N g (Q.coeff 0)) (h1 : Expands N f P Q)
    (h2 : Expands N g Q R) : Expands N (fun x => g (f x)) P R := by
  intro v k hk
  rw [h2 v k hk]
  refine comp_inner (f := g) (p := fun s => MvPolynomial.eval (fun i => s * v i) Q) (q := fun s => f (MvPolynomial.eval (fun i => s * v i) P)) ?_ ?_ ?_ (fun j hj => h1 v j hj) hk
  · rw [eval_at_zero]; exact hg
  · exact (eval_contDiff v Q N).contDiffAt
  · refine ContDiffAt.comp (0 : ℝ) (g := f) ?_ (eval_contDiff v P N).contDiffAt
    rw [eval_at_zero]; exact hf

theorem mul_congr {N : ℕ} {f f' g g' : ℝ → ℝ} {x : ℝ} (hf : ContDiffAt ℝ N f x) (hf' : ContDiffAt ℝ N f' x) (hg : ContDiffAt ℝ N g x) (hg' : ContDiffAt ℝ N g' x)
    (h1 : ∀ k ≤ N, iteratedDeriv k f x = iteratedDeriv k f' x) (h2 : ∀ k ≤ N, iteratedDeriv k g x = iteratedDeriv k g' x) {k : ℕ} (hk : k ≤ N) :
    iteratedDeriv k (f * g) x = iteratedDeriv k (f' * g') x := by
  have hk' : (k : WithTop ℕ∞) ≤ (N : WithTop ℕ∞) := by exact_mod_cast hk
  rw [iteratedDeriv_mul (hf.of_le hk') (hg.of_le hk'), iteratedDeriv_mul (hf'.of_le hk') (hg'.of_le hk')]
  refine Finset.sum_congr rfl fun i hi => ?_
  rw [Finset.mem_range] at hi
  rw [h1 i (by omega), h2 (k - i) (by omega)]

theorem expands_mul {N : ℕ} {f g : ℝ → ℝ} {P Q R : MvPolynomial ℕ ℝ} (hf : ContDiffAt ℝ N f (P.coeff 0)) (hg : ContDiffAt ℝ N g (P.coeff 0)) (h1 : Expands N f P Q)
    (h2 : Expands N g P R) : Expands N (fun x => f x * g x) P (Q * R) := by
  intro v k hk
  have hc : ∀ {f : ℝ → ℝ}, ContDiffAt ℝ N f (P.coeff 0) → ContDiffAt ℝ N (fun s : ℝ => f (MvPolynomial.eval (fun i => s * v i) P)) 0 := fun {f} hf => by
    refine ContDiffAt.comp (0 : ℝ) (g := f) ?_ (eval_contDiff v P N).contDiffAt
    rw [eval_at_zero]; exact hf
  have := mul_congr (eval_contDiff v Q N).contDiffAt (hc hf) (eval_contDiff v R N).contDiffAt (hc hg) (h1 v) (h2 v) hk
  simp only [map_mul]
  exact this

/-- A quotient is determined by its product with the divisor. -/
theorem expands_div {N : ℕ} {f g : ℝ → ℝ} {P Q F G : MvPolynomial ℕ ℝ} (hf : ContDiffAt ℝ N f (P.coeff 0)) (hg : ContDiffAt ℝ N g (P.coeff 0)) (h0 : g (P.coeff 0) ≠ 0)
    (h1 : Expands N f P F) (h2 : Expands N g P G) (h : SameTo N (Q * G) F) : Expands N (fun x => f x / g x) P Q := by
  intro v k hk
  have hc : ∀ {f : ℝ → ℝ}, ContDiffAt ℝ N f (P.coeff 0) → ContDiffAt ℝ N (fun s : ℝ => f (MvPolynomial.eval (fun i => s * v i) P)) 0 := fun {f} hf => by
    refine ContDiffAt.comp (0 : ℝ) (g := f) ?_ (eval_contDiff v P N).contDiffAt
    rw [eval_at_zero]; exact hf
  set q := fun s : ℝ => MvPolynomial.eval (fun i => s * v i) Q with hq
  set w := fun s : ℝ => f (MvPolynomial.eval (fun i => s * v i) P) / g (MvPolynomial.eval (fun i => s * v i) P) with hw
  set γ := fun s : ℝ => g (MvPolynomial.eval (fun i => s * v i) P) with hγ
  have γ0 : γ 0 ≠ 0 := by rw [hγ]; dsimp only; rw [eval_at_zero]; exact h0
  have cq : ContDiffAt ℝ N q 0 := (eval_contDiff v Q N).contDiffAt
  have cw : ContDiffAt ℝ N w 0 := hc (f := fun x => f x / g x) (hf.div hg h0)
  have cγ : ContDiffAt ℝ N γ 0 := hc hg
  have e : ∀ k ≤ N, iteratedDeriv k (q * γ) 0 = iteratedDeriv k (w * γ) 0 := fun k hk => by
    have a1 := mul_congr cq cq cγ (eval_contDiff v G N).contDiffAt (fun _ _ => rfl) (fun j hj => (h2 v j hj).symm) hk
    have a2 : iteratedDeriv k (w * γ) 0 = iteratedDeriv k (fun s : ℝ => f (MvPolynomial.eval (fun i => s * v i) P)) 0 := by
      refine Filter.EventuallyEq.iteratedDeriv_eq k ?_
      have := cγ.continuousAt.eventually_ne γ0
      filter_upwards [this] with s hs
      exact div_mul_cancel₀ _ hs
    rw [a1, a2, ← h1 v k hk, ← expands_same (P := P) (Q := Q * G) (R := F) h1 h v k hk |>.trans (h1 v k hk).symm]
    simp only [map_mul]; rfl
  induction k using Nat.strong_induction_on with
  | _ k ih =>
    have hk' : (k : WithTop ℕ∞) ≤ (N : WithTop ℕ∞) := by exact_mod_cast hk
    have := e k hk
    rw [iteratedDeriv_mul (cq.of_le hk') (cγ.of_le hk'), iteratedDeriv_mul (cw.of_le hk') (cγ.of_le hk'), Finset.sum_range_succ, Finset.sum_range_succ,
      Finset.sum_congr rfl fun i hi => by rw [ih i (Finset.mem_range.1 hi) (by have := Finset.mem_range.1 hi; omega)], Nat.choose_self, Nat.sub_self, iteratedDeriv_zero] at this
    have := add_left_cancel this
    simpa [γ0] using this

end XCFun.Tay
