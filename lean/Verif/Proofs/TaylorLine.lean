/-
Polynomials along lines, and composition of Taylor expansions.
-/
import Verif.Proofs.PolymulCompose
import Verif.Proofs.Taylor
import Verif.Spec.TaylorPoly
import Mathlib.Algebra.MvPolynomial.Eval
import Mathlib.Analysis.Calculus.Deriv.Polynomial
import Mathlib.Analysis.Calculus.IteratedDeriv.FaaDiBruno
import Mathlib.Analysis.Calculus.ContDiff.Polynomial

namespace XCFun.Tay
open XCFun Spec Polymul
open scoped Nat

/-! ### Along a line -/

/-- The polynomial in one variable along a line. -/
noncomputable def line (v : ℕ → ℝ) : MvPolynomial ℕ ℝ →ₐ[ℝ] Polynomial ℝ := MvPolynomial.aeval fun i => Polynomial.C (v i) * Polynomial.X

theorem eval_line (v : ℕ → ℝ) (p : MvPolynomial ℕ ℝ) (s : ℝ) : MvPolynomial.eval (fun i => s * v i) p = (line v p).eval s := by
  induction p using MvPolynomial.induction_on with
  | C a => simp [line]
  | add p q hp hq => rw [map_add, map_add, Polynomial.eval_add, hp, hq]
  | mul_X p i hp =>
    rw [map_mul, map_mul, Polynomial.eval_mul, hp, MvPolynomial.eval_X]
    simp only [line, MvPolynomial.aeval_X, Polynomial.eval_mul, Polynomial.eval_C, Polynomial.eval_X]
    rw [mul_comm s]

theorem line_monomial (v : ℕ → ℝ) (m : ℕ →₀ ℕ) (a : ℝ) :
    line v (MvPolynomial.monomial m a) = Polynomial.C (a * m.prod fun i k => v i ^ k) * Polynomial.X ^ m.degree := by
  rw [line, MvPolynomial.aeval_monomial, Finsupp.degree, Polynomial.C_mul, mul_assoc]
  congr 1
  simp only [Finsupp.prod, mul_pow, Finset.prod_mul_distrib, map_prod, map_pow]
  rw [Finset.prod_pow_eq_pow_sum]
  rfl

theorem line_coeff_zero {N : ℕ} {r : MvPolynomial ℕ ℝ} (h : ∀ m : ℕ →₀ ℕ, m.degree ≤ N → r.coeff m = 0) (v : ℕ → ℝ) {k : ℕ} (hk : k ≤ N) : (line v r).coeff k = 0 := by
  conv_lhs => rw [r.as_sum]
  rw [map_sum, Polynomial.finsetSum_coeff]
  refine Finset.sum_eq_zero fun m hm => ?_
  rw [line_monomial, Polynomial.coeff_C_mul, Polynomial.coeff_X_pow, if_neg, mul_zero]
  intro e
  exact (MvPolynomial.mem_support_iff.1 hm) (h m (by omega))

theorem line_same {N : ℕ} {p q : MvPolynomial ℕ ℝ} (h : SameTo N p q) (v : ℕ → ℝ) {k : ℕ} (hk : k ≤ N) : (line v p).coeff k = (line v q).coeff k := by
  have := line_coeff_zero (r := p - q) (N := N) (fun m hm => by rw [MvPolynomial.coeff_sub, h m hm, sub_self]) v hk
  rw [map_sub, Polynomial.coeff_sub] at this
  linarith

theorem line_zero (v : ℕ → ℝ) (p : MvPolynomial ℕ ℝ) : (line v p).coeff 0 = p.coeff 0 := by
  rw [Polynomial.coeff_zero_eq_eval_zero, ← eval_line]
  simp only [zero_mul]
  exact congrArg (fun f => f p) MvPolynomial.eval_zero

/-! ### Derivatives of polynomials -/

theorem iteratedDeriv_poly (p : Polynomial ℝ) (k : ℕ) : iteratedDeriv k (fun s => p.eval s) = fun s => (Polynomial.derivative^[k] p).eval s := by
  induction k with
  | zero => simp
  | succ k ih =>
    rw [iteratedDeriv_succ, ih, Function.iterate_succ_apply']
    funext s
    exact (Polynomial.derivative^[k] p).deriv

theorem iteratedDeriv_poly_zero (p : Polynomial ℝ) (k : ℕ) : iteratedDeriv k (fun s => p.eval s) 0 = k ! * p.coeff k := by
  rw [iteratedDeriv_poly]
  show Polynomial.eval 0 _ = _
  rw [← Polynomial.coeff_zero_eq_eval_zero, Polynomial.coeff_iterate_derivative, zero_add, Nat.descFactorial_self, nsmul_eq_mul]

theorem poly_contDiff (p : Polynomial ℝ) (N : ℕ) : ContDiff ℝ N (fun s => p.eval s) := by
  simp only [Polynomial.eval_eq_sum_range]
  fun_prop

/-! ### Composition -/

/-- Functions with the same derivatives at a point, composed with the same function, have the same derivatives. -/
theorem comp_congr {N : ℕ} {f g p : ℝ → ℝ} {x : ℝ} (hf : ContDiffAt ℝ N f (p x)) (hg : ContDiffAt ℝ N g (p x)) (hp : ContDiffAt ℝ N p x)
    (h : ∀ k ≤ N, iteratedDeriv k f (p x) = iteratedDeriv k g (p x)) {k : ℕ} (hk : k ≤ N) :
    iteratedDeriv k (fun s => f (p s)) x = iteratedDeriv k (fun s => g (p s)) x := by
  have hk' : (k : WithTop ℕ∞) ≤ (N : WithTop ℕ∞) := by exact_mod_cast hk
  have e1 := iteratedDeriv_comp_eq_sum_orderedFinpartition hf hp hk'
  have e2 := iteratedDeriv_comp_eq_sum_orderedFinpartition hg hp hk'
  refine e1.trans (Eq.trans ?_ e2.symm)
  exact Finset.sum_congr rfl fun c _ => by rw [h _ (c.length_le.trans hk)]

/-- The polynomial with Taylor coefficients `c` at `x`. -/
noncomputable def taylorPoly (c : ℕ → ℝ) (N : ℕ) : Polynomial ℝ := ∑ j ∈ Finset.range (N + 1), Polynomial.C (c j) * Polynomial.X ^ j

theorem taylorPoly_coeff (c : ℕ → ℝ) {N k : ℕ} (hk : k ≤ N) : (taylorPoly c N).coeff k = c k := by
  rw [taylorPoly, Polynomial.finsetSum_coeff, Finset.sum_eq_single_of_mem k (Finset.mem_range.2 (by omega))]
  · simp
  · intro j _ hj; rw [Polynomial.coeff_C_mul, Polynomial.coeff_X_pow, if_neg (Ne.symm hj), mul_zero]

/-- `∑ c_j (P - P_0)^j` -/
noncomputable def compSum (c : ℕ → ℝ) (N : ℕ) (P : MvPolynomial ℕ ℝ) : MvPolynomial ℕ ℝ :=
  ∑ j ∈ Finset.range (N + 1), MvPolynomial.C (c j) * (P - MvPolynomial.C (P.coeff 0)) ^ j

theorem compSum_expands {f : ℝ → ℝ} {N : ℕ} {c : ℕ → ℝ} {P : MvPolynomial ℕ ℝ} (hf : ContDiffAt ℝ N f (P.coeff 0)) (hc : IsTaylor f (P.coeff 0) N c) :
    Expands N f P (compSum c N P) := by
  intro v k hk
  set a := P.coeff 0 with ha
  set p := line v P with hp
  have hp0 : p.eval 0 = a := by rw [← Polynomial.coeff_zero_eq_eval_zero, hp, line_zero]
  have e1 : (fun s => MvPolynomial.eval (fun i => s * v i) (compSum c N P)) = fun s => (fun y => (taylorPoly c N).eval (y - a)) (p.eval s) := by
    funext s
    show _ = Polynomial.eval (p.eval s - a) (taylorPoly c N)
    rw [compSum, map_sum, taylorPoly, Polynomial.eval_finsetSum]
    refine Finset.sum_congr rfl fun j _ => ?_
    simp [eval_line, ← hp, ← ha]
  have e2 : (fun s => f (MvPolynomial.eval (fun i => s * v i) P)) = fun s => f (p.eval s) := by
    funext s; rw [eval_line]
  rw [e1, e2]
  have hT : ContDiff ℝ N (fun y => (taylorPoly c N).eval (y - a)) := (poly_contDiff (taylorPoly c N) N).comp (contDiff_id.sub contDiff_const)
  refine comp_congr (p := fun s => p.eval s) (hT.contDiffAt) (by rw [hp0]; exact hf) ((poly_contDiff p N).contDiffAt) (fun k hk => ?_) hk
  rw [hp0, iteratedDeriv_comp_sub_const (f := fun y => (taylorPoly c N).eval y)]
  simp only [sub_self]
  rw [iteratedDeriv_poly_zero, taylorPoly_coeff c hk, hc k hk]
  have : (k ! : ℝ) ≠ 0 := by exact_mod_cast k.factorial_ne_zero
  field_simp

theorem expands_same {N : ℕ} {f : ℝ → ℝ} {P Q R : MvPolynomial ℕ ℝ} (h : Expands N f P R) (hs : SameTo N Q R) : Expands N f P Q := by
  intro v k hk
  rw [← h v k hk]
  simp only [eval_line, iteratedDeriv_poly_zero]
  rw [line_same hs v hk]

/-- The argument matters to order `N` only. -/
theorem compSum_same {N : ℕ} (c : ℕ → ℝ) {P Q : MvPolynomial ℕ ℝ} (h : SameTo N P Q) : SameTo N (compSum c N P) (compSum c N Q) := by
  have h0 : P.coeff 0 = Q.coeff 0 := h 0 (by simp)
  rw [compSum, compSum, h0]
  have hs : SameTo N (P - MvPolynomial.C (Q.coeff 0)) (Q - MvPolynomial.C (Q.coeff 0)) := fun m hm => by
    rw [MvPolynomial.coeff_sub, MvPolynomial.coeff_sub, h m hm]
  have hpow : ∀ j, SameTo N ((P - MvPolynomial.C (Q.coeff 0)) ^ j) ((Q - MvPolynomial.C (Q.coeff 0)) ^ j) := by
    intro j
    induction j with
    | zero => rw [pow_zero, pow_zero]; exact SameTo.refl _ _
    | succ j ih => rw [pow_succ, pow_succ]; exact ih.mul hs
  intro m hm
  rw [MvPolynomial.coeff_sum, MvPolynomial.coeff_sum]
  exact Finset.sum_congr rfl fun j _ => (SameTo.refl N _).mul (hpow j) m hm

/-! ### One variable -/

/-- Coefficient of `x^k`. -/
noncomputable def uni (p : MvPolynomial ℕ ℝ) (k : ℕ) : ℝ := p.coeff (Finsupp.single 0 k)

theorem fs_single (k : ℕ) : fs [k] = Finsupp.single 0 k := by
  rw [fs]; simp

theorem uni_polyOf {N : ℕ} {c : List ℝ} (h : N + 1 ≤ c.length) {k : ℕ} (hk : k ≤ N) : uni (polyOf 1 N c) k = at' c k := by
  rw [uni, ← fs_single, ← term_one]
  exact coeff_term (n := 0) (by rw [L_one]; omega) (by rw [L_one]; omega)

theorem uni_same {N : ℕ} {p q : MvPolynomial ℕ ℝ} (h : SameTo N p q) {k : ℕ} (hk : k ≤ N) : uni p k = uni q k :=
  h _ (by rw [Finsupp.degree_single]; exact hk)

theorem uni_mul (p q : MvPolynomial ℕ ℝ) (k : ℕ) : uni (p * q) k = ∑ j ∈ Finset.range (k + 1), uni p j * uni q (k - j) := by
  rw [uni, MvPolynomial.coeff_mul, Finsupp.antidiagonal_single, Finset.sum_map, ← Finset.Nat.sum_antidiagonal_eq_sum_range_succ fun i j => uni p i * uni q j]
  rfl

/-- A polynomial in one variable along the axis. -/
theorem line_uni {N : ℕ} {c : List ℝ} (h : N + 1 ≤ c.length) {k : ℕ} (hk : k ≤ N) : (line (fun _ => 1) (polyOf 1 N c)).coeff k = at' c k := by
  rw [polyOf_eq (by rw [L_one]; omega), map_sum, Polynomial.finsetSum_coeff, Finset.sum_eq_single_of_mem k (by rw [L_one, Finset.mem_range]; omega)]
  · rw [term_one, fs_single, line_monomial]; simp
  · intro j _ hj
    rw [term_one, fs_single, line_monomial]
    simp [Polynomial.coeff_X_pow, Ne.symm hj]

/-- What an expansion in one variable says about the coefficients. -/
theorem expands_coeff {N : ℕ} {f : ℝ → ℝ} {P : MvPolynomial ℕ ℝ} {c : List ℝ} (h : N + 1 ≤ c.length) (he : Expands N f P (polyOf 1 N c)) :
    IsTaylor (fun s => f (MvPolynomial.eval (fun _ => s) P)) 0 N (at' c) := by
  intro k hk
  have := he (fun _ => 1) k hk
  simp only [mul_one] at this
  rw [← this]
  have e : (fun s : ℝ => MvPolynomial.eval (fun _ => s) (polyOf 1 N c)) = fun s => (line (fun _ => 1) (polyOf 1 N c)).eval s := by
    funext s; rw [← eval_line]; simp
  rw [e, iteratedDeriv_poly_zero, line_uni h hk]
  have : (k ! : ℝ) ≠ 0 := by exact_mod_cast k.factorial_ne_zero
  field_simp

end XCFun.Tay
