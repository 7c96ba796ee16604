/-
C69: evaluation, derivatives, factorials, multiples of one term and contraction of polynomials in several variables (polymul.hpp).
-/
import Verif.Props.Polymul
import Verif.Proofs.PolymulDiff

namespace XCFun.Props
open XCFun Spec Polymul MvPolynomial Finset

theorem terms_get (n N i : ℕ) : (terms n N)[i]? = if i < L n N then some (term n i) else none := by
  rw [terms_eq, List.getElem?_map]
  split
  · rename_i h; rw [List.getElem?_range h]; rfl
  · rename_i h; rw [List.getElem?_eq_none (by simpa using h)]; rfl

section
variable {V : Type} [CommSemiring V]

/-- Points at which polynomials are evaluated. -/
def pointOf (x : List V) : ℕ → V := fun i => x.getD i 0

theorem eval_power {n : ℕ} (i : ℕ) {x : List V} (h : n ≤ x.length) : MvPolynomial.eval (pointOf x) (power (term n i)) = evp x (term n i) := by
  rw [power, map_prod, evp_eq (by rw [term_length]; exact h)]
  simp only [map_pow, MvPolynomial.eval_X, pointOf]

/-! ## Evaluation -/

/-- **C69, evaluation.** Any number of variables, any degree: `polynomial::eval` returns the value of the polynomial. -/
theorem C69_eval (n N : ℕ) (p x : List V) (hp : (terms (n + 1) N).length ≤ p.length) (hx : n + 1 ≤ x.length) :
    Polymul.eval p x (n + 1) N = .ok (MvPolynomial.eval (pointOf x) (polyOf (n + 1) N p)) := by
  rw [terms_length] at hp
  exact eval_run n N hp hx

/-- **C69, evaluation of all terms.** `polyterms` writes the values of all power products. -/
theorem C69_terms (n N : ℕ) (p x : List V) (hp : (terms (n + 1) N).length ≤ p.length) (hx : n + 1 ≤ x.length) :
    evalTerms x (n + 1) N p = .ok ((terms (n + 1) N).map (fun e => MvPolynomial.eval (pointOf x) (power e)) ++ p.drop (terms (n + 1) N).length) := by
  rw [terms_length] at *
  obtain ⟨out, e1, e2, e3⟩ := evalTerms_run n N hp hx
  rw [e1]; congr 1
  rw [terms_eq, List.map_map]
  refine List.ext_getElem (by simp; omega) fun i h1 h2 => ?_
  have := e3 i
  rw [at', List.getD_eq_getElem?_getD, List.getElem?_eq_getElem h1, Option.getD_some] at this
  rw [this]
  split
  · rename_i hi
    rw [List.getElem_append_left (by simpa using hi)]
    simp [eval_power _ hx]
  · rename_i hi
    rw [List.getElem_append_right (by simpa using hi), List.getElem_drop]
    simp only [List.length_map, List.length_range, at', List.getD_eq_getElem?_getD]
    rw [List.getElem?_eq_getElem (by omega), Option.getD_some]
    congr 1; omega

/-! ## Derivatives -/

/-- **C69, derivative.** `polynomial::diff` by any of the variables, any degree of the source: the destination, of one degree less, gets the coefficients of the
partial derivative. -/
theorem C69_diff (n N var : ℕ) (hv : var ≤ n) (src dst : List V) (hs : (terms (n + 1) (N + 1)).length ≤ src.length) (h : (terms (n + 1) N).length ≤ dst.length) :
    ∃ out, diff src (n + 1) var 0 0 (N + 1) dst = .ok out ∧ polyOf (n + 1) N out = pderiv var (polyOf (n + 1) (N + 1) src) ∧
      out.length = dst.length ∧ out.drop (terms (n + 1) N).length = dst.drop (terms (n + 1) N).length := by
  simp only [terms_length] at *
  have hp := L_pos (n + 1) N
  have hst : st (n + 1) (N + 1) = L (n + 1) N := rfl
  obtain ⟨out, e1, e2⟩ := diff_run n var 0 0 (N + 1) hv (src := src) (dst := dst) (by omega) (by omega) (by omega)
  have hl := e2.len
  refine ⟨out, e1, ?_, hl, drop_eq hl fun i hi => e2.frame i (by omega)⟩
  have hfs : ∀ {s d : ℕ}, term (n + 1) s = (term (n + 1) d).modify var (· + 1) → fs (term (n + 1) s) = fs (term (n + 1) d) + Finsupp.single var 1 := by
    intro s d h
    ext j
    rw [h, Finsupp.add_apply, fs_apply, fs_apply, List.getD_eq_getElem?_getD, List.getElem?_modify, List.getD_eq_getElem?_getD]
    by_cases hj : var = j
    · subst hj
      rw [Finsupp.single_eq_same, List.getElem?_eq_getElem (by rw [term_length]; omega)]
      simp
    · rw [Finsupp.single_eq_of_ne (Ne.symm hj)]
      simp [hj]
  ext m
  rw [coeff_pderiv]
  by_cases hm : ∃ d, d < L (n + 1) N ∧ fs (term (n + 1) d) = m
  · obtain ⟨d, hd, rfl⟩ := hm
    obtain ⟨s, s1, s2, s3⟩ := e2.entry d (by omega)
    rw [Nat.zero_add, Nat.zero_add] at s3
    rw [coeff_term (by omega) hd, s3, ← hfs s2, coeff_term hs s1, fs_apply, mul_comm]
    push_cast; rfl
  · rw [coeff_other (by omega) (fun i hi e => hm ⟨i, hi, e⟩)]
    rw [coeff_other hs, zero_mul]
    intro i hi e
    apply hm
    -- the exponents with one removed
    obtain ⟨d, hd⟩ := term_surj (n := n) (e := (term (n + 1) i).modify var (· - 1)) (by rw [List.length_modify, term_length])
    have hi1 : (term (n + 1) i).getD var 0 ≠ 0 := by
      rw [← fs_apply, e, Finsupp.add_apply, Finsupp.single_eq_same]; omega
    have hdm : fs (term (n + 1) d) = m := by
      ext j
      have hj := DFunLike.congr_fun e j
      rw [Finsupp.add_apply, fs_apply] at hj
      rw [fs_apply, hd, List.getD_eq_getElem?_getD, List.getElem?_modify]
      rw [List.getD_eq_getElem?_getD] at hj
      by_cases hv' : var = j
      · subst hv'
        rw [List.getElem?_eq_getElem (by rw [term_length]; omega)] at hj ⊢
        rw [Finsupp.single_eq_same] at hj
        simp at hj ⊢; omega
      · rw [Finsupp.single_eq_of_ne (Ne.symm hv'), add_zero] at hj
        simpa [hv'] using hj
    refine ⟨d, lt_iff.2 ?_, hdm⟩
    have := congrArg Finsupp.degree e
    rw [map_add, Finsupp.degree_single, fs_degree] at this
    have := lt_iff.1 hi
    rw [← fs_degree, hdm]; omega

/-- **C69, factorials.** `polydfac` turns Taylor coefficients into derivatives: each coefficient is multiplied by the factorials of its exponents. -/
theorem C69_dfac (n N : ℕ) (c : List V) (h : (terms (n + 1) N).length ≤ c.length) :
    polydfac (n + 1) N c = .ok ((terms (n + 1) N).zipWith (fun e (a : V) => a * (((e.map Nat.factorial).prod : ℕ) : V)) c ++ c.drop (terms (n + 1) N).length) := by
  simp only [terms_length] at *
  obtain ⟨out, e1, e2, e3⟩ := polydfac_run h
  rw [e1]; congr 1
  rw [terms_eq]
  refine List.ext_getElem (by simp; omega) fun i h1 h2 => ?_
  have := e3 i
  rw [at', List.getD_eq_getElem?_getD, List.getElem?_eq_getElem h1, Option.getD_some] at this
  rw [this, at', List.getD_eq_getElem?_getD, List.getElem?_eq_getElem (by omega), Option.getD_some]
  split
  · rename_i hi
    rw [List.getElem_append_left (by simp; omega)]
    simp
  · rename_i hi
    rw [List.getElem_append_right (by simp; omega), List.getElem_drop]
    simp only [List.length_zipWith, List.length_map, List.length_range]
    congr 1; omega

theorem coeff_iter_pderiv (v k : ℕ) (p : MvPolynomial ℕ V) (m : ℕ →₀ ℕ) (hm : m v = 0) :
    ((pderiv v)^[k] p).coeff m = p.coeff (m + Finsupp.single v k) * (k.factorial : V) := by
  have : ∀ (k : ℕ) (m : ℕ →₀ ℕ), ((pderiv v)^[k] p).coeff m = p.coeff (m + Finsupp.single v k) * ((m v + 1).ascFactorial k : V) := by
    intro k
    induction k with
    | zero => intro m; simp
    | succ k ih =>
      intro m
      rw [Function.iterate_succ_apply', coeff_pderiv, ih, add_assoc, ← Finsupp.single_add, Finsupp.add_apply, Finsupp.single_eq_same, add_comm 1 k, Nat.ascFactorial_succ]
      have h2 : (m v + 1) * (m v + 1 + 1).ascFactorial k = (m v + 1 + k) * (m v + 1).ascFactorial k := Nat.succ_ascFactorial (m v + 1) k
      rw [← h2]
      push_cast; ring
  rw [this, hm, Nat.zero_add, Nat.one_ascFactorial]

theorem coeff_fold_pderiv (e : List ℕ) (p : MvPolynomial ℕ V) (k : ℕ) (m : ℕ →₀ ℕ) (hm : ∀ v < k, m v = 0) :
    ((List.range k).foldl (fun p v => (pderiv v)^[e.getD v 0] p) p).coeff m =
      p.coeff (m + ∑ v ∈ range k, Finsupp.single v (e.getD v 0)) * ((∏ v ∈ range k, (e.getD v 0).factorial : ℕ) : V) := by
  induction k generalizing m with
  | zero => simp
  | succ k ih =>
    rw [List.range_succ, List.foldl_append, List.foldl_cons, List.foldl_nil]
    rw [coeff_iter_pderiv _ _ _ _ (hm k (by omega)), ih _ (fun v hv => by
        rw [Finsupp.add_apply, hm v (by omega), Finsupp.single_eq_of_ne (by omega), add_zero]), Finset.sum_range_succ, Finset.prod_range_succ]
    rw [show m + Finsupp.single k (e.getD k 0) + ∑ v ∈ range k, Finsupp.single v (e.getD v 0) = m + (∑ v ∈ range k, Finsupp.single v (e.getD v 0) + Finsupp.single k (e.getD k 0)) by
        abel]
    push_cast; ring

/-- **C69, factorials are derivatives.** After `polydfac` every entry is the corresponding partial derivative of the polynomial at 0. -/
theorem C69_dfac_derivative (n N : ℕ) (c : List V) (h : (terms (n + 1) N).length ≤ c.length) {i : ℕ} {e : List ℕ} (he : (terms (n + 1) N)[i]? = some e) :
    ∃ out, polydfac (n + 1) N c = .ok out ∧
      out.getD i 0 = MvPolynomial.eval 0 (((List.range (n + 1)).foldl (fun p v => (pderiv v)^[e.getD v 0] p) (polyOf (n + 1) N c))) := by
  rw [terms_length] at h
  rw [terms_get] at he
  split at he
  · rename_i hi
    cases he
    obtain ⟨out, e1, e2, e3⟩ := polydfac_run h
    refine ⟨out, e1, ?_⟩
    have := e3 i
    rw [if_pos hi] at this
    rw [MvPolynomial.eval_zero, constantCoeff_eq, coeff_fold_pderiv _ _ _ _ (fun _ _ => rfl), zero_add]
    have hfs : ∑ v ∈ range (n + 1), Finsupp.single v ((term (n + 1) i).getD v 0) = fs (term (n + 1) i) := by rw [fs, term_length]
    have hpr : ∏ v ∈ range (n + 1), ((term (n + 1) i).getD v 0).factorial = ((term (n + 1) i).map Nat.factorial).prod := by
      have hl := term_length (n + 1) i
      generalize term (n + 1) i = l at hl
      rw [← hl]; clear hl
      induction l with
      | nil => rfl
      | cons a l ih => rw [List.length_cons, Finset.prod_range_succ', List.map_cons, List.prod_cons, ← ih]; simp [mul_comm]
    rw [hfs, hpr, coeff_term h hi]
    exact this
  · cases he

/-! ## Multiples of one term, contraction -/

/-- **C69, product with one term.** `polymul_term<r>(dst, p, c)` adds `c` times the power product number `r` times the polynomial. -/
theorem C69_term (n N K r : ℕ) (dst p : List V) (c : V) (e : List ℕ) (he : (terms (n + 1) K)[r]? = some e) (hp : (terms (n + 1) N).length ≤ p.length)
    (h : (terms (n + 1) (N + e.sum)).length ≤ dst.length) :
    ∃ out, polymulTerm (n + 1) N r dst p c = .ok out ∧ out.length = dst.length ∧
      polyOf (n + 1) (N + e.sum) out = polyOf (n + 1) (N + e.sum) dst + C c * power e * polyOf (n + 1) N p := by
  simp only [terms_length] at *
  rw [terms_get] at he
  split at he
  · cases he
    exact polymulTerm_run c hp h
  · cases he

/-- **C69, contraction.** `polycontract(p1, p2, p3)` writes the vector `v` with `⟨P, v⟩ = ⟨P p2, p3⟩` for every polynomial `P`: contraction with `p3` is the adjoint of
multiplication by `p2`. -/
theorem C69_contract (n N1 N2 : ℕ) (p1 p2 p3 : List V) (h1 : (terms (n + 1) N1).length ≤ p1.length) (h2 : (terms (n + 1) N2).length ≤ p2.length)
    (h3 : (terms (n + 1) (N1 + N2)).length ≤ p3.length) :
    ∃ out, polycontract (n + 1) N1 N2 p1 p2 p3 = .ok out ∧ out.length = p1.length ∧
      ∀ P q : List V, P.length = (terms (n + 1) N1).length → q.length = (terms (n + 1) (N1 + N2)).length →
        polyOf (n + 1) (N1 + N2) q = polyOf (n + 1) N1 P * polyOf (n + 1) N2 p2 → (P.zipWith (· * ·) out).sum = (q.zipWith (· * ·) p3).sum := by
  simp only [terms_length] at *
  have hz : ∀ {k : ℕ} {a b : List V}, a.length = k → k ≤ b.length → (a.zipWith (· * ·) b).sum = dot k a b := by
    intro k a b ha hb
    rw [dot, ← sum_range_map]
    congr 1
    refine List.ext_getElem (by simp; omega) fun i h1 h2 => ?_
    simp only [List.length_map, List.length_range] at h2
    simp [at', List.getD_eq_getElem?_getD, show i < a.length by omega, show i < b.length by omega]
  obtain ⟨out, e1, e2, e3⟩ := polycontract_run h1 h2 h3
  refine ⟨out, e1, e2, fun P q hP hq hpq => ?_⟩
  rw [hz hP (by omega), hz hq h3]
  exact e3 P q (by omega) (by omega) hpq

end

/-! ## Cases -/

/-- The example of unittest_taylor.cpp: `1 + 2x + 3y + 4x² + 5xy + 6y²` at (3, 7.1) is 473.26. -/
example : Polymul.eval [(1 : ℚ), 2, 3, 4, 5, 6] [3, 71 / 10] 2 2 = .ok (47326 / 100) := by
  rw [C69_eval 1 2 _ _ (by rw [terms_length]; decide) (by decide)]
  have : terms 2 2 = [[0, 0], [1, 0], [0, 1], [2, 0], [1, 1], [0, 2]] := by simp [terms, List.range_succ, multisets, Spec.exponents]
  rw [polyOf, this]
  simp [power, Finset.prod_range_succ, pointOf]; norm_num

/-- Terms of degree 3 at (2, 3). -/
example : evalTerms [(2 : ℤ), 3] 2 3 (List.replicate 10 0) = .ok [1, 2, 3, 4, 6, 9, 8, 12, 18, 27] := by rfl

/-- `∂/∂y` and `∂/∂x` of `1 + 2x + 3y + 4x² + 5xy + 6y²` -/
example : diff [(1 : ℤ), 2, 3, 4, 5, 6] 2 1 0 0 2 [0, 0, 0] = .ok [3, 5, 12] ∧ diff [(1 : ℤ), 2, 3, 4, 5, 6] 2 0 0 0 2 [0, 0, 0] = .ok [2, 8, 5] := by
  constructor
  · simp only [diff]; rfl
  · simp only [diff]; rfl

/-- `2xy` times `1 + 3x`, added to zero. -/
example : polymulTerm 2 1 4 (List.replicate 10 0) [(1 : ℤ), 3, 0] 2 = .ok [0, 0, 0, 0, 2, 0, 0, 6, 0, 0] := by rfl

/-- Contraction of `(1, 2, 3, 4)` by `1 + 5x`: the adjoint of `a + bx + cx² ↦ a + (b + 5a)x + …` -/
example : polycontract 1 2 1 [(9 : ℤ), 9, 9] [1, 5] [1, 2, 3, 4] = .ok [11, 17, 23] := by rfl

/-- The factorials up to order 3 in two variables: `x³` gets 6, `x²y` gets 2. -/
example : ∃ out, polydfac 2 3 (List.replicate 10 (1 : ℤ)) = .ok out ∧ out = [1, 1, 1, 2, 1, 2, 6, 2, 2, 6] := by
  refine ⟨_, C69_dfac 1 3 _ (by rw [terms_length]; decide), ?_⟩
  rw [terms_length]
  simp [terms, List.range_succ, multisets, Spec.exponents, L, Nat.choose]
  decide

end XCFun.Props
