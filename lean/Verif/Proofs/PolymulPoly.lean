/-
Arrays of coefficients as polynomials.
-/
import Verif.Proofs.PolymulInplace
import Verif.Spec.Polymul

namespace XCFun.Polymul
open XCFun Spec Finset MvPolynomial

/-- Exponents as a finitely supported function. -/
noncomputable def fs (e : List ℕ) : ℕ →₀ ℕ := ∑ i ∈ range e.length, Finsupp.single i (e.getD i 0)

theorem fs_apply (e : List ℕ) (j : ℕ) : fs e j = e.getD j 0 := by
  rw [fs, Finsupp.finsetSum_apply]
  by_cases h : j < e.length
  · rw [Finset.sum_eq_single_of_mem j (Finset.mem_range.2 h), Finsupp.single_eq_same]
    intro i _ hi
    exact Finsupp.single_eq_of_ne hi.symm
  · rw [List.getD_eq_getElem?_getD, List.getElem?_eq_none (by omega)]
    refine Finset.sum_eq_zero fun i hi => Finsupp.single_eq_of_ne ?_
    rw [Finset.mem_range] at hi; omega

theorem fs_degree (e : List ℕ) : (fs e).degree = e.sum := by
  rw [fs, map_sum]
  simp only [Finsupp.degree_single]
  induction e with
  | nil => rfl
  | cons x e ih => rw [List.length_cons, Finset.sum_range_succ', List.sum_cons, ← ih]; simp [add_comm]

theorem fs_zip {n : ℕ} {e f : List ℕ} (he : e.length = n) (hf : f.length = n) : fs (List.zipWith (· + ·) e f) = fs e + fs f := by
  ext j
  rw [Finsupp.add_apply, fs_apply, fs_apply, fs_apply]
  simp only [List.getD_eq_getElem?_getD, List.getElem?_zipWith]
  by_cases h : j < n
  · rw [List.getElem?_eq_getElem (by omega), List.getElem?_eq_getElem (by omega)]; rfl
  · rw [List.getElem?_eq_none (by omega), List.getElem?_eq_none (by omega)]; rfl

theorem fs_inj {n : ℕ} {e f : List ℕ} (he : e.length = n) (hf : f.length = n) (h : fs e = fs f) : e = f := by
  refine List.ext_getElem (by omega) fun i h1 h2 => ?_
  have := DFunLike.congr_fun h i
  rw [fs_apply, fs_apply] at this
  simpa [List.getD_eq_getElem?_getD, h1, h2] using this

theorem fs_term_inj {n i j : ℕ} (h : fs (term (n + 1) i) = fs (term (n + 1) j)) : i = j :=
  term_inj (fs_inj (term_length _ _) (term_length _ _) h)

theorem fs_term_add (n a b : ℕ) : fs (term n a) + fs (term n b) = fs (List.zipWith (· + ·) (term n a) (term n b)) :=
  (fs_zip (term_length n a) (term_length n b)).symm

/-- Every list of exponents is that of a term. -/
theorem term_surj {n : ℕ} {e : List ℕ} (h : e.length = n + 1) : ∃ i, term (n + 1) i = e := by
  induction n generalizing e with
  | zero =>
    obtain ⟨x, rfl⟩ := List.length_eq_one_iff.1 h
    exact ⟨x, term_one x⟩
  | succ n ih =>
    obtain ⟨x, e, rfl⟩ : ∃ x e', e = x :: e' := by
      cases e with
      | nil => simp at h
      | cons x e => exact ⟨x, e, rfl⟩
    obtain ⟨j, hj⟩ := ih (e := e) (by simpa using h)
    have hl : j < L (n + 1) (x + e.sum) := lt_iff.2 (by rw [hj]; omega)
    exact ⟨st (n + 2) (x + e.sum) + j, by rw [term_split hl, hj]; congr 1; omega⟩

section
variable {V : Type} [CommSemiring V]

theorem power_eq (e : List ℕ) : (power e : MvPolynomial ℕ V) = monomial (fs e) 1 := by
  rw [power, fs, monomial_sum_one]
  exact Finset.prod_congr rfl fun i _ => X_pow_eq_monomial

theorem polyOf_eq {n N : ℕ} {c : List V} (h : L n N ≤ c.length) : polyOf n N c = ∑ i ∈ range (L n N), monomial (fs (term n i)) (at' c i) := by
  rw [polyOf, terms_eq]
  have : ((List.range (L n N)).map (term n)).zipWith (fun e a => C a * power e) c = (List.range (L n N)).map fun i => monomial (fs (term n i)) (at' c i) := by
    refine List.ext_getElem (by simp; omega) fun i h1 h2 => ?_
    simp only [List.length_map, List.length_range] at h2
    simp [power_eq, at', List.getD_eq_getElem?_getD, show i < c.length by omega, C_mul_monomial]
  rw [this, sum_range_map]

theorem coeff_polyOf {n N : ℕ} {c : List V} (h : L n N ≤ c.length) (m : ℕ →₀ ℕ) :
    (polyOf n N c).coeff m = ∑ i ∈ range (L n N), if fs (term n i) = m then at' c i else 0 := by
  rw [polyOf_eq h, coeff_sum]
  exact Finset.sum_congr rfl fun i _ => coeff_monomial _ _ _

theorem coeff_term {n N : ℕ} {c : List V} (h : L (n + 1) N ≤ c.length) {i : ℕ} (hi : i < L (n + 1) N) : (polyOf (n + 1) N c).coeff (fs (term (n + 1) i)) = at' c i := by
  rw [coeff_polyOf h, Finset.sum_eq_single_of_mem i (Finset.mem_range.2 hi)]
  · rw [if_pos rfl]
  · intro j _ hj
    exact if_neg fun e => hj (fs_term_inj e)

theorem coeff_other {n N : ℕ} {c : List V} (h : L n N ≤ c.length) {m : ℕ →₀ ℕ} (hm : ∀ i < L n N, fs (term n i) ≠ m) : (polyOf n N c).coeff m = 0 := by
  rw [coeff_polyOf h]
  exact Finset.sum_eq_zero fun i hi => if_neg (hm i (Finset.mem_range.1 hi))

theorem coeff_high {n N : ℕ} {c : List V} (h : L (n + 1) N ≤ c.length) {m : ℕ →₀ ℕ} (hm : N < m.degree) : (polyOf (n + 1) N c).coeff m = 0 :=
  coeff_other h fun i hi e => by
    have := lt_iff.1 hi
    rw [← e, fs_degree] at hm
    omega

theorem coeff_mul_polyOf {n N1 N2 : ℕ} {p1 p2 : List V} (h1 : L n N1 ≤ p1.length) (h2 : L n N2 ≤ p2.length) (m : ℕ →₀ ℕ) :
    (polyOf n N1 p1 * polyOf n N2 p2).coeff m =
      ∑ a ∈ range (L n N1), ∑ b ∈ range (L n N2), if fs (term n a) + fs (term n b) = m then at' p1 a * at' p2 b else 0 := by
  rw [polyOf_eq h1, polyOf_eq h2, Finset.sum_mul, coeff_sum]
  refine Finset.sum_congr rfl fun a _ => ?_
  rw [Finset.mul_sum, coeff_sum]
  refine Finset.sum_congr rfl fun b _ => ?_
  rw [monomial_mul, coeff_monomial]

/-- Coefficients of the product. -/
theorem coeff_mul_term {n N1 N2 : ℕ} {p1 p2 : List V} (h1 : L (n + 1) N1 ≤ p1.length) (h2 : L (n + 1) N2 ≤ p2.length) (i : ℕ) :
    (polyOf (n + 1) N1 p1 * polyOf (n + 1) N2 p2).coeff (fs (term (n + 1) i)) = conv (n + 1) (L (n + 1) N1) (L (n + 1) N2) p1 p2 i := by
  rw [coeff_mul_polyOf h1 h2, conv]
  refine Finset.sum_congr rfl fun a _ => Finset.sum_congr rfl fun b _ => if_congr ?_ rfl rfl
  rw [fs_term_add]
  constructor
  · intro e
    exact (fs_inj (n := n + 1) (by simp [term_length]) (term_length _ _) e).symm
  · intro e; rw [e]

/-- Polynomials in these variables agree to degree `N` if the coefficients of the terms do. -/
theorem same_of_terms {n N : ℕ} {p q : MvPolynomial ℕ V} (hp : ∀ m, (∀ i, fs (term (n + 1) i) ≠ m) → p.coeff m = 0) (hq : ∀ m, (∀ i, fs (term (n + 1) i) ≠ m) → q.coeff m = 0)
    (h : ∀ i < L (n + 1) N, p.coeff (fs (term (n + 1) i)) = q.coeff (fs (term (n + 1) i))) : SameTo N p q := by
  intro m hm
  by_cases hi : ∃ i, fs (term (n + 1) i) = m
  · obtain ⟨i, rfl⟩ := hi
    rw [fs_degree] at hm
    exact h i (lt_iff.2 hm)
  · have hi' : ∀ i, fs (term (n + 1) i) ≠ m := fun i e => hi ⟨i, e⟩
    rw [hp m hi', hq m hi']

/-- A polynomial in these variables. -/
def InVars (n : ℕ) (p : MvPolynomial ℕ V) : Prop := ∀ m, (∀ i, fs (term (n + 1) i) ≠ m) → p.coeff m = 0

theorem inVars_polyOf {n N : ℕ} {c : List V} (h : L (n + 1) N ≤ c.length) : InVars n (polyOf (n + 1) N c) := fun _ hm => coeff_other h fun i _ => hm i

theorem inVars_mul {n N1 N2 : ℕ} {p1 p2 : List V} (h1 : L (n + 1) N1 ≤ p1.length) (h2 : L (n + 1) N2 ≤ p2.length) : InVars n (polyOf (n + 1) N1 p1 * polyOf (n + 1) N2 p2) := by
  intro m hm
  rw [coeff_mul_polyOf h1 h2]
  refine Finset.sum_eq_zero fun a _ => Finset.sum_eq_zero fun b _ => if_neg fun e => ?_
  rw [fs_term_add] at e
  obtain ⟨i, hi⟩ := term_surj (n := n) (e := List.zipWith (· + ·) (term (n + 1) a) (term (n + 1) b)) (by simp [term_length])
  exact hm i (by rw [hi, e])

/-- Agreement to degree `N` from the entries. -/
theorem same_of_conv {n N N1 N2 : ℕ} {p1 p2 out : List V} (h1 : L (n + 1) N1 ≤ p1.length) (h2 : L (n + 1) N2 ≤ p2.length) (h : L (n + 1) N ≤ out.length)
    (hc : ∀ i < L (n + 1) N, at' out i = conv (n + 1) (L (n + 1) N1) (L (n + 1) N2) p1 p2 i) :
    SameTo N (polyOf (n + 1) N out) (polyOf (n + 1) N1 p1 * polyOf (n + 1) N2 p2) := by
  refine same_of_terms (inVars_polyOf h) (inVars_mul h1 h2) fun i hi => ?_
  rw [coeff_term h hi, coeff_mul_term h1 h2, hc i hi]

/-- Equality from the entries. -/
theorem eq_of_conv {n N1 N2 : ℕ} {p1 p2 out : List V} (h1 : L (n + 1) N1 ≤ p1.length) (h2 : L (n + 1) N2 ≤ p2.length) (h : L (n + 1) (N1 + N2) ≤ out.length)
    (hc : ∀ i < L (n + 1) (N1 + N2), at' out i = conv (n + 1) (L (n + 1) N1) (L (n + 1) N2) p1 p2 i) :
    polyOf (n + 1) (N1 + N2) out = polyOf (n + 1) N1 p1 * polyOf (n + 1) N2 p2 := by
  ext m
  by_cases hm : m.degree ≤ N1 + N2
  · exact same_of_conv h1 h2 h hc m hm
  · rw [coeff_high h (by omega), coeff_mul_polyOf h1 h2]
    symm
    refine Finset.sum_eq_zero fun a ha => Finset.sum_eq_zero fun b hb => if_neg fun e => hm ?_
    rw [← e, map_add, fs_degree, fs_degree]
    exact Nat.add_le_add (lt_iff.1 (Finset.mem_range.1 ha)) (lt_iff.1 (Finset.mem_range.1 hb))

/-! ## Agreement to some degree -/

theorem _root_.XCFun.Spec.SameTo.refl (N : ℕ) (p : MvPolynomial ℕ V) : SameTo N p p := fun _ _ => rfl
theorem _root_.XCFun.Spec.SameTo.symm {N : ℕ} {p q : MvPolynomial ℕ V} (h : SameTo N p q) : SameTo N q p := fun m hm => (h m hm).symm
theorem _root_.XCFun.Spec.SameTo.trans {N : ℕ} {p q r : MvPolynomial ℕ V} (h : SameTo N p q) (h' : SameTo N q r) : SameTo N p r := fun m hm => (h m hm).trans (h' m hm)
theorem _root_.XCFun.Spec.SameTo.mono {N M : ℕ} {p q : MvPolynomial ℕ V} (h : SameTo N p q) (hM : M ≤ N) : SameTo M p q := fun m hm => h m (hm.trans hM)

theorem _root_.XCFun.Spec.SameTo.add {N : ℕ} {p q p' q' : MvPolynomial ℕ V} (h : SameTo N p q) (h' : SameTo N p' q') : SameTo N (p + p') (q + q') := fun m hm => by
  rw [coeff_add, coeff_add, h m hm, h' m hm]

theorem _root_.XCFun.Spec.SameTo.mul {N : ℕ} {p q p' q' : MvPolynomial ℕ V} (h : SameTo N p q) (h' : SameTo N p' q') : SameTo N (p * p') (q * q') := fun m hm => by
  rw [coeff_mul, coeff_mul]
  refine Finset.sum_congr rfl fun x hx => ?_
  rw [Finset.mem_antidiagonal] at hx
  have : x.1.degree + x.2.degree = m.degree := by rw [← map_add, hx]
  rw [h _ (by omega), h' _ (by omega)]

/-- Multiplication by polynomials without constant term. -/
theorem _root_.XCFun.Spec.SameTo.mul_succ {N : ℕ} {p q r : MvPolynomial ℕ V} (h : SameTo N p q) (hr : r.coeff 0 = 0) : SameTo (N + 1) (p * r) (q * r) := fun m hm => by
  rw [coeff_mul, coeff_mul]
  refine Finset.sum_congr rfl fun x hx => ?_
  rw [Finset.mem_antidiagonal] at hx
  have hd : x.1.degree + x.2.degree = m.degree := by rw [← map_add, hx]
  by_cases h0 : x.2 = 0
  · rw [h0, hr, mul_zero, mul_zero]
  · have : x.2.degree ≠ 0 := fun e => h0 ((Finsupp.degree_eq_zero_iff _).1 e)
    rw [h _ (by omega)]

theorem polyOf_same {n N M K : ℕ} {c : List V} (h : L (n + 1) M ≤ c.length) (h' : L (n + 1) K ≤ c.length) (hM : N ≤ M) (hK : N ≤ K) :
    SameTo N (polyOf (n + 1) M c) (polyOf (n + 1) K c) :=
  same_of_terms (inVars_polyOf h) (inVars_polyOf h') fun i hi => by
    rw [coeff_term h (hi.trans_le (L_mono _ hM)), coeff_term h' (hi.trans_le (L_mono _ hK))]

/-- The product in place. -/
theorem taylormulIn_run {n N N2 : ℕ} {p1 p2 : List V} (h1 : L (n + 1) N ≤ p1.length) (h2 : L (n + 1) N2 ≤ p2.length) :
    ∃ out, taylormulIn (n + 1) N N2 p1 p2 = .ok out ∧ out.length = p1.length ∧ SameTo N (polyOf (n + 1) N out) (polyOf (n + 1) N p1 * polyOf (n + 1) N2 p2) ∧
      ∀ i, L (n + 1) N ≤ i → at' out i = at' p1 i := by
  set K := if N2 < N then N2 else N with hK
  have hKN : K ≤ N2 ∧ K ≤ N ∧ min N N2 ≤ K := by rw [hK]; split <;> omega
  have h2' : L (n + 1) K ≤ p2.length := (L_mono _ hKN.1).trans h2
  obtain ⟨out, e1, e2, e3, e4⟩ := inplace_run n N K (p2 := p2) ((L_mono _ (by omega)).trans h2) h1
  refine ⟨out, e1, e2, (same_of_conv h1 h2' (by omega) e3).trans ?_, e4⟩
  refine (SameTo.refl _ _).mul ?_
  by_cases h : N2 < N
  · have : K = N2 := by rw [hK, if_pos h]
    rw [this]; exact SameTo.refl _ _
  · have : K = N := by rw [hK, if_neg h]
    rw [this] at h2' ⊢
    exact polyOf_same h2' h2 le_rfl (by omega)

end

end XCFun.Polymul
