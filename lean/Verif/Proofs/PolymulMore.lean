/-
Products with a single term, contraction, evaluation.
-/
import Verif.Proofs.PolymulCompose
import Mathlib.Algebra.MvPolynomial.Eval

namespace XCFun.Polymul
open XCFun Spec Finset MvPolynomial

/-! ## Indices of products -/

theorem term_sum_iff {n i k : ℕ} : (term (n + 1) i).sum = k ↔ st (n + 1) k ≤ i ∧ i < st (n + 1) (k + 1) := by
  have h1 : i < st (n + 1) (k + 1) ↔ (term (n + 1) i).sum ≤ k := lt_iff
  cases k with
  | zero => rw [h1]; simp [st]
  | succ k =>
    have h2 : i < st (n + 1) (k + 1) ↔ (term (n + 1) i).sum ≤ k := lt_iff
    omega

theorem termDeg_eq (n t : ℕ) : termDeg (n + 1) t = (term (n + 1) t).sum := by
  cases n with
  | zero =>
    rw [term_one]
    cases t with
    | zero => rfl
    | succ t => simp [termDeg]
  | succ n =>
    induction t with
    | zero => rw [term_zero]; simp [termDeg]
    | succ t ih =>
      rw [termDeg, if_neg (by omega), ih, polylen_nat]
      obtain ⟨h1, h2⟩ := term_sum_iff.1 (rfl : (term (n + 2) t).sum = _)
      set d := (term (n + 2) t).sum
      have h3 : st (n + 1 + 1) (d + 1) = L (n + 1 + 1) d := rfl
      symm
      split
      · rename_i h
        rw [term_sum_iff]
        refine ⟨by rw [h3]; exact h.ge, ?_⟩
        have := st_succ (n + 1) (d + 1)
        have := L_pos (n + 1) (d + 1)
        omega
      · rw [term_sum_iff]
        refine ⟨by simp only [Nat.add_zero]; omega, ?_⟩
        rw [Nat.add_zero, h3]; omega

theorem termProd_eq (n t1 t2 : ℕ) : term (n + 1) (termProd (n + 1) t1 t2) = List.zipWith (· + ·) (term (n + 1) t1) (term (n + 1) t2) := by
  induction n generalizing t1 t2 with
  | zero =>
    simp only [Nat.zero_add, term_one]
    rw [termProd]
    split
    · rename_i h; subst h; simp
    · split
      · rename_i h; subst h; simp
      · rw [show ((termDeg (0 + 1) t1 : ℤ) + termDeg (0 + 1) t2 - 1) = ((t1 + t2 : ℕ) : ℤ) - 1 by
          rw [termDeg_eq, termDeg_eq, term_one, term_one]; simp, polylen_pred, termProd]
        have : st (0 + 1) (t1 + t2) = t1 + t2 := by
          obtain ⟨k, hk⟩ : ∃ k, t1 + t2 = k + 1 := ⟨t1 + t2 - 1, by omega⟩
          rw [hk, st, L_one]
        rw [this]; simp
  | succ n ih =>
    rw [termProd]
    split
    · rename_i h; subst h; rw [term_zero_add]
    · split
      · rename_i h; subst h; rw [term_add_zero]
      · obtain ⟨k1, j1, h1, rfl⟩ := exists_split (n + 1) t1
        obtain ⟨k2, j2, h2, rfl⟩ := exists_split (n + 1) t2
        rw [termDeg_eq, termDeg_eq, term_sum h1, term_sum h2, polylen_pred, polylen_pred, Nat.add_sub_cancel_left, Nat.add_sub_cancel_left]
        rw [show ((k1 : ℤ) + k2 - 1) = ((k1 + k2 : ℕ) : ℤ) - 1 by push_cast; rfl, polylen_pred]
        refine term_add h1 h2 ?_ (ih j1 j2)
        rw [lt_iff, ih, term_sum_add]
        exact Nat.add_le_add (term_sum_le h1) (term_sum_le h2)

theorem termMul_eq (n r l : ℕ) : termMul (n + 1) r l = (List.range (l + 1)).map fun i => .add (termProd (n + 1) i r) i 0 := by
  induction l with
  | zero => simp [termMul, termProd]
  | succ l ih => rw [termMul, ih, List.range_succ (n := l + 1), List.map_append]; rfl

section
variable {V : Type} [CommSemiring V]

theorem polymulTerm_run {n N r : ℕ} {dst p : List V} (c : V) (hp : L (n + 1) N ≤ p.length) (h : L (n + 1) (N + (term (n + 1) r).sum) ≤ dst.length) :
    ∃ out, polymulTerm (n + 1) N r dst p c = .ok out ∧ out.length = dst.length ∧
      polyOf (n + 1) (N + (term (n + 1) r).sum) out =
        polyOf (n + 1) (N + (term (n + 1) r).sum) dst + C c * power (term (n + 1) r) * polyOf (n + 1) N p := by
  set D := L (n + 1) (N + (term (n + 1) r).sum) with hD
  have hlt : ∀ i < L (n + 1) N, termProd (n + 1) i r < D := by
    intro i hi
    rw [hD, lt_iff, termProd_eq, term_sum_add]
    have := lt_iff.1 hi
    omega
  have hl : L (n + 1) N - 1 + 1 = L (n + 1) N := by have := L_pos (n + 1) N; omega
  have hF : Fresh (range D) (termMul (n + 1) r (L (n + 1) N - 1)) := by
    rw [termMul_eq, hl]
    refine fresh_adds fun o ho => ?_
    obtain ⟨i, hi, rfl⟩ := List.mem_map.1 ho
    exact ⟨rfl, Finset.mem_range.2 (hlt i (List.mem_range.1 hi))⟩
  obtain ⟨out, e1, e2, e3, e4⟩ := run_fresh p [c] hF (dst := dst) (fun o ho => by
    rw [termMul_eq, hl] at ho
    obtain ⟨i, hi, rfl⟩ := List.mem_map.1 ho
    rw [List.mem_range] at hi
    exact ⟨hi.trans_le hp, Nat.zero_lt_one, (hlt i hi).trans_le h⟩)
  refine ⟨out, by rw [polymulTerm, polylen_nat]; exact e1, e2, ?_⟩
  have e3' : ∀ d < D, at' out d = at' dst d + ∑ i ∈ range (L (n + 1) N), if termProd (n + 1) i r = d then at' p i * c else 0 := by
    intro d hd
    rw [e3 d (Finset.mem_union_left _ (Finset.mem_range.2 hd)), if_pos (Finset.mem_range.2 hd), contrib, termMul_eq, hl, List.map_map, sum_range_map]
    rfl
  rw [polyOf_eq (by omega), polyOf_eq (c := dst) h, polyOf_eq hp, Finset.mul_sum, ← hD]
  rw [Finset.sum_congr rfl fun d hd => by rw [e3' d (Finset.mem_range.1 hd), map_add, map_sum], Finset.sum_add_distrib]
  congr 1
  rw [Finset.sum_comm]
  refine Finset.sum_congr rfl fun i hi => ?_
  rw [Finset.sum_eq_single_of_mem (termProd (n + 1) i r) (Finset.mem_range.2 (hlt i (Finset.mem_range.1 hi)))]
  · rw [if_pos rfl, termProd_eq, ← fs_term_add, power_eq, C_mul_monomial, monomial_mul, mul_one, add_comm, mul_comm c]
  · intro d _ hd
    rw [if_neg (fun e => hd e.symm), map_zero]

/-! ## Contraction -/

/-- What `antimul` adds to entry `a`. -/
def anti (p2 p3 : List V) (l : List Op) (a : ℕ) : V := (l.map fun o => if o.a = a then at' p2 o.b * at' p3 o.d else 0).sum

theorem anti_run {p2 p3 : List V} {l : List Op} {p1 : List V} (h : ∀ o ∈ l, o = .add o.d o.a o.b ∧ Within p1.length p2.length p3.length o) :
    ∃ out, l.foldlM (fun p1 o => o.runAnti p2 p3 p1) p1 = .ok out ∧ out.length = p1.length ∧ ∀ i, at' out i = at' p1 i + anti p2 p3 l i := by
  induction l generalizing p1 with
  | nil => exact ⟨p1, rfl, rfl, fun i => by simp [anti]⟩
  | cons o l ih =>
    obtain ⟨ho, h1, h2, h3⟩ := h o List.mem_cons_self
    obtain ⟨d, a, b, rfl⟩ : ∃ d a b, o = .add d a b := ⟨_, _, _, ho⟩
    replace h1 : a < p1.length := h1
    replace h2 : b < p2.length := h2
    replace h3 : d < p3.length := h3
    have e : Op.runAnti p2 p3 (.add d a b) p1 = .ok (p1.set a (at' p1 a + at' p2 b * at' p3 d)) := by
      simp only [Op.runAnti, rd_at h1, rd_at h2, rd_at h3, Outcome.ok_bind]
      exact wrBuf_ok h1 _
    obtain ⟨out, e1, e2, e3⟩ := ih (p1 := p1.set a (at' p1 a + at' p2 b * at' p3 d)) (fun o ho => by
      rw [List.length_set]; exact h o (List.mem_cons_of_mem _ ho))
    refine ⟨out, by rw [List.foldlM_cons, e]; exact e1, by rw [e2, List.length_set], fun i => ?_⟩
    have hc : anti p2 p3 (.add d a b :: l) i = (if a = i then at' p2 b * at' p3 d else 0) + anti p2 p3 l i := by
      rw [anti, List.map_cons, List.sum_cons]; rfl
    rw [e3, hc, at_set _ h1]
    by_cases hi : i = a
    · subst hi; simp [add_assoc]
    · simp [hi, Ne.symm hi]

/-- Sum of products of coefficients. -/
def dot (k : ℕ) (p q : List V) : V := ∑ i ∈ range k, at' p i * at' q i

theorem polycontract_run {n N1 N2 : ℕ} {p1 p2 p3 : List V} (h1 : L (n + 1) N1 ≤ p1.length) (h2 : L (n + 1) N2 ≤ p2.length) (h3 : L (n + 1) (N1 + N2) ≤ p3.length) :
    ∃ out, polycontract (n + 1) N1 N2 p1 p2 p3 = .ok out ∧ out.length = p1.length ∧
      ∀ P q : List V, L (n + 1) N1 ≤ P.length → L (n + 1) (N1 + N2) ≤ q.length →
        polyOf (n + 1) (N1 + N2) q = polyOf (n + 1) N1 P * polyOf (n + 1) N2 p2 → dot (L (n + 1) N1) P out = dot (L (n + 1) (N1 + N2)) q p3 := by
  have H := mul_ok (n + 1)
  obtain ⟨d, a1, a2, a3⟩ := clear_run 0 (L (n + 1) N1) (c := p1) (by omega)
  obtain ⟨out, e1, e2, e3⟩ := anti_run (p2 := p2) (p3 := p3) (l := mul (n + 1) N1 N2) (p1 := d) (fun o ho => by
    have g := H.good _ _ o ho
    exact ⟨g.add, by rw [a2]; exact g.a_lt.trans_le h1, g.b_lt.trans_le h2, g.d_lt.trans_le h3⟩)
  refine ⟨out, ?_, by omega, fun P q hP hq hpq => ?_⟩
  · rw [polycontract, polylen_nat, a1]
    show antimul (n + 1) N1 N2 p2 p3 d = _
    rw [antimul]
    exact e1
  · have hqi : ∀ i < L (n + 1) (N1 + N2), at' q i = contrib P p2 (mul (n + 1) N1 N2) i := by
      intro i hi
      rw [← coeff_term hq hi, hpq, coeff_mul_term hP h2, contrib_prod (fun o ho => (H.good N1 N2 o ho).prod), H.sum]
      rfl
    have hoi : ∀ i < L (n + 1) N1, at' out i = anti p2 p3 (mul (n + 1) N1 N2) i := by
      intro i hi
      rw [e3, a3, if_pos (by omega), zero_add]
    rw [dot, dot, Finset.sum_congr rfl fun i hi => by rw [hoi i (Finset.mem_range.1 hi)]]
    rw [Finset.sum_congr (s₁ := range (L (n + 1) (N1 + N2))) rfl fun i hi => by rw [hqi i (Finset.mem_range.1 hi)]]
    have hg := H.good N1 N2
    clear hoi hqi e1 e3
    generalize mul (n + 1) N1 N2 = l at hg
    induction l with
    | nil => simp [anti, contrib]
    | cons o l ih =>
      have g := hg o List.mem_cons_self
      have ih := ih fun o ho => hg o (List.mem_cons_of_mem _ ho)
      have c1 : ∀ i, anti p2 p3 (o :: l) i = (if o.a = i then at' p2 o.b * at' p3 o.d else 0) + anti p2 p3 l i := fun i => by
        rw [anti, List.map_cons, List.sum_cons]; rfl
      simp only [c1, contrib_cons, mul_add, add_mul, Finset.sum_add_distrib, ih]
      congr 1
      rw [Finset.sum_eq_single_of_mem o.a (Finset.mem_range.2 g.a_lt), Finset.sum_eq_single_of_mem o.d (Finset.mem_range.2 g.d_lt)]
      · rw [if_pos rfl, if_pos rfl]; ring
      · intro i _ hi; rw [if_neg (fun e => hi e.symm), zero_mul]
      · intro i _ hi; rw [if_neg (fun e => hi e.symm), mul_zero]

/-! ## Evaluation -/

/-- Power products of numbers. -/
def evp : List V → List ℕ → V
  | x :: xs, e :: es => x ^ e * evp xs es
  | _, _ => 1

theorem evp_zero (x : List V) (n : ℕ) : evp x (List.replicate n 0) = 1 := by
  induction n generalizing x with
  | zero => cases x <;> rfl
  | succ n ih => cases x with
    | nil => rfl
    | cons x xs => rw [List.replicate_succ, evp, ih, pow_zero, mul_one]

theorem evp_eq {x : List V} {e : List ℕ} (h : e.length ≤ x.length) : evp x e = ∏ i ∈ range e.length, x.getD i 0 ^ e.getD i 0 := by
  induction e generalizing x with
  | nil => cases x <;> simp [evp]
  | cons a e ih =>
    cases x with
    | nil => simp at h
    | cons y x =>
      rw [evp, ih (by simpa using h), List.length_cons, Finset.prod_range_succ']
      simp [mul_comm]

theorem eval_polyOf {n N : ℕ} {c x : List V} (h : L n N ≤ c.length) (hx : n ≤ x.length) :
    MvPolynomial.eval (fun i => x.getD i 0) (polyOf n N c) = ∑ i ∈ range (L n N), at' c i * evp x (term n i) := by
  rw [polyOf_eq h, map_sum]
  refine Finset.sum_congr rfl fun i _ => ?_
  rw [show (monomial (fs (term n i)) (at' c i) : MvPolynomial ℕ V) = C (at' c i) * power (term n i) by rw [power_eq, C_mul_monomial, mul_one]]
  rw [map_mul, MvPolynomial.eval_C, power, map_prod, evp_eq (by rw [term_length]; exact hx)]
  simp only [map_pow, MvPolynomial.eval_X]

theorem powLoop_eq (x : V) (k : ℕ) (y : V) : powLoop x k y = y * x ^ k := by
  induction k generalizing y with
  | zero => simp [powLoop]
  | succ k ih => rw [powLoop, ih, pow_succ]; ring

theorem drop_cons {x : List V} {j : ℕ} (h : j < x.length) : x.drop j = at' x j :: x.drop (j + 1) := by
  rw [List.drop_eq_getElem_cons h]; congr 1
  rw [at', List.getD_eq_getElem?_getD, List.getElem?_eq_getElem h, Option.getD_some]

theorem binom_L (n N : ℕ) : binomial (n + 2 + (N + 1) - 2) (N : ℤ) = L (n + 1) N := by
  rw [binomial_choose (by omega), L]; congr 1; omega

/-- The terms of degree `N + 1` of `n + 2` variables: those with the first variable and the others. -/
theorem term_first {n N i : ℕ} (h : i < L (n + 1) N) (y : V) (x : List V) :
    evp (y :: x) (term (n + 2) (st (n + 2) (N + 1) + i)) = y * evp (y :: x) (term (n + 2) (st (n + 2) N + i)) := by
  have h' : i < L (n + 1) (N + 1) := h.trans_le (L_mono _ (by omega))
  have := term_sum_le h
  rw [term_split h, term_split h', evp, evp, show N + 1 - (term (n + 1) i).sum = (N - (term (n + 1) i).sum) + 1 by omega, pow_succ]
  ring

theorem term_rest {n N i : ℕ} (h : i < L n (N + 1)) (y : V) (x : List V) :
    evp (y :: x) (term (n + 2) (st (n + 2) (N + 1) + (L (n + 1) N + i))) = evp x (term (n + 1) (st (n + 1) (N + 1) + i)) := by
  have h' : L (n + 1) N + i < L (n + 1) (N + 1) := by rw [L_succ]; omega
  rw [term_split h', evp]
  have : (term (n + 1) (st (n + 1) (N + 1) + i)).sum = N + 1 := term_sum h
  rw [show L (n + 1) N + i = st (n + 1) (N + 1) + i from rfl, this, Nat.sub_self, pow_zero, one_mul]

theorem evalMonomial_run {p x : List V} (n N k j : ℕ) (hk : k + L n N ≤ p.length) (hj : j + (n + 1) ≤ x.length) :
    evalMonomial p x (n + 1) N k j = .ok (∑ i ∈ range (L n N), at' p (k + i) * evp (x.drop j) (term (n + 1) (st (n + 1) N + i))) := by
  induction n generalizing N k j with
  | zero =>
    rw [L_zero_left] at hk ⊢
    cases N with
    | zero =>
      rw [evalMonomial, rd_at (by omega), Finset.sum_range_one, st, Nat.add_zero, Nat.add_zero, term_zero, evp_zero, mul_one]
    | succ N =>
      rw [evalMonomial, rd_at (by omega : j < x.length)]
      show (rdBuf p k).bind _ = _
      rw [rd_at (by omega)]
      show Outcome.ok _ = _
      rw [powLoop_eq, Finset.sum_range_one, Nat.add_zero, Nat.add_zero, st, L_one, term_one, drop_cons (by omega), evp]
      cases x.drop (j + 1) <;> simp only [evp] <;> congr 1 <;> ring
  | succ n ih =>
    induction N generalizing k with
    | zero =>
      rw [L_zero_right] at hk ⊢
      rw [evalMonomial, rd_at (by omega), Finset.sum_range_one, st, Nat.add_zero, Nat.add_zero, term_zero, evp_zero, mul_one]
    | succ N ihN =>
      have hL := L_succ n N
      rw [evalMonomial, rd_at (by omega : j < x.length)]
      show (evalMonomial p x (n + 2) N k j).bind _ = _
      rw [ihN k (by omega), binom_L]
      show (evalMonomial p x (n + 1) (N + 1) _ (j + 1)).bind _ = _
      rw [ih (N + 1) (k + L (n + 1) N) (j + 1) (by omega) (by omega)]
      show Outcome.ok _ = _
      congr 1
      rw [hL, Finset.sum_range_add, Finset.mul_sum, drop_cons (by omega : j < x.length)]
      congr 1
      · refine Finset.sum_congr rfl fun i hi => ?_
        rw [term_first (Finset.mem_range.1 hi)]; ring
      · refine Finset.sum_congr rfl fun i hi => ?_
        rw [term_rest (Finset.mem_range.1 hi), Nat.add_assoc]

theorem horner_run {p : List V} (x0 : V) (N : ℕ) (s : V) (h : N ≤ p.length) : horner p x0 N s = .ok (s * x0 ^ N + ∑ i ∈ range N, at' p i * x0 ^ i) := by
  induction N generalizing s with
  | zero => simp [horner]
  | succ N ih =>
    rw [horner, rd_at (by omega)]
    show horner p x0 N _ = _
    rw [ih _ (by omega), Finset.sum_range_succ]
    congr 1; ring

theorem eval_run {p x : List V} (n N : ℕ) (hp : L (n + 1) N ≤ p.length) (hx : n + 1 ≤ x.length) :
    eval p x (n + 1) N = .ok (MvPolynomial.eval (fun i => x.getD i 0) (polyOf (n + 1) N p)) := by
  rw [eval_polyOf hp hx]
  induction N with
  | zero =>
    rw [L_zero_right] at hp ⊢
    rw [eval, rd_at (by omega), Finset.sum_range_one, term_zero, evp_zero, mul_one]
  | succ N ih =>
    rw [eval]
    split
    · rename_i h
      obtain rfl : n = 0 := by omega
      rw [L_one] at hp ⊢
      rw [rd_at (by omega)]
      show (rdBuf x 0).bind _ = _
      rw [rd_at (by omega)]
      show horner p (at' x 0) (N + 1) _ = _
      rw [horner_run _ _ _ (by omega), Finset.sum_range_succ _ (N + 1), add_comm]
      have hx0 : ∀ i, evp x (term 1 i) = at' x 0 ^ i := by
        intro i
        have := drop_cons (x := x) (j := 0) (by omega)
        rw [List.drop_zero] at this
        rw [term_one, this, evp]
        cases x.drop (0 + 1) <;> simp [evp, at']
      simp only [hx0]
    · have hL := L_succ n N
      rw [polylen_nat, evalMonomial_run n (N + 1) (L (n + 1) N) 0 (by omega) (by omega)]
      show (eval p x (n + 1) N).bind _ = _
      rw [ih (by omega)]
      show Outcome.ok _ = _
      rw [hL, Finset.sum_range_add, add_comm, List.drop_zero]
      rfl

end

end XCFun.Polymul
