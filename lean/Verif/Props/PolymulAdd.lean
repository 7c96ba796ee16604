/-
C68: the products of polymul.hpp that add to their destination, and `mul_monomial_set`.
-/
import Verif.Model.PolymulAdd
import Verif.Props.Polymul

namespace XCFun.Props
open XCFun Spec Polymul MvPolynomial Finset

section
variable {V : Type} [CommSemiring V]

private theorem polyOf_add {n N : ℕ} {out dst q : List V} (h : L n N ≤ out.length) (hd : L n N ≤ dst.length) (hq : L n N ≤ q.length)
    (e : ∀ i < L n N, at' out i = at' dst i + at' q i) : polyOf n N out = polyOf n N dst + polyOf n N q := by
  rw [polyOf_eq h, polyOf_eq hd, polyOf_eq hq, ← Finset.sum_add_distrib]
  exact Finset.sum_congr rfl fun i hi => by rw [e i (Finset.mem_range.1 hi), map_add]

/-- **C68, adding a product.** `polynomial_multiplier::mul` adds the product to what the destination holds, for any number of variables, any two degrees and any
arrays at least as long as needed; the rest of the destination is left alone. -/
theorem C68_add (n N1 N2 : ℕ) (dst p1 p2 : List V) (h : (terms (n + 1) (N1 + N2)).length ≤ dst.length) (h1 : (terms (n + 1) N1).length ≤ p1.length)
    (h2 : (terms (n + 1) N2).length ≤ p2.length) :
    ∃ out, polymulAdd (n + 1) N1 N2 dst p1 p2 = .ok out ∧
      polyOf (n + 1) (N1 + N2) out = polyOf (n + 1) (N1 + N2) dst + polyOf (n + 1) N1 p1 * polyOf (n + 1) N2 p2 ∧
      out.length = dst.length ∧ out.drop (terms (n + 1) (N1 + N2)).length = dst.drop (terms (n + 1) (N1 + N2)).length := by
  simp only [terms_length] at *
  have H := mul_ok (n + 1)
  have hg := H.good N1 N2
  obtain ⟨out, e1, e2, e3, e4⟩ := run_fresh p1 p2 (S := range (L (n + 1) (N1 + N2)))
    (fresh_adds fun o ho => ⟨(hg o ho).add, Finset.mem_range.2 (hg o ho).d_lt⟩) (dst := dst) (fun o ho =>
    ⟨(hg o ho).a_lt.trans_le h1, (hg o ho).b_lt.trans_le h2, (hg o ho).d_lt.trans_le h⟩)
  rw [sets_adds fun o ho => (hg o ho).add, Finset.union_empty] at e3 e4
  obtain ⟨q, _, q2, q3, _⟩ := polymul_run (dst := List.replicate (L (n + 1) (N1 + N2)) (0 : V)) (p1 := p1) (p2 := p2) (by simp) h1 h2
  rw [List.length_replicate] at q2
  refine ⟨out, e1, ?_, e2, drop_eq e2 fun i hi => e4 i (by rw [Finset.mem_range]; omega)⟩
  rw [← eq_of_conv (out := q) h1 h2 q2.ge q3]
  refine polyOf_add (by omega) h q2.ge fun i hi => ?_
  rw [e3 i (Finset.mem_range.2 hi), if_pos (Finset.mem_range.2 hi), q3 i hi, contrib_prod (fun o ho => (hg o ho).prod), H.sum, conv]

private theorem tmul_good {n N N2 : ℕ} (h : N2 ≤ N) : ∀ o ∈ taylorMul (n + 1) N N2, Good (n + 1) (L (n + 1) N) (L (n + 1) N2) (L (n + 1) N) 0 o := by
  induction N2 with
  | zero =>
    intro o ho
    rw [taylorMul, polylen_nat] at ho
    obtain ⟨i, hi, rfl⟩ := List.mem_map.1 ho
    rw [List.mem_range] at hi
    exact ⟨rfl, hi, L_pos _ _, hi, by simp only [Op.d, Op.a, Op.b]; exact (term_add_zero _ _).symm⟩
  | succ N2 ih =>
    intro o ho
    rw [taylorMul, List.mem_append] at ho
    rcases ho with ho | ho
    · rw [polylen_nat] at ho
      obtain ⟨o', ho', e'⟩ := List.mem_map.1 ho
      clear ho; subst e'; rename' o' => o, ho' => ho
      refine (mon_good n _ (N2 + 1) o ho).shiftB.mono (L_mono _ (by omega)) ?_ (L_mono _ (by omega))
      rw [st, L_succ]; omega
    · exact (ih (by omega) o ho).mono le_rfl (L_mono _ (by omega)) le_rfl

private theorem tmul_sum {M : Type} [AddCommMonoid M] (g : ℕ → ℕ → M) (n N N2 : ℕ) : osum g (taylorMul n N N2) = osum g (taylorMulSet n N N2) := by
  induction N2 with
  | zero => rw [taylorMul, taylorMulSet, osum_range, osum_range]; rfl
  | succ N2 ih => rw [taylorMul, taylorMulSet, osum_append, osum_append, ih, add_comm]

/-- **C68, adding a truncated product.** `taylor_multiplier::mul` adds the terms of the product up to the degree of the factors. -/
theorem C68_add_truncated (n N : ℕ) (dst p1 p2 : List V) (h : (terms (n + 1) N).length ≤ dst.length) (h1 : (terms (n + 1) N).length ≤ p1.length)
    (h2 : (terms (n + 1) N).length ≤ p2.length) :
    ∃ out, taylormulAdd (n + 1) N dst p1 p2 = .ok out ∧
      SameTo N (polyOf (n + 1) N out) (polyOf (n + 1) N dst + polyOf (n + 1) N p1 * polyOf (n + 1) N p2) ∧
      out.length = dst.length ∧ out.drop (terms (n + 1) N).length = dst.drop (terms (n + 1) N).length := by
  simp only [terms_length] at *
  have hg := tmul_good (n := n) (le_refl N)
  obtain ⟨out, e1, e2, e3, e4⟩ := run_fresh p1 p2 (S := range (L (n + 1) N))
    (fresh_adds fun o ho => ⟨(hg o ho).add, Finset.mem_range.2 (hg o ho).d_lt⟩) (dst := dst) (fun o ho =>
    ⟨(hg o ho).a_lt.trans_le h1, (hg o ho).b_lt.trans_le h2, (hg o ho).d_lt.trans_le h⟩)
  rw [sets_adds fun o ho => (hg o ho).add, Finset.union_empty] at e3 e4
  have hs := tset_good (n := n) (le_refl N)
  obtain ⟨q, q1, q2, q3, _⟩ := run_fresh p1 p2 (tset_fresh (n := n) (le_refl N)) (dst := List.replicate (L (n + 1) N) (0 : V)) (fun o ho =>
    ⟨(hs o ho).a_lt.trans_le h1, (hs o ho).b_lt.trans_le h2, (hs o ho).d_lt.trans_le (by simp)⟩)
  obtain ⟨q', q1', q2', q3', _⟩ := taylormul_run (dst := List.replicate (L (n + 1) N) (0 : V)) (p1 := p1) (p2 := p2) (le_refl N) (by simp) h1 h2
  rw [q1] at q1'
  cases q1'
  rw [List.length_replicate] at q2
  refine ⟨out, e1, ?_, e2, drop_eq e2 fun i hi => e4 i (by rw [Finset.mem_range]; omega)⟩
  rw [polyOf_add (q := q) (by omega) h q2.ge fun i hi => ?_]
  · exact (SameTo.refl _ _).add (same_of_conv h1 h2 q2.ge q3')
  · rw [e3 i (Finset.mem_range.2 hi), if_pos (Finset.mem_range.2 hi), q3 i (by rw [tset_sets]; simpa using hi), if_neg (by simp), zero_add,
      contrib_prod (fun o ho => (hg o ho).prod), contrib_prod hs, tmul_sum]

private theorem run_sets (p1 p2 : List V) (s : ℕ) (g h : ℕ → ℕ) {k : ℕ} {dst : List V} (hd : s + k ≤ dst.length)
    (hg : ∀ i < k, g i < p1.length ∧ h i < p2.length) :
    run (fun _ => p1) (fun _ => p2) ((List.range k).map fun i => .set (i + s) (g i) (h i)) dst =
      .ok (dst.take s ++ (List.range k).map (fun i => p1.getD (g i) 0 * p2.getD (h i) 0) ++ dst.drop (s + k)) := by
  induction k with
  | zero => simp [run]
  | succ k ih =>
    have hk := hg k (by omega)
    rw [List.range_succ, List.map_append, run_append, ih (by omega) fun i hi => hg i (by omega)]
    have hl : (dst.take s ++ (List.range k).map (fun i => p1.getD (g i) 0 * p2.getD (h i) 0)).length = s + k := by
      simp; omega
    have e : dst.drop (s + k) = dst[s + k] :: dst.drop (s + (k + 1)) := List.drop_eq_getElem_cons (by omega)
    show run _ _ [Op.set (k + s) (g k) (h k)] _ = _
    rw [run, Op.run]
    simp only [rd_at hk.1, rd_at hk.2, Outcome.ok_bind]
    rw [wrBuf_ok (by rw [List.length_append, hl, List.length_drop]; omega)]
    simp only [Outcome.ok_bind, run, List.map_append, List.map_cons, List.map_nil]
    rw [List.set_append_right _ _ (by omega), hl, e, show k + s - (s + k) = 0 by omega, List.set_cons_zero]
    simp [at']

/-- **C68, `mul_monomial_set` in one variable.** Multiplying a polynomial of degree `N1 ≥ 1` by `m x^N2` stores the products with the terms of degree `0` to `N1 - 1`
only: the coefficient of `x^(N1+N2)`, which should be `p1[N1] m`, keeps what the destination held. -/
theorem C68_monomial_set_one (N1 N2 : ℕ) (hN : 1 ≤ N1) (dst p1 : List V) (m : V) (h : N1 + N2 < dst.length) (h1 : N1 + 1 ≤ p1.length) :
    ∃ out, monomialSet 1 N1 N2 dst p1 [m] = .ok out ∧ out.length = dst.length ∧ (∀ i < N1, out.getD (i + N2) 0 = p1.getD i 0 * m) ∧
      (∀ i < N2, out.getD i 0 = dst.getD i 0) ∧ ∀ i, N1 + N2 ≤ i → out.getD i 0 = dst.getD i 0 := by
  obtain ⟨k, rfl⟩ : ∃ k, N1 = k + 1 := ⟨N1 - 1, by omega⟩
  refine ⟨_, run_sets p1 [m] N2 id (fun _ => 0) (k := k + 1) (by omega) fun i hi => ⟨by simp only [id]; omega, by simp⟩, ?_, ?_, ?_, ?_⟩
  · simp; omega
  · intro i hi
    have ht : (dst.take N2).length = N2 := by simp; omega
    rw [List.append_assoc, List.getD_eq_getElem?_getD, List.getElem?_append_right (by omega), ht, Nat.add_sub_cancel,
      List.getElem?_append_left (by simpa using hi)]
    simp [hi]
  · intro i hi
    have ht : (dst.take N2).length = N2 := by simp; omega
    rw [List.append_assoc, List.getD_eq_getElem?_getD, List.getElem?_append_left (by omega), List.getElem?_take, if_pos hi, List.getD_eq_getElem?_getD]
  · intro i hi
    have ht : (dst.take N2 ++ (List.range (k + 1)).map (fun i => p1.getD (id i) 0 * [m].getD 0 0)).length = N2 + (k + 1) := by simp; omega
    rw [List.getD_eq_getElem?_getD, List.getElem?_append_right (by omega), ht, List.getElem?_drop, List.getD_eq_getElem?_getD,
      show N2 + (k + 1) + (i - (N2 + (k + 1))) = i by omega]

/-- **C68, `mul_monomial_set` in more variables.** It aborts whenever both degrees are positive; without variables it always does. -/
theorem C68_monomial_set_aborts (n N1 N2 : ℕ) (dst p1 m2 : List V) :
    (1 ≤ N1 → 1 ≤ N2 → monomialSet (n + 2) N1 N2 dst p1 m2 = .die) ∧ monomialSet 0 N1 N2 dst p1 m2 = .die := by
  refine ⟨fun h1 h2 => ?_, rfl⟩
  obtain ⟨a, rfl⟩ : ∃ a, N1 = a + 1 := ⟨N1 - 1, by omega⟩
  obtain ⟨b, rfl⟩ : ∃ b, N2 = b + 1 := ⟨N2 - 1, by omega⟩
  rfl

/-- **C68, `mul_monomial_set` when one factor is constant.** In two or more variables a polynomial times a constant, and in any number of variables a constant times
a form of degree `N`, are stored as they should be: the entries of the product get it, the others keep what they held. -/
theorem C68_monomial_set_constant (n N : ℕ) (dst p1 m2 : List V) (h : (terms (n + 1) N).length ≤ dst.length) :
    (1 ≤ n → (terms (n + 1) N).length ≤ p1.length → 0 < m2.length →
      monomialSet (n + 1) N 0 dst p1 m2 = .ok ((p1.take (terms (n + 1) N).length).map (· * m2.getD 0 0) ++ dst.drop (terms (n + 1) N).length)) ∧
    ∀ lower form : List (List ℕ), form = (multisets (List.range (n + 1)) N).map (Spec.exponents (n + 1)) → terms (n + 1) N = lower ++ form →
      0 < p1.length → form.length ≤ m2.length →
      monomialSet (n + 1) 0 N dst p1 m2 =
        .ok (dst.take lower.length ++ (m2.take form.length).map (p1.getD 0 0 * ·) ++ dst.drop (terms (n + 1) N).length) := by
  have tk : ∀ (k : ℕ) (l : List V), k ≤ l.length → l.take k = (List.range k).map fun i => l.getD i 0 := fun k l hk =>
    List.ext_getElem (by simp [hk]) fun i h1 h2 => by simp at h1; simp [h1.2]
  constructor
  · intro hn h1 h2
    rw [terms_length] at h h1
    rw [terms_length]
    obtain ⟨n, rfl⟩ : ∃ a, n = a + 1 := ⟨n - 1, by omega⟩
    have e : mulMonomialSet (n + 2) N 0 = (List.range (L (n + 2) N)).map fun i => .set (i + 0) ((fun i => i) i) ((fun _ => 0) i) := by
      cases N with
      | zero => rw [L_zero_right]; rfl
      | succ N => rw [← polylen_nat]; rfl
    rw [monomialSet, e, run_sets p1 m2 0 (fun i => i) (fun _ => 0) (by rw [Nat.zero_add]; exact h) fun i hi => ⟨hi.trans_le h1, h2⟩, tk _ _ h1]
    simp
  · intro lower form hf ht h1 h2
    have hd : form.length = L n N := by
      have := congrArg List.length (degree_eq n N)
      rw [List.length_map, List.length_range] at this
      rw [hf, words_exponents, this]
    have hl : lower.length + L n N = L (n + 1) N := by rw [← terms_length (n + 1), ht, List.length_append, hd]
    rw [terms_length] at h
    rw [terms_length, hd]
    rw [hd] at h2
    have e : mulMonomialSet (n + 1) 0 N = (List.range (L n N)).map fun i => .set (i + lower.length) ((fun _ => 0) i) ((fun i => i) i) := by
      cases n with
      | zero =>
        rw [L_zero_left, L_one] at hl
        obtain rfl : N = lower.length := by omega
        rw [L_zero_left]; simp [mulMonomialSet]
      | succ n =>
        cases N with
        | zero =>
          rw [L_zero_right, L_zero_right] at hl
          rw [L_zero_right, show lower.length = 0 by omega]; rfl
        | succ N =>
          have hs : L (n + 2) (N + 1) = L (n + 2) N + L (n + 1) (N + 1) := L_succ (n + 1) N
          have hk : L (n + 2) N = lower.length := by
            rw [show n + 1 + 1 = n + 2 from rfl] at hl; omega
          have hp : polylen (n + 2) ((N : ℤ) + 1) = L (n + 2) (N + 1) := polylen_nat (n + 2) (N + 1)
          rw [mulMonomialSet, polylen_nat, hp, hs, Nat.add_sub_cancel_left, List.range'_eq_map_range, List.map_map, hk]
          refine List.map_congr_left fun i _ => ?_
          simp only [Function.comp]
          rw [Nat.add_sub_cancel_left, Nat.add_comm]
    rw [monomialSet, e, run_sets p1 m2 lower.length (fun _ => 0) (fun i => i) (by rw [hl]; exact h) fun i hi => ⟨h1, hi.trans_le h2⟩, tk _ _ h2, hl]
    simp

end

/-! Cases. -/

/-- `(1 + 2x + 3y) 5` and `5 (x² + 2xy + 3y²)`. -/
example : monomialSet 2 1 0 [7, 7, 7, 7] [(1 : ℤ), 2, 3] [5] = .ok [5, 10, 15, 7] ∧
    monomialSet 2 0 2 [7, 7, 7, 7, 7, 7, 7] [(5 : ℤ)] [1, 2, 3] = .ok [7, 7, 7, 5, 10, 15, 7] := ⟨rfl, rfl⟩

example (dst p1 m2 : List ℝ) (h : dst.length = 20) (h1 : p1.length = 20) (h2 : m2.length = 1) :
    monomialSet 3 3 0 dst p1 m2 = .ok ((p1.take 20).map (· * m2.getD 0 0) ++ dst.drop 20) := by
  have hl : (terms 3 3).length = 20 := by rw [terms_length]; rfl
  have := (C68_monomial_set_constant 2 3 dst p1 m2 (by rw [hl, h])).1 (by norm_num) (by rw [hl, h1]) (by omega)
  rwa [hl] at this

/-- `(1 + 2x + 3y)(4 + 5x + 6y)` added to a polynomial. -/
example : polymulAdd 2 1 1 [100, 200, 300, 400, 500, 600] [(1 : ℤ), 2, 3] [4, 5, 6] = .ok [104, 213, 318, 410, 527, 618] ∧
    taylormulAdd 2 1 [100, 200, 300] [(1 : ℤ), 2, 3] [4, 5, 6] = .ok [104, 213, 318] := ⟨rfl, rfl⟩

/-- A fresh array of the right size meets the hypotheses, in three variables and degrees 2 and 4. -/
example (p1 p2 : List ℝ) (h1 : p1.length = 10) (h2 : p2.length = 35) :
    ∃ out, polymulAdd 3 2 4 (List.replicate 84 1) p1 p2 = .ok out ∧
      polyOf 3 6 out = polyOf 3 6 (List.replicate 84 1) + polyOf 3 2 p1 * polyOf 3 4 p2 := by
  obtain ⟨out, e1, e2, _⟩ := C68_add 2 2 4 (List.replicate 84 1) p1 p2 (by rw [terms_length, List.length_replicate]; decide) (by rw [terms_length, h1]; decide)
    (by rw [terms_length, h2]; decide)
  exact ⟨out, e1, e2⟩

/-- The same, truncated. -/
example (p1 p2 : List ℝ) (h1 : p1.length = 10) (h2 : p2.length = 10) :
    ∃ out, taylormulAdd 3 2 (List.replicate 10 1) p1 p2 = .ok out ∧
      SameTo 2 (polyOf 3 2 out) (polyOf 3 2 (List.replicate 10 1) + polyOf 3 2 p1 * polyOf 3 2 p2) := by
  obtain ⟨out, e1, e2, _⟩ := C68_add_truncated 2 2 (List.replicate 10 1) p1 p2 (by rw [terms_length, List.length_replicate]; decide)
    (by rw [terms_length, h1]; decide) (by rw [terms_length, h2]; decide)
  exact ⟨out, e1, e2⟩

/-- `(2 + 3x) 5x` should be `10 x + 15 x²`: the last coefficient is not written. -/
example : monomialSet 1 1 1 [7, 7, 7] [(2 : ℤ), 3] [5] = .ok [7, 10, 7] := rfl

example : ∃ out, monomialSet 1 3 2 (List.replicate 6 7) [(1 : ℤ), 2, 3, 4] [5] = .ok out ∧ out.getD 5 0 = 7 := by
  obtain ⟨out, e, _, _, _, h⟩ := C68_monomial_set_one 3 2 (by norm_num) (List.replicate 6 7) [(1 : ℤ), 2, 3, 4] 5 (by decide) (by decide)
  exact ⟨out, e, h 5 (by norm_num)⟩

/-- A constant times a form of degree 3 in three variables: the ten products are stored after the ten terms of lower degree. -/
example (dst p1 m2 : List ℝ) (h : dst.length = 25) (h1 : p1.length = 1) (h2 : m2.length = 10) :
    monomialSet 3 0 3 dst p1 m2 = .ok (dst.take 10 ++ (m2.take 10).map (p1.getD 0 0 * ·) ++ dst.drop 20) := by
  have hl : (terms 3 3).length = 20 := by rw [terms_length]; rfl
  have hl' : (terms 3 2).length = 10 := by rw [terms_length]; rfl
  have ht : terms 3 3 = terms 3 2 ++ (multisets (List.range 3) 3).map (Spec.exponents 3) := by
    rw [terms, terms, List.range_succ (n := 3), List.flatMap_append, List.flatMap_singleton]
  have hf : ((multisets (List.range 3) 3).map (Spec.exponents 3)).length = 10 := by
    have := congrArg List.length ht
    rw [List.length_append, hl, hl'] at this
    omega
  have := (C68_monomial_set_constant 2 3 dst p1 m2 (by rw [hl, h]; norm_num)).2 _ _ rfl ht (by omega) (by rw [hf, h2])
  rwa [hl, hl', hf] at this

/-- Two variables: `(1 + x + y)(x + 2y)`. -/
example : monomialSet 2 1 1 (List.replicate 6 0) [(1 : ℤ), 1, 1] [1, 2] = .die := (C68_monomial_set_aborts 0 1 1 _ _ _).1 (by norm_num) (by norm_num)

end XCFun.Props
