/-
C71: picking the terms of one degree out of a Taylor expansion, and comparing it with a number (taylor.hpp).
-/
import Verif.Model.TaylorPick
import Verif.Props.PolymulCalculus
import Verif.Props.TaylorClass

namespace XCFun.Props
open XCFun Spec Polymul Tay MvPolynomial Finset

private theorem polylen_pred (n N : ℕ) : polylen (n + 1) ((N : ℤ) - 1) = st (n + 1) N := by
  cases N with
  | zero => rw [polylen]; exact binomial_neg (by simp)
  | succ N => rw [show ((N + 1 : ℕ) : ℤ) - 1 = (N : ℕ) by push_cast; ring, polylen_nat]; rfl

private theorem pickTo_run (n N : ℕ) (t : List ℝ) (ht : L (n + 1) N ≤ t.length) :
    ∃ out, pickOrderTo (n + 1) N t = .ok out ∧ out.length = L n N ∧ ∀ i < L n N, out.getD i 0 = t.getD (st (n + 1) N + i) 0 := by
  have hs : L (n + 1) N = st (n + 1) N + L n N := st_succ n N
  rw [pickOrderTo, polylen_pred, Nat.add_sub_cancel, polylen_nat, if_pos (by omega)]
  refine ⟨_, rfl, by simp; omega, fun i hi => ?_⟩
  rw [List.getD_eq_getElem?_getD, List.getD_eq_getElem?_getD, List.getElem?_take, if_pos hi, List.getElem?_drop]

/-- **C71, `pick_order`.** The terms of degree `N` of an expansion in `n + 1` variables come as an expansion in the last `n` variables: the coefficient with exponents
`e` is that of the term with exponents `e` in the last variables and the remaining degree in the first.  A degree higher than that of the expansion is refused by the
functions returning a reference; the one that copies reads past the end of the array. -/
theorem C71_pick_order (n Ndeg N : ℕ) (t : List ℝ) (ht : t.length = (terms (n + 1) Ndeg).length) :
    (N ≤ Ndeg → ∃ out, pickOrder (n + 1) Ndeg N t = .ok out ∧ pickOrderTo (n + 1) N t = .ok out ∧ out.length = (terms n N).length ∧
      ∀ (i : ℕ) (e : List ℕ), (terms n N)[i]? = some e →
        ∃ j, (terms (n + 1) Ndeg)[j]? = some ((N - e.sum) :: e) ∧ e.sum ≤ N ∧ out.getD i 0 = t.getD j 0) ∧
      (Ndeg < N → pickOrder (n + 1) Ndeg N t = .die ∧ pickOrderTo (n + 1) N t = .ub) := by
  rw [terms_length] at ht
  constructor
  · intro hN
    obtain ⟨out, e1, e2, e3⟩ := pickTo_run n N t (by rw [ht]; exact L_mono _ hN)
    refine ⟨out, ?_, e1, by rw [e2, terms_length], fun i e he => ?_⟩
    · rw [pickOrder, Tay.assert, if_pos hN]; exact e1
    · rw [terms_get] at he
      split at he
      · rename_i hi
        cases he
        refine ⟨st (n + 1) N + i, ?_, term_sum_le hi, e3 i hi⟩
        rw [terms_get, if_pos ((split_lt hi).2 hN), term_split hi]
      · cases he
  · intro hN
    constructor
    · rw [pickOrder, Tay.assert, if_neg (by omega)]; rfl
    · have hs : L (n + 1) N = st (n + 1) N + L n N := st_succ n N
      have hl : L (n + 1) Ndeg < L (n + 1) N := by
        obtain ⟨k, rfl⟩ : ∃ k, N = k + 1 := ⟨N - 1, by omega⟩
        have h1 := L_mono (n + 1) (show Ndeg ≤ k by omega)
        have h2 := L_succ n k
        have h3 := L_pos n (k + 1)
        omega
      rw [pickOrderTo, polylen_pred, Nat.add_sub_cancel, polylen_nat, if_neg (by omega)]

/-- **C71, comparisons.** An expansion is compared with a number through its constant term. -/
theorem C71_compare (n N : ℕ) (t : List ℝ) (ht : t.length = (terms (n + 1) N).length) (x : ℝ) :
    (numLt x t = .ok true ↔ x < constantCoeff (polyOf (n + 1) N t)) ∧ (ltNum t x = .ok true ↔ constantCoeff (polyOf (n + 1) N t) < x) ∧
      (neNum t x = .ok true ↔ constantCoeff (polyOf (n + 1) N t) ≠ x) ∧
      ∀ r ∈ [numLt x t, ltNum t x, neNum t x], r = .ok true ∨ r = .ok false := by
  rw [terms_length] at ht
  have h0 : 0 < t.length := ht ▸ L_pos _ _
  rw [constantCoeff_eq, coeff_zero ht.ge]
  have e : rdBuf t 0 = .ok (at' t 0) := rd_at h0
  refine ⟨?_, ?_, ?_, ?_⟩
  · simp [numLt, e]
  · simp [ltNum, e]
  · simp [neNum, e]
  · intro r hr
    simp only [List.mem_cons, List.not_mem_nil, or_false] at hr
    rcases hr with rfl | rfl | rfl
    · by_cases h : x < at' t 0 <;> simp [numLt, e, h]
    · by_cases h : at' t 0 < x <;> simp [ltNum, e, h]
    · by_cases h : at' t 0 = x <;> simp [neNum, e, h]

/-! Cases. -/

/-- The terms of second degree of `1 + 2x + 3y + 4x² + 5xy + 6y²`: `4 + 5y + 6y²`. -/
example : pickOrder 2 2 2 [1, 2, 3, 4, 5, 6] = .ok [4, 5, 6] ∧ pickOrder 2 2 1 [1, 2, 3, 4, 5, 6] = .ok [2, 3] := by
  have h0 : polylen 2 0 = 1 := by decide
  have h1 : polylen 2 1 = 3 := by decide
  have h2 : polylen 1 2 = 3 := by decide
  have h3 : polylen 1 1 = 2 := by decide
  constructor
  · simp [pickOrder, pickOrderTo, Tay.assert, h1, h2]
  · simp [pickOrder, pickOrderTo, Tay.assert, h0, h3]

/-- The term with `x y` of an expansion of degree 3 in three variables is the second of those of degree 2. -/
example (t : List ℝ) (ht : t.length = (terms 3 3).length) :
    ∃ out, pickOrder 3 3 2 t = .ok out ∧ ∃ j, (terms 3 3)[j]? = some [1, 1, 0] ∧ out.getD 1 0 = t.getD j 0 := by
  obtain ⟨out, e1, -, -, e⟩ := (C71_pick_order 2 3 2 t ht).1 (by norm_num)
  obtain ⟨j, h1, -, h2⟩ := e 1 [1, 0] (by simp [terms, List.range_succ, multisets, Spec.exponents])
  exact ⟨out, e1, j, h1, h2⟩

/-- `2 + 5x` is less than 3, whatever the slope. -/
example : ltNum [2, 5] 3 = .ok true := (C71_compare 0 1 [2, 5] (by rw [terms_length]; rfl) 3).2.1.2 (by
  rw [constantCoeff_eq, Polymul.coeff_zero (by decide)]; norm_num [at'])

end XCFun.Props
