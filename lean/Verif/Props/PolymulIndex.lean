/-
C70: exponents and indices of terms, conversion to and from tensors (polymul.hpp).
-/
import Verif.Props.PolymulCalculus
import Verif.Proofs.PolymulIndex

namespace XCFun.Props
open XCFun Spec Polymul MvPolynomial Finset

theorem term_of_get {n N i : ℕ} {e : List ℕ} (h : (terms n N)[i]? = some e) : i < L n N ∧ e = term n i := by
  rw [terms_get] at h
  split at h
  · rename_i hi; exact ⟨hi, (Option.some.inj h).symm⟩
  · cases h

/-! ## Exponents and indices -/

/-- **C70, exponents of a term.** `polynomial::exponents` finds the exponents of every term, whatever the array contained. -/
theorem C70_exponents (n N i : ℕ) (e : List ℕ) (h : (terms (n + 1) N)[i]? = some e) (m : ℕ → ℕ) :
    ∃ m', Polymul.exponents (n + 1) N i m = .ok m' ∧ (List.range (n + 1)).map m' = e := by
  obtain ⟨hi, rfl⟩ := term_of_get h
  exact exponents_run hi m

/-- **C70, no such term.** Negative numbers fail the assertion, and for two variables or more so do numbers beyond the last term. -/
theorem C70_exponents_rejected (n N : ℕ) (i : ℤ) (m : ℕ → ℕ) :
    (i < 0 → Polymul.exponents n N i m = .die) ∧ (((terms (n + 2) N).length : ℤ) ≤ i → Polymul.exponents (n + 2) N i m = .die) := by
  constructor
  · intro h; rw [Polymul.exponents, if_pos h]
  · intro h
    rw [terms_length] at h
    rw [Polymul.exponents, if_neg (by omega), if_neg (by omega)]
    simp only
    rw [polylen_nat, if_pos h]

/-- **C70, index of a term.** `polynomial::term_index` finds the place of the term with given exponents of degree at most `N`, as long as the intermediate results of
the binomial coefficients fit into an `int`. -/
theorem C70_index (n N : ℕ) (e : List ℕ) (he : e.length = n + 1) (hs : e.sum ≤ N) (h1 : (n + 1) * (terms (n + 1) N).length < 2 ^ 31) (h2 : n + 1 + N < 2 ^ 31) :
    ∃ i : ℕ, termIndex (n + 1) e = .ok (i : ℤ) ∧ (terms (n + 1) N)[i]? = some e := by
  obtain ⟨i, rfl⟩ := term_surj he
  rw [terms_length] at h1
  have hi := lt_iff.2 hs
  exact ⟨i, termIndex_run h1 h2 hi, by rw [terms_get, if_pos hi]⟩

/-- **C70, inverse functions.** The index of the exponents of a term is the term. -/
theorem C70_inverse (n N i : ℕ) (hi : i < (terms (n + 1) N).length) (h1 : (n + 1) * (terms (n + 1) N).length < 2 ^ 31) (h2 : n + 1 + N < 2 ^ 31) (m : ℕ → ℕ) :
    ∃ m', Polymul.exponents (n + 1) N i m = .ok m' ∧ termIndex (n + 1) ((List.range (n + 1)).map m') = .ok (i : ℤ) := by
  rw [terms_length] at hi h1
  obtain ⟨m', e1, e2⟩ := exponents_run hi m
  exact ⟨m', e1, by rw [e2]; exact termIndex_run h1 h2 hi⟩

/-! ## Tensors -/

section
variable {V : Type} [CommSemiring V]

/-- **C70, from a tensor.** In two variables or more, the coefficient of each term becomes the entry of the tensor with its exponents, and 0 if the tensor has no such
entry. -/
theorem C70_from_tensor (n N K : ℕ) (tensor c : List V) (hc : (terms (n + 2) N).length ≤ c.length) (ht : K ^ (n + 2) ≤ tensor.length) :
    fromTensor (n + 2) N K tensor c = .ok ((terms (n + 2) N).map (fun e => if ∀ x ∈ e, x < K then tensor.getD (packed K e) 0 else 0) ++ c.drop (terms (n + 2) N).length) := by
  rw [terms_length] at *
  obtain ⟨out, e1, e2, e3⟩ := fromTensor_run hc ht
  rw [e1, terms_eq, List.map_map]
  congr 1
  refine List.ext_getElem (by simp; omega) fun i h1 h2 => ?_
  have := e3 i
  rw [at', List.getD_eq_getElem?_getD, List.getElem?_eq_getElem h1, Option.getD_some] at this
  rw [this]
  split
  · rename_i hi
    rw [List.getElem_append_left (by simpa using hi)]
    simp [at']
  · rename_i hi
    rw [List.getElem_append_right (by simpa using hi), List.getElem_drop]
    simp only [List.length_map, List.length_range, at', List.getD_eq_getElem?_getD]
    rw [List.getElem?_eq_getElem (by omega), Option.getD_some]
    congr 1; omega

/-- **C70, to a tensor.** In two variables or more, the entry of the tensor with the exponents of a term becomes its coefficient; entries of higher degree keep
their values. -/
theorem C70_to_tensor (n N K : ℕ) (tensor c : List V) (hc : (terms (n + 2) N).length ≤ c.length) (ht : K ^ (n + 2) ≤ tensor.length) :
    ∃ out, toTensor (n + 2) N K c tensor = .ok out ∧ out.length = tensor.length ∧
      ∀ e : List ℕ, e.length = n + 2 → (∀ x ∈ e, x < K) →
        (∀ i, (terms (n + 2) N)[i]? = some e → out.getD (packed K e) 0 = c.getD i 0) ∧ (N < e.sum → out.getD (packed K e) 0 = tensor.getD (packed K e) 0) := by
  rw [terms_length] at *
  obtain ⟨out, e1, e2, e3, e4⟩ := toTensor_run hc ht
  refine ⟨out, e1, e2, fun e hl he => ⟨fun i hi => ?_, fun hN => e4 _ fun i hi hi' h => ?_⟩⟩
  · obtain ⟨hi', rfl⟩ := term_of_get hi
    exact e3 i hi' he
  · have := packed_inj hi' he (by rw [term_length, hl]) h
    have := lt_iff.1 hi
    simp_all
    omega

/-- **C70, there and back.** A tensor with more entries per dimension than the degree of the polynomial keeps all its coefficients. -/
theorem C70_round_trip (n N K : ℕ) (hK : N < K) (c tensor c' : List V) (hc : c.length = (terms (n + 2) N).length) (hc' : c'.length = (terms (n + 2) N).length)
    (ht : K ^ (n + 2) ≤ tensor.length) :
    ∃ t, toTensor (n + 2) N K c tensor = .ok t ∧ fromTensor (n + 2) N K t c' = .ok c := by
  rw [terms_length] at *
  obtain ⟨t, e1, e2, e3, -⟩ := toTensor_run hc.ge ht
  obtain ⟨out, f1, f2, f3⟩ := fromTensor_run (K := K) (c := c') hc'.ge (tensor := t) (by omega)
  refine ⟨t, e1, ?_⟩
  rw [f1]; congr 1
  refine List.ext_getElem (by omega) fun i h1 h2 => ?_
  have hi : i < L (n + 2) N := by omega
  have hlt : ∀ x ∈ term (n + 2) i, x < K := fun x hx => by
    have := List.le_sum_of_mem hx
    have hN : (term (n + 2) i).sum ≤ N := lt_iff.1 hi
    omega
  have := f3 i
  rw [if_pos hi, if_pos hlt, e3 i hi hlt] at this
  simpa [at', List.getD_eq_getElem?_getD, h1, h2] using this

/-! ## One variable -/

/-- **C70 fails for one variable.** The exponents are never advanced: every coefficient becomes the first entry of the tensor. -/
theorem C70_from_tensor_one_variable (N K : ℕ) (hK : 0 < K) (tensor c : List V) (hc : c.length = N + 1) (ht : K ≤ tensor.length) :
    fromTensor 1 N K tensor c = .ok (List.replicate (N + 1) (tensor.getD 0 0)) := by
  obtain ⟨out, e1, e2, e3⟩ := fromTensor_one (N := N) hK hc.ge ht
  rw [e1]; congr 1
  refine List.ext_getElem (by simp; omega) fun i h1 h2 => ?_
  have := e3 i
  rw [if_pos (by omega)] at this
  simpa [at', List.getD_eq_getElem?_getD, h1] using this

end

/-- **C70 fails for one variable, witness.** `5 + 7x` from the array `{5, 7}` becomes `5 + 5x`, and `5 + 7x` into an array of zeros becomes `{7, 0}`. -/
theorem C70_one_variable_fails : fromTensor 1 1 2 [(5 : ℤ), 7] [0, 0] = .ok [5, 5] ∧ toTensor 1 1 2 [(5 : ℤ), 7] [0, 0] = .ok [7, 0] ∧ terms 1 1 = [[0], [1]] := by
  refine ⟨rfl, rfl, ?_⟩
  simp [terms, List.range_succ, multisets, Spec.exponents]

/-! ## Cases -/

/-- The indices tested in unittest_taylor.cpp: `x²z` is number 12 and `yz` number 8. -/
example : termIndex 3 [2, 0, 1] = .ok 12 ∧ termIndex 3 [0, 1, 1] = .ok 8 ∧ (terms 3 3)[12]? = some [2, 0, 1] := by
  refine ⟨by decide, by decide, ?_⟩
  simp [terms, List.range_succ, multisets, Spec.exponents]

/-- The hypotheses of the index theorem for four variables up to degree 50. -/
example : 4 * (terms 4 50).length < 2 ^ 31 := by rw [terms_length]; decide +kernel

/-- `1 + 2x + 3y + 4x² + 5xy + 6y²` from and to 3 × 3 arrays. -/
example : toTensor 2 2 3 [(1 : ℤ), 2, 3, 4, 5, 6] (List.replicate 9 0) = .ok [1, 3, 6, 2, 5, 0, 4, 0, 0] ∧
    fromTensor 2 2 3 [(1 : ℤ), 3, 6, 2, 5, 0, 4, 0, 0] (List.replicate 6 9) = .ok [1, 2, 3, 4, 5, 6] := ⟨rfl, rfl⟩

/-- With 2 × 2 arrays the terms `x²` and `y²` are lost. -/
example : fromTensor 2 2 2 [(1 : ℤ), 3, 2, 5] (List.replicate 6 9) = .ok [1, 2, 3, 0, 5, 0] := by rfl

end XCFun.Props
