/-
Coefficients of products of `CT` values and values of the polynomial.
-/
import Verif.Proofs.CT
import Verif.Spec.Ctaylor

namespace XCFun
namespace CT
open Spec

universe u
variable {V : Type u} [CommRing V] {n : ℕ}

theorem two_pow_add_and {n j k : ℕ} (hj : j < 2 ^ n) (hk : k < 2 ^ n) :
    (2 ^ n + j) &&& k = j &&& k := by
  rw [show 2 ^ n + j = 2 ^ n * 1 + j by ring, Nat.two_pow_add_eq_or_of_lt hj]
  apply Nat.eq_of_testBit_eq
  intro b
  simp only [mul_one, Nat.testBit_and, Nat.testBit_or, Nat.testBit_two_pow]
  by_cases hb : n = b
  · subst hb; simp [Nat.testBit_lt_two_pow hk]
  · simp [hb]

theorem and_two_pow_add {n j k : ℕ} (hj : j < 2 ^ n) (hk : k < 2 ^ n) :
    j &&& (2 ^ n + k) = j &&& k := by
  rw [Nat.and_comm, two_pow_add_and hk hj, Nat.and_comm]

theorem two_pow_add_or {n j k : ℕ} (hj : j < 2 ^ n) (hk : k < 2 ^ n) :
    (2 ^ n + j) ||| k = 2 ^ n + (j ||| k) := by
  have h := Nat.two_pow_add_eq_or_of_lt (Nat.or_lt_two_pow hj hk) 1
  have h' := Nat.two_pow_add_eq_or_of_lt hj 1
  simp only [mul_one] at h h'
  rw [h, h', Nat.or_assoc]

theorem or_two_pow_add {n j k : ℕ} (hj : j < 2 ^ n) (hk : k < 2 ^ n) :
    j ||| (2 ^ n + k) = 2 ^ n + (j ||| k) := by
  rw [Nat.or_comm, two_pow_add_or hk hj, Nat.or_comm]

theorem two_pow_add_and_two_pow_add {n j k : ℕ} (hj : j < 2 ^ n) (hk : k < 2 ^ n) :
    (2 ^ n + j) &&& (2 ^ n + k) ≠ 0 := by
  intro h
  have := congrArg (Nat.testBit · n) h
  simp [Nat.testBit_and, Nat.testBit_lt_two_pow hj, Nat.testBit_lt_two_pow hk,
    Nat.testBit_two_pow_add_eq] at this

/-- The recursive product has the coefficients of the subset product. -/
theorem get_mul (x y : CT V n) {i : ℕ} (hi : i < 2 ^ n) :
    (x * y).get i = subsetProduct n x.get y.get i := by
  induction x generalizing i with
  | leaf a =>
    cases y with
    | leaf b => simp at hi; subst hi; simp [subsetProduct, get]
  | @node n a b iha ihb =>
    cases y with
    | node c d =>
      have hl : ∀ (p q : CT V n) j, j < 2 ^ n → (node p q).get j = p.get j := by
        intro p q j hj; simp [get, hj]
      have hh : ∀ (p q : CT V n) j, (node p q).get (2 ^ n + j) = q.get j := by
        intro p q j; simp [get]
      have split : ∀ f : ℕ → V, ∑ j ∈ Finset.range (2 ^ (n + 1)), f j =
          ∑ j ∈ Finset.range (2 ^ n), f j + ∑ j ∈ Finset.range (2 ^ n), f (2 ^ n + j) := by
        intro f
        rw [pow_succ, mul_two, Finset.sum_range_add]
      rw [node_mul_node]
      rcases Nat.lt_or_ge i (2 ^ n) with hlo | hhi
      · rw [hl _ _ _ hlo, iha c hlo]
        unfold subsetProduct
        rw [split]
        rw [Finset.sum_congr rfl (fun j _ => split _), Finset.sum_congr rfl (fun j _ => split _)]
        rw [Finset.sum_add_distrib, Finset.sum_add_distrib]
        have z1 : ∀ j ∈ Finset.range (2 ^ n), ∑ k ∈ Finset.range (2 ^ n),
            (if j &&& (2 ^ n + k) = 0 ∧ j ||| (2 ^ n + k) = i
              then (node a b).get j * (node c d).get (2 ^ n + k) else 0) = 0 := by
          intro j hj
          refine Finset.sum_eq_zero fun k hk => if_neg ?_
          rw [Finset.mem_range] at hj hk
          rw [or_two_pow_add hj hk]; omega
        have z2 : ∀ j ∈ Finset.range (2 ^ n), ∑ k ∈ Finset.range (2 ^ n),
            (if (2 ^ n + j) &&& k = 0 ∧ (2 ^ n + j) ||| k = i
              then (node a b).get (2 ^ n + j) * (node c d).get k else 0) = 0 := by
          intro j hj
          refine Finset.sum_eq_zero fun k hk => if_neg ?_
          rw [Finset.mem_range] at hj hk
          rw [two_pow_add_or hj hk]; omega
        have z3 : ∀ j ∈ Finset.range (2 ^ n), ∑ k ∈ Finset.range (2 ^ n),
            (if (2 ^ n + j) &&& (2 ^ n + k) = 0 ∧ (2 ^ n + j) ||| (2 ^ n + k) = i
              then (node a b).get (2 ^ n + j) * (node c d).get (2 ^ n + k) else 0) = 0 := by
          intro j hj
          refine Finset.sum_eq_zero fun k hk => if_neg ?_
          rw [Finset.mem_range] at hj hk
          exact fun h => two_pow_add_and_two_pow_add hj hk h.1
        rw [Finset.sum_eq_zero z1, Finset.sum_eq_zero z2, Finset.sum_eq_zero z3]
        simp only [add_zero]
        refine Finset.sum_congr rfl fun j hj => Finset.sum_congr rfl fun k hk => ?_
        rw [Finset.mem_range] at hj hk
        rw [hl _ _ _ hj, hl _ _ _ hk]
      · obtain ⟨i', rfl⟩ := Nat.exists_eq_add_of_le hhi
        have hi' : i' < 2 ^ n := by rw [pow_succ] at hi; omega
        rw [hh, get_add, iha d hi', ihb c hi']
        unfold subsetProduct
        rw [split]
        rw [Finset.sum_congr rfl (fun j _ => split _), Finset.sum_congr rfl (fun j _ => split _)]
        rw [Finset.sum_add_distrib, Finset.sum_add_distrib]
        have z0 : ∀ j ∈ Finset.range (2 ^ n), ∑ k ∈ Finset.range (2 ^ n),
            (if j &&& k = 0 ∧ j ||| k = 2 ^ n + i'
              then (node a b).get j * (node c d).get k else 0) = 0 := by
          intro j hj
          refine Finset.sum_eq_zero fun k hk => if_neg ?_
          rw [Finset.mem_range] at hj hk
          have := Nat.or_lt_two_pow hj hk
          omega
        have z3 : ∀ j ∈ Finset.range (2 ^ n), ∑ k ∈ Finset.range (2 ^ n),
            (if (2 ^ n + j) &&& (2 ^ n + k) = 0 ∧ (2 ^ n + j) ||| (2 ^ n + k) = 2 ^ n + i'
              then (node a b).get (2 ^ n + j) * (node c d).get (2 ^ n + k) else 0) = 0 := by
          intro j hj
          refine Finset.sum_eq_zero fun k hk => if_neg ?_
          rw [Finset.mem_range] at hj hk
          exact fun h => two_pow_add_and_two_pow_add hj hk h.1
        rw [Finset.sum_eq_zero z0, Finset.sum_eq_zero z3, zero_add, add_zero, add_comm]
        congr 1
        · refine Finset.sum_congr rfl fun j hj => Finset.sum_congr rfl fun k hk => ?_
          rw [Finset.mem_range] at hj hk
          rw [hl _ _ _ hj, hh, and_two_pow_add hj hk, or_two_pow_add hj hk]
          simp only [Nat.add_left_cancel_iff]
        · refine Finset.sum_congr rfl fun j hj => Finset.sum_congr rfl fun k hk => ?_
          rw [Finset.mem_range] at hj hk
          rw [hl _ _ _ hk, hh, two_pow_add_and hj hk, two_pow_add_or hj hk]
          simp only [Nat.add_left_cancel_iff]

/-- The value of the polynomial is the sum of its monomials. -/
theorem eval_eq_sum (x : CT V n) (t : ℕ → V) :
    x.eval t = ∑ i ∈ Finset.range (2 ^ n), x.get i * monomial n i t := by
  induction x with
  | leaf a => simp [eval, get, monomial]
  | @node n a b iha ihb =>
    rw [eval, iha, ihb, pow_succ, mul_two, Finset.sum_range_add, Finset.mul_sum]
    congr 1
    · refine Finset.sum_congr rfl fun i hi => ?_
      rw [Finset.mem_range] at hi
      simp [get, hi, monomial, Finset.prod_range_succ, Nat.testBit_lt_two_pow hi]
    · refine Finset.sum_congr rfl fun i hi => ?_
      rw [Finset.mem_range] at hi
      have e : ∀ b ∈ Finset.range n, (2 ^ n + i).testBit b = i.testBit b := by
        intro b hb
        rw [Finset.mem_range] at hb
        exact Nat.testBit_two_pow_add_gt hb i
      have e' : (2 ^ n + i).testBit n = true := by
        rw [Nat.testBit_two_pow_add_eq, Nat.testBit_lt_two_pow hi]; rfl
      have e'' : ∏ b ∈ Finset.range n, (if (2 ^ n + i).testBit b then t b else 1) =
          ∏ b ∈ Finset.range n, (if i.testBit b then t b else 1) :=
        Finset.prod_congr rfl (fun b hb => by rw [e b hb])
      rw [monomial, monomial, Finset.prod_range_succ, e', e'']
      simp [get]
      ring

end CT
end XCFun
