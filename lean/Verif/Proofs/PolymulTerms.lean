/-
The order of the terms of a polynomial in several variables.
-/
import Verif.Model.Polymul
import Verif.Proofs.Exponents
import Verif.Spec.Polymul
import Mathlib.Data.Nat.Choose.Basic
import Mathlib.Data.Nat.Find
import Mathlib.Algebra.BigOperators.Group.List.Basic
import Mathlib.Tactic.Ring

namespace XCFun.Polymul
open XCFun Spec Props

/-! ## Lengths -/

/-- Number of terms of degree at most `N` in `n` variables. -/
def L (n N : ℕ) : ℕ := (n + N).choose N

/-- Number of terms of degree less than `k`. -/
def st (n : ℕ) : ℕ → ℕ
  | 0 => 0
  | k + 1 => L n k

theorem binomial_choose {n k : ℕ} (h : k ≤ n) : binomial n k = n.choose k := by
  induction n generalizing k with
  | zero =>
    have : k = 0 := by omega
    subst this; rfl
  | succ n ih =>
    rw [binomial]
    by_cases h1 : n + 1 = k
    · subst h1; rw [if_pos (by push_cast; ring), Nat.choose_self]
    · rw [if_neg (by omega)]
      cases k with
      | zero => simp
      | succ k =>
        rw [if_neg (by omega), ih (by omega), show ((k + 1 : ℕ) : ℤ) - 1 = (k : ℕ) by push_cast; ring, ih (by omega), Nat.choose_succ_succ]

theorem binomial_neg {n : ℕ} {k : ℤ} (h : k < 0) : binomial n k = 0 := by
  induction n generalizing k with
  | zero => rw [binomial, if_neg (by omega), if_neg (by omega)]
  | succ n ih => rw [binomial, if_neg (by omega), if_neg (by omega), ih (by omega), ih h]

theorem polylen_nat (n N : ℕ) : polylen n (N : ℤ) = L n N := by
  rw [polylen, show ((n : ℤ) + (N : ℤ)).toNat = n + N by omega, binomial_choose (by omega), L]

theorem polylen_succ (n N : ℕ) : polylen n ((N : ℤ) + 1) = L n (N + 1) := by
  rw [← polylen_nat]; push_cast; rfl

theorem polylen_add (n N M : ℕ) : polylen n ((N : ℤ) + M) = L n (N + M) := by
  rw [← polylen_nat]; push_cast; rfl

theorem polylen_add_succ (n N M : ℕ) : polylen n ((N : ℤ) + M + 1) = L n (N + M + 1) := by
  rw [← polylen_nat]; push_cast; rfl

theorem polylen_pred (n k : ℕ) : polylen (n + 1) ((k : ℤ) - 1) = st (n + 1) k := by
  cases k with
  | zero => rw [polylen, st, binomial_neg (by simp)]
  | succ k => rw [st, ← polylen_nat]; congr 1; push_cast; ring

theorem L_pos (n N : ℕ) : 0 < L n N := Nat.choose_pos (by omega)

theorem L_zero_left (N : ℕ) : L 0 N = 1 := by simp [L]
theorem L_zero_right (n : ℕ) : L n 0 = 1 := by simp [L]
theorem L_one (N : ℕ) : L 1 N = N + 1 := by rw [L, Nat.add_comm, Nat.choose_succ_self_right]

theorem L_succ (n k : ℕ) : L (n + 1) (k + 1) = L (n + 1) k + L n (k + 1) := by
  simp only [L]
  rw [show n + 1 + (k + 1) = (n + 1 + k) + 1 by omega, Nat.choose_succ_succ, show n + 1 + k = n + (k + 1) by omega]

theorem st_succ (n k : ℕ) : st (n + 1) (k + 1) = st (n + 1) k + L n k := by
  cases k with
  | zero => simp [st, L_zero_right]
  | succ k => rw [st, st, L_succ]

theorem st_mono (n : ℕ) {k l : ℕ} (h : k ≤ l) : st (n + 1) k ≤ st (n + 1) l := by
  induction l with
  | zero => rw [Nat.le_zero.1 h]
  | succ l ih =>
    by_cases e : k = l + 1
    · rw [e]
    · exact (ih (by omega)).trans (by rw [st_succ]; omega)

theorem L_mono (n : ℕ) {k l : ℕ} (h : k ≤ l) : L n k ≤ L n l := by
  cases n with
  | zero => simp [L_zero_left]
  | succ n => exact st_mono n (Nat.succ_le_succ h)

theorem le_st (n k : ℕ) : k ≤ st (n + 1) k := by
  induction k with
  | zero => exact Nat.zero_le _
  | succ k ih => rw [st_succ]; have := L_pos n k; omega

/-! ## Terms -/

/-- Degree of a term. -/
def degOf (n i : ℕ) : ℕ := Nat.findGreatest (fun k => st n k ≤ i) i

theorem degOf_eq {n k i : ℕ} (h : i < L n k) : degOf (n + 1) (st (n + 1) k + i) = k := by
  rw [degOf, Nat.findGreatest_eq_iff]
  refine ⟨by have := le_st n k; omega, fun _ => by omega, fun m hm _ => ?_⟩
  have := st_mono n (show k + 1 ≤ m from hm)
  rw [st_succ] at this
  omega

theorem exists_split (n i : ℕ) : ∃ k j, j < L n k ∧ i = st (n + 1) k + j := by
  induction i with
  | zero => exact ⟨0, 0, L_pos _ _, rfl⟩
  | succ i ih =>
    obtain ⟨k, j, hj, e⟩ := ih
    by_cases h : j + 1 < L n k
    · exact ⟨k, j + 1, h, by omega⟩
    · exact ⟨k + 1, 0, L_pos _ _, by rw [st_succ]; omega⟩

/-- Exponents of a term. -/
def term : ℕ → ℕ → List ℕ
  | 0, _ => []
  | n + 1, i => (degOf (n + 1) i - (term n (i - st (n + 1) (degOf (n + 1) i))).sum) :: term n (i - st (n + 1) (degOf (n + 1) i))

theorem term_split {n k j : ℕ} (h : j < L n k) : term (n + 1) (st (n + 1) k + j) = (k - (term n j).sum) :: term n j := by
  rw [term, degOf_eq h, Nat.add_sub_cancel_left]

theorem term_length (n i : ℕ) : (term n i).length = n := by
  induction n generalizing i with
  | zero => rfl
  | succ n ih => rw [term, List.length_cons, ih]

theorem split_lt {n k j N : ℕ} (hj : j < L n k) : st (n + 1) k + j < L (n + 1) N ↔ k ≤ N := by
  constructor
  · intro h
    by_contra hk
    have := st_mono n (show N + 1 ≤ k by omega)
    rw [st] at this; omega
  · intro h
    have := st_mono n (Nat.succ_le_succ h)
    rw [st_succ, st] at this; omega

theorem term_sum_le {n k j : ℕ} (h : j < L n k) : (term n j).sum ≤ k := by
  induction n generalizing k j with
  | zero => simp [term]
  | succ n ih =>
    obtain ⟨k', j', hj, rfl⟩ := exists_split n j
    rw [term_split hj, List.sum_cons]
    have := ih hj
    have := (split_lt hj).1 h
    omega

theorem term_sum {n k j : ℕ} (h : j < L n k) : (term (n + 1) (st (n + 1) k + j)).sum = k := by
  rw [term_split h, List.sum_cons]
  have := term_sum_le h
  omega

theorem lt_iff {n i N : ℕ} : i < L (n + 1) N ↔ (term (n + 1) i).sum ≤ N := by
  obtain ⟨k, j, hj, rfl⟩ := exists_split n i
  rw [split_lt hj, term_sum hj]

theorem term_inj {n i j : ℕ} (h : term (n + 1) i = term (n + 1) j) : i = j := by
  induction n generalizing i j with
  | zero =>
    obtain ⟨k, a, ha, rfl⟩ := exists_split 0 i
    obtain ⟨l, b, hb, rfl⟩ := exists_split 0 j
    have e := congrArg List.sum h
    rw [term_sum ha, term_sum hb] at e
    subst e
    rw [L_zero_left] at ha hb; omega
  | succ n ih =>
    obtain ⟨k, a, ha, rfl⟩ := exists_split (n + 1) i
    obtain ⟨l, b, hb, rfl⟩ := exists_split (n + 1) j
    have e := congrArg List.sum h
    rw [term_sum ha, term_sum hb] at e
    subst e
    rw [term_split ha, term_split hb] at h
    rw [ih (List.cons.inj h).2]

theorem term_zero (n : ℕ) : term n 0 = List.replicate n 0 := by
  induction n with
  | zero => rfl
  | succ n ih =>
    have := term_split (n := n) (k := 0) (j := 0) (L_pos _ _)
    rw [st] at this
    rw [Nat.add_zero, Nat.zero_sub, ih] at this
    rw [this, List.replicate_succ]

theorem degree_eq (n k : ℕ) : degree (n + 1) k = (List.range (L n k)).map fun j => term (n + 1) (st (n + 1) k + j) := by
  suffices h : degree (n + 1) k = (List.range (L n k)).map fun j => (k - (term n j).sum) :: term n j by
    rw [h]; exact List.map_congr_left fun j hj => (term_split (List.mem_range.1 hj)).symm
  induction n generalizing k with
  | zero =>
    rw [L_zero_left]
    induction k with
    | zero => simp [degree, term]
    | succ k ih => rw [degree, ih]; simp [degree, term, incHead]
  | succ n ihn =>
    induction k with
    | zero =>
      rw [L_zero_right, degree]
      simp only [List.range_one, List.map_cons, List.map_nil, Nat.zero_sub, term_zero, List.replicate_succ]
    | succ k ihk =>
      rw [degree, ihk, ihn, L_succ, List.range_add, List.map_append, List.map_map, List.map_map, List.map_map]
      congr 1
      · refine List.map_congr_left fun j hj => ?_
        have := term_sum_le (List.mem_range.1 hj)
        simp only [Function.comp_def, incHead]
        congr 1; omega
      · refine List.map_congr_left fun j hj => ?_
        have hj := List.mem_range.1 hj
        have e : L (n + 1) k + j = st (n + 1) (k + 1) + j := rfl
        simp only [Function.comp_def, e]
        rw [term_sum hj, term_split hj, Nat.sub_self]

theorem range_st (n N : ℕ) : (List.range N).flatMap (fun k => (List.range (L n k)).map fun j => st (n + 1) k + j) = List.range (st (n + 1) N) := by
  induction N with
  | zero => rfl
  | succ N ih => rw [List.range_succ, List.flatMap_append, ih, st_succ, List.range_add]; simp

theorem terms_eq (n N : ℕ) : terms n N = (List.range (L n N)).map (term n) := by
  cases n with
  | zero =>
    rw [L_zero_left, terms, List.range_succ_eq_map, List.flatMap_cons]
    have : ((List.range N).map Nat.succ).flatMap (fun k => (multisets (List.range 0) k).map (Spec.exponents 0)) = [] := by
      rw [List.flatMap_eq_nil_iff]
      intro x hx
      obtain ⟨k, -, rfl⟩ := List.mem_map.1 hx
      simp [multisets]
    rw [this]
    simp [multisets, Spec.exponents, term]
  | succ n =>
    rw [show L (n + 1) N = st (n + 1) (N + 1) from rfl, ← range_st, List.map_flatMap, terms]
    refine List.flatMap_congr fun k _ => ?_
    rw [words_exponents, degree_eq, List.map_map]; rfl

/-- Products of terms of given degrees from products in one variable less. -/
theorem term_add {n N1 N2 a b d : ℕ} (ha : a < L n N1) (hb : b < L n N2) (hd : d < L n (N1 + N2))
    (h : term n d = List.zipWith (· + ·) (term n a) (term n b)) :
    term (n + 1) (st (n + 1) (N1 + N2) + d) = List.zipWith (· + ·) (term (n + 1) (st (n + 1) N1 + a)) (term (n + 1) (st (n + 1) N2 + b)) := by
  rw [term_split ha, term_split hb, term_split hd, List.zipWith_cons_cons, h]
  have h1 := term_sum_le ha
  have h2 := term_sum_le hb
  have hs : ∀ l m : List ℕ, l.length = m.length → (List.zipWith (· + ·) l m).sum = l.sum + m.sum := by
    intro l
    induction l with
    | nil => intro m hm; cases m <;> simp_all
    | cons x l ih =>
      intro m hm
      cases m with
      | nil => simp at hm
      | cons y m => rw [List.zipWith_cons_cons, List.sum_cons, List.sum_cons, List.sum_cons, ih m (by simpa using hm)]; omega
  rw [hs _ _ (by rw [term_length, term_length])]
  congr 1; omega

theorem zipWith_zero_left {n : ℕ} {l : List ℕ} (h : l.length = n) : List.zipWith (· + ·) (List.replicate n 0) l = l := by
  subst h
  induction l with
  | nil => rfl
  | cons a l ih => simp [List.replicate_succ, ih]

theorem zipWith_zero_right {n : ℕ} {l : List ℕ} (h : l.length = n) : List.zipWith (· + ·) l (List.replicate n 0) = l := by
  subst h
  induction l with
  | nil => rfl
  | cons a l ih => simp [List.replicate_succ, ih]

theorem term_zero_add (n b : ℕ) : List.zipWith (· + ·) (term n 0) (term n b) = term n b := by
  rw [term_zero, zipWith_zero_left (term_length n b)]

theorem term_add_zero (n a : ℕ) : List.zipWith (· + ·) (term n a) (term n 0) = term n a := by
  rw [term_zero, zipWith_zero_right (term_length n a)]

theorem term_one (i : ℕ) : term 1 i = [i] := by
  have h : st 1 i = i := by cases i with
    | zero => rfl
    | succ i => rw [st, L_one]
  have := term_split (n := 0) (k := i) (j := 0) (L_pos _ _)
  rwa [h] at this

end XCFun.Polymul
