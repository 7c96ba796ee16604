/-
The products of polymul.hpp: which products are formed, and where they are added.
-/
import Verif.Proofs.PolymulTerms
import Verif.Proofs.Eval
import Mathlib.Algebra.BigOperators.Intervals
import Mathlib.Algebra.BigOperators.Ring.Finset

namespace XCFun.Polymul
open XCFun Spec Finset

/-- Indices of an assignment. -/
def Op.d : Op → ℕ
  | .add d _ _ => d
  | .set d _ _ => d
  | .scale d _ => d
  | .fail => 0

@[inherit_doc Op.d] def Op.a : Op → ℕ
  | .add _ a _ => a
  | .set _ a _ => a
  | .scale _ _ => 0
  | .fail => 0

@[inherit_doc Op.d] def Op.b : Op → ℕ
  | .add _ _ b => b
  | .set _ _ b => b
  | .scale _ b => b
  | .fail => 0

section Sums
variable {M : Type} [AddCommMonoid M]

/-- Sum over assignments of a function of the two sources. -/
def osum (f : ℕ → ℕ → M) (l : List Op) : M := (l.map fun o => f o.a o.b).sum

theorem osum_append (f : ℕ → ℕ → M) (l l' : List Op) : osum f (l ++ l') = osum f l + osum f l' := by simp [osum]

theorem sum_range_map (k : ℕ) (g : ℕ → M) : ((List.range k).map g).sum = ∑ i ∈ range k, g i := by
  induction k with
  | zero => simp
  | succ k ih => rw [List.range_succ, List.map_append, List.sum_append, ih, Finset.sum_range_succ]; simp

theorem sum_range'_map (s k : ℕ) (g : ℕ → M) : ((List.range' s k).map g).sum = ∑ i ∈ range k, g (s + i) := by
  rw [List.range'_eq_map_range, List.map_map, sum_range_map]; rfl

theorem osum_range (f : ℕ → ℕ → M) (k : ℕ) (g : ℕ → Op) : osum f ((List.range k).map g) = ∑ i ∈ range k, f (g i).a (g i).b := by
  rw [osum, List.map_map, sum_range_map]; rfl

theorem osum_range' (f : ℕ → ℕ → M) (s k : ℕ) (g : ℕ → Op) : osum f ((List.range' s k).map g) = ∑ i ∈ range k, f (g (s + i)).a (g (s + i)).b := by
  rw [osum, List.map_map, sum_range'_map]; rfl

theorem osum_flatMap {α : Type} (f : ℕ → ℕ → M) (l : List α) (g : α → List Op) : osum f (l.flatMap g) = (l.map fun i => osum f (g i)).sum := by
  induction l with
  | nil => rfl
  | cons x l ih => rw [List.flatMap_cons, osum_append, ih, List.map_cons, List.sum_cons]

end Sums

/-- An assignment of the form `dst[d] += p1[a] * p2[b]` for terms `a`, `b` (the latter counted from `kb`) of bounded degree, into the term that is their product. -/
structure Good (n A B D kb : ℕ) (o : Op) : Prop where
  add : o = .add o.d o.a o.b
  a_lt : o.a < A
  b_lt : o.b < B
  d_lt : o.d < D
  eq : term n o.d = List.zipWith (· + ·) (term n o.a) (term n (kb + o.b))

theorem Good.mono {n A B D kb A' B' D' : ℕ} {o : Op} (h : Good n A B D kb o) (hA : A ≤ A') (hB : B ≤ B') (hD : D ≤ D') : Good n A' B' D' kb o :=
  ⟨h.add, h.a_lt.trans_le hA, h.b_lt.trans_le hB, h.d_lt.trans_le hD, h.eq⟩

theorem Op.shift_add {kd ka kb : ℕ} {o : Op} (h : o = .add o.d o.a o.b) :
    o.shift kd ka kb = .add (o.d + kd) (o.a + ka) (o.b + kb) := by
  rw [h]; rfl

theorem Good.shiftB {n A B D k : ℕ} {o : Op} (h : Good n A B D k o) : Good n A (B + k) D 0 (o.shift 0 0 k) := by
  have := h.b_lt
  rw [Op.shift_add h.add]
  exact ⟨rfl, h.a_lt, by show o.b + k < B + k; omega, h.d_lt, by simpa only [Op.d, Op.a, Op.b, Nat.add_zero, Nat.zero_add, Nat.add_comm] using h.eq⟩

theorem osum_shift {M : Type} [AddCommMonoid M] {f : ℕ → ℕ → M} {kd ka kb : ℕ} {l : List Op} (h : ∀ o ∈ l, o = .add o.d o.a o.b) :
    osum f (l.map (Op.shift kd ka kb)) = osum (fun a b => f (a + ka) (b + kb)) l := by
  rw [osum, osum, List.map_map]
  congr 1
  refine List.map_congr_left fun o ho => ?_
  rw [Function.comp_apply, Op.shift_add (h o ho)]; rfl

/-- What is known about `mul` for one variable less. -/
structure MulOk (n : ℕ) (prev : ℕ → ℕ → List Op) : Prop where
  sum : ∀ {M : Type} [AddCommMonoid M] (f : ℕ → ℕ → M) (N1 N2 : ℕ), osum f (prev N1 N2) = ∑ a ∈ range (L n N1), ∑ b ∈ range (L n N2), f a b
  good : ∀ N1 N2, ∀ o ∈ prev N1 N2, Good n (L n N1) (L n N2) (L n (N1 + N2)) 0 o

theorem L_succ2 (n k : ℕ) : L (n + 2) (k + 1) = L (n + 2) k + L (n + 1) (k + 1) := L_succ (n + 1) k

section Step
variable {n : ℕ} {prev : ℕ → ℕ → List Op} (H : MulOk (n + 1) prev)

include H in
theorem monStep_good (N1 N2 : ℕ) :
    ∀ o ∈ mulMonomialStep prev (n + 2) N1 N2, Good (n + 2) (L (n + 2) N1) (L (n + 1) N2) (L (n + 2) (N1 + N2)) (st (n + 2) N2) o := by
  induction N1 with
  | zero =>
    cases N2 with
    | zero =>
      intro o ho
      rw [mulMonomialStep, List.mem_singleton] at ho
      subst ho
      exact ⟨rfl, L_pos _ _, L_pos _ _, L_pos _ _, by simp only [Op.d, Op.a, Op.b, st]; exact (term_zero_add _ _).symm⟩
    | succ N2 =>
      intro o ho
      rw [mulMonomialStep, polylen_nat, polylen_succ, L_succ, Nat.add_sub_cancel_left] at ho
      obtain ⟨i, hi, rfl⟩ := List.mem_map.1 ho
      rw [List.mem_range'_1] at hi
      refine ⟨rfl, L_pos _ _, by simp only [Op.b]; omega, ?_, ?_⟩
      · rw [Nat.zero_add, L_succ]; exact hi.2
      · simp only [Op.d, Op.a, Op.b, st]
        rw [term_zero_add]; congr 1; omega
  | succ N1 ih =>
    cases N2 with
    | zero =>
      intro o ho
      rw [mulMonomialStep, polylen_succ] at ho
      obtain ⟨i, hi, rfl⟩ := List.mem_map.1 ho
      rw [List.mem_range] at hi
      exact ⟨rfl, hi, L_pos _ _, hi, by simp only [Op.d, Op.a, Op.b, st]; exact (term_add_zero _ _).symm⟩
    | succ N2 =>
      intro o ho
      rw [mulMonomialStep, List.mem_append] at ho
      rcases ho with ho | ho
      · rw [polylen_add_succ, polylen_nat] at ho
        obtain ⟨o', ho', e'⟩ := List.mem_map.1 ho
        clear ho; subst e'; rename' o' => o, ho' => ho
        have g := H.good _ _ o ho
        rw [Op.shift_add g.add]
        have ha := g.a_lt
        have hb := g.b_lt
        have hd := g.d_lt
        have e := g.eq
        rw [Nat.zero_add] at e
        have key := term_add ha hb hd e
        refine ⟨rfl, ?_, hb, ?_, ?_⟩
        · show o.a + L (n + 2) N1 < _
          rw [L_succ2]; omega
        · show o.d + L (n + 2) (N1 + N2 + 1) < _
          have e1 : N1 + 1 + (N2 + 1) = (N1 + N2 + 1) + 1 := by omega
          rw [e1] at hd ⊢
          rw [L_succ2 n (N1 + N2 + 1)]
          exact (Nat.add_comm _ _).trans_lt (Nat.add_lt_add_left hd _)
        · show term (n + 2) (o.d + _) = List.zipWith _ (term (n + 2) (o.a + _)) (term (n + 2) (_ + (o.b + 0)))
          rw [Nat.add_comm o.d, Nat.add_comm o.a]
          rw [show N1 + 1 + (N2 + 1) = (N1 + N2 + 1) + 1 by omega] at key
          exact key
      · exact (ih o ho).mono (L_mono _ (by omega)) le_rfl (L_mono _ (by omega))

include H in
theorem monStep_sum {M : Type} [AddCommMonoid M] (f : ℕ → ℕ → M) (N1 N2 : ℕ) :
    osum f (mulMonomialStep prev (n + 2) N1 N2) = ∑ a ∈ range (L (n + 2) N1), ∑ b ∈ range (L (n + 1) N2), f a b := by
  induction N1 with
  | zero =>
    cases N2 with
    | zero => simp [mulMonomialStep, L_zero_right, osum, Op.a, Op.b]
    | succ N2 =>
      rw [mulMonomialStep, osum_range', polylen_nat, polylen_succ, L_succ, Nat.add_sub_cancel_left, L_zero_right]
      simp [Op.a, Op.b]
  | succ N1 ih =>
    cases N2 with
    | zero =>
      rw [mulMonomialStep, osum_range, polylen_succ, L_zero_right]
      simp [Op.a, Op.b]
    | succ N2 =>
      rw [mulMonomialStep, osum_append, ih, osum_shift (fun o ho => (H.good _ _ o ho).add), H.sum, polylen_nat, L_succ (n + 1) N1, Finset.sum_range_add]
      rw [add_comm]
      simp only [Nat.add_zero, Nat.add_comm _ (L (n + 2) N1)]

include H in
theorem step_good (N1 N2 : ℕ) : ∀ o ∈ mulStep prev (n + 2) N1 N2, Good (n + 2) (L (n + 2) N1) (L (n + 2) N2) (L (n + 2) (N1 + N2)) 0 o := by
  induction N2 with
  | zero =>
    intro o ho
    rw [mulStep, polylen_nat] at ho
    obtain ⟨i, hi, rfl⟩ := List.mem_map.1 ho
    rw [List.mem_range] at hi
    exact ⟨rfl, hi, L_pos _ _, hi, by simp only [Op.d, Op.a, Op.b]; exact (term_add_zero _ _).symm⟩
  | succ N2 ih =>
    intro o ho
    rw [mulStep] at ho
    split at ho
    · rename_i h0
      subst h0
      rw [polylen_succ] at ho
      obtain ⟨i, hi, rfl⟩ := List.mem_map.1 ho
      rw [List.mem_range] at hi
      exact ⟨rfl, L_pos _ _, hi, by rw [Nat.zero_add]; exact hi, by simp only [Op.d, Op.a, Op.b, Nat.zero_add]; exact (term_zero_add _ _).symm⟩
    · rw [List.mem_append] at ho
      rcases ho with ho | ho
      · exact (ih o ho).mono le_rfl (L_mono _ (by omega)) (L_mono _ (by omega))
      · rw [polylen_nat] at ho
        obtain ⟨o', ho', e'⟩ := List.mem_map.1 ho
        clear ho; subst e'; rename' o' => o, ho' => ho
        refine (monStep_good H N1 (N2 + 1) o ho).shiftB.mono le_rfl ?_ le_rfl
        rw [st, L_succ2]; omega

include H in
theorem step_sum {M : Type} [AddCommMonoid M] (f : ℕ → ℕ → M) (N1 N2 : ℕ) :
    osum f (mulStep prev (n + 2) N1 N2) = ∑ a ∈ range (L (n + 2) N1), ∑ b ∈ range (L (n + 2) N2), f a b := by
  induction N2 with
  | zero =>
    rw [mulStep, osum_range, polylen_nat, L_zero_right]
    simp [Op.a, Op.b]
  | succ N2 ih =>
    rw [mulStep]
    split
    · rename_i h0
      subst h0
      rw [osum_range, polylen_succ, L_zero_right]
      simp [Op.a, Op.b]
    · rw [osum_append, ih, osum_shift (fun o ho => (monStep_good H _ _ o ho).add), monStep_sum H, polylen_nat, L_succ (n + 1) N2, ← Finset.sum_add_distrib]
      refine Finset.sum_congr rfl fun a _ => ?_
      rw [Finset.sum_range_add]
      simp only [Nat.add_zero, Nat.add_comm _ (L (n + 2) N2)]

end Step

theorem mul_ok (n : ℕ) : MulOk n (mul n) := by
  induction n with
  | zero =>
    constructor
    · intro M _ f N1 N2
      simp [mul, L_zero_left, osum, Op.a, Op.b]
    · intro N1 N2 o ho
      rw [mul, List.mem_singleton] at ho
      subst ho
      exact ⟨rfl, L_pos _ _, L_pos _ _, L_pos _ _, rfl⟩
  | succ n ih =>
    cases n with
    | zero =>
      constructor
      · intro M _ f N1 N2
        rw [mul, osum_flatMap, sum_range_map, L_one, L_one]
        refine Finset.sum_congr rfl fun a _ => ?_
        rw [osum_range]; rfl
      · intro N1 N2 o ho
        rw [mul] at ho
        obtain ⟨i, hi, ho⟩ := List.mem_flatMap.1 ho
        obtain ⟨j, hj, rfl⟩ := List.mem_map.1 ho
        rw [List.mem_range] at hi hj
        refine ⟨rfl, ?_, ?_, ?_, ?_⟩
        · rw [L_one]; exact hi
        · rw [L_one]; exact hj
        · rw [L_one]; simp only [Op.d]; omega
        · simp only [Op.d, Op.a, Op.b, Nat.zero_add]
          rw [term_one, term_one, term_one]; rfl
    | succ n => exact ⟨fun f N1 N2 => step_sum ih f N1 N2, fun N1 N2 => step_good ih N1 N2⟩

theorem mon_good (n N1 N2 : ℕ) : ∀ o ∈ mulMonomial (n + 1) N1 N2, Good (n + 1) (L (n + 1) N1) (L n N2) (L (n + 1) (N1 + N2)) (st (n + 1) N2) o := by
  cases n with
  | zero =>
    intro o ho
    rw [mulMonomial] at ho
    obtain ⟨i, hi, rfl⟩ := List.mem_map.1 ho
    rw [List.mem_range] at hi
    have h : st 1 N2 = N2 := by cases N2 with
      | zero => rfl
      | succ i => rw [st, L_one]
    refine ⟨rfl, ?_, L_pos _ _, ?_, ?_⟩
    · rw [L_one]; exact hi
    · rw [L_one]; simp only [Op.d]; omega
    · simp only [Op.d, Op.a, Op.b, Nat.add_zero]
      rw [h, term_one, term_one, term_one]; rfl
  | succ n => exact monStep_good (mul_ok (n + 1)) N1 N2

theorem mon_sum {M : Type} [AddCommMonoid M] (f : ℕ → ℕ → M) (n N1 N2 : ℕ) :
    osum f (mulMonomial (n + 1) N1 N2) = ∑ a ∈ range (L (n + 1) N1), ∑ b ∈ range (L n N2), f a b := by
  cases n with
  | zero =>
    rw [mulMonomial, osum_range, L_one, L_zero_left]
    simp [Op.a, Op.b]
  | succ n => exact monStep_sum (mul_ok (n + 1)) f N1 N2

end XCFun.Polymul
