/-
Lemmas for C84.
-/
import Verif.Proofs.Exponents
import Verif.Spec.GradedOrder
import Mathlib.Algebra.BigOperators.Intervals

namespace XCFun.Grev
open XCFun Spec Props

theorem length_of_mem {al : List ℕ} {k : ℕ} {t : List ℕ} (h : t ∈ multisets al k) : t.length = k := by
  induction al generalizing k t with
  | nil => cases k <;> simp_all [multisets]
  | cons a al iha =>
    induction k generalizing t with
    | zero => simp_all [multisets]
    | succ k ihk =>
      simp only [multisets, List.mem_append, List.mem_map] at h
      rcases h with ⟨t, ht, rfl⟩ | h
      · rw [List.length_cons, ihk ht]
      · exact iha h

theorem sum_count {n : ℕ} {t : List ℕ} (h : ∀ x ∈ t, x < n) : ∑ i ∈ Finset.range n, t.count i = t.length := by
  induction t with
  | nil => simp
  | cons a t ih =>
    have ha : a < n := h a List.mem_cons_self
    simp only [List.count_cons, Finset.sum_add_distrib, ih fun x hx => h x (List.mem_cons_of_mem _ hx), List.length_cons]
    congr 1
    rw [Finset.sum_eq_single a]
    · simp
    · intro b _ hb; simp [hb.symm]
    · intro hn; exact absurd (Finset.mem_range.2 ha) hn

theorem sum_fromLast {n : ℕ} {t : List ℕ} (h : ∀ x ∈ t, x < n) : ∑ i ∈ Finset.range n, fromLast n t i = t.length := by
  unfold fromLast
  rw [Finset.sum_range_reflect (fun i => t.count i) n, sum_count h]

/-- The first index that does not occur equally often occurs more often in `t`. -/
def Before (t u : List ℕ) : Prop := ∃ i ∈ t, u.count i < t.count i ∧ ∀ j < i, t.count j = u.count j

theorem pairwise_before {al : List ℕ} (hal : al.Pairwise (· < ·)) (k : ℕ) : (multisets al k).Pairwise Before := by
  induction al generalizing k with
  | nil => cases k <;> simp [multisets]
  | cons a al iha =>
    have hal' := List.pairwise_cons.1 hal
    induction k with
    | zero => simp [multisets]
    | succ k ihk =>
      simp only [multisets]
      rw [List.pairwise_append]
      refine ⟨?_, iha hal'.2 _, ?_⟩
      · rw [List.pairwise_map]
        refine ihk.imp fun {t u} h => ?_
        obtain ⟨i, hi, h1, h2⟩ := h
        refine ⟨i, List.mem_cons_of_mem _ hi, ?_, fun j hj => ?_⟩
        · simp only [List.count_cons]; omega
        · simp only [List.count_cons, h2 j hj]
      · intro t ht u hu
        obtain ⟨t, ht2, rfl⟩ := List.mem_map.1 ht
        have hu' : ∀ x ∈ u, a < x := fun x hx => hal'.1 x (words_mem hu x hx)
        have ht' : ∀ x ∈ a :: t, a ≤ x := by
          intro x hx
          rcases List.mem_cons.1 hx with rfl | hx
          · exact le_rfl
          · rcases List.mem_cons.1 (words_mem ht2 x hx) with rfl | h
            · exact le_rfl
            · exact (hal'.1 x h).le
        refine ⟨a, List.mem_cons_self, ?_, fun j hj => ?_⟩
        · rw [List.count_eq_zero.2 fun h => lt_irrefl _ (hu' a h), List.count_cons_self]; omega
        · rw [List.count_eq_zero.2 fun h => absurd (ht' j h) (by omega), List.count_eq_zero.2 fun h => absurd (hu' j h) (by omega)]

theorem grev_of_before {n : ℕ} {t u : List ℕ} (ht : ∀ x ∈ t, x < n) (hu : ∀ x ∈ u, x < n) (hl : t.length = u.length) (h : Before t u) :
    GrevLt n (fromLast n t) (fromLast n u) := by
  obtain ⟨i, hi, h1, h2⟩ := h
  have hin := ht i hi
  refine .inr ⟨by rw [sum_fromLast ht, sum_fromLast hu, hl], n - 1 - i, by omega, ?_, fun j hj hij => ?_⟩
  · unfold fromLast; rwa [show n - 1 - (n - 1 - i) = i by omega]
  · unfold fromLast; exact h2 _ (by omega)

theorem mem_lt {n k : ℕ} {t : List ℕ} (h : t ∈ multisets (List.range n) k) : ∀ x ∈ t, x < n := fun x hx => List.mem_range.1 (words_mem h x hx)

/-- All index lists up to degree `k`, as the library lists them. -/
abbrev upTo (n k : ℕ) : List (List ℕ) := (List.range (k + 1)).flatMap (multisets (List.range n))

theorem pairwise_grev (n k : ℕ) : (upTo n k).Pairwise fun t u => GrevLt n (fromLast n t) (fromLast n u) := by
  rw [List.pairwise_flatMap]
  constructor
  · intro d _
    refine (pairwise_before List.pairwise_lt_range d).imp_of_mem fun {t u} ht hu h => ?_
    exact grev_of_before (mem_lt ht) (mem_lt hu) (by rw [length_of_mem ht, length_of_mem hu]) h
  · refine List.pairwise_lt_range.imp fun {d e} hde t ht u hu => ?_
    left
    rw [sum_fromLast (mem_lt ht), sum_fromLast (mem_lt hu), length_of_mem ht, length_of_mem hu]
    exact hde

theorem mem_of_sorted {al t : List ℕ} (hal : al.Pairwise (· < ·)) (ht : t.Pairwise (· ≤ ·)) (h : ∀ x ∈ t, x ∈ al) : t ∈ multisets al t.length := by
  induction al generalizing t with
  | nil =>
    cases t with
    | nil => simp [multisets]
    | cons b t => exact absurd (h b List.mem_cons_self) (by simp)
  | cons a al iha =>
    have hal' := List.pairwise_cons.1 hal
    induction t with
    | nil => simp [multisets]
    | cons b t iht =>
      have ht' := List.pairwise_cons.1 ht
      rw [List.length_cons, multisets, List.mem_append]
      rcases List.mem_cons.1 (h b List.mem_cons_self) with rfl | hb
      · exact .inl (List.mem_map.2 ⟨t, iht ht'.2 fun x hx => h x (List.mem_cons_of_mem _ hx), rfl⟩)
      · right
        refine iha hal'.2 ht fun x hx => ?_
        rcases List.mem_cons.1 (h x hx) with rfl | hx'
        · exfalso
          have h1 := hal'.1 b hb
          rcases List.mem_cons.1 hx with rfl | hx
          · omega
          · have := ht'.1 x hx; omega
        · exact hx'

/-- The index list with given exponents. -/
def listOf : ℕ → (ℕ → ℕ) → List ℕ
  | 0, _ => []
  | n + 1, e => listOf n e ++ List.replicate (e n) n

theorem listOf_lt (n : ℕ) (e : ℕ → ℕ) : ∀ x ∈ listOf n e, x < n := by
  induction n with
  | zero => simp [listOf]
  | succ n ih =>
    intro x hx
    rcases List.mem_append.1 hx with h | h
    · have := ih x h; omega
    · have := List.eq_of_mem_replicate h; omega

theorem listOf_sorted (n : ℕ) (e : ℕ → ℕ) : (listOf n e).Pairwise (· ≤ ·) := by
  induction n with
  | zero => simp [listOf]
  | succ n ih =>
    rw [listOf, List.pairwise_append]
    refine ⟨ih, List.pairwise_replicate.2 (.inr le_rfl), fun a ha b hb => ?_⟩
    rw [List.eq_of_mem_replicate hb]
    exact (listOf_lt n e a ha).le

theorem listOf_count (n : ℕ) (e : ℕ → ℕ) {i : ℕ} (hi : i < n) : (listOf n e).count i = e i := by
  induction n with
  | zero => omega
  | succ n ih =>
    rw [listOf, List.count_append, List.count_replicate]
    rcases Nat.lt_succ_iff_lt_or_eq.1 hi with h | rfl
    · rw [ih h]; simp [show n ≠ i by omega]
    · rw [List.count_eq_zero.2 fun h => lt_irrefl _ (listOf_lt i e i h)]; simp

theorem complete {n k : ℕ} {e : ℕ → ℕ} (h : ∑ i ∈ Finset.range n, e i ≤ k) : ∃ t ∈ upTo n k, ∀ i < n, t.count i = e i := by
  refine ⟨listOf n e, List.mem_flatMap.2 ⟨(listOf n e).length, ?_, ?_⟩, fun i hi => listOf_count n e hi⟩
  · rw [← sum_count (listOf_lt n e), List.mem_range, Finset.sum_congr rfl fun i hi => listOf_count n e (Finset.mem_range.1 hi)]
    omega
  · exact mem_of_sorted List.pairwise_lt_range (listOf_sorted n e) fun x hx => List.mem_range.2 (listOf_lt n e x hx)

theorem irrefl {n : ℕ} {a b : ℕ → ℕ} (h : GrevLt n a b) : ∃ i < n, a i ≠ b i := by
  by_contra hc
  push Not at hc
  have e : ∑ i ∈ Finset.range n, a i = ∑ i ∈ Finset.range n, b i := Finset.sum_congr rfl fun i hi => hc i (Finset.mem_range.1 hi)
  rcases h with h | ⟨-, i, hi, h, -⟩
  · omega
  · have := hc i hi; omega

end XCFun.Grev
