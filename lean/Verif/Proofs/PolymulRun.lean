/-
What the assignments of polymul.hpp do to the arrays.
-/
import Verif.Proofs.PolymulMul
import Mathlib.Data.Finset.Image
import Mathlib.Data.Finset.Union

namespace XCFun.Polymul
open XCFun Spec Finset

/-! ## Sums by degree -/

theorem sum_st {M : Type} [AddCommMonoid M] (n K : ℕ) (g : ℕ → M) :
    ∑ b ∈ range (st (n + 1) K), g b = ∑ j ∈ range K, ∑ b ∈ range (L n j), g (st (n + 1) j + b) := by
  induction K with
  | zero => rfl
  | succ K ih => rw [st_succ, Finset.sum_range_add, ih, Finset.sum_range_succ]

/-- Terms of degree `j`. -/
theorem sum_degree {M : Type} [AddCommMonoid M] {n j K : ℕ} (h : j < K) (g : ℕ → M) :
    ∑ a ∈ range (st (n + 1) K), (if (term (n + 1) a).sum = j then g a else 0) = ∑ a ∈ range (L n j), g (st (n + 1) j + a) := by
  rw [sum_st]
  rw [Finset.sum_eq_single_of_mem j (Finset.mem_range.2 h)]
  · exact Finset.sum_congr rfl fun a ha => by rw [term_sum (Finset.mem_range.1 ha), if_pos rfl]
  · intro k _ hk
    exact Finset.sum_eq_zero fun a ha => by rw [term_sum (Finset.mem_range.1 ha), if_neg hk]

section
variable {V : Type} [CommSemiring V]

/-- The entry, 0 beyond the end. -/
def at' (c : List V) (i : ℕ) : V := c.getD i 0

theorem rd_at {c : List V} {i : ℕ} (h : i < c.length) : rdBuf c i = .ok (at' c i) := by
  rw [rdBuf_ok h, at', List.getD_eq_getElem?_getD, List.getElem?_eq_getElem h, Option.getD_some]

theorem at_set (c : List V) {d : ℕ} (h : d < c.length) (v : V) (i : ℕ) : at' (c.set d v) i = if i = d then v else at' c i := by
  simp only [at', List.getD_eq_getElem?_getD, List.getElem?_set]
  by_cases e : d = i
  · subst e; simp [h]
  · rw [if_neg e, if_neg (fun e' => e e'.symm)]

/-- What the assignments add to entry `i`. -/
def contrib (p1 p2 : List V) (l : List Op) (i : ℕ) : V := (l.map fun o => if o.d = i then at' p1 o.a * at' p2 o.b else 0).sum

theorem contrib_append (p1 p2 : List V) (l l' : List Op) (i : ℕ) : contrib p1 p2 (l ++ l') i = contrib p1 p2 l i + contrib p1 p2 l' i := by simp [contrib]

theorem contrib_cons (p1 p2 : List V) (o : Op) (l : List Op) (i : ℕ) :
    contrib p1 p2 (o :: l) i = (if o.d = i then at' p1 o.a * at' p2 o.b else 0) + contrib p1 p2 l i := by simp [contrib]

/-- Every entry is first set and then added to; `S` are the entries that have been set before. -/
def Fresh : Finset ℕ → List Op → Prop
  | _, [] => True
  | S, .add d _ _ :: l => d ∈ S ∧ Fresh S l
  | S, .set d _ _ :: l => d ∉ S ∧ Fresh (insert d S) l
  | _, _ :: _ => False

/-- The entries that are set. -/
def sets : List Op → Finset ℕ
  | [] => ∅
  | .set d _ _ :: l => insert d (sets l)
  | _ :: l => sets l

theorem sets_append (l l' : List Op) : sets (l ++ l') = sets l ∪ sets l' := by
  induction l with
  | nil => simp [sets]
  | cons o l ih => cases o <;> simp [sets, ih]

theorem fresh_append {S : Finset ℕ} {l l' : List Op} (h : Fresh S l) (h' : Fresh (S ∪ sets l) l') : Fresh S (l ++ l') := by
  induction l generalizing S with
  | nil => simpa [sets] using h'
  | cons o l ih =>
    cases o with
    | add d a b => exact ⟨h.1, ih h.2 h'⟩
    | set d a b => exact ⟨h.1, ih h.2 (by simpa [sets, Finset.insert_union, Finset.union_insert] using h')⟩
    | scale d b => exact h.elim
    | fail => exact h.elim

theorem fresh_adds {S : Finset ℕ} {l : List Op} (h : ∀ o ∈ l, o = .add o.d o.a o.b ∧ o.d ∈ S) : Fresh S l := by
  induction l with
  | nil => trivial
  | cons o l ih =>
    have h0 := h o List.mem_cons_self
    rw [h0.1]
    exact ⟨h0.2, ih fun o ho => h o (List.mem_cons_of_mem _ ho)⟩

theorem sets_adds {l : List Op} (h : ∀ o ∈ l, o = .add o.d o.a o.b) : sets l = ∅ := by
  induction l with
  | nil => rfl
  | cons o l ih =>
    rw [h o List.mem_cons_self]
    exact ih fun o ho => h o (List.mem_cons_of_mem _ ho)

/-- Shifted assignments, after the entries below `k`. -/
theorem fresh_shift {S : Finset ℕ} {l : List Op} (k ka kb : ℕ) (h : Fresh S l) : Fresh (range k ∪ S.image (· + k)) (l.map (Op.shift k ka kb)) := by
  induction l generalizing S with
  | nil => trivial
  | cons o l ih =>
    cases o with
    | add d a b => exact ⟨Finset.mem_union_right _ (Finset.mem_image_of_mem _ h.1), ih h.2⟩
    | set d a b =>
      refine ⟨?_, ?_⟩
      · intro hd
        rcases Finset.mem_union.1 hd with hd | hd
        · rw [Finset.mem_range] at hd; omega
        · obtain ⟨x, hx, e⟩ := Finset.mem_image.1 hd
          have : x = d := by omega
          exact h.1 (this ▸ hx)
      · have := ih h.2
        rwa [Finset.image_insert, Finset.union_insert] at this
    | scale d b => exact h.elim
    | fail => exact h.elim

theorem sets_shift (l : List Op) (k ka kb : ℕ) : sets (l.map (Op.shift k ka kb)) = (sets l).image (· + k) := by
  induction l with
  | nil => rfl
  | cons o l ih => cases o <;> simp [sets, Op.shift, ih]

theorem range_union (k m : ℕ) : range k ∪ (range m).image (· + k) = range (k + m) := by
  ext i
  simp only [Finset.mem_union, Finset.mem_range, Finset.mem_image]
  constructor
  · rintro (h | ⟨j, hj, rfl⟩) <;> omega
  · intro h
    by_cases hi : i < k
    · exact Or.inl hi
    · exact Or.inr ⟨i - k, by omega, by omega⟩

theorem sets_range (k : ℕ) (g h : ℕ → ℕ) : sets ((List.range k).map fun i => .set i (g i) (h i)) = range k := by
  induction k with
  | zero => rfl
  | succ k ih => rw [List.range_succ, List.map_append, sets_append, ih, Finset.range_add_one]; simp [sets]

theorem fresh_range' (s k : ℕ) (g h : ℕ → ℕ) : Fresh (range s) ((List.range' s k).map fun i => .set i (g i) (h i)) := by
  induction k generalizing s with
  | zero => trivial
  | succ k ih =>
    rw [List.range'_succ, List.map_cons]
    refine ⟨by simp, ?_⟩
    rw [← Finset.range_add_one]
    exact ih (s + 1)

theorem fresh_range (k : ℕ) (g h : ℕ → ℕ) : Fresh ∅ ((List.range k).map fun i => .set i (g i) (h i)) := by
  have := fresh_range' 0 k g h
  rwa [← List.range_eq_range', Finset.range_zero] at this

/-- Indices within the arrays. -/
structure Within (A B D : ℕ) (o : Op) : Prop where
  a_lt : o.a < A
  b_lt : o.b < B
  d_lt : o.d < D

/-- The effect of assignments that set before they add. -/
theorem run_fresh (p1 p2 : List V) {l : List Op} {S : Finset ℕ} (hS : Fresh S l) {dst : List V} (hw : ∀ o ∈ l, Within p1.length p2.length dst.length o) :
    ∃ out, run (fun _ => p1) (fun _ => p2) l dst = .ok out ∧ out.length = dst.length ∧
      (∀ i ∈ S ∪ sets l, at' out i = (if i ∈ S then at' dst i else 0) + contrib p1 p2 l i) ∧ ∀ i ∉ S ∪ sets l, at' out i = at' dst i := by
  induction l generalizing S dst with
  | nil =>
    refine ⟨dst, rfl, rfl, fun i hi => ?_, fun i _ => rfl⟩
    have : i ∈ S := by simpa [sets] using hi
    simp [this, contrib]
  | cons o l ih =>
    have w := hw o List.mem_cons_self
    cases o with
    | add d a b =>
      have wa : a < p1.length := w.a_lt
      have wb : b < p2.length := w.b_lt
      have wd : d < dst.length := w.d_lt
      obtain ⟨h1, h2⟩ := hS
      have e : Op.run (fun _ => p1) (fun _ => p2) (.add d a b) dst = .ok (dst.set d (at' dst d + at' p1 a * at' p2 b)) := by
        simp only [Op.run, rd_at wa, rd_at wb, rd_at wd, Outcome.ok_bind]
        exact wrBuf_ok wd _
      obtain ⟨out, h3, h4, h5, h6⟩ := ih h2 (dst := dst.set d (at' dst d + at' p1 a * at' p2 b)) (fun o ho => by
        rw [List.length_set]; exact hw o (List.mem_cons_of_mem _ ho))
      refine ⟨out, by rw [run, e]; exact h3, by rw [h4, List.length_set], fun i hi => ?_, fun i hi => ?_⟩
      · have hc : contrib p1 p2 (.add d a b :: l) i = (if d = i then at' p1 a * at' p2 b else 0) + contrib p1 p2 l i := contrib_cons ..
        rw [h5 i hi, at_set _ wd, hc]
        by_cases hd : i = d
        · subst hd; simp [h1, add_assoc]
        · simp [hd, Ne.symm hd]
      · have hd : i ≠ d := fun e => hi (by rw [e]; exact Finset.mem_union_left _ h1)
        rw [h6 i hi, at_set _ wd, if_neg hd]
    | set d a b =>
      have wa : a < p1.length := w.a_lt
      have wb : b < p2.length := w.b_lt
      have wd : d < dst.length := w.d_lt
      obtain ⟨h1, h2⟩ := hS
      have e : Op.run (fun _ => p1) (fun _ => p2) (.set d a b) dst = .ok (dst.set d (at' p1 a * at' p2 b)) := by
        simp only [Op.run, rd_at wa, rd_at wb, Outcome.ok_bind]
        exact wrBuf_ok wd _
      obtain ⟨out, h3, h4, h5, h6⟩ := ih h2 (dst := dst.set d (at' p1 a * at' p2 b)) (fun o ho => by
        rw [List.length_set]; exact hw o (List.mem_cons_of_mem _ ho))
      have hu : S ∪ sets (.set d a b :: l) = insert d S ∪ sets l := by simp [sets, Finset.insert_union, Finset.union_insert]
      refine ⟨out, by rw [run, e]; exact h3, by rw [h4, List.length_set], fun i hi => ?_, fun i hi => ?_⟩
      · have hc : contrib p1 p2 (.set d a b :: l) i = (if d = i then at' p1 a * at' p2 b else 0) + contrib p1 p2 l i := contrib_cons ..
        rw [h5 i (hu ▸ hi), at_set _ wd, hc]
        by_cases hd : i = d
        · subst hd; simp [h1]
        · simp [hd, Ne.symm hd]
      · rw [hu] at hi
        have hd : i ≠ d := fun e => hi (by rw [e]; simp)
        rw [h6 i hi, at_set _ wd, if_neg hd]
    | scale d b => exact hS.elim
    | fail => exact hS.elim

/-! ## Coefficients of products -/

/-- Coefficient of term `i` of the product of the first `A` terms of `p1` and the first `B` terms of `p2`. -/
def conv (n A B : ℕ) (p1 p2 : List V) (i : ℕ) : V :=
  ∑ a ∈ range A, ∑ b ∈ range B, if term n i = List.zipWith (· + ·) (term n a) (term n b) then at' p1 a * at' p2 b else 0

/-- A product of terms, set or added. -/
structure Prod' (n A B D : ℕ) (o : Op) : Prop where
  a_lt : o.a < A
  b_lt : o.b < B
  d_lt : o.d < D
  eq : term n o.d = List.zipWith (· + ·) (term n o.a) (term n o.b)

theorem Good.prod {n A B D : ℕ} {o : Op} (h : Good n A B D 0 o) : Prod' n A B D o := ⟨h.a_lt, h.b_lt, h.d_lt, by simpa using h.eq⟩

theorem Prod'.mono {n A B D A' B' D' : ℕ} {o : Op} (h : Prod' n A B D o) (hA : A ≤ A') (hB : B ≤ B') (hD : D ≤ D') : Prod' n A' B' D' o :=
  ⟨h.a_lt.trans_le hA, h.b_lt.trans_le hB, h.d_lt.trans_le hD, h.eq⟩

theorem contrib_prod {n A B D : ℕ} {l : List Op} (h : ∀ o ∈ l, Prod' (n + 1) A B D o) (p1 p2 : List V) (i : ℕ) :
    contrib p1 p2 l i = osum (fun a b => if term (n + 1) i = List.zipWith (· + ·) (term (n + 1) a) (term (n + 1) b) then at' p1 a * at' p2 b else 0) l := by
  rw [contrib, osum]
  congr 1
  refine List.map_congr_left fun o ho => ?_
  rw [← (h o ho).eq]
  by_cases e : o.d = i
  · rw [if_pos e, e, if_pos rfl]
  · rw [if_neg e, if_neg fun e' => e (term_inj e').symm]

end

/-! ## Products into another array -/

theorem osum_shift' {M : Type} [AddCommMonoid M] {f : ℕ → ℕ → M} {kd ka kb : ℕ} {l : List Op} (h : ∀ o ∈ l, o ≠ .fail ∧ ∀ d b, o ≠ .scale d b) :
    osum f (l.map (Op.shift kd ka kb)) = osum (fun a b => f (a + ka) (b + kb)) l := by
  rw [osum, osum, List.map_map]
  congr 1
  refine List.map_congr_left fun o ho => ?_
  have := h o ho
  cases o with
  | add d a b => rfl
  | set d a b => rfl
  | scale d b => exact (this.2 d b rfl).elim
  | fail => exact (this.1 rfl).elim

theorem fresh_kind {S : Finset ℕ} {l : List Op} (h : Fresh S l) : ∀ o ∈ l, o ≠ .fail ∧ ∀ d b, o ≠ .scale d b := by
  induction l generalizing S with
  | nil => intro o ho; cases ho
  | cons x l ih =>
    intro o ho
    rcases List.mem_cons.1 ho with rfl | ho'
    · cases o with
      | add d a b => exact ⟨nofun, nofun⟩
      | set d a b => exact ⟨nofun, nofun⟩
      | scale d b => exact h.elim
      | fail => exact h.elim
    · cases x with
      | add d a b => exact ih h.2 o ho'
      | set d a b => exact ih h.2 o ho'
      | scale d b => exact h.elim
      | fail => exact h.elim

theorem shift_d {kd ka kb : ℕ} {o : Op} (h : o ≠ .fail ∧ ∀ d b, o ≠ .scale d b) :
    (o.shift kd ka kb).d = o.d + kd ∧ (o.shift kd ka kb).a = o.a + ka ∧ (o.shift kd ka kb).b = o.b + kb := by
  cases o with
  | add d a b => exact ⟨rfl, rfl, rfl⟩
  | set d a b => exact ⟨rfl, rfl, rfl⟩
  | scale d b => exact (h.2 d b rfl).elim
  | fail => exact (h.1 rfl).elim

/-- What is known about `mul_set`. -/
structure SetOk (n : ℕ) (f : ℕ → ℕ → List Op) : Prop where
  sum : ∀ {M : Type} [AddCommMonoid M] (g : ℕ → ℕ → M) (N1 N2 : ℕ), osum g (f N1 N2) = ∑ a ∈ range (L n N1), ∑ b ∈ range (L n N2), g a b
  good : ∀ N1 N2, ∀ o ∈ f N1 N2, Prod' n (L n N1) (L n N2) (L n (N1 + N2)) o
  fresh : ∀ N1 N2, Fresh ∅ (f N1 N2)
  sets : ∀ N1 N2, sets (f N1 N2) = range (L n (N1 + N2))

section Step
variable {n : ℕ} {prev : ℕ → ℕ → List Op} (H : SetOk (n + 1) prev)

include H in
theorem setStep_good (N1 N2 : ℕ) : ∀ o ∈ mulSetStep prev (n + 2) N1 N2, Prod' (n + 2) (L (n + 2) N1) (L (n + 2) N2) (L (n + 2) (N1 + N2)) o := by
  induction N2 with
  | zero =>
    intro o ho
    rw [mulSetStep, polylen_nat] at ho
    obtain ⟨i, hi, rfl⟩ := List.mem_map.1 ho
    rw [List.mem_range] at hi
    exact ⟨hi, L_pos _ _, hi, by simp only [Op.d, Op.a, Op.b]; exact (term_add_zero _ _).symm⟩
  | succ N2 ih =>
    intro o ho
    rw [mulSetStep] at ho
    split at ho
    · rename_i h0
      subst h0
      rw [polylen_succ] at ho
      obtain ⟨i, hi, rfl⟩ := List.mem_map.1 ho
      rw [List.mem_range] at hi
      exact ⟨L_pos _ _, hi, by rw [Nat.zero_add]; exact hi, by simp only [Op.d, Op.a, Op.b]; exact (term_zero_add _ _).symm⟩
    · rename_i h0
      obtain ⟨N1, rfl⟩ : ∃ k, N1 = k + 1 := ⟨N1 - 1, by omega⟩
      rw [List.mem_append, List.mem_append] at ho
      rcases ho with (ho | ho) | ho
      · exact (ih o ho).mono le_rfl (L_mono _ (by omega)) (L_mono _ (by omega))
      · rw [polylen_nat] at ho
        obtain ⟨o', ho', e'⟩ := List.mem_map.1 ho
        clear ho; subst e'; rename' o' => o, ho' => ho
        refine (mon_good (n + 1) N1 (N2 + 1) o ho).shiftB.prod.mono (L_mono _ (by omega)) ?_ (L_mono _ (by omega))
        rw [show st (n + 1 + 1) (N2 + 1) = L (n + 2) N2 from rfl, L_succ2]; omega
      · rw [show (((N1 + 1 : ℕ) : ℤ) - 1) = (N1 : ℤ) by push_cast; ring, polylen_nat, polylen_nat, polylen_add] at ho
        obtain ⟨o', ho', e'⟩ := List.mem_map.1 ho
        clear ho; subst e'; rename' o' => o, ho' => ho
        have g := H.good _ _ o ho
        obtain ⟨e1, e2, e3⟩ := shift_d (kd := L (n + 2) (N1 + 1 + N2)) (ka := L (n + 2) N1) (kb := L (n + 2) N2) (fresh_kind (H.fresh _ _) o ho)
        have ha := g.a_lt
        have hb := g.b_lt
        have hd := g.d_lt
        have key := term_add ha hb hd g.eq
        rw [show N1 + 1 + (N2 + 1) = (N1 + 1 + N2) + 1 by omega] at key hd ⊢
        refine ⟨?_, ?_, ?_, ?_⟩
        · rw [e2, L_succ2]; omega
        · rw [e3, L_succ2]; omega
        · rw [e1, L_succ2]; omega
        · rw [e1, e2, e3, Nat.add_comm o.d, Nat.add_comm o.a, Nat.add_comm o.b]
          exact key

include H in
theorem setStep_sum {M : Type} [AddCommMonoid M] (g : ℕ → ℕ → M) (N1 N2 : ℕ) :
    osum g (mulSetStep prev (n + 2) N1 N2) = ∑ a ∈ range (L (n + 2) N1), ∑ b ∈ range (L (n + 2) N2), g a b := by
  induction N2 with
  | zero =>
    rw [mulSetStep, osum_range, polylen_nat, L_zero_right]
    simp [Op.a, Op.b]
  | succ N2 ih =>
    rw [mulSetStep]
    split
    · rename_i h0
      subst h0
      rw [osum_range, polylen_succ, L_zero_right]
      simp [Op.a, Op.b]
    · rename_i h0
      obtain ⟨N1, rfl⟩ : ∃ k, N1 = k + 1 := ⟨N1 - 1, by omega⟩
      rw [show (((N1 + 1 : ℕ) : ℤ) - 1) = (N1 : ℤ) by push_cast; ring, polylen_nat, polylen_nat, Nat.add_sub_cancel]
      rw [osum_append, osum_append, ih, osum_shift (fun o ho => (mon_good (n + 1) _ _ o ho).add), mon_sum, osum_shift' (fresh_kind (H.fresh _ _)), H.sum, L_succ (n + 1) N2]
      rw [add_assoc, L_succ (n + 1) N1]
      simp only [Finset.sum_range_add, Finset.sum_add_distrib]
      simp only [Nat.add_zero, Nat.add_comm _ (L (n + 2) N2), Nat.add_comm _ (L (n + 2) N1)]

include H in
theorem setStep_sets (N1 N2 : ℕ) : sets (mulSetStep prev (n + 2) N1 N2) = range (L (n + 2) (N1 + N2)) := by
  induction N2 with
  | zero => rw [mulSetStep, polylen_nat, sets_range]; rfl
  | succ N2 ih =>
    rw [mulSetStep]
    split
    · rename_i h0
      rw [polylen_succ, sets_range, h0, Nat.zero_add]
    · rename_i h0
      rw [sets_append, sets_append, ih, sets_shift, sets_shift, H.sets, sets_adds (fun o ho => (mon_good (n + 1) _ _ o ho).add), polylen_add]
      rw [Finset.image_empty, Finset.union_empty, range_union, ← Nat.add_assoc N1, L_succ (n + 1) (N1 + N2)]

include H in
theorem setStep_fresh (N1 N2 : ℕ) : Fresh ∅ (mulSetStep prev (n + 2) N1 N2) := by
  induction N2 with
  | zero => rw [mulSetStep]; exact fresh_range _ _ _
  | succ N2 ih =>
    rw [mulSetStep]
    split
    · exact fresh_range _ _ _
    · rename_i h0
      obtain ⟨N1, rfl⟩ : ∃ k, N1 = k + 1 := ⟨N1 - 1, by omega⟩
      have hm : ∀ o ∈ (mulMonomial (n + 2) (N1 + 1 - 1) (N2 + 1)).map (Op.shift 0 0 (polylen (n + 2) N2)), o = .add o.d o.a o.b ∧ o.d ∈ range (L (n + 2) (N1 + 1 + N2)) := by
        intro o ho
        obtain ⟨o', ho', e'⟩ := List.mem_map.1 ho
        clear ho; subst e'; rename' o' => o, ho' => ho
        have g := mon_good (n + 1) N1 (N2 + 1) o ho
        rw [Op.shift_add g.add]
        refine ⟨rfl, Finset.mem_range.2 ?_⟩
        show o.d + 0 < _
        exact g.d_lt.trans_le (L_mono _ (by omega))
      refine fresh_append (fresh_append ih ?_) ?_
      · rw [Finset.empty_union, setStep_sets H]
        exact fresh_adds hm
      · rw [sets_append, setStep_sets H, sets_adds (fun o ho => (hm o ho).1), Finset.union_empty, Finset.empty_union, polylen_add]
        have := fresh_shift (L (n + 2) (N1 + 1 + N2)) (polylen (n + 2) (((N1 + 1 : ℕ) : ℤ) - 1)) (polylen (n + 2) N2) (H.fresh (N1 + 1) (N2 + 1))
        rwa [Finset.image_empty, Finset.union_empty] at this

end Step

theorem mulSet_ok (n : ℕ) : SetOk (n + 1) (mulSet (n + 1)) := by
  induction n with
  | zero =>
    have hs : ∀ N1 N2, sets (mulSet 1 N1 N2) = range (N1 + N2 + 1) := by
      intro N1 N2
      have h2 : ∀ k, sets ((List.range' 1 k).map fun j => .set (N1 + j) N1 j) = (range k).image (· + (N1 + 1)) := by
        intro k
        induction k with
        | zero => rfl
        | succ k ih =>
          rw [List.range'_concat, List.map_append, sets_append, ih, Finset.range_add_one, Finset.image_insert]
          rw [show k + (N1 + 1) = N1 + (1 + 1 * k) by omega]
          ext x
          simp [sets]
      rw [mulSet, sets_append, sets_append, sets_range, h2, sets_adds, Finset.union_empty, range_union]
      · congr 1; omega
      · intro o ho
        obtain ⟨i, _, ho⟩ := List.mem_flatMap.1 ho
        obtain ⟨j, _, rfl⟩ := List.mem_map.1 ho
        rfl
    have hf : ∀ N1 N2, Fresh ∅ (mulSet 1 N1 N2) := by
      intro N1 N2
      rw [mulSet]
      refine fresh_append (fresh_append (fresh_range _ _ _) ?_) ?_
      · rw [sets_range, Finset.empty_union]
        have := fresh_range' (N1 + 1) N2 (fun _ => N1) (fun i => i - N1)
        rw [List.range'_eq_map_range, List.map_map] at this ⊢
        convert this using 2
        funext j
        simp only [Function.comp_apply]
        congr 1 <;> omega
      · have : sets ((List.range (N1 + 1)).map (fun i => Op.set i i 0) ++ (List.range' 1 N2).map (fun j => .set (N1 + j) N1 j)) = range (N1 + N2 + 1) := by
          have := hs N1 N2
          rw [mulSet, sets_append] at this
          rwa [sets_adds (l := List.flatMap _ _), Finset.union_empty] at this
          intro o ho
          obtain ⟨i, _, ho⟩ := List.mem_flatMap.1 ho
          obtain ⟨j, _, rfl⟩ := List.mem_map.1 ho
          rfl
        rw [this, Finset.empty_union]
        refine fresh_adds fun o ho => ?_
        obtain ⟨i, hi, ho⟩ := List.mem_flatMap.1 ho
        obtain ⟨j, hj, rfl⟩ := List.mem_map.1 ho
        rw [List.mem_range] at hi
        rw [List.mem_range'_1] at hj
        exact ⟨rfl, Finset.mem_range.2 (by simp only [Op.d]; omega)⟩
    refine ⟨?_, ?_, hf, fun N1 N2 => by rw [hs, L_one]⟩
    · intro M _ g N1 N2
      rw [L_one, L_one, mulSet, osum_append, osum_append, osum_range, osum_range', osum_flatMap, sum_range_map]
      simp only [Op.a, Op.b, osum_range']
      simp only [Finset.sum_range_succ' _ N2, Finset.sum_add_distrib, Finset.sum_range_succ _ N1, Nat.add_comm 1]
      abel
    · intro N1 N2 o ho
      rw [mulSet, List.mem_append, List.mem_append] at ho
      rw [L_one, L_one, L_one]
      rcases ho with (ho | ho) | ho
      · obtain ⟨i, hi, rfl⟩ := List.mem_map.1 ho
        rw [List.mem_range] at hi
        exact ⟨hi, by simp [Op.b], by simp only [Op.d]; omega, by simp [Op.d, Op.a, Op.b, term_one]⟩
      · obtain ⟨i, hi, rfl⟩ := List.mem_map.1 ho
        rw [List.mem_range'_1] at hi
        exact ⟨by simp [Op.a], by simp only [Op.b]; omega, by simp only [Op.d]; omega, by simp [Op.d, Op.a, Op.b, term_one]⟩
      · obtain ⟨i, hi, ho⟩ := List.mem_flatMap.1 ho
        obtain ⟨j, hj, rfl⟩ := List.mem_map.1 ho
        rw [List.mem_range] at hi
        rw [List.mem_range'_1] at hj
        exact ⟨by simp only [Op.a]; omega, by simp only [Op.b]; omega, by simp only [Op.d]; omega, by simp [Op.d, Op.a, Op.b, term_one]⟩
  | succ n ih => exact ⟨fun g N1 N2 => setStep_sum ih g N1 N2, setStep_good ih, setStep_fresh ih, setStep_sets ih⟩

section
variable {V : Type} [CommSemiring V]

/-- The product of two polynomials, entry by entry. -/
theorem polymul_run {n N1 N2 : ℕ} {dst p1 p2 : List V} (h : L (n + 1) (N1 + N2) ≤ dst.length) (h1 : L (n + 1) N1 ≤ p1.length) (h2 : L (n + 1) N2 ≤ p2.length) :
    ∃ out, polymul (n + 1) N1 N2 dst p1 p2 = .ok out ∧ out.length = dst.length ∧
      (∀ i < L (n + 1) (N1 + N2), at' out i = conv (n + 1) (L (n + 1) N1) (L (n + 1) N2) p1 p2 i) ∧ ∀ i, L (n + 1) (N1 + N2) ≤ i → at' out i = at' dst i := by
  have H := mulSet_ok n
  obtain ⟨out, e1, e2, e3, e4⟩ := run_fresh p1 p2 (H.fresh N1 N2) (dst := dst) (fun o ho =>
    have g := H.good _ _ o ho
    ⟨g.a_lt.trans_le h1, g.b_lt.trans_le h2, g.d_lt.trans_le h⟩)
  rw [Finset.empty_union, H.sets] at e3 e4
  refine ⟨out, e1, e2, fun i hi => ?_, fun i hi => e4 i (by rw [Finset.mem_range]; omega)⟩
  rw [e3 i (Finset.mem_range.2 hi), contrib_prod (H.good N1 N2), H.sum]
  simp [conv]

end

end XCFun.Polymul
