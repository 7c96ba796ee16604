/-
Truncated products of polymul.hpp, into another array and in place.
-/
import Verif.Proofs.PolymulRun

namespace XCFun.Polymul
open XCFun Spec Finset

theorem zip_sum {n : ℕ} {l m : List ℕ} (hl : l.length = n) (hm : m.length = n) : (List.zipWith (· + ·) l m).sum = l.sum + m.sum := by
  induction l generalizing m n with
  | nil => simp at hl; subst hl; rw [List.length_eq_zero_iff] at hm; subst hm; rfl
  | cons x l ih =>
    cases m with
    | nil => simp at hl hm; omega
    | cons y m =>
      rw [List.zipWith_cons_cons, List.sum_cons, List.sum_cons, List.sum_cons, ih (n := n - 1) (by simp at hl; omega) (by simp at hm; omega)]
      omega

theorem term_sum_add (n a b : ℕ) : (List.zipWith (· + ·) (term n a) (term n b)).sum = (term n a).sum + (term n b).sum :=
  zip_sum (term_length n a) (term_length n b)

theorem sum_swap_lt {M : Type} [AddCommMonoid M] (A B : ℕ) (F : ℕ → M) :
    ∑ j ∈ range A, (if j < B then F j else 0) = ∑ j ∈ range B, (if j < A then F j else 0) := by
  rw [← Finset.sum_filter, ← Finset.sum_filter]
  congr 1
  ext j
  simp only [Finset.mem_filter, Finset.mem_range]
  tauto

section
variable {V : Type} [CommSemiring V]

/-- Only terms of small degree contribute. -/
theorem conv_trunc {n A A' B N i : ℕ} (hi : i < L (n + 1) N) (hA : L (n + 1) N ≤ A) (hA' : L (n + 1) N ≤ A') {p1 p1' p2 : List V}
    (h : ∀ a < L (n + 1) N, at' p1 a = at' p1' a) : conv (n + 1) A B p1 p2 i = conv (n + 1) A' B p1' p2 i := by
  have key : ∀ A, L (n + 1) N ≤ A → ∀ p1 : List V, conv (n + 1) A B p1 p2 i = conv (n + 1) (L (n + 1) N) B p1 p2 i := by
    intro A hA p1
    rw [conv, conv]
    symm
    refine Finset.sum_subset (Finset.range_mono hA) fun a _ ha => Finset.sum_eq_zero fun b _ => ?_
    refine if_neg fun e => ha ?_
    have := congrArg List.sum e
    rw [term_sum_add] at this
    rw [Finset.mem_range, lt_iff]
    have := lt_iff.1 hi
    omega
  rw [key A hA, key A' hA', conv, conv]
  exact Finset.sum_congr rfl fun a ha => Finset.sum_congr rfl fun b _ => by rw [h a (Finset.mem_range.1 ha)]

/-! ## Into another array -/

theorem tset_sets (n N N2 : ℕ) : sets (taylorMulSet (n + 1) N N2) = range (L (n + 1) N) := by
  induction N2 with
  | zero => rw [taylorMulSet, polylen_nat, sets_range]
  | succ N2 ih =>
    rw [taylorMulSet, sets_append, ih, sets_shift, sets_adds (fun o ho => (mon_good n _ _ o ho).add)]; simp

theorem tset_good {n N N2 : ℕ} (h : N2 ≤ N) : ∀ o ∈ taylorMulSet (n + 1) N N2, Prod' (n + 1) (L (n + 1) N) (L (n + 1) N2) (L (n + 1) N) o := by
  induction N2 with
  | zero =>
    intro o ho
    rw [taylorMulSet, polylen_nat] at ho
    obtain ⟨i, hi, rfl⟩ := List.mem_map.1 ho
    rw [List.mem_range] at hi
    exact ⟨hi, L_pos _ _, hi, by simp only [Op.d, Op.a, Op.b]; exact (term_add_zero _ _).symm⟩
  | succ N2 ih =>
    intro o ho
    rw [taylorMulSet, List.mem_append] at ho
    rcases ho with ho | ho
    · exact (ih (by omega) o ho).mono le_rfl (L_mono _ (by omega)) le_rfl
    · rw [polylen_nat] at ho
      obtain ⟨o', ho', e'⟩ := List.mem_map.1 ho
      clear ho; subst e'; rename' o' => o, ho' => ho
      refine (mon_good n _ (N2 + 1) o ho).shiftB.prod.mono (L_mono _ (by omega)) ?_ (L_mono _ (by omega))
      rw [st, L_succ]; omega

theorem tset_fresh {n N N2 : ℕ} (h : N2 ≤ N) : Fresh ∅ (taylorMulSet (n + 1) N N2) := by
  induction N2 with
  | zero => rw [taylorMulSet]; exact fresh_range _ _ _
  | succ N2 ih =>
    rw [taylorMulSet]
    refine fresh_append (ih (by omega)) ?_
    rw [tset_sets, Finset.empty_union]
    refine fresh_adds fun o ho => ?_
    obtain ⟨o', ho', e'⟩ := List.mem_map.1 ho
    clear ho; subst e'; rename' o' => o, ho' => ho
    have g := mon_good n (N - (N2 + 1)) (N2 + 1) o ho
    rw [Op.shift_add g.add]
    refine ⟨rfl, Finset.mem_range.2 ?_⟩
    show o.d + 0 < _
    exact g.d_lt.trans_le (L_mono _ (by omega))

theorem tset_sum {M : Type} [AddCommMonoid M] (g : ℕ → ℕ → M) {n N N2 : ℕ} :
    osum g (taylorMulSet (n + 1) N N2) = ∑ j ∈ range (N2 + 1), ∑ a ∈ range (L (n + 1) (N - j)), ∑ b ∈ range (L n j), g a (st (n + 1) j + b) := by
  induction N2 with
  | zero =>
    rw [taylorMulSet, osum_range, polylen_nat]
    simp [L_zero_right, Op.a, Op.b, st]
  | succ N2 ih =>
    rw [taylorMulSet, osum_append, ih, osum_shift (fun o ho => (mon_good n _ _ o ho).add), mon_sum, Finset.sum_range_succ _ (N2 + 1), polylen_nat]
    congr 1
    refine Finset.sum_congr rfl fun a _ => Finset.sum_congr rfl fun b _ => ?_
    rw [st, Nat.add_zero, Nat.add_comm]

/-- The truncated product, entry by entry. -/
theorem taylormul_run {n N N2 : ℕ} (h2 : N2 ≤ N) {dst p1 p2 : List V} (h : L (n + 1) N ≤ dst.length) (h1 : L (n + 1) N ≤ p1.length) (h2' : L (n + 1) N2 ≤ p2.length) :
    ∃ out, run (fun _ => p1) (fun _ => p2) (taylorMulSet (n + 1) N N2) dst = .ok out ∧ out.length = dst.length ∧
      (∀ i < L (n + 1) N, at' out i = conv (n + 1) (L (n + 1) N) (L (n + 1) N2) p1 p2 i) ∧ ∀ i, L (n + 1) N ≤ i → at' out i = at' dst i := by
  obtain ⟨out, e1, e2, e3, e4⟩ := run_fresh p1 p2 (tset_fresh (n := n) h2) (dst := dst) (fun o ho =>
    have g := tset_good h2 o ho
    ⟨g.a_lt.trans_le h1, g.b_lt.trans_le h2', g.d_lt.trans_le h⟩)
  rw [Finset.empty_union, tset_sets] at e3 e4
  refine ⟨out, e1, e2, fun i hi => ?_, fun i hi => e4 i (by rw [Finset.mem_range]; omega)⟩
  rw [e3 i (Finset.mem_range.2 hi), contrib_prod (tset_good h2), tset_sum, if_neg (by simp), zero_add, conv, Finset.sum_comm]
  rw [show L (n + 1) N2 = st (n + 1) (N2 + 1) from rfl, sum_st]
  refine Finset.sum_congr rfl fun j hj => ?_
  rw [Finset.sum_comm]
  refine Finset.sum_congr rfl fun b hb => ?_
  refine Finset.sum_subset (Finset.range_mono (L_mono _ (by omega))) fun a _ ha => ?_
  refine if_neg fun e => ha ?_
  have := congrArg List.sum e
  rw [term_sum_add, term_sum (Finset.mem_range.1 hb)] at this
  rw [Finset.mem_range, lt_iff]
  have := lt_iff.1 hi
  omega

/-! ## In place -/

theorem run_append (q1 q2 : List V → List V) (l l' : List Op) (dst : List V) : run q1 q2 (l ++ l') dst = (run q1 q2 l dst).bind (run q1 q2 l') := by
  induction l generalizing dst with
  | nil => rfl
  | cons o l ih =>
    rw [List.cons_append, run, run]
    cases o.run q1 q2 dst with
    | ok x => exact ih x
    | die => rfl
    | ub => rfl
    | diverge => rfl

theorem run_scale {p2 : List V} (h2 : 0 < p2.length) (s k : ℕ) {dst : List V} (h : s + k ≤ dst.length) :
    ∃ out, run id (fun _ => p2) ((List.range' s k).map fun i => .scale i 0) dst = .ok out ∧ out.length = dst.length ∧
      ∀ i, at' out i = if s ≤ i ∧ i < s + k then at' dst i * at' p2 0 else at' dst i := by
  induction k generalizing s dst with
  | zero => exact ⟨dst, rfl, rfl, fun i => by rw [if_neg (by omega)]⟩
  | succ k ih =>
    rw [List.range'_succ, List.map_cons, run]
    have wd : s < dst.length := by omega
    have e : Op.run id (fun _ => p2) (.scale s 0) dst = .ok (dst.set s (at' dst s * at' p2 0)) := by
      simp only [Op.run, rd_at h2, rd_at wd, Outcome.ok_bind]
      exact wrBuf_ok wd _
    rw [e]
    obtain ⟨out, e1, e2, e3⟩ := ih (s + 1) (dst := dst.set s (at' dst s * at' p2 0)) (by rw [List.length_set]; omega)
    refine ⟨out, e1, by rw [e2, List.length_set], fun i => ?_⟩
    rw [e3, at_set _ wd]
    by_cases hi : i = s
    · subst hi
      rw [if_neg (by omega), if_pos rfl, if_pos (by omega)]
    · rw [if_neg hi]
      refine if_congr ?_ rfl rfl
      omega

theorem run_top {p2 : List V} {m : ℕ} {l : List Op} {dst : List V}
    (h : ∀ o ∈ l, o = .add o.d o.a o.b ∧ m ≤ o.d ∧ o.d < dst.length ∧ o.a < m ∧ o.b < p2.length) :
    ∃ out, run id (fun _ => p2) l dst = .ok out ∧ out.length = dst.length ∧ ∀ i, at' out i = at' dst i + contrib dst p2 l i := by
  induction l generalizing dst with
  | nil => exact ⟨dst, rfl, rfl, fun i => by simp [contrib]⟩
  | cons o l ih =>
    obtain ⟨ho, h1, h2, h3, h4⟩ := h o List.mem_cons_self
    obtain ⟨d, a, b, rfl⟩ : ∃ d a b, o = .add d a b := ⟨_, _, _, ho⟩
    replace h1 : m ≤ d := h1
    replace h2 : d < dst.length := h2
    replace h3 : a < m := h3
    replace h4 : b < p2.length := h4
    have ha : a < dst.length := by omega
    have e : Op.run id (fun _ => p2) (.add d a b) dst = .ok (dst.set d (at' dst d + at' dst a * at' p2 b)) := by
      simp only [Op.run, id, rd_at ha, rd_at h4, rd_at h2, Outcome.ok_bind]
      exact wrBuf_ok h2 _
    obtain ⟨out, e1, e2, e3⟩ := ih (dst := dst.set d (at' dst d + at' dst a * at' p2 b)) (fun o ho => by
      rw [List.length_set]; exact h o (List.mem_cons_of_mem _ ho))
    refine ⟨out, by rw [run, e]; exact e1, by rw [e2, List.length_set], fun i => ?_⟩
    have hc : contrib dst p2 (.add d a b :: l) i = (if d = i then at' dst a * at' p2 b else 0) + contrib dst p2 l i := contrib_cons ..
    have hl : contrib (dst.set d (at' dst d + at' dst a * at' p2 b)) p2 l i = contrib dst p2 l i := by
      rw [contrib, contrib]
      congr 1
      refine List.map_congr_left fun o ho => ?_
      have := (h o (List.mem_cons_of_mem _ ho)).2.2.2.1
      rw [at_set _ h2, if_neg (by omega : o.a ≠ d)]
    rw [e3, hl, hc, at_set _ h2]
    by_cases hi : i = d
    · subst hi; simp [add_assoc]
    · simp [hi, Ne.symm hi]

/-- The contributions to the terms of degree `N + 1` that involve terms of lower degree of the first factor. -/
structure TopOk (n N N2 : ℕ) (l : List Op) : Prop where
  good : ∀ o ∈ l, o = .add o.d o.a o.b ∧ L (n + 1) N ≤ o.d ∧ o.d < L (n + 1) (N + 1) ∧ o.a < L (n + 1) N ∧ o.b < L (n + 1) (min (N + 1) N2) ∧
    term (n + 1) o.d = List.zipWith (· + ·) (term (n + 1) o.a) (term (n + 1) o.b)
  sum : ∀ {M : Type} [AddCommMonoid M] (g : ℕ → ℕ → M), osum g l =
    ∑ j ∈ range (N + 1), if j < N2 then ∑ a ∈ range (L n (N - j)), ∑ b ∈ range (L n (j + 1)), g (st (n + 1) (N - j) + a) (st (n + 1) (j + 1) + b) else 0

theorem topOk_one (N N2 : ℕ) : TopOk 0 N N2 (if N + 1 ≤ N2 then (List.range (N + 1)).map fun i => .add (N + 1) i (N + 1 - i)
     else (List.range' (N + 1 - N2) N2).map fun i => .add (N + 1) i (N + 1 - i)) := by
  have hst : ∀ k, st 1 k = k := fun k => by cases k with
    | zero => rfl
    | succ k => rw [st, L_one]
  constructor
  · intro o ho
    simp only [Nat.zero_add, L_one, term_one]
    split at ho
    · obtain ⟨i, hi, rfl⟩ := List.mem_map.1 ho
      rw [List.mem_range] at hi
      refine ⟨rfl, ?_, ?_, ?_, ?_, ?_⟩ <;> simp only [Op.d, Op.a, Op.b] <;> first | omega | simp <;> omega
    · obtain ⟨i, hi, rfl⟩ := List.mem_map.1 ho
      rw [List.mem_range'_1] at hi
      refine ⟨rfl, ?_, ?_, ?_, ?_, ?_⟩ <;> simp only [Op.d, Op.a, Op.b] <;> first | omega | simp <;> omega
  · intro M _ g
    simp only [L_zero_left, Finset.sum_range_one, hst, Nat.add_zero, Nat.zero_add]
    split
    · rename_i h
      rw [osum_range, ← Finset.sum_range_reflect]
      refine Finset.sum_congr rfl fun j hj => ?_
      rw [Finset.mem_range] at hj
      rw [if_pos (by omega)]
      simp only [Op.a, Op.b]
      congr 1 <;> omega
    · rename_i h
      rw [osum_range', sum_swap_lt, ← Finset.sum_range_reflect]
      refine Finset.sum_congr rfl fun j hj => ?_
      rw [Finset.mem_range] at hj
      rw [if_pos (by omega)]
      simp only [Op.a, Op.b]
      congr 1 <;> omega

theorem topOk (n N N2 : ℕ) : TopOk (n + 1) N N2 (inplaceTop (n + 1) N N2) := by
  have H := mul_ok (n + 1)
  constructor
  · intro o ho
    rw [inplaceTop, List.mem_append] at ho
    rcases ho with ho | ho
    · obtain ⟨i2, hi, hm⟩ := List.mem_flatMap.1 ho
      clear ho
      rw [List.mem_range'_1] at hi
      split at hm
      · rename_i hi2
        rw [polylen_nat, polylen_pred, polylen_pred] at hm
        obtain ⟨o', ho', e'⟩ := List.mem_map.1 hm
        clear hm; subst e'; rename' o' => o, ho' => ho
        have g := H.good _ _ o ho
        rw [Op.shift_add g.add]
        have ha := g.a_lt
        have hb := g.b_lt
        have hd := g.d_lt
        have e := g.eq
        rw [Nat.zero_add] at e
        have key := term_add ha hb hd e
        have h1 : st (n + 2) (N + 1 - i2) + L (n + 1) (N + 1 - i2) ≤ L (n + 2) N := by
          rw [← st_succ]; exact st_mono (n + 1) (by omega : N + 1 - i2 + 1 ≤ N + 1)
        have h2 : st (n + 2) i2 + L (n + 1) i2 ≤ L (n + 2) (min (N + 1) N2) := by
          rw [← st_succ]; exact st_mono (n + 1) (by omega : i2 + 1 ≤ min (N + 1) N2 + 1)
        rw [show N + 1 - i2 + i2 = N + 1 by omega] at hd key
        have h3 : st (n + 2) (N + 1) = L (n + 2) N := rfl
        refine ⟨rfl, ?_, ?_, ?_, ?_, ?_⟩
        · show L (n + 2) N ≤ o.d + L (n + 2) N; omega
        · show o.d + L (n + 2) N < L (n + 2) (N + 1); rw [L_succ2]; omega
        · show o.a + st (n + 2) (N + 1 - i2) < L (n + 2) N; omega
        · show o.b + st (n + 2) i2 < L (n + 2) (min (N + 1) N2); omega
        · show term (n + 2) (o.d + L (n + 2) N) = List.zipWith _ (term (n + 2) (o.a + st (n + 2) (N + 1 - i2))) (term (n + 2) (o.b + st (n + 2) i2))
          rw [Nat.add_comm o.d, Nat.add_comm o.a, Nat.add_comm o.b]
          exact key
      · cases hm
    · split at ho
      · rename_i h
        rw [polylen_nat, polylen_succ, L_succ2, Nat.add_sub_cancel_left] at ho
        obtain ⟨i, hi, rfl⟩ := List.mem_map.1 ho
        rw [List.mem_range'_1] at hi
        refine ⟨rfl, hi.1, ?_, L_pos _ _, ?_, ?_⟩
        · show i < L (n + 2) (N + 1); rw [L_succ2]; exact hi.2
        · rw [Nat.min_eq_left h]; show i < L (n + 2) (N + 1); rw [L_succ2]; exact hi.2
        · exact (term_zero_add _ _).symm
      · cases ho
  · intro M _ g
    rw [inplaceTop, osum_append, osum_flatMap, sum_range'_map, Finset.sum_range_succ]
    congr 1
    · refine Finset.sum_congr rfl fun j hj => ?_
      rw [Finset.mem_range] at hj
      by_cases h : j < N2
      · rw [if_pos h, if_pos (by omega), polylen_pred, polylen_pred, osum_shift (fun o ho => (H.good _ _ o ho).add), H.sum]
        rw [show N + 1 - (1 + j) = N - j by omega, Nat.add_comm 1 j]
        simp only [Nat.add_comm _ (st (n + 1 + 1) _)]
      · rw [if_neg h, if_neg (by omega)]; rfl
    · by_cases h : N < N2
      · rw [if_pos h, if_pos (by omega), polylen_nat, polylen_succ, L_succ2, Nat.add_sub_cancel_left, osum_range', Nat.sub_self, L_zero_right]
        simp [Op.a, Op.b, st]
      · rw [if_neg h, if_neg (by omega)]; rfl

/-- The new coefficient of a term of degree `N + 1`. -/
theorem top_conv {n N N2 i : ℕ} {l : List Op} (H : TopOk n N N2 l) (h1 : L (n + 1) N ≤ i) (h2 : i < L (n + 1) (N + 1)) (p1 p2 : List V) :
    at' p1 i * at' p2 0 + contrib p1 p2 l i = conv (n + 1) (L (n + 1) (N + 1)) (L (n + 1) N2) p1 p2 i := by
  have hc : contrib p1 p2 l i = _ :=
    contrib_prod (A := L (n + 1) N) (B := L (n + 1) (min (N + 1) N2)) (D := L (n + 1) (N + 1)) (fun o ho => have g := H.good o ho; ⟨g.2.2.2.1, g.2.2.2.2.1, g.2.2.1, g.2.2.2.2.2⟩) p1 p2 i
  rw [hc, H.sum, conv]
  have hd : (term (n + 1) i).sum = N + 1 := by
    have a1 := lt_iff.1 h2
    have a2 := mt lt_iff.2 (by omega : ¬ i < L (n + 1) N)
    omega
  set G : ℕ → ℕ → V := fun a b => if term (n + 1) i = List.zipWith (· + ·) (term (n + 1) a) (term (n + 1) b) then at' p1 a * at' p2 b else 0 with hG
  show _ = ∑ a ∈ range (L (n + 1) (N + 1)), ∑ b ∈ range (L (n + 1) N2), G a b
  have hz : ∀ a b, (term (n + 1) a).sum + (term (n + 1) b).sum ≠ N + 1 → G a b = 0 := by
    intro a b h
    refine if_neg fun e => h ?_
    rw [← term_sum_add, ← e, hd]
  rw [Finset.sum_comm, show L (n + 1) N2 = st (n + 1) (N2 + 1) from rfl, sum_st]
  have hj : ∀ j, ∑ b ∈ range (L n j), ∑ a ∈ range (L (n + 1) (N + 1)), G a (st (n + 1) j + b) =
      if j ≤ N + 1 then ∑ a ∈ range (L n (N + 1 - j)), ∑ b ∈ range (L n j), G (st (n + 1) (N + 1 - j) + a) (st (n + 1) j + b) else 0 := by
    intro j
    by_cases h : j ≤ N + 1
    · rw [if_pos h, Finset.sum_comm (s := range (L n (N + 1 - j)))]
      refine Finset.sum_congr rfl fun b hb => ?_
      have e := term_sum (Finset.mem_range.1 hb)
      rw [show L (n + 1) (N + 1) = st (n + 1) (N + 2) from rfl, ← sum_degree (n := n) (j := N + 1 - j) (K := N + 2) (by omega) (fun a => G a (st (n + 1) j + b))]
      refine Finset.sum_congr rfl fun a _ => ?_
      split
      · rfl
      · exact hz _ _ (by omega)
    · rw [if_neg h]
      refine Finset.sum_eq_zero fun b hb => Finset.sum_eq_zero fun a _ => hz _ _ ?_
      have e := term_sum (Finset.mem_range.1 hb)
      omega
  rw [Finset.sum_congr rfl fun j _ => hj j, Finset.sum_range_succ' _ N2, add_comm]
  congr 1
  · rw [sum_swap_lt]
    refine Finset.sum_congr rfl fun j _ => ?_
    simp only [Nat.add_sub_add_right]
    refine if_congr (by omega) rfl rfl
  · simp only [Nat.zero_le, if_true, Nat.sub_zero, L_zero_right, Finset.sum_range_one, st, Nat.add_zero]
    have hz0 : ∀ a, G a 0 = if a = i then at' p1 i * at' p2 0 else 0 := by
      intro a
      rw [hG]
      simp only [term_add_zero]
      by_cases h : a = i
      · subst h; simp
      · rw [if_neg h, if_neg fun e => h (term_inj e).symm]
    simp only [hz0]
    rw [Finset.sum_eq_single_of_mem (i - L (n + 1) N)]
    · rw [if_pos (by omega)]
    · rw [L_succ] at h2; rw [Finset.mem_range]; omega
    · intro a _ ha; exact if_neg (by omega)

/-- The truncated product in place, entry by entry. -/
theorem inplace_run (n : ℕ) {p2 : List V} (N N2 : ℕ) (h2 : L (n + 1) (min N N2) ≤ p2.length) {dst : List V} (h : L (n + 1) N ≤ dst.length) :
    ∃ out, run id (fun _ => p2) (inplace (n + 1) N N2) dst = .ok out ∧ out.length = dst.length ∧
      (∀ i < L (n + 1) N, at' out i = conv (n + 1) (L (n + 1) N) (L (n + 1) N2) dst p2 i) ∧ ∀ i, L (n + 1) N ≤ i → at' out i = at' dst i := by
  have h0 : 0 < p2.length := (L_pos _ _).trans_le h2
  induction N generalizing dst with
  | zero =>
    rw [L_zero_right] at h
    obtain ⟨out, e1, e2, e3⟩ := run_scale h0 0 1 (dst := dst) (by omega)
    have : inplace (n + 1) 0 N2 = [.scale 0 0] := by rw [inplace]
    rw [this]
    refine ⟨out, e1, e2, ?_, ?_⟩
    · intro i hi
      rw [L_zero_right] at hi ⊢
      obtain rfl : i = 0 := by omega
      rw [e3, if_pos (by omega), conv, Finset.sum_range_one, Finset.sum_eq_single_of_mem 0 (Finset.mem_range.2 (L_pos _ _))]
      · rw [term_add_zero, if_pos rfl]
      · intro b _ hb
        refine if_neg fun e => hb ?_
        rw [term_zero_add] at e
        exact (term_inj e).symm
    · intro i hi
      rw [L_zero_right] at hi
      rw [e3, if_neg (by omega)]
  | succ N ih =>
    obtain ⟨l, hl, hT⟩ : ∃ l, inplace (n + 1) (N + 1) N2 = (List.range' (L (n + 1) N) (L n (N + 1))).map (fun i => .scale i 0) ++ l ++ inplace (n + 1) N N2 ∧ TopOk n N N2 l := by
      cases n with
      | zero =>
        refine ⟨_, ?_, topOk_one N N2⟩
        rw [inplace, L_one, L_zero_left]; rfl
      | succ n =>
        refine ⟨_, ?_, topOk n N N2⟩
        rw [inplace, polylen_nat, polylen_succ, L_succ (n + 1), Nat.add_sub_cancel_left]; rfl
        intro h; omega
    have hL := L_succ n N
    obtain ⟨d1, a1, a2, a3⟩ := run_scale h0 (L (n + 1) N) (L n (N + 1)) (dst := dst) (by omega)
    obtain ⟨d2, b1, b2, b3⟩ := run_top (p2 := p2) (m := L (n + 1) N) (l := l) (dst := d1) (fun o ho => by
      have g := hT.good o ho
      exact ⟨g.1, g.2.1, by rw [a2]; omega, g.2.2.2.1, g.2.2.2.2.1.trans_le h2⟩)
    obtain ⟨out, c1, c2, c3, c4⟩ := ih ((L_mono _ (by omega)).trans h2) (dst := d2) (by rw [b2, a2]; omega)
    have hlow : ∀ i < L (n + 1) N, at' d1 i = at' dst i := fun i hi => by rw [a3, if_neg (by omega)]
    have hcd : ∀ i, contrib d1 p2 l i = contrib dst p2 l i := fun i => by
      rw [contrib, contrib]
      congr 1
      exact List.map_congr_left fun o ho => by rw [hlow _ (hT.good o ho).2.2.2.1]
    have hc0 : ∀ i, (i < L (n + 1) N ∨ L (n + 1) (N + 1) ≤ i) → contrib dst p2 l i = 0 := fun i hi => by
      rw [contrib]
      refine List.sum_eq_zero fun x hx => ?_
      obtain ⟨o, ho, rfl⟩ := List.mem_map.1 hx
      have g := hT.good o ho
      exact if_neg (by omega)
    have hlow2 : ∀ i < L (n + 1) N, at' d2 i = at' dst i := fun i hi => by rw [b3, hcd, hc0 i (Or.inl hi), add_zero, hlow i hi]
    refine ⟨out, ?_, by rw [c2, b2, a2], fun i hi => ?_, fun i hi => ?_⟩
    · rw [hl, run_append, run_append, a1]
      show ((run id (fun _ => p2) l d1).bind _) = _
      rw [b1]; exact c1
    · by_cases hi' : i < L (n + 1) N
      · rw [c3 i hi']
        exact conv_trunc hi' le_rfl (L_mono _ (by omega)) hlow2
      · rw [c4 i (by omega), b3, a3, if_pos (by omega), hcd]
        exact top_conv hT (by omega) hi dst p2
    · rw [c4 i (by omega), b3, a3, if_neg (by omega), hcd, hc0 i (Or.inr hi), add_zero]

end

end XCFun.Polymul
