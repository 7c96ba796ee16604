/-
The linear change of variables of polymul.hpp.
-/
import Verif.Model.PolymulTrans
import Verif.Proofs.PolymulIndex
import Verif.Proofs.PolymulPoly
import Verif.Spec.PolymulTrans
import Mathlib.Algebra.MvPolynomial.Eval
import Mathlib.RingTheory.MvPolynomial.Homogeneous

namespace XCFun.Polymul
open XCFun Spec Finset MvPolynomial Props

/-! ## Terms -/

/-- The next term moves one power to the next variable. -/
theorem succL_move (pre : List ℕ) (a k : ℕ) : succL (pre ++ (a + 1) :: 0 :: List.replicate k 0) = pre ++ a :: 1 :: List.replicate k 0 := by
  induction pre with
  | nil =>
    have hf : Final (0 :: List.replicate k 0) := by
      intro x hx
      have := List.dropLast_subset _ hx
      rw [← List.replicate_succ] at this
      exact List.eq_of_mem_replicate this
    have hl : (0 :: List.replicate k 0).getLastD 0 = 0 := by
      rw [← List.replicate_succ]
      simp [List.getLastD_eq_getLast?, List.getLast?_replicate]
    rw [List.nil_append, succL]
    simp only [if_pos hf, hl]
    simp
  | cons x pre ih =>
    have hn : ∀ b l, b :: l = pre ++ (a + 1) :: 0 :: List.replicate k 0 → ¬ Final (b :: l) := by
      intro b l e hf
      rw [e] at hf
      have : a + 1 = 0 := hf (a + 1) (by
        rw [List.dropLast_append_of_ne_nil (by simp)]
        simp)
      omega
    obtain ⟨b, l, e⟩ : ∃ b l, b :: l = pre ++ (a + 1) :: 0 :: List.replicate k 0 := by
      cases pre with
      | nil => exact ⟨_, _, rfl⟩
      | cons b l => exact ⟨_, _, rfl⟩
    rw [List.cons_append, ← e, succL]
    simp only [if_neg (hn b l e)]
    rw [e, ih]; rfl

theorem fs_unit {n J : ℕ} (h : J < n + 1) : fs (term (n + 1) (J + 1)) = Finsupp.single J 1 := by
  induction n generalizing J with
  | zero =>
    obtain rfl : J = 0 := by omega
    rw [Nat.zero_add, term_one]
    simp [fs]
  | succ n ih =>
    have hs : (1 : ℕ) = st (n + 2) 1 := by rw [st, L_zero_right]
    have hl : J < L (n + 1) 1 := by rw [L_one_right]; exact h
    have e : term (n + 2) (J + 1) = (1 - (term (n + 1) J).sum) :: term (n + 1) J := by
      rw [show J + 1 = st (n + 2) 1 + J by rw [← hs]; omega]
      exact term_split hl
    rw [e]
    cases J with
    | zero =>
      rw [term_zero]
      ext i
      rw [fs_apply]
      cases i with
      | zero => simp
      | succ i =>
        rw [Finsupp.single_eq_of_ne (by omega)]
        simp [List.getD_eq_getElem?_getD, List.getElem?_replicate]
        split <;> rfl
    | succ J =>
      have := ih (J := J) (by omega)
      have hsum : (term (n + 1) (J + 1)).sum = 1 := by rw [← fs_degree, this, Finsupp.degree_single]
      rw [hsum]
      ext i
      rw [fs_apply]
      cases i with
      | zero => rw [Finsupp.single_eq_of_ne (by omega)]; simp
      | succ i =>
        have := DFunLike.congr_fun this i
        rw [fs_apply] at this
        rw [List.getD_cons_succ, this]
        by_cases hi : i = J
        · subst hi; simp
        · rw [Finsupp.single_eq_of_ne hi, Finsupp.single_eq_of_ne (by omega)]

theorem fs_prod {n J t : ℕ} (h : J < n + 1) : fs (term (n + 1) (termProd (n + 1) (J + 1) t)) = fs (term (n + 1) t) + Finsupp.single J 1 := by
  rw [termProd_eq, ← fs_term_add, fs_unit h, add_comm]

/-- The term after one whose last variable is `J`. -/
theorem fs_next {n J t : ℕ} {e : ℕ →₀ ℕ} (h : J + 1 < n + 1) (he : ∀ i, J < i → e i = 0) (ht : fs (term (n + 1) t) = e + Finsupp.single J 1) :
    fs (term (n + 1) (t + 1)) = e + Finsupp.single (J + 1) 1 := by
  have hlen := term_length (n + 1) t
  generalize hl : term (n + 1) t = l at hlen ht
  have hg : ∀ i, l.getD i 0 = e i + Finsupp.single J 1 i := fun i => by rw [← fs_apply, ht, Finsupp.add_apply]
  have split : l = l.take J ++ (e J + 1) :: 0 :: List.replicate (n - 1 - J) 0 := by
    refine List.ext_getElem (by simp; omega) fun i h1 h2 => ?_
    have hi := hg i
    rw [List.getD_eq_getElem?_getD, List.getElem?_eq_getElem h1, Option.getD_some] at hi
    rw [hi]
    by_cases c1 : i < J
    · rw [List.getElem_append_left (by simp; omega), List.getElem_take, hi]
    · rw [List.getElem_append_right (by simp; omega)]
      have hm : (l.take J).length = J := by simp; omega
      simp only [hm]
      by_cases c2 : i = J
      · subst c2; simp
      · rw [he i (by omega), Finsupp.single_eq_of_ne c2]
        obtain ⟨k, rfl⟩ : ∃ k, i = J + 1 + k := ⟨i - (J + 1), by omega⟩
        have : J + 1 + k - J = k + 1 := by omega
        simp only [this, List.getElem_cons_succ]
        cases k <;> simp
  rw [term_succ, hl, split, succL_move]
  ext i
  rw [fs_apply, Finsupp.add_apply]
  have hi := hg i
  have hm : (l.take J).length = J := by simp; omega
  rw [List.getD_eq_getElem?_getD] at hi ⊢
  by_cases c1 : i < J
  · rw [List.getElem?_append_left (by omega), List.getElem?_take, if_pos c1, hi, Finsupp.single_eq_of_ne (by omega), Finsupp.single_eq_of_ne (by omega)]
  · rw [List.getElem?_append_right (by omega), hm]
    by_cases c2 : i = J
    · subst c2
      rw [Finsupp.single_eq_of_ne (by omega)]; simp
    · obtain ⟨k, rfl⟩ : ∃ k, i = J + 1 + k := ⟨i - (J + 1), by omega⟩
      rw [he (J + 1 + k) (by omega), show J + 1 + k - J = k + 1 by omega, List.getElem?_cons_succ]
      cases k with
      | zero => simp
      | succ k =>
        rw [Finsupp.single_eq_of_ne (by omega), List.getElem?_cons_succ, List.getElem?_replicate]
        split <;> rfl

/-! ## The terms in the order in which they are visited -/

section
variable {M : Type} [AddCommMonoid M] (f : (ℕ →₀ ℕ) → M)

/-- The sum over the terms visited from variable `n - j`, order `Ndeg - r` on; `e` are the exponents of the factors chosen before. -/
noncomputable def visitJ (J : ℕ) (next : ℕ → (ℕ →₀ ℕ) → M) : ℕ → (ℕ →₀ ℕ) → M
  | 0, e => f (e + Finsupp.single J 1) + next 0 e
  | r + 1, e => f (e + Finsupp.single J 1) + visitJ J next r (e + Finsupp.single J 1) + next (r + 1) e

@[inherit_doc visitJ] noncomputable def visit (n : ℕ) : ℕ → ℕ → (ℕ →₀ ℕ) → M
  | 0 => fun _ _ => 0
  | j + 1 => visitJ f (n - (j + 1)) (visit n j)

/-- Exponents of a list of variables. -/
noncomputable def cnt (s : List ℕ) : ℕ →₀ ℕ := (s.map fun i => Finsupp.single i 1).sum

theorem visit_eq (n j r : ℕ) (hj : j ≤ n) (e : ℕ →₀ ℕ) :
    visit f n j r e = ∑ d ∈ range (r + 1), ((multisets (List.range' (n - j) j) (d + 1)).map fun s => f (e + cnt s)).sum := by
  induction j generalizing r e with
  | zero => simp [visit, multisets]
  | succ j ih =>
    have ih' := fun r => ih r (by omega)
    have hr : List.range' (n - (j + 1)) (j + 1) = (n - (j + 1)) :: List.range' (n - j) j := by
      rw [List.range'_succ, show n - (j + 1) + 1 = n - j by omega]
    have key : ∀ r e, visitJ f (n - (j + 1)) (visit f n j) r e =
        ∑ d ∈ range (r + 1), (((multisets (List.range' (n - (j + 1)) (j + 1)) d).map fun s => f (e + Finsupp.single (n - (j + 1)) 1 + cnt s)).sum +
          ((multisets (List.range' (n - j) j) (d + 1)).map fun s => f (e + cnt s)).sum) := by
      intro r
      induction r with
      | zero =>
        intro e
        rw [visitJ, ih', Nat.zero_add, Finset.sum_range_one, Finset.sum_range_one]
        congr 1
        rw [hr, multisets]; simp [cnt]
      | succ r ihr =>
        intro e
        have h0 : ((multisets (List.range' (n - (j + 1)) (j + 1)) 0).map fun s => f (e + Finsupp.single (n - (j + 1)) 1 + cnt s)).sum = f (e + Finsupp.single (n - (j + 1)) 1) := by
          rw [hr, multisets]; simp [cnt]
        have h1 : ∀ d, ((multisets (List.range' (n - (j + 1)) (j + 1)) (d + 1)).map fun s => f (e + Finsupp.single (n - (j + 1)) 1 + cnt s)).sum =
            ((multisets (List.range' (n - (j + 1)) (j + 1)) d).map fun s => f (e + Finsupp.single (n - (j + 1)) 1 + Finsupp.single (n - (j + 1)) 1 + cnt s)).sum +
            ((multisets (List.range' (n - j) j) (d + 1)).map fun s => f (e + Finsupp.single (n - (j + 1)) 1 + cnt s)).sum := by
          intro d
          rw [hr, multisets, List.map_append, List.sum_append, List.map_map]
          congr 2
          refine List.map_congr_left fun s _ => ?_
          simp [cnt, add_assoc]
        rw [visitJ, ihr, ih']
        conv_rhs => rw [Finset.sum_add_distrib, Finset.sum_range_succ', h0, Finset.sum_congr rfl fun d _ => h1 d, add_comm (∑ d ∈ range (r + 1), _)]
    rw [visit, key]
    refine Finset.sum_congr rfl fun d _ => ?_
    rw [hr, multisets, List.map_append, List.sum_append, List.map_map]
    congr 2
    refine List.map_congr_left fun s _ => ?_
    simp [cnt, add_assoc]

theorem multisets_mem {l : List ℕ} {k : ℕ} : ∀ s ∈ multisets l k, ∀ i ∈ s, i ∈ l := by
  induction l generalizing k with
  | nil =>
    cases k with
    | zero => intro s hs i hi; simp [multisets] at hs; simp [hs] at hi
    | succ k => intro s hs; simp [multisets] at hs
  | cons a l ih =>
    induction k with
    | zero => intro s hs i hi; simp [multisets] at hs; simp [hs] at hi
    | succ k ihk =>
      intro s hs i hi
      rw [multisets, List.mem_append] at hs
      rcases hs with hs | hs
      · obtain ⟨s', hs', rfl⟩ := List.mem_map.1 hs
        rcases List.mem_cons.1 hi with rfl | hi
        · exact List.mem_cons_self
        · exact ihk s' hs' i hi
      · exact List.mem_cons_of_mem _ (ih s hs i hi)

theorem fs_exponents {n : ℕ} {s : List ℕ} (h : ∀ i ∈ s, i < n) : fs (Spec.exponents n s) = cnt s := by
  have hc : ∀ s : List ℕ, ∀ i, cnt s i = s.count i := by
    intro s i
    induction s with
    | nil => simp [cnt]
    | cons a s ih =>
      have : cnt (a :: s) = Finsupp.single a 1 + cnt s := by simp [cnt]
      rw [this, Finsupp.add_apply, ih, List.count_cons]
      by_cases hi : i = a
      · subst hi; simp [add_comm]
      · rw [Finsupp.single_eq_of_ne hi]; simp [Ne.symm hi]
  ext i
  rw [fs_apply, hc, Spec.exponents, List.getD_eq_getElem?_getD, List.getElem?_map]
  by_cases hi : i < n
  · rw [List.getElem?_range hi]; rfl
  · rw [List.getElem?_eq_none (by simp; omega)]
    exact (List.count_eq_zero_of_not_mem fun hm => hi (h i hm)).symm

theorem visit_all (n N : ℕ) : f 0 + visit f n n N 0 = ∑ i ∈ range (L n (N + 1)), f (fs (term n i)) := by
  rw [visit_eq f n n N (le_refl n), Nat.sub_self, ← sum_range_map (L n (N + 1)), show (List.range (L n (N + 1))).map (fun i => f (fs (term n i))) = (terms n (N + 1)).map fun e => f (fs e) by
    rw [terms_eq, List.map_map]; rfl]
  rw [terms, List.map_flatMap]
  have hsum : ∀ (l : List ℕ) (g : ℕ → List M), (l.flatMap g).sum = (l.map fun i => (g i).sum).sum := by
    intro l g
    induction l with
    | nil => rfl
    | cons x l ih => simp [ih]
  rw [hsum, sum_range_map, Finset.sum_range_succ' _ (N + 1), add_comm]
  congr 1
  · refine Finset.sum_congr rfl fun d _ => ?_
    rw [List.map_map, ← List.range_eq_range']
    congr 1
    refine List.map_congr_left fun s hs => ?_
    rw [Function.comp_apply, fs_exponents fun i hi => List.mem_range.1 (multisets_mem s hs i hi), zero_add]
  · have : multisets (List.range n) 0 = [[]] := by rw [multisets]
    rw [this]
    simp only [List.map_cons, List.map_nil, List.sum_cons, List.sum_nil, add_zero]
    rw [fs_exponents (by simp)]
    rfl

end

/-! ## Assignments that read the array they change -/

theorem setOk_zero : SetOk 0 (mulSet 0) where
  sum g N1 N2 := by simp [mulSet, osum, L_zero_left, Op.a, Op.b]
  good N1 N2 o ho := by
    rw [mulSet, List.mem_singleton] at ho
    subst ho
    exact ⟨L_pos _ _, L_pos _ _, L_pos _ _, rfl⟩
  fresh N1 N2 := ⟨by simp, trivial⟩
  sets N1 N2 := by simp [mulSet, sets, L_zero_left]

theorem setOk (n : ℕ) : SetOk n (mulSet n) := by
  cases n with
  | zero => exact setOk_zero
  | succ n => exact mulSet_ok n

theorem fresh_addset {S : Finset ℕ} {l : List Op} (h : Fresh S l) : ∀ o ∈ l, o = .add o.d o.a o.b ∨ o = .set o.d o.a o.b := by
  induction l generalizing S with
  | nil => simp
  | cons x l ih =>
    intro o ho
    cases x with
    | add d a b =>
      rcases List.mem_cons.1 ho with rfl | ho
      · exact Or.inl rfl
      · exact ih h.2 o ho
    | set d a b =>
      rcases List.mem_cons.1 ho with rfl | ho
      · exact Or.inr rfl
      · exact ih h.2 o ho
    | scale d b => exact h.elim
    | fail => exact h.elim

section
variable {V : Type} [CommSemiring V]

/-- Assignments above `m` from entries below `m` read what the array held at first. -/
theorem run_above {p q : List V} {m : ℕ} {l : List Op} {dst : List V} (hk : ∀ o ∈ l, o = .add o.d o.a o.b ∨ o = .set o.d o.a o.b)
    (h : ∀ o ∈ l, m ≤ o.d ∧ o.a < m) (hp : ∀ i < m, rdBuf dst i = rdBuf p i) : run id (fun _ => q) l dst = run (fun _ => p) (fun _ => q) l dst := by
  induction l generalizing dst with
  | nil => rfl
  | cons o l ih =>
    have hwr : ∀ (d : ℕ) (v : V) (c out : List V), m ≤ d → wrBuf c d v = .ok out → (∀ i < m, rdBuf c i = rdBuf p i) → ∀ i < m, rdBuf out i = rdBuf p i := by
      intro d v c out hd hw hc i hi
      by_cases hl : d < c.length
      · rw [wrBuf_ok hl] at hw
        cases hw
        rw [← hc i hi]
        simp only [rdBuf]
        rw [List.getElem?_set_ne (by omega)]
      · simp [wrBuf, hl] at hw
    have same : Op.run id (fun _ => q) o dst = Op.run (fun _ => p) (fun _ => q) o dst := by
      have hr := hp o.a (h o List.mem_cons_self).2
      rcases hk o List.mem_cons_self with e | e <;> rw [e] <;> simp only [Op.run, id, hr]
    have pres : ∀ out, Op.run (fun _ => p) (fun _ => q) o dst = .ok out → ∀ i < m, rdBuf out i = rdBuf p i := by
      intro out ho
      have hd := (h o List.mem_cons_self).1
      rcases hk o List.mem_cons_self with e | e
      · rw [e] at ho
        simp only [Op.run] at ho
        cases h1 : rdBuf p o.a with
        | ok x =>
          cases h2 : rdBuf q o.b with
          | ok y =>
            cases h3 : rdBuf dst o.d with
            | ok z => rw [h1, h2, h3] at ho; exact hwr _ _ _ _ hd ho hp
            | _ => rw [h1, h2, h3] at ho; exact absurd ho (by simp [bind, Outcome.bind])
          | _ => rw [h1, h2] at ho; exact absurd ho (by simp [bind, Outcome.bind])
        | _ => rw [h1] at ho; exact absurd ho (by simp [bind, Outcome.bind])
      · rw [e] at ho
        simp only [Op.run] at ho
        cases h1 : rdBuf p o.a with
        | ok x =>
          cases h2 : rdBuf q o.b with
          | ok y => rw [h1, h2] at ho; exact hwr _ _ _ _ hd ho hp
          | _ => rw [h1, h2] at ho; exact absurd ho (by simp [bind, Outcome.bind])
        | _ => rw [h1] at ho; exact absurd ho (by simp [bind, Outcome.bind])
    rw [run, run, same]
    cases h1 : Op.run (fun _ => p) (fun _ => q) o dst with
    | ok out => exact ih (fun o ho => hk o (List.mem_cons_of_mem _ ho)) (fun o ho => h o (List.mem_cons_of_mem _ ho)) (pres out h1)
    | _ => rfl

/-! ## One order -/

/-- The array holds the homogeneous polynomial `P` of degree `k`. -/
def Block (n k : ℕ) (c : List V) (P : MvPolynomial ℕ V) : Prop :=
  P = ∑ a ∈ range (L n k), monomial (fs (term (n + 1) (st (n + 1) k + a))) (at' c (st (n + 1) k + a))

theorem Block.coeff {n k : ℕ} {c : List V} {P : MvPolynomial ℕ V} (h : Block n k c P) {a : ℕ} (ha : a < L n k) :
    P.coeff (fs (term (n + 1) (st (n + 1) k + a))) = at' c (st (n + 1) k + a) := by
  rw [h, coeff_sum, Finset.sum_eq_single_of_mem a (Finset.mem_range.2 ha)]
  · rw [coeff_monomial, if_pos rfl]
  · intro b _ hb
    rw [coeff_monomial, if_neg fun e => hb (by have := fs_term_inj e; omega)]

theorem Block.coeff_other {n k : ℕ} {c : List V} {P : MvPolynomial ℕ V} (h : Block n k c P) {m : ℕ →₀ ℕ} (hm : m.degree ≠ k) : P.coeff m = 0 := by
  rw [h, coeff_sum]
  refine Finset.sum_eq_zero fun a ha => ?_
  rw [coeff_monomial, if_neg]
  intro e
  rw [← e, fs_degree, term_sum (Finset.mem_range.1 ha)] at hm
  exact hm rfl

theorem linForm_eq {n' J : ℕ} {T : List V} : linForm (n' + 1) T J = ∑ b ∈ range (L n' 1), monomial (fs (term (n' + 1) (st (n' + 1) 1 + b))) (at' T (b + J * (n' + 1))) := by
  rw [linForm, L_one_right]
  refine Finset.sum_congr rfl fun b hb => ?_
  rw [st, L_zero_right, Nat.add_comm 1 b, fs_unit (Finset.mem_range.1 hb), C_mul_X_eq_monomial, at', Nat.add_comm b]

theorem block_contrib {p q : List V} {l : List Op} {D kd ka kb : ℕ} (F : ℕ → ℕ →₀ ℕ) (hk : ∀ o ∈ l, o = .add o.d o.a o.b ∨ o = .set o.d o.a o.b) (hd : ∀ o ∈ l, o.d < D) :
    ∑ d ∈ range D, monomial (F d) (contrib p q (l.map (Op.shift kd ka kb)) (kd + d)) = (l.map fun o => monomial (F o.d) (at' p (o.a + ka) * at' q (o.b + kb))).sum := by
  induction l with
  | nil => simp [contrib]
  | cons o l ih =>
    rw [List.map_cons, List.map_cons, List.sum_cons, ← ih (fun o ho => hk o (List.mem_cons_of_mem _ ho)) (fun o ho => hd o (List.mem_cons_of_mem _ ho))]
    have hs : ∀ i, (if (o.shift kd ka kb).d = kd + i then at' p (o.shift kd ka kb).a * at' q (o.shift kd ka kb).b else 0) = if i = o.d then at' p (o.a + ka) * at' q (o.b + kb) else 0 := by
      intro i
      rcases hk o List.mem_cons_self with e | e <;> rw [e] <;> simp only [Op.shift, Op.d, Op.a, Op.b] <;> exact if_congr (by omega) rfl rfl
    have : ∀ d, (monomial (F d) (contrib p q (o.shift kd ka kb :: l.map (Op.shift kd ka kb)) (kd + d)) : MvPolynomial ℕ V) =
        (if d = o.d then monomial (F d) (at' p (o.a + ka) * at' q (o.b + kb)) else 0) + monomial (F d) (contrib p q (l.map (Op.shift kd ka kb)) (kd + d)) := by
      intro d
      rw [contrib_cons, hs, map_add]
      congr 1
      split <;> simp
    rw [Finset.sum_congr rfl fun d _ => this d, Finset.sum_add_distrib]
    congr 1
    rw [Finset.sum_ite_eq' (range D) o.d, if_pos (Finset.mem_range.2 (hd o List.mem_cons_self))]

theorem index_lt {n' n J i : ℕ} (hJ : J < n) (hi : i < n' + 1) : i + J * (n' + 1) < (n' + 1) * n := by
  have : (J + 1) * (n' + 1) ≤ n * (n' + 1) := Nat.mul_le_mul_right _ hJ
  rw [Nat.mul_comm (n' + 1) n]
  rw [Nat.add_mul, Nat.one_mul] at this
  omega

/-- The powers of order `N`. -/
theorem row_tmp {n' n N J : ℕ} {T tmp : List V} {P : MvPolynomial ℕ V} (hN : 1 ≤ N) (hJ : J < n) (hT : (n' + 1) * n ≤ T.length) (hl : L (n' + 1) N ≤ tmp.length)
    (hP : (N = 1 ∧ P = 1) ∨ (2 ≤ N ∧ Block n' (N - 1) tmp P)) :
    ∃ tmp', transTmp (n' + 1) T J N tmp = .ok tmp' ∧ tmp'.length = tmp.length ∧
      (∀ i, ¬ (st (n' + 1) N ≤ i ∧ i < st (n' + 1) (N + 1)) → at' tmp' i = at' tmp i) ∧ Block n' N tmp' (P * linForm (n' + 1) T J) := by
  rw [transTmp]
  rcases hP with ⟨h1, rfl⟩ | ⟨h2, hP⟩
  · subst h1
    rw [if_pos rfl]
    rw [L_one_right] at hl
    have hs1 : st (n' + 1) 1 = 1 := by rw [st, L_zero_right]
    have hs2 : st (n' + 1) (1 + 1) = n' + 2 := by rw [st, L_one_right]
    obtain ⟨out, e1, e2, e3⟩ := fill_run (body := fun i tmp => do
          let x ← rdBuf T (i + (n' + 1) * J)
          wrBuf tmp (1 + i) x) 1 0 (n' + 1) (fun i => at' T (i + (n' + 1) * J)) (p := tmp) (by omega) (fun i q _ hi _ _ => by
            have := index_lt (n' := n') hJ (i := i) (by omega)
            rw [rd_at (by rw [Nat.mul_comm (n' + 1) J]; omega)]; rfl)
    refine ⟨out, e1, e2, fun i hi => ?_, ?_⟩
    · rw [e3, if_neg (by omega)]
    · rw [one_mul, Block, linForm_eq]
      refine Finset.sum_congr rfl fun b hb => ?_
      rw [Finset.mem_range, L_one_right] at hb
      rw [hs1, e3, if_pos (by omega), Nat.add_sub_cancel_left, Nat.mul_comm (n' + 1) J]
  · obtain ⟨M, rfl⟩ : ∃ M, N = M + 2 := ⟨N - 2, by omega⟩
    rw [if_neg (by omega)]
    have ek : polylen (n' + 1) (((M + 2 : ℕ) : ℤ) - 1) = st (n' + 1) (M + 2) := polylen_pred n' (M + 2)
    have ea : polylen (n' + 1) (((M + 2 : ℕ) : ℤ) - 2) = st (n' + 1) (M + 1) := by rw [← polylen_pred]; congr 1; push_cast; ring
    rw [ek, ea]
    simp only [Nat.add_sub_cancel, show M + 2 - 1 = M + 1 by omega] at hP ⊢
    have H := setOk n'
    have hk := fresh_addset (H.fresh (M + 1) 1)
    have hg := H.good (M + 1) 1
    have hst : st (n' + 1) (M + 2) = st (n' + 1) (M + 1) + L n' (M + 1) := st_succ n' (M + 1)
    have hst2 : st (n' + 1) (M + 2 + 1) = st (n' + 1) (M + 2) + L n' (M + 2) := st_succ n' (M + 2)
    have hlen : st (n' + 1) (M + 2 + 1) ≤ tmp.length := hl
    set kd := st (n' + 1) (M + 2) with hkd
    set l := (mulSet n' (M + 1) 1).map (Op.shift kd (st (n' + 1) (M + 1)) (J * (n' + 1))) with hl'
    have sh : ∀ o ∈ l, ∃ u ∈ mulSet n' (M + 1) 1, o.d = u.d + kd ∧ o.a = u.a + st (n' + 1) (M + 1) ∧ o.b = u.b + J * (n' + 1) ∧ (o = .add o.d o.a o.b ∨ o = .set o.d o.a o.b) := by
      intro o ho
      obtain ⟨u, hu, rfl⟩ := List.mem_map.1 ho
      refine ⟨u, hu, ?_⟩
      rcases hk u hu with e | e <;> rw [e] <;> simp [Op.shift, Op.d, Op.a, Op.b]
    rw [run_above (p := tmp) (m := kd) (fun o ho => (sh o ho).choose_spec.2.2.2.2) (fun o ho => by
      obtain ⟨u, hu, h1, h2, _⟩ := sh o ho
      have := (hg u hu).a_lt
      omega) (fun i _ => rfl)]
    have hfr : Fresh (range kd) l := by
      have := fresh_shift kd (st (n' + 1) (M + 1)) (J * (n' + 1)) (H.fresh (M + 1) 1)
      rwa [Finset.image_empty, Finset.union_empty] at this
    have hsets : sets l = (range (L n' (M + 2))).image (· + kd) := by rw [hl', sets_shift, H.sets]
    obtain ⟨out, e1, e2, e3, e4⟩ := run_fresh tmp T hfr (dst := tmp) (fun o ho => by
      obtain ⟨u, hu, h1, h2, h3, _⟩ := sh o ho
      have g := hg u hu
      have g1 := g.a_lt
      have g2 := g.b_lt
      have g3 := g.d_lt
      rw [L_one_right] at g2
      have := index_lt (n' := n') hJ g2
      exact ⟨by omega, by omega, by rw [show M + 1 + 1 = M + 2 by rfl] at g3; omega⟩)
    rw [hsets, range_union] at e3 e4
    have hc0 : ∀ i < kd, contrib tmp T l i = 0 := by
      intro i hi
      rw [contrib]
      refine List.sum_eq_zero fun x hx => ?_
      obtain ⟨o, ho, rfl⟩ := List.mem_map.1 hx
      obtain ⟨u, hu, h1, _⟩ := sh o ho
      rw [if_neg (by omega)]
    refine ⟨out, e1, e2, fun i hi => ?_, ?_⟩
    · by_cases hik : i < kd
      · rw [e3 i (Finset.mem_range.2 (by omega)), if_pos (Finset.mem_range.2 hik), hc0 i hik, add_zero]
      · exact e4 i (by rw [Finset.mem_range]; omega)
    · rw [Block, Finset.sum_congr rfl (g := fun d => monomial (fs (term (n' + 1) (st (n' + 1) (M + 2) + d))) (contrib tmp T l (kd + d))) (fun d hd => by
        rw [Finset.mem_range] at hd
        rw [e3 _ (Finset.mem_range.2 (by omega)), if_neg (by rw [Finset.mem_range]; omega), zero_add])]
      rw [hl', block_contrib (fun d => fs (term (n' + 1) (st (n' + 1) (M + 2) + d))) hk (fun o ho => (hg o ho).d_lt)]
      have : ((mulSet n' (M + 1) 1).map fun o => monomial (fs (term (n' + 1) (st (n' + 1) (M + 2) + o.d))) (at' tmp (o.a + st (n' + 1) (M + 1)) * at' T (o.b + J * (n' + 1)))) =
          (mulSet n' (M + 1) 1).map fun o => (fun a b => (monomial (fs (term (n' + 1) (st (n' + 1) (M + 1) + a))) (at' tmp (st (n' + 1) (M + 1) + a)) : MvPolynomial ℕ V) *
            monomial (fs (term (n' + 1) (st (n' + 1) 1 + b))) (at' T (b + J * (n' + 1)))) o.a o.b := by
        refine List.map_congr_left fun o ho => ?_
        have g := hg o ho
        rw [show M + 2 = M + 1 + 1 from rfl, term_add g.a_lt g.b_lt g.d_lt g.eq, ← fs_term_add, Nat.add_comm o.a]
        exact (monomial_mul).symm
      rw [this]
      have hsum := H.sum (fun a b => (monomial (fs (term (n' + 1) (st (n' + 1) (M + 1) + a))) (at' tmp (st (n' + 1) (M + 1) + a)) : MvPolynomial ℕ V) *
            monomial (fs (term (n' + 1) (st (n' + 1) 1 + b))) (at' T (b + J * (n' + 1)))) (M + 1) 1
      rw [osum] at hsum
      rw [hsum, hP, linForm_eq, Finset.sum_mul_sum]

/-- One order of the change of variables. -/
theorem transRow_ok {n' n N J t : ℕ} {src T tmp dst : List V} {P : MvPolynomial ℕ V} (hN : 1 ≤ N) (hJ : J < n) (hT : (n' + 1) * n ≤ T.length) (ht : t < src.length)
    (hl : L (n' + 1) N ≤ tmp.length) (hd : L (n' + 1) N ≤ dst.length) (hP : (N = 1 ∧ P = 1) ∨ (2 ≤ N ∧ Block n' (N - 1) tmp P)) :
    ∃ tmp' dst', transRow (n' + 1) src T J N t (tmp, dst) = .ok (tmp', dst') ∧ tmp'.length = tmp.length ∧ dst'.length = dst.length ∧
      (∀ i, ¬ (st (n' + 1) N ≤ i ∧ i < st (n' + 1) (N + 1)) → at' tmp' i = at' tmp i) ∧ Block n' N tmp' (P * linForm (n' + 1) T J) ∧
      ∀ i, at' dst' i = if st (n' + 1) N ≤ i ∧ i < st (n' + 1) (N + 1) then (if J = 0 then 0 else at' dst i) + at' src t * at' tmp' i else at' dst i := by
  obtain ⟨tmp', e1, e2, e3, e4⟩ := row_tmp hN hJ hT hl hP
  have hst : st (n' + 1) (N + 1) = L (n' + 1) N := rfl
  have hm := st_mono n' (Nat.le_succ N)
  rw [Nat.succ_eq_add_one] at hm
  obtain ⟨dst', f1, f2, f3⟩ := fill_run (body := fun i dst => do
    let a ← rdBuf src t
    let b ← rdBuf tmp' i
    if J = 0 then wrBuf dst i (a * b)
    else do
      let z ← rdBuf dst i
      wrBuf dst i (z + a * b)) 0 (st (n' + 1) N) (L (n' + 1) N - st (n' + 1) N) (fun i => (if J = 0 then 0 else at' dst i) + at' src t * at' tmp' i) (p := dst) (by omega)
    (fun i q hi hi' hq hx => by
      rw [rd_at ht, rd_at (by omega), Nat.zero_add]
      simp only [Outcome.ok_bind]
      by_cases h : J = 0
      · rw [if_pos h, if_pos h, zero_add]
      · rw [if_neg h, if_neg h, rd_at (by omega), hx, if_neg (by omega)]; rfl)
  refine ⟨tmp', dst', ?_, e2, f2, e3, e4, fun i => ?_⟩
  · rw [transRow]
    simp only [e1, Outcome.ok_bind]
    rw [polylen_pred, polylen_nat]
    simp only [f1, Outcome.ok_bind]
  · rw [f3, Nat.zero_add, Nat.sub_zero]
    exact if_congr (by omega) rfl rfl

end

end XCFun.Polymul
