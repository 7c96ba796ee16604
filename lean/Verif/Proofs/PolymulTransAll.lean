/-
The linear change of variables of polymul.hpp: all orders.
-/
import Verif.Proofs.PolymulTrans

namespace XCFun.Polymul
open XCFun Spec Finset MvPolynomial Props

section
variable {V : Type} [CommSemiring V]

/-! ## Substitution -/

theorem linForm_hom (n' : ℕ) (T : List V) (i : ℕ) : (linForm n' T i).IsHomogeneous 1 := by
  rw [linForm]
  refine IsHomogeneous.sum _ _ _ fun k _ => ?_
  rw [C_mul_X_eq_monomial]
  exact isHomogeneous_monomial _ (by rw [Finsupp.degree_single])

theorem subst_hom (n' : ℕ) (T : List V) (m : ℕ →₀ ℕ) (c : V) : (aeval (linForm n' T) (monomial m c)).IsHomogeneous m.degree := by
  have := (isHomogeneous_monomial c (d := m) (n := m.degree) rfl).aeval (linForm n' T) (n := 1) (fun i => linForm_hom n' T i)
  rwa [one_mul] at this

theorem subst_coeff {n' : ℕ} {T : List V} {m k : ℕ →₀ ℕ} {c : V} (h : k.degree ≠ m.degree) : (aeval (linForm n' T) (monomial m c)).coeff k = 0 :=
  (subst_hom n' T m c).coeff_eq_zero h

theorem subst_step (n' : ℕ) (T : List V) (e : ℕ →₀ ℕ) (J : ℕ) :
    aeval (linForm n' T) (monomial (e + Finsupp.single J 1) (1 : V)) = aeval (linForm n' T) (monomial e (1 : V)) * linForm n' T J := by
  rw [show (monomial (e + Finsupp.single J 1) (1 : V)) = monomial e 1 * X J by rw [X, monomial_mul, mul_one], map_mul, aeval_X]

theorem subst_C (n' : ℕ) (T : List V) (m : ℕ →₀ ℕ) (c : V) : aeval (linForm n' T) (monomial m c) = C c * aeval (linForm n' T) (monomial m (1 : V)) := by
  rw [show (monomial m c : MvPolynomial ℕ V) = C c * monomial m 1 by rw [C_mul_monomial, mul_one], map_mul, aeval_C]
  rfl

theorem InVars.mul {n : ℕ} {p q : MvPolynomial ℕ V} (hp : InVars n p) (hq : InVars n q) : InVars n (p * q) := by
  intro m hm
  rw [coeff_mul]
  refine Finset.sum_eq_zero fun x hx => ?_
  rw [Finset.mem_antidiagonal] at hx
  by_cases h1 : ∃ i, fs (term (n + 1) i) = x.1
  · by_cases h2 : ∃ i, fs (term (n + 1) i) = x.2
    · obtain ⟨i, hi⟩ := h1
      obtain ⟨j, hj⟩ := h2
      exact absurd (by rw [termProd_eq, ← fs_term_add, hi, hj, hx]) (hm (termProd (n + 1) i j))
    · rw [hq x.2 fun i e => h2 ⟨i, e⟩, mul_zero]
  · rw [hp x.1 fun i e => h1 ⟨i, e⟩, zero_mul]

theorem inVars_linForm (n' : ℕ) (T : List V) (i : ℕ) : InVars n' (linForm (n' + 1) T i) := by
  intro m hm
  rw [linForm_eq, coeff_sum]
  exact Finset.sum_eq_zero fun b _ => by rw [coeff_monomial, if_neg (hm _)]

theorem inVars_subst (n' : ℕ) (T : List V) (p : MvPolynomial ℕ V) : InVars n' (aeval (linForm (n' + 1) T) p) := by
  induction p using MvPolynomial.induction_on with
  | C a =>
    intro m hm
    rw [aeval_C]
    show coeff m (C a) = 0
    rw [coeff_C, if_neg]
    intro e
    refine hm 0 ?_
    rw [term_zero, ← e]
    ext i
    rw [fs_apply, List.getD_eq_getElem?_getD, List.getElem?_replicate]
    split <;> rfl
  | add p q hp hq =>
    intro m hm
    rw [map_add, coeff_add, hp m hm, hq m hm, add_zero]
  | mul_X p i hp => rw [map_mul, aeval_X]; exact hp.mul (inVars_linForm n' T i)

theorem Block.congr {n k : ℕ} {c c' : List V} {P : MvPolynomial ℕ V} (h : Block n k c P) (hc : ∀ i < st (n + 1) (k + 1), at' c' i = at' c i) : Block n k c' P := by
  rw [h]
  refine Finset.sum_congr rfl fun a ha => ?_
  rw [Finset.mem_range] at ha
  rw [hc _ (by rw [st_succ]; omega)]

/-! ## Sums over terms of higher degree -/

theorem visit_low {f : (ℕ →₀ ℕ) → MvPolynomial ℕ V} (hf : ∀ m k : ℕ →₀ ℕ, k.degree ≠ m.degree → (f m).coeff k = 0) (n j r : ℕ) :
    ∀ (e k : ℕ →₀ ℕ), k.degree ≤ e.degree → (visit f n j r e).coeff k = 0 := by
  induction j generalizing r with
  | zero => intro e k _; exact MvPolynomial.coeff_zero k
  | succ j ih =>
    rw [visit]
    have hd : ∀ e : ℕ →₀ ℕ, (e + Finsupp.single (n - (j + 1)) 1).degree = e.degree + 1 := fun e => by rw [map_add, Finsupp.degree_single]
    induction r with
    | zero =>
      intro e k hk
      rw [visitJ, coeff_add, hf _ _ (by rw [hd]; omega), ih 0 e k hk, add_zero]
    | succ r ihr =>
      intro e k hk
      rw [visitJ, coeff_add, coeff_add, hf _ _ (by rw [hd]; omega), ihr _ k (by rw [hd]; omega), ih _ e k hk, add_zero, add_zero]

/-! ## All orders -/

/-- Contribution of one term of the source. -/
noncomputable def substTerm (n' n N : ℕ) (src T : List V) (m : ℕ →₀ ℕ) : MvPolynomial ℕ V :=
  aeval (linForm n' T) (monomial m ((polyOf n N src).coeff m))

section Trans
variable {n' n Ndeg : ℕ} {src T : List V} (hT : (n' + 1) * (n + 1) ≤ T.length) (hs : L (n + 1) Ndeg ≤ src.length)

/-- What `trans` does from variable `J`, order `N` on. -/
def TransOk (n' n Ndeg : ℕ) (src T : List V) (J j r : ℕ) (go : ℕ → List V × List V → Outcome (List V × List V)) : Prop :=
  ∀ (N t : ℕ) (e : ℕ →₀ ℕ) (tmp dst : List V), N + r = Ndeg → 1 ≤ N → (0 < j → fs (term (n + 1) t) = e + Finsupp.single J 1) → (∀ i, J < i → e i = 0) →
    e.degree + 1 = N → L (n' + 1) Ndeg ≤ tmp.length → L (n' + 1) Ndeg ≤ dst.length →
    ((N = 1 ∧ e = 0) ∨ (2 ≤ N ∧ Block n' (N - 1) tmp (aeval (linForm (n' + 1) T) (monomial e (1 : V))))) →
    ∃ tmp' dst', go t (tmp, dst) = .ok (tmp', dst') ∧ tmp'.length = tmp.length ∧ dst'.length = dst.length ∧ (∀ i < st (n' + 1) N, at' tmp' i = at' tmp i) ∧
      ∀ i, at' dst' i = if st (n' + 1) N ≤ i ∧ i < L (n' + 1) Ndeg then
        (if J = 0 then 0 else at' dst i) + (visit (substTerm (n' + 1) (n + 1) Ndeg src T) (n + 1) j r e).coeff (fs (term (n' + 1) i)) else at' dst i

/-- The degree of an entry. -/
theorem entry_degree {n' i N : ℕ} (h1 : st (n' + 1) N ≤ i) (h2 : i < st (n' + 1) (N + 1)) : (fs (term (n' + 1) i)).degree = N := by
  obtain ⟨a, rfl⟩ : ∃ a, i = st (n' + 1) N + a := ⟨i - st (n' + 1) N, by omega⟩
  rw [fs_degree, term_sum (by rw [st_succ] at h2; omega)]

theorem entry_degree_gt {n' i N : ℕ} (h1 : st (n' + 1) (N + 1) ≤ i) : N < (fs (term (n' + 1) i)).degree := by
  rw [fs_degree]
  by_contra h
  have : i < L (n' + 1) N := lt_iff.2 (by omega)
  rw [st] at h1
  omega

include hT hs in
theorem trans_ok (j : ℕ) (hj : j ≤ n + 1) : ∀ r, TransOk n' n Ndeg src T (n + 1 - j) j r (trans (n' + 1) (n + 1) Ndeg src T j r) := by
  have hf : ∀ m k : ℕ →₀ ℕ, k.degree ≠ m.degree → (substTerm (n' + 1) (n + 1) Ndeg src T m).coeff k = 0 := fun m k h => subst_coeff h
  induction j with
  | zero =>
    intro r N t e tmp dst hN _ _ _ _ _ _ _
    refine ⟨tmp, dst, rfl, rfl, rfl, fun _ _ => rfl, fun i => ?_⟩
    rw [if_neg (by omega : ¬ n + 1 - 0 = 0), visit, MvPolynomial.coeff_zero, add_zero, ite_self]
  | succ j ih =>
    have ih := ih (by omega)
    have hJ : n + 1 - (j + 1) < n + 1 := by omega
    have hJ1 : n + 1 - j = n + 1 - (j + 1) + 1 := by omega
    rw [hJ1] at ih
    have htr : trans (n' + 1) (n + 1) Ndeg src T (j + 1) = transJ (n' + 1) (n + 1) Ndeg src T (n + 1 - (j + 1)) (trans (n' + 1) (n + 1) Ndeg src T j) := rfl
    have hvi : ∀ r e, visit (substTerm (n' + 1) (n + 1) Ndeg src T) (n + 1) (j + 1) r e =
        visitJ (substTerm (n' + 1) (n + 1) Ndeg src T) (n + 1 - (j + 1)) (visit (substTerm (n' + 1) (n + 1) Ndeg src T) (n + 1) j) r e := fun _ _ => rfl
    have hnx : 0 < j → n + 1 - (j + 1) + 1 < n + 1 := fun h => by omega
    generalize n + 1 - (j + 1) = J at *
    -- one order
    have row : ∀ (r N t : ℕ) (e : ℕ →₀ ℕ) (tmp dst : List V), N + r = Ndeg → 1 ≤ N → fs (term (n + 1) t) = e + Finsupp.single J 1 →
        e.degree + 1 = N → L (n' + 1) Ndeg ≤ tmp.length → L (n' + 1) Ndeg ≤ dst.length →
        ((N = 1 ∧ e = 0) ∨ (2 ≤ N ∧ Block n' (N - 1) tmp (aeval (linForm (n' + 1) T) (monomial e (1 : V))))) →
        ∃ tmp' dst', transRow (n' + 1) src T J N t (tmp, dst) = .ok (tmp', dst') ∧ tmp'.length = tmp.length ∧ dst'.length = dst.length ∧
          (∀ i, ¬ (st (n' + 1) N ≤ i ∧ i < st (n' + 1) (N + 1)) → at' tmp' i = at' tmp i) ∧
          Block n' N tmp' (aeval (linForm (n' + 1) T) (monomial (e + Finsupp.single J 1) (1 : V))) ∧
          ∀ i, at' dst' i = if st (n' + 1) N ≤ i ∧ i < st (n' + 1) (N + 1) then
            (if J = 0 then 0 else at' dst i) + (substTerm (n' + 1) (n + 1) Ndeg src T (e + Finsupp.single J 1)).coeff (fs (term (n' + 1) i)) else at' dst i := by
      intro r N t e tmp dst hN h1 ht hd hl hl' hP
      have htl : t < L (n + 1) Ndeg := lt_iff.2 (by rw [← fs_degree, ht, map_add, Finsupp.degree_single]; omega)
      have hm := L_mono (n' + 1) (show N ≤ Ndeg by omega)
      obtain ⟨tmp', dst', e1, e2, e3, e4, e5, e6⟩ := transRow_ok (P := aeval (linForm (n' + 1) T) (monomial e (1 : V))) h1 hJ hT (htl.trans_le hs) (hm.trans hl) (hm.trans hl')
        (hP.imp (fun h => ⟨h.1, by rw [h.2]; exact map_one _⟩) id)
      rw [← subst_step] at e5
      refine ⟨tmp', dst', e1, e2, e3, e4, e5, fun i => ?_⟩
      rw [e6]
      by_cases hi : st (n' + 1) N ≤ i ∧ i < st (n' + 1) (N + 1)
      · rw [if_pos hi, if_pos hi]
        congr 1
        obtain ⟨a, rfl⟩ : ∃ a, i = st (n' + 1) N + a := ⟨i - st (n' + 1) N, by omega⟩
        rw [substTerm, subst_C, coeff_C_mul, e5.coeff (by have := st_succ n' N; omega), ← ht, coeff_term hs htl]
      · rw [if_neg hi, if_neg hi]
    intro r
    rw [htr]
    induction r with
    | zero =>
      intro N t e tmp dst hN h1 ht he hd hl hl' hP
      obtain rfl : N = Ndeg := by omega
      obtain ⟨t1, d1, a1, a2, a3, a4, a5, a6⟩ := row 0 N t e tmp dst hN h1 (ht (by omega)) hd hl hl' hP
      have hm := st_mono n' (Nat.le_succ N)
      obtain ⟨t2, d2, b1, b2, b3, b4, b5⟩ := ih 0 N (t + 1) e t1 d1 hN h1 (fun h => fs_next (hnx h) he (ht (by omega))) (fun i hi => he i (by omega)) hd (by omega) (by omega)
        (hP.imp id fun h => ⟨h.1, h.2.congr fun i hi => a4 i (by rw [show N - 1 + 1 = N by omega] at hi; omega)⟩)
      refine ⟨t2, d2, by rw [transJ, a1]; exact b1, by omega, by omega, fun i hi => by rw [b4 i hi, a4 i (by omega)], fun i => ?_⟩
      rw [b5, a6, hvi, visitJ, show L (n' + 1) N = st (n' + 1) (N + 1) from rfl]
      by_cases hi : st (n' + 1) N ≤ i ∧ i < st (n' + 1) (N + 1)
      · rw [if_pos hi, if_pos hi, if_pos hi, if_neg (by omega : ¬ J + 1 = 0), coeff_add, add_assoc]
      · rw [if_neg hi, if_neg hi, if_neg hi]
    | succ r ihr =>
      intro N t e tmp dst hN h1 ht he hd hl hl' hP
      have hNr : Ndeg - (r + 1) = N := by omega
      obtain ⟨t1, d1, a1, a2, a3, a4, a5, a6⟩ := row (r + 1) N t e tmp dst hN h1 (ht (by omega)) hd hl hl' hP
      have hm := st_mono n' (Nat.le_succ N)
      rw [Nat.succ_eq_add_one] at hm
      have hm2 : st (n' + 1) (N + 1) ≤ L (n' + 1) Ndeg := by rw [st]; exact L_mono _ (by omega)
      obtain ⟨t2, d2, c1, c2, c3, c4, c5⟩ := ihr (N + 1) (termProd (n + 1) (J + 1) t) (e + Finsupp.single J 1) t1 d1 (by omega) (by omega)
        (fun _ => by rw [fs_prod hJ, ht (by omega)])
        (fun i hi => by rw [Finsupp.add_apply, he i hi, Finsupp.single_eq_of_ne (by omega), add_zero])
        (by rw [map_add, Finsupp.degree_single, hd]) (by omega) (by omega) (Or.inr ⟨by omega, a5⟩)
      obtain ⟨t3, d3, b1, b2, b3, b4, b5⟩ := ih (r + 1) N (t + 1) e t2 d2 hN h1 (fun h => fs_next (hnx h) he (ht (by omega))) (fun i hi => he i (by omega)) hd (by omega) (by omega)
        (hP.imp id fun h => ⟨h.1, h.2.congr fun i hi => by
          rw [show N - 1 + 1 = N by omega] at hi
          rw [c4 i (by omega), a4 i (by omega)]⟩)
      refine ⟨t3, d3, ?_, by omega, by omega, fun i hi => by rw [b4 i hi, c4 i (by omega), a4 i (by omega)], fun i => ?_⟩
      · rw [transJ, hNr, a1]
        simp only [Outcome.ok_bind, c1]
        exact b1
      · rw [b5, c5, a6, hvi (r + 1), visitJ]
        by_cases hi : st (n' + 1) N ≤ i ∧ i < L (n' + 1) Ndeg
        · rw [if_pos hi, if_pos hi, if_neg (by omega : ¬ J + 1 = 0), coeff_add, coeff_add]
          by_cases h2 : i < st (n' + 1) (N + 1)
          · have hdeg := entry_degree hi.1 h2
            have hlow : (visitJ (substTerm (n' + 1) (n + 1) Ndeg src T) J (visit (substTerm (n' + 1) (n + 1) Ndeg src T) (n + 1) j) r (e + Finsupp.single J 1)).coeff
                (fs (term (n' + 1) i)) = 0 := by
              rw [← hvi]
              exact visit_low hf _ _ _ _ _ (by rw [hdeg, map_add, Finsupp.degree_single, hd])
            rw [if_neg (by omega), if_pos ⟨hi.1, h2⟩, hlow, add_zero, add_assoc]
          · have hz : (substTerm (n' + 1) (n + 1) Ndeg src T (e + Finsupp.single J 1)).coeff (fs (term (n' + 1) i)) = 0 := by
              have := entry_degree_gt (n' := n') (N := N) (by omega : st (n' + 1) (N + 1) ≤ i)
              exact hf _ _ (by rw [map_add, Finsupp.degree_single]; omega)
            rw [if_pos ⟨by omega, hi.2⟩, if_neg (by omega : ¬ (st (n' + 1) N ≤ i ∧ i < st (n' + 1) (N + 1))), hz, zero_add, hvi, add_assoc]
        · rw [if_neg hi, if_neg hi, if_neg (by omega), if_neg (by omega)]

end Trans

/-- The substituted polynomial as a sum over the terms visited. -/
theorem subst_visit {n' n N : ℕ} {src T : List V} (hs : L (n + 1) (N + 1) ≤ src.length) :
    aeval (linForm n' T) (polyOf (n + 1) (N + 1) src) = substTerm n' (n + 1) (N + 1) src T 0 + visit (substTerm n' (n + 1) (N + 1) src T) (n + 1) (n + 1) N 0 := by
  rw [visit_all]
  conv_lhs => rw [polyOf_eq hs, map_sum]
  refine Finset.sum_congr rfl fun i hi => ?_
  rw [substTerm, coeff_term hs (Finset.mem_range.1 hi)]

/-- Equality with the substituted polynomial, from the entries. -/
theorem eq_of_subst {n' n N : ℕ} {out src T : List V} (hs : L (n + 1) N ≤ src.length) (ho : L (n' + 1) N ≤ out.length)
    (h : ∀ i < L (n' + 1) N, at' out i = (aeval (linForm (n' + 1) T) (polyOf (n + 1) N src)).coeff (fs (term (n' + 1) i))) :
    polyOf (n' + 1) N out = aeval (linForm (n' + 1) T) (polyOf (n + 1) N src) := by
  ext m
  by_cases hm : N < m.degree
  · rw [coeff_high ho hm]
    symm
    rw [polyOf_eq hs, map_sum, coeff_sum]
    refine Finset.sum_eq_zero fun i hi => subst_coeff ?_
    have := lt_iff.1 (Finset.mem_range.1 hi)
    rw [fs_degree]; omega
  · exact same_of_terms (inVars_polyOf ho) (inVars_subst n' T _) (fun i hi => by rw [coeff_term ho hi, h i hi]) m (by omega)

theorem polytrans_ok {n' n N : ℕ} {tmp dst src T : List V} (ht : L (n' + 1) N ≤ tmp.length) (hd : L (n' + 1) N ≤ dst.length) (hs : L (n + 1) N ≤ src.length)
    (hT : (n' + 1) * (n + 1) ≤ T.length) :
    ∃ out, polytrans (n' + 1) (n + 1) N tmp dst src T = .ok out ∧ out.length = dst.length ∧ (∀ i, L (n' + 1) N ≤ i → at' out i = at' dst i) ∧
      polyOf (n' + 1) N out = aeval (linForm (n' + 1) T) (polyOf (n + 1) N src) := by
  have hsp := L_pos (n + 1) N
  have hdp := L_pos (n' + 1) N
  have hst1 : st (n' + 1) 1 = 1 := by rw [st, L_zero_right]
  have hlow : ∀ {N : ℕ}, L (n + 1) (N + 1) ≤ src.length → ∀ i < L (n' + 1) (N + 1),
      (aeval (linForm (n' + 1) T) (polyOf (n + 1) (N + 1) src)).coeff (fs (term (n' + 1) i)) =
        if i = 0 then at' src 0 else (visit (substTerm (n' + 1) (n + 1) (N + 1) src T) (n + 1) (n + 1) N 0).coeff (fs (term (n' + 1) i)) := by
    intro N hs i hi
    rw [subst_visit hs, coeff_add]
    by_cases h : i = 0
    · subst h
      have hc : (polyOf (n + 1) (N + 1) src).coeff 0 = at' src 0 := by rw [← fs_zero (n + 1), coeff_term hs (L_pos _ _)]
      rw [if_pos rfl, visit_low (f := substTerm (n' + 1) (n + 1) (N + 1) src T) (fun m k h => subst_coeff h) _ _ _ _ (fs (term (n' + 1) 0)) (by rw [fs_zero]), add_zero, fs_zero, substTerm, hc, subst_C]
      rw [show (aeval (linForm (n' + 1) T) (monomial 0 (1 : V)) : MvPolynomial ℕ V) = 1 from map_one _, mul_one, coeff_C, if_pos rfl]
    · rw [if_neg h, substTerm, subst_coeff, zero_add]
      have := entry_degree_gt (n' := n') (N := 0) (i := i) (by rw [Nat.zero_add, hst1]; omega)
      rw [_root_.map_zero]; omega
  match N with
  | 0 =>
    refine ⟨dst.set 0 (at' src 0), ?_, by simp, fun i hi => ?_, eq_of_subst hs (by simpa using hd) fun i hi => ?_⟩
    · simp only [polytrans, rd_at (show 0 < src.length by omega), wrBuf_ok (show 0 < dst.length by omega), Outcome.ok_bind]
    · rw [at_set _ (by omega), if_neg (by omega)]
    · rw [L_zero_right] at hi
      obtain rfl : i = 0 := by omega
      rw [at_set _ (by omega), if_pos rfl, polyOf_eq hs, L_zero_right, Finset.sum_range_one, fs_zero, fs_zero, subst_C]
      rw [show (aeval (linForm (n' + 1) T) (monomial 0 (1 : V)) : MvPolynomial ℕ V) = 1 from map_one _, mul_one, coeff_C, if_pos rfl]
  | 1 =>
    have hs' : n + 2 ≤ src.length := by rw [L_one_right] at hs; exact hs
    have hd' : n' + 2 ≤ dst.length := by rw [L_one_right] at hd; exact hd
    have hTi : ∀ i j, i < n' + 1 → j < n + 1 → i + (n' + 1) * j < T.length := fun i j hi hj => by
      have := index_lt (n' := n') hj hi
      rw [Nat.mul_comm (n' + 1) j]; omega
    obtain ⟨d1, a1, a2, a3⟩ := fill_run (body := fun i dst => do
      let a ← rdBuf src 1
      let b ← rdBuf T i
      wrBuf dst (1 + i) (a * b)) 1 0 (n' + 1) (fun i => at' src 1 * at' T i) (p := dst.set 0 (at' src 0)) (by simp; omega) (fun i q _ hi _ _ => by
        have := hTi i 0 (by omega) (by omega)
        rw [rd_at (by omega), rd_at (by omega)]; rfl)
    rw [List.length_set] at a2
    obtain ⟨d2, b1, b2, b3⟩ := forLoop_inv (body := fun j dst => forLoop (fun i dst => do
      let z ← rdBuf dst (1 + i)
      let a ← rdBuf src (1 + j)
      let b ← rdBuf T (i + (n' + 1) * j)
      wrBuf dst (1 + i) (z + a * b)) (n' + 1) 0 dst)
      (fun j d => d.length = dst.length ∧ ∀ i, at' d i = if 1 ≤ i ∧ i < n' + 2 then ∑ k ∈ range j, at' src (1 + k) * at' T (i - 1 + (n' + 1) * k) else at' (dst.set 0 (at' src 0)) i)
      n 1 d1 ⟨a2, fun i => by
        rw [a3, Finset.sum_range_one]
        exact if_congr (by omega) (by simp) rfl⟩
      (fun j d h1 h2 ⟨hl, hx⟩ => by
        obtain ⟨d', c1, c2, c3⟩ := fill_run (body := fun i dst => do
          let z ← rdBuf dst (1 + i)
          let a ← rdBuf src (1 + j)
          let b ← rdBuf T (i + (n' + 1) * j)
          wrBuf dst (1 + i) (z + a * b)) 1 0 (n' + 1) (fun i => at' d (1 + i) + at' src (1 + j) * at' T (i + (n' + 1) * j)) (p := d) (by omega) (fun i q _ hi hq hx => by
            have := hTi i j (by omega) (by omega)
            rw [rd_at (by omega), rd_at (by omega), rd_at this, hx, if_neg (by omega)]; rfl)
        refine ⟨d', c1, by omega, fun i => ?_⟩
        rw [c3]
        by_cases hi : 1 ≤ i ∧ i < n' + 2
        · rw [if_pos (by omega), if_pos hi, Finset.sum_range_succ, show 1 + (i - 1) = i by omega, hx, if_pos hi]
        · rw [if_neg (by omega), if_neg hi, hx, if_neg hi])
    refine ⟨d2, ?_, b2, fun i hi => ?_, eq_of_subst hs (by omega) fun i hi => ?_⟩
    · simp only [polytrans, rd_at (show 0 < src.length by omega), wrBuf_ok (show 0 < dst.length by omega), Outcome.ok_bind, a1, Nat.add_sub_cancel]
      exact b1
    · rw [L_one_right] at hi
      rw [b3, if_neg (by omega), at_set _ (by omega), if_neg (by omega)]
    · rw [L_one_right] at hi
      rw [b3]
      by_cases h : i = 0
      · subst h
        rw [if_neg (by omega), at_set _ (by omega), if_pos rfl, hlow hs 0 (L_pos _ _), if_pos rfl]
      · obtain ⟨k, rfl⟩ : ∃ k, i = k + 1 := ⟨i - 1, by omega⟩
        rw [if_pos (by omega), fs_unit (by omega), polyOf_eq hs, map_sum, coeff_sum, L_one_right, Finset.sum_range_succ', subst_coeff (by rw [fs_zero, _root_.map_zero, Finsupp.degree_single]; omega), add_zero]
        rw [show 1 + n = n + 1 by omega]
        refine Finset.sum_congr rfl fun j hj => ?_
        rw [Finset.mem_range] at hj
        rw [fs_unit hj, subst_C, coeff_C_mul, show (monomial (Finsupp.single j 1) (1 : V)) = X j from rfl, aeval_X, Nat.add_comm 1 j, linForm, coeff_sum,
          Finset.sum_eq_single_of_mem k (Finset.mem_range.2 (by omega))]
        · rw [coeff_C_mul, coeff_X, if_pos rfl, mul_one, Nat.add_sub_cancel, at', at', Nat.add_comm k, Nat.mul_comm (n' + 1) j]
        · intro b _ hb
          rw [coeff_C_mul, coeff_X, if_neg, mul_zero]
          intro e
          exact hb (Finsupp.single_left_injective one_ne_zero e)
  | N + 2 =>
    obtain ⟨t', d', e1, e2, e3, e4, e5⟩ := trans_ok hT hs (n + 1) (le_refl _) (N + 1) 1 1 0 tmp (dst.set 0 (at' src 0)) (by omega) (le_refl _)
      (fun _ => by rw [Nat.sub_self, zero_add]; exact fs_unit (by omega)) (fun i _ => rfl) (by rw [_root_.map_zero]) ht (by simpa using hd) (Or.inl ⟨rfl, rfl⟩)
    rw [List.length_set] at e3
    refine ⟨d', ?_, e3, fun i hi => ?_, eq_of_subst hs (by omega) fun i hi => ?_⟩
    · simp only [polytrans, rd_at (show 0 < src.length by omega), wrBuf_ok (show 0 < dst.length by omega), Outcome.ok_bind, e1]
    · rw [e5, if_neg (by omega), at_set _ (by omega), if_neg (by omega)]
    · rw [hlow hs i hi, e5, hst1]
      by_cases h : i = 0
      · subst h
        rw [if_neg (by omega), if_pos rfl, at_set _ (by omega), if_pos rfl]
      · rw [if_pos ⟨by omega, hi⟩, if_neg h, Nat.sub_self, if_pos rfl, zero_add]

end

end XCFun.Polymul
