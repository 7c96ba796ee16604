/-
Composition with a series in one variable.
-/
import Verif.Proofs.PolymulPoly

namespace XCFun.Polymul
open XCFun Spec Finset MvPolynomial

section
variable {V : Type} [CommSemiring V]

theorem clear_run (lo cnt : ℕ) {c : List V} (h : lo + cnt ≤ c.length) :
    ∃ out, clear lo cnt c = .ok out ∧ out.length = c.length ∧ ∀ i, at' out i = if lo ≤ i ∧ i < lo + cnt then 0 else at' c i := by
  rw [clear]
  induction cnt generalizing lo c with
  | zero => exact ⟨c, rfl, rfl, fun i => by rw [if_neg (by omega)]⟩
  | succ k ih =>
    rw [forLoop, wrBuf_ok (by omega : lo < c.length)]
    obtain ⟨out, e1, e2, e3⟩ := ih (lo + 1) (c := c.set lo 0) (by rw [List.length_set]; omega)
    refine ⟨out, e1, by rw [e2, List.length_set], fun i => ?_⟩
    rw [e3, at_set _ (by omega)]
    by_cases hi : i = lo
    · subst hi; rw [if_neg (by omega), if_pos rfl, if_pos (by omega)]
    · rw [if_neg hi]; exact if_congr (by omega) rfl rfl

theorem fs_zero (n : ℕ) : fs (term n 0) = 0 := by
  ext j
  rw [fs_apply, term_zero, Finsupp.zero_apply, List.getD_eq_getElem?_getD, List.getElem?_replicate]
  split <;> rfl

theorem coeff_zero {n N : ℕ} {c : List V} (h : L (n + 1) N ≤ c.length) : (polyOf (n + 1) N c).coeff 0 = at' c 0 := by
  rw [← fs_zero (n + 1), coeff_term h (L_pos _ _)]

/-- Adding a constant. -/
theorem polyOf_set {n N : ℕ} {c : List V} (h : L (n + 1) N ≤ c.length) (v : V) :
    polyOf (n + 1) N (c.set 0 (at' c 0 + v)) = polyOf (n + 1) N c + C v := by
  have h0 : 0 < c.length := (L_pos _ _).trans_le h
  rw [polyOf_eq (by rw [List.length_set]; exact h), polyOf_eq h]
  have hL := L_pos (n + 1) N
  obtain ⟨k, hk⟩ : ∃ k, L (n + 1) N = k + 1 := ⟨L (n + 1) N - 1, by omega⟩
  rw [hk, Finset.sum_range_succ', Finset.sum_range_succ', at_set _ h0, if_pos rfl, map_add, add_assoc, fs_zero]
  congr 1
  exact Finset.sum_congr rfl fun i _ => by rw [at_set _ h0, if_neg (by omega)]

theorem polyOf_congr {n N : ℕ} {c c' : List V} (h : L n N ≤ c.length) (h' : L n N ≤ c'.length) (e : ∀ i < L n N, at' c i = at' c' i) : polyOf n N c = polyOf n N c' := by
  rw [polyOf_eq h, polyOf_eq h']
  exact Finset.sum_congr rfl fun i hi => by rw [e i (Finset.mem_range.1 hi)]

theorem polyOf_clear {n N : ℕ} {c c' : List V} (h : L (n + 1) N ≤ c.length) (h' : L (n + 1) (N + 1) ≤ c'.length) (e : ∀ i < L (n + 1) N, at' c' i = at' c i)
    (e0 : ∀ i, L (n + 1) N ≤ i → i < L (n + 1) (N + 1) → at' c' i = 0) : polyOf (n + 1) (N + 1) c' = polyOf (n + 1) N c := by
  rw [polyOf_eq h, polyOf_eq h', L_succ, Finset.sum_range_add]
  rw [Finset.sum_congr rfl fun i hi => by rw [e i (Finset.mem_range.1 hi)]]
  rw [show ∑ x ∈ range (L n (N + 1)), monomial (fs (term (n + 1) (L (n + 1) N + x))) (at' c' (L (n + 1) N + x)) = 0 from
    Finset.sum_eq_zero fun i hi => by
      rw [e0 _ (by omega) (by rw [L_succ]; have := Finset.mem_range.1 hi; omega), map_zero], add_zero]

/-- `∑ c[k + j] p^j` -/
noncomputable def series (c : List V) (P : MvPolynomial ℕ V) (k N : ℕ) : MvPolynomial ℕ V := ∑ j ∈ range (N + 1), C (at' c (k + j)) * P ^ j

theorem series_succ (c : List V) (P : MvPolynomial ℕ V) (k N : ℕ) : series c P k (N + 1) = series c P (k + 1) N * P + C (at' c k) := by
  rw [series, Finset.sum_range_succ', series, Finset.sum_mul]
  congr 1
  · refine Finset.sum_congr rfl fun j _ => ?_
    rw [pow_succ, ← mul_assoc, show k + (j + 1) = k + 1 + j by omega]
  · simp

theorem compose0_run {n Np : ℕ} {p c : List V} (hp : L (n + 1) Np ≤ p.length) (hp0 : at' p 0 = 0) (N k : ℕ) (hc : k + N < c.length) {dst : List V} (h : L (n + 1) N ≤ dst.length) :
    ∃ out, compose0 (n + 1) Np p c N k dst = .ok out ∧ out.length = dst.length ∧ SameTo N (polyOf (n + 1) N out) (series c (polyOf (n + 1) Np p) k N) ∧
      ∀ i, L (n + 1) N ≤ i → at' out i = at' dst i := by
  induction N generalizing k dst with
  | zero =>
    have h0 : 0 < dst.length := (L_pos _ _).trans_le h
    rw [compose0, rd_at (by omega : k < c.length)]
    show ∃ out, wrBuf dst 0 (at' c k) = .ok out ∧ _
    rw [wrBuf_ok h0]
    refine ⟨_, rfl, List.length_set, ?_, ?_⟩
    · intro m hm
      obtain rfl := (Finsupp.degree_eq_zero_iff m).1 (by omega)
      rw [coeff_zero (by rw [List.length_set]; exact h), at_set _ h0, if_pos rfl, series]
      simp
    · intro i hi
      rw [L_zero_right] at hi
      rw [at_set _ h0, if_neg (by omega)]
  | succ N ih =>
    have hL := L_succ n N
    obtain ⟨d1, a1, a2, a3, a4⟩ := ih (k + 1) (by omega) (dst := dst) (by omega)
    obtain ⟨d2, b1, b2, b3⟩ := clear_run (L (n + 1) N) (L n (N + 1)) (c := d1) (by omega)
    set K := if N + 1 < Np then N + 1 else Np with hK
    have hKN : K ≤ Np ∧ min (N + 1) Np = K := by rw [hK]; split <;> omega
    have hpK : L (n + 1) K ≤ p.length := (L_mono _ hKN.1).trans hp
    obtain ⟨d3, c1, c2, c3, c4⟩ := inplace_run n (N + 1) K (p2 := p) ((L_mono _ (by omega)).trans hpK) (dst := d2) (by omega)
    have h0 : 0 < d3.length := by have := L_pos (n + 1) (N + 1); omega
    refine ⟨d3.set 0 (at' c k), ?_, by rw [List.length_set]; omega, ?_, ?_⟩
    · rw [compose0, a1, polylen_nat, polylen_succ, hL, Nat.add_sub_cancel_left]
      show (clear _ _ d1).bind _ = _
      rw [b1]
      show (run id _ _ d2).bind _ = _
      rw [c1]
      show (rdBuf c k).bind _ = _
      rw [rd_at (by omega : k < c.length)]
      exact wrBuf_ok h0 _
    · have s1 := same_of_conv (by omega) hpK (by omega) c3
      have e1 : polyOf (n + 1) (N + 1) d2 = polyOf (n + 1) N d1 :=
        polyOf_clear (by omega) (by omega) (fun i hi => by rw [b3, if_neg (by omega)]) (fun i h1 h2 => by rw [b3, if_pos (by omega)])
      rw [e1] at s1
      have s2 := s1.trans ((SameTo.refl _ _).mul (show SameTo (N + 1) (polyOf (n + 1) K p) (polyOf (n + 1) Np p) by
        by_cases hh : N + 1 < Np
        · have : K = N + 1 := by rw [hK, if_pos hh]
          rw [this] at hpK ⊢
          exact polyOf_same hpK hp le_rfl (by omega)
        · have : K = Np := by rw [hK, if_neg hh]
          rw [this]; exact SameTo.refl _ _))
      have s3 := s2.trans (a3.mul_succ (by rw [coeff_zero hp, hp0]))
      have z : at' d3 0 = 0 := by
        have := s3 0 (by simp)
        rw [coeff_zero (by omega)] at this
        rw [this, ← constantCoeff_eq, map_mul, constantCoeff_eq, coeff_zero hp, hp0, mul_zero]
      have e2 := polyOf_set (n := n) (N := N + 1) (c := d3) (by omega) (at' c k)
      rw [z, zero_add] at e2
      rw [e2, series_succ]
      exact s3.add (SameTo.refl _ _)
    · intro i hi
      have hi0 : i ≠ 0 := by have := L_pos (n + 1) (N + 1); omega
      rw [at_set _ h0, if_neg hi0, c4 i hi, b3, if_neg (by omega), a4 i (by omega)]

theorem composeLoop_run {n N Np : ℕ} {p c : List V} (hp : L (n + 1) Np ≤ p.length) (i : ℕ) (hc : i < c.length) {dst : List V} (h : L (n + 1) N ≤ dst.length)
    {Q : MvPolynomial ℕ V} (hQ : SameTo N (polyOf (n + 1) N dst) Q) :
    ∃ out, composeLoop (n + 1) N Np p c i dst = .ok out ∧ out.length = dst.length ∧
      SameTo N (polyOf (n + 1) N out) (Q * polyOf (n + 1) Np p ^ i + ∑ j ∈ range i, C (at' c (j + 1)) * polyOf (n + 1) Np p ^ (j + 1)) ∧
      ∀ i, L (n + 1) N ≤ i → at' out i = at' dst i := by
  induction i generalizing dst Q with
  | zero => exact ⟨dst, rfl, rfl, by simpa using hQ, fun _ _ => rfl⟩
  | succ i ih =>
    have h0 : 0 < dst.length := (L_pos _ _).trans_le h
    obtain ⟨d2, a1, a2, a3, a4⟩ := taylormulIn_run (N2 := Np) (p1 := dst.set 0 (at' dst 0 + at' c (i + 1))) (by rw [List.length_set]; exact h) hp
    rw [List.length_set] at a2
    rw [polyOf_set h] at a3
    obtain ⟨out, b1, b2, b3, b4⟩ := ih (by omega) (dst := d2) (by omega) (a3.trans ((hQ.add (SameTo.refl _ _)).mul (SameTo.refl _ _)))
    refine ⟨out, ?_, by omega, ?_, fun j hj => ?_⟩
    · rw [composeLoop, rd_at hc]
      show (rdBuf dst 0).bind _ = _
      rw [rd_at h0]
      show (wrBuf dst 0 (at' dst 0 + at' c (i + 1))).bind _ = _
      rw [wrBuf_ok h0]
      show (taylormulIn _ _ _ _ _).bind _ = _
      rw [a1]
      exact b1
    · convert b3 using 1
      rw [Finset.sum_range_succ]
      ring
    · have hj0 : j ≠ 0 := by have := L_pos (n + 1) N; omega
      rw [b4 j hj, a4 j hj, at_set _ h0, if_neg hj0]

theorem taylorcompose_run {n N Np : ℕ} {p c dst : List V} (hp : L (n + 1) Np ≤ p.length) (hc : N < c.length) (h : L (n + 1) N ≤ dst.length) :
    ∃ out, taylorcompose (n + 1) N Np dst p c = .ok out ∧ out.length = dst.length ∧ SameTo N (polyOf (n + 1) N out) (series c (polyOf (n + 1) Np p) 0 N) ∧
      ∀ i, L (n + 1) N ≤ i → at' out i = at' dst i := by
  obtain ⟨d1, a1, a2, a3⟩ := clear_run 0 (L (n + 1) N) (c := dst) (by omega)
  have hz : polyOf (n + 1) N d1 = 0 := by
    rw [polyOf_eq (by omega)]
    exact Finset.sum_eq_zero fun i hi => by rw [a3, if_pos ⟨Nat.zero_le _, by have := Finset.mem_range.1 hi; omega⟩, map_zero]
  obtain ⟨d2, b1, b2, b3, b4⟩ := composeLoop_run (N := N) hp N hc (dst := d1) (by omega) (Q := 0) (by rw [hz]; exact SameTo.refl _ _)
  have h0 : 0 < d2.length := by have := L_pos (n + 1) N; omega
  refine ⟨d2.set 0 (at' d2 0 + at' c 0), ?_, by rw [List.length_set]; omega, ?_, fun i hi => ?_⟩
  · rw [taylorcompose, polylen_nat, a1]
    show (composeLoop _ _ _ _ _ _ _).bind _ = _
    rw [b1]
    show (rdBuf c 0).bind _ = _
    rw [rd_at (by omega : 0 < c.length)]
    show (rdBuf d2 0).bind _ = _
    rw [rd_at h0]
    exact wrBuf_ok h0 _
  · rw [polyOf_set (by omega)]
    have := b3.add (SameTo.refl N (C (at' c 0)))
    convert this using 1
    rw [series, Finset.sum_range_succ']
    simp
  · have hi0 : i ≠ 0 := by have := L_pos (n + 1) N; omega
    rw [at_set _ h0, if_neg hi0, b4 i hi, a3, if_neg (by omega)]

end

end XCFun.Polymul
