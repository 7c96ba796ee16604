/-
The second evaluation of polynomials in polymul.hpp.
-/
import Verif.Proofs.PolymulTransAll

namespace XCFun.Polymul
open XCFun Spec Finset MvPolynomial Props

section
variable {V : Type} [CommSemiring V]

/-- The value of one term. -/
noncomputable def valueTerm (n N : ℕ) (p x : List V) (m : ℕ →₀ ℕ) : V :=
  MvPolynomial.eval (fun i => x.getD i 0) (monomial m ((polyOf n N p).coeff m))

theorem value_C (x : List V) (m : ℕ →₀ ℕ) (c : V) :
    MvPolynomial.eval (fun i => x.getD i 0) (monomial m c) = MvPolynomial.eval (fun i => x.getD i 0) (monomial m 1) * c := by
  rw [show (monomial m c : MvPolynomial ℕ V) = C c * monomial m 1 by rw [C_mul_monomial, mul_one], map_mul, eval_C, mul_comm]

theorem value_step (x : List V) (e : ℕ →₀ ℕ) (J : ℕ) :
    MvPolynomial.eval (fun i => x.getD i 0) (monomial (e + Finsupp.single J 1) 1) = MvPolynomial.eval (fun i => x.getD i 0) (monomial e 1) * at' x J := by
  rw [show (monomial (e + Finsupp.single J 1) (1 : V)) = monomial e 1 * X J by rw [X, monomial_mul, mul_one], map_mul, eval_X]; rfl

theorem newRow_ok {x tmp : List V} {J N Ndeg : ℕ} {e : ℕ →₀ ℕ} (hJ : J < x.length) (h1 : 1 ≤ N) (hN : N ≤ Ndeg) (hl : Ndeg ≤ tmp.length)
    (hP : (N = 1 ∧ e = 0) ∨ (2 ≤ N ∧ at' tmp (N - 2) = MvPolynomial.eval (fun i => x.getD i 0) (monomial e 1))) :
    newRow x J N tmp = .ok (tmp.set (N - 1) (MvPolynomial.eval (fun i => x.getD i 0) (monomial (e + Finsupp.single J 1) 1))) := by
  rw [newRow, rd_at hJ, value_step]
  simp only [Outcome.ok_bind]
  rcases hP with ⟨rfl, rfl⟩ | ⟨h2, hP⟩
  · rw [if_pos rfl, show (monomial 0 (1 : V) : MvPolynomial ℕ V) = 1 from rfl, map_one, one_mul]
    exact wrBuf_ok (by omega) _
  · rw [if_neg (by omega), rd_at (by omega), hP]
    exact wrBuf_ok (by omega) _

section New
variable {n Ndeg : ℕ} {p x : List V} (hx : n + 1 ≤ x.length) (hp : L (n + 1) Ndeg ≤ p.length)

/-- What `eval` does from variable `J`, order `N` on. -/
def NewOk (n Ndeg : ℕ) (p x : List V) (J j r : ℕ) (go : ℕ → List V → Outcome (List V × V)) : Prop :=
  ∀ (N t : ℕ) (e : ℕ →₀ ℕ) (tmp : List V), N + r = Ndeg → 1 ≤ N → (0 < j → fs (term (n + 1) t) = e + Finsupp.single J 1) → (∀ i, J < i → e i = 0) →
    e.degree + 1 = N → Ndeg ≤ tmp.length →
    ((N = 1 ∧ e = 0) ∨ (2 ≤ N ∧ at' tmp (N - 2) = MvPolynomial.eval (fun i => x.getD i 0) (monomial e 1))) →
    ∃ tmp', go t tmp = .ok (tmp', visit (valueTerm (n + 1) Ndeg p x) (n + 1) j r e) ∧ tmp'.length = tmp.length ∧ ∀ i, i + 1 < N → at' tmp' i = at' tmp i

include hx hp in
theorem new_ok (j : ℕ) (hj : j ≤ n + 1) : ∀ r, NewOk n Ndeg p x (n + 1 - j) j r (newEvalFrom .leftToRight (n + 1) Ndeg p x j r) := by
  induction j with
  | zero =>
    intro r N t e tmp hN _ _ _ _ _ _
    exact ⟨tmp, rfl, rfl, fun _ _ => rfl⟩
  | succ j ih =>
    have ih := ih (by omega)
    have hJ : n + 1 - (j + 1) < n + 1 := by omega
    have hJ1 : n + 1 - j = n + 1 - (j + 1) + 1 := by omega
    rw [hJ1] at ih
    have htr : newEvalFrom .leftToRight (n + 1) Ndeg p x (j + 1) =
      newEvalJ .leftToRight (n + 1) Ndeg p x (n + 1 - (j + 1)) (newEvalFrom .leftToRight (n + 1) Ndeg p x j) := rfl
    have hvi : ∀ r e, visit (valueTerm (n + 1) Ndeg p x) (n + 1) (j + 1) r e =
        visitJ (valueTerm (n + 1) Ndeg p x) (n + 1 - (j + 1)) (visit (valueTerm (n + 1) Ndeg p x) (n + 1) j) r e := fun _ _ => rfl
    have hnx : 0 < j → n + 1 - (j + 1) + 1 < n + 1 := fun h => by omega
    generalize n + 1 - (j + 1) = J at *
    have one : ∀ (N t : ℕ) (e : ℕ →₀ ℕ) (tmp : List V), N ≤ Ndeg → 1 ≤ N → fs (term (n + 1) t) = e + Finsupp.single J 1 → e.degree + 1 = N → Ndeg ≤ tmp.length →
        (do
          let s ← rdBuf (tmp.set (N - 1) (MvPolynomial.eval (fun i => x.getD i 0) (monomial (e + Finsupp.single J 1) 1))) (N - 1)
          let c ← rdBuf p t
          Outcome.ok (s * c)) = .ok (valueTerm (n + 1) Ndeg p x (e + Finsupp.single J 1)) := by
      intro N t e tmp hN h1 ht hd hl
      have htl : t < L (n + 1) Ndeg := lt_iff.2 (by rw [← fs_degree, ht, map_add, Finsupp.degree_single]; omega)
      rw [rd_at (by rw [List.length_set]; omega), rd_at (htl.trans_le hp), at_set _ (by omega), if_pos rfl]
      simp only [Outcome.ok_bind]
      rw [valueTerm, ← ht, coeff_term hp htl, value_C x _ (at' p t)]
    intro r
    rw [htr]
    induction r with
    | zero =>
      intro N t e tmp hN h1 ht he hd hl hP
      obtain rfl : N = Ndeg := by omega
      have row := newRow_ok (x := x) (J := J) (by omega) h1 (le_refl N) hl hP
      obtain ⟨t2, b1, b2, b3⟩ := ih 0 N (t + 1) e (tmp.set (N - 1) (MvPolynomial.eval (fun i => x.getD i 0) (monomial (e + Finsupp.single J 1) 1))) hN h1
        (fun h => fs_next (hnx h) he (ht (by omega))) (fun i hi => he i (by omega)) hd (by rw [List.length_set]; omega)
        (hP.imp id fun h => ⟨h.1, by rw [at_set _ (by omega), if_neg (by omega)]; exact h.2⟩)
      refine ⟨t2, ?_, by rw [b2, List.length_set], fun i hi => by rw [b3 i hi, at_set _ (by omega), if_neg (by omega)]⟩
      rw [newEvalJ, row]
      simp only [Outcome.ok_bind, sumOf2]
      rw [one N t e tmp (le_refl N) h1 (ht (by omega)) hd hl, hvi, visitJ]
      simp only [Outcome.ok_bind, b1]
    | succ r ihr =>
      intro N t e tmp hN h1 ht he hd hl hP
      have hNr : Ndeg - (r + 1) = N := by omega
      have row := newRow_ok (x := x) (J := J) (by omega) h1 (by omega : N ≤ Ndeg) hl hP
      obtain ⟨t1, c1, c2, c3⟩ := ihr (N + 1) (termProd (n + 1) (J + 1) t) (e + Finsupp.single J 1)
        (tmp.set (N - 1) (MvPolynomial.eval (fun i => x.getD i 0) (monomial (e + Finsupp.single J 1) 1))) (by omega) (by omega)
        (fun _ => by rw [fs_prod hJ, ht (by omega)])
        (fun i hi => by rw [Finsupp.add_apply, he i hi, Finsupp.single_eq_of_ne (by omega), add_zero])
        (by rw [map_add, Finsupp.degree_single, hd]) (by rw [List.length_set]; omega)
        (Or.inr ⟨by omega, by rw [show N + 1 - 2 = N - 1 by omega, at_set _ (by omega), if_pos rfl]⟩)
      rw [List.length_set] at c2
      obtain ⟨t2, b1, b2, b3⟩ := ih (r + 1) N (t + 1) e t1 hN h1 (fun h => fs_next (hnx h) he (ht (by omega))) (fun i hi => he i (by omega)) hd (by omega)
        (hP.imp id fun h => ⟨h.1, by rw [c3 _ (by omega), at_set _ (by omega), if_neg (by omega)]; exact h.2⟩)
      refine ⟨t2, ?_, by omega, fun i hi => by rw [b3 i hi, c3 i (by omega), at_set _ (by omega), if_neg (by omega)]⟩
      rw [newEvalJ, hNr, row]
      simp only [Outcome.ok_bind, sumOf]
      rw [one N t e tmp (by omega) h1 (ht (by omega)) hd hl, hvi (r + 1), visitJ, ← hvi r]
      simp only [Outcome.ok_bind, c1, b1]

end New

theorem newEval_ok {n N : ℕ} {tmp p x : List V} (ht : N + 1 ≤ tmp.length) (hp : L (n + 1) (N + 1) ≤ p.length) (hx : n + 1 ≤ x.length) :
    newEval .leftToRight (n + 1) (N + 1) tmp p x = .ok (MvPolynomial.eval (fun i => x.getD i 0) (polyOf (n + 1) (N + 1) p)) := by
  obtain ⟨t', e1, -, -⟩ := new_ok hx hp (n + 1) (le_refl _) N 1 1 0 tmp (by omega) (le_refl _)
    (fun _ => by rw [Nat.sub_self, zero_add]; exact fs_unit (by omega)) (fun i _ => rfl) (by rw [_root_.map_zero]) ht (Or.inl ⟨rfl, rfl⟩)
  have hpos := L_pos (n + 1) (N + 1)
  simp only [newEval, sumOf2, Nat.add_sub_cancel, rd_at (show 0 < p.length by omega), Outcome.ok_bind, e1]
  congr 1
  have h0 : valueTerm (n + 1) (N + 1) p x 0 = at' p 0 := by
    rw [valueTerm, ← fs_zero (n + 1), coeff_term hp hpos, fs_zero, show (monomial 0 (at' p 0) : MvPolynomial ℕ V) = C (at' p 0) from rfl, eval_C]
  rw [← h0, visit_all]
  conv_rhs => rw [polyOf_eq hp, map_sum]
  refine Finset.sum_congr rfl fun i hi => ?_
  rw [valueTerm, coeff_term hp (Finset.mem_range.1 hi)]

end

end XCFun.Polymul
