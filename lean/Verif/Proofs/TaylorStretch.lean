/-
`stretch` and `shift` of taylor.hpp.
-/
import Verif.Proofs.TaylorOps
import Verif.Proofs.CTMath

namespace XCFun.Tay
open XCFun Spec Polymul

theorem stretch_run {n N : ℕ} (h1 : (n + 1) * L (n + 1) N < 2 ^ 31) (h2 : n + 1 + N < 2 ^ 31) {c : List ℝ} (hc : Fit (n + 1) N c) (α : ℝ) :
    ∃ out, stretch (n + 1) N α c = .ok out ∧ Fit (n + 1) N out ∧ ∀ i < L (n + 1) N, at' out i = at' c i * α ^ (term (n + 1) i).sum := by
  have hL : ∀ i ≤ N, L (n + 1) i ≤ L (n + 1) N := fun i hi => L_mono _ hi
  obtain ⟨⟨a, k, out⟩, e1, e2, e3, e4, e5⟩ := forLoop_inv (body := fun i (r : ℝ × ℕ × List ℝ) => do
    let len ← taylorlen ((n + 1 : ℕ) : ℤ) i
    let c ← updLoop (· * r.1) (len.toNat - r.2.1) r.2.1 r.2.2
    Outcome.ok (r.1 * α, Max.max r.2.1 len.toNat, c)) (fun i r => r.1 = α ^ i ∧ r.2.1 = L (n + 1) (i - 1) ∧ r.2.2.length = c.length ∧
      ∀ j, at' r.2.2 j = if j < L (n + 1) (i - 1) then at' c j * α ^ (term (n + 1) j).sum else at' c j) N 1 (α, 1, c)
    ⟨(pow_one α).symm, by rw [L]; simp, rfl, fun j => by
      have : L (n + 1) (1 - 1) = 1 := by rw [L]; simp
      rw [this]
      split
      · rename_i h
        have : (term (n + 1) j).sum = 0 := by
          rw [show j = 0 by omega, ← fs_degree, fs_zero]; simp
        rw [this, pow_zero, mul_one]
      · rfl⟩ (by
    rintro i ⟨a, k, t⟩ hi hi' ⟨ha, hk, hl, ht⟩
    dsimp only at ha hk hl ht
    subst ha hk
    obtain ⟨i, rfl⟩ : ∃ d, i = d + 1 := ⟨i - 1, by omega⟩
    rw [Nat.add_sub_cancel] at ht
    have m1 : L (n + 1) i ≤ L (n + 1) (i + 1) := L_mono _ (Nat.le_succ i)
    have m2 := hL (i + 1) (by omega)
    have hcl : c.length = L (n + 1) N := hc
    have hlen := taylorlen_run (n := n + 1) (d := i + 1) ((Nat.mul_le_mul_left _ m2).trans_lt h1) (by omega)
    obtain ⟨out, e1, e2, e3⟩ := updLoop_run (· * α ^ (i + 1)) (L (n + 1) (i + 1) - L (n + 1) i) (L (n + 1) i) (c := t) (by omega)
    refine ⟨(α ^ (i + 1) * α, Max.max (L (n + 1) i) (L (n + 1) (i + 1)), out), ?_, (pow_succ α (i + 1)).symm, ?_, by rw [e2, hl], fun j => ?_⟩
    · rw [hlen]
      simp only [Outcome.ok_bind, Int.toNat_natCast, Nat.add_sub_cancel, e1]
    · exact Nat.max_eq_right m1
    · rw [e3, ht, Nat.add_sub_cancel]
      by_cases c1 : j < L (n + 1) i
      · rw [if_neg (by omega), if_pos c1, if_pos (by omega)]
      · by_cases c2 : j < L (n + 1) (i + 1)
        · have : (term (n + 1) j).sum = i + 1 := term_sum_iff.2 ⟨by rw [st]; omega, by rw [st]; exact c2⟩
          rw [if_pos (by omega), if_neg c1, if_pos c2, this]
        · rw [if_neg (by omega), if_neg c1, if_neg c2])
  dsimp only at e2 e3 e4 e5
  refine ⟨out, congrArg (fun r => Outcome.bind r fun r : ℝ × ℕ × List ℝ => .ok r.2.2) e1, e4.trans hc, fun i hi => ?_⟩
  rw [e5, if_pos]
  rw [show 1 + N - 1 = N by omega]; exact hi

theorem eval_stretch {n N : ℕ} {c out : List ℝ} (hc : Fit (n + 1) N c) (ho : Fit (n + 1) N out) {α : ℝ} (h : ∀ i < L (n + 1) N, at' out i = at' c i * α ^ (term (n + 1) i).sum) (v : ℕ → ℝ) :
    MvPolynomial.eval v (polyOf (n + 1) N out) = MvPolynomial.eval (fun i => α * v i) (polyOf (n + 1) N c) := by
  rw [polyOf_eq hc.ge, polyOf_eq ho.ge, map_sum, map_sum]
  refine Finset.sum_congr rfl fun i hi => ?_
  rw [MvPolynomial.eval_monomial, MvPolynomial.eval_monomial, h i (Finset.mem_range.1 hi), ← fs_degree]
  simp only [Finsupp.prod, mul_pow, Finset.prod_mul_distrib, Finset.prod_pow_eq_pow_sum]
  rw [Finsupp.degree_apply, mul_assoc]

theorem choose_run {i j : ℕ} (hij : i ≤ j) (h1 : (j - i) * j.choose i < 2 ^ 31) (h2 : j < 2 ^ 31) : taylorlen ((j : ℤ) - i) i = .ok (j.choose i : ℤ) := by
  have e : L (j - i) i = j.choose i := by rw [L, Nat.sub_add_cancel hij]
  have := taylorlen_run (n := j - i) (d := i) (by rw [e]; exact h1) (by omega)
  rw [e, Nat.cast_sub hij] at this
  exact this

theorem shift_run (u : ℕ → ℝ) {N M : ℕ} (hM : M ≤ N) (h1 : ∀ j ≤ N, ∀ i ≤ j, (j - i) * j.choose i < 2 ^ 31) (h2 : N < 2 ^ 31) {c out : List ℝ} (hc : Fit 1 N c) (ho : Fit 1 M out) (dx : ℝ) :
    ∃ r, shift u 1 N M c out dx = .ok r ∧ Fit 1 M r ∧ ∀ i ≤ M, at' r i = TFuns.shift N (at' c) dx i := by
  rw [fit_one] at hc
  have hpow : (do
      let dxpow ← wrBuf (fresh u (N + 1)) 0 1
      forLoop (fun i dxpow => do
        let p ← rdBuf dxpow (i - 1)
        wrBuf dxpow i (dx * p)) N 1 dxpow) = .ok ((List.range (N + 1)).map (dx ^ ·)) := by
    have hl : ((fresh u (N + 1)).set 0 1).length = N + 1 := by rw [List.length_set, fresh_length]
    rw [wrBuf_ok (by rw [fresh_length]; omega), Outcome.ok_bind]
    have := fill (dx ^ ·) (body := fun i dxpow => do
        let p ← rdBuf dxpow (i - 1)
        wrBuf dxpow i (dx * p)) N 1 ((fresh u (N + 1)).set 0 1) (by omega) (fun j hj => by
        rw [at_set _ (by rw [fresh_length]; omega), if_pos (by omega), show j = 0 by omega, pow_zero]) (fun i t' hi hi' hl' hj => by
        rw [rd_at (by omega : i - 1 < t'.length), Outcome.ok_bind, hj (i - 1) (by omega), ← pow_succ', Nat.sub_add_cancel hi])
    rw [this, hl]
  obtain ⟨out0, a1, a2, a3⟩ := assign_run ho 0
  rw [fit_one] at a2
  set D := (List.range (N + 1)).map (dx ^ ·) with hD
  have hDl : D.length = N + 1 := by simp [hD]
  -- the inner loop
  have inner : ∀ i ≤ M, ∀ o : List ℝ, o.length = M + 1 → forLoop (fun j out => do
      let k ← taylorlen ((j : ℤ) - i) i
      let p ← rdBuf D (j - i)
      let x ← rdBuf c j
      let y ← rdBuf out i
      wrBuf out i (y + (k : ℝ) * p * x)) (N + 1 - i) i o = .ok (o.set i (at' o i + ∑ m ∈ Finset.range (N + 1 - i), ((i + m).choose i : ℝ) * dx ^ m * at' c (i + m))) := by
    intro i hi o hol
    obtain ⟨r, e1, e2⟩ := forLoop_inv (body := fun j out => do
      let k ← taylorlen ((j : ℤ) - i) i
      let p ← rdBuf D (j - i)
      let x ← rdBuf c j
      let y ← rdBuf out i
      wrBuf out i (y + (k : ℝ) * p * x)) (fun j r => r = o.set i (at' o i + ∑ m ∈ Finset.range (j - i), ((i + m).choose i : ℝ) * dx ^ m * at' c (i + m))) (N + 1 - i) i o
      (by
        rw [Nat.sub_self, Finset.sum_range_zero, add_zero]
        refine List.ext_getElem (by simp) fun k h1 h2 => ?_
        rw [List.getElem_set]
        split
        · rename_i h; subst h; rw [at', List.getD_eq_getElem?_getD, List.getElem?_eq_getElem h1, Option.getD_some]
        · rfl) (by
        rintro j r hj hj' rfl
        refine ⟨_, ?_, rfl⟩
        have hs : ∀ v : ℝ, i < (o.set i v).length := fun v => by rw [List.length_set]; omega
        rw [choose_run hj (h1 j (by omega) i hj) (by omega)]
        simp only [Outcome.ok_bind, rd_at (show j - i < D.length by omega), rd_at (show j < c.length by omega), rd_at (hs _), wrBuf_ok (hs _), at_set _ (show i < o.length by omega),
          if_true, List.set_set, Int.cast_natCast]
        rw [show j + 1 - i = (j - i) + 1 by omega, Finset.sum_range_succ, hD, at_map (by omega), ← add_assoc, Nat.add_sub_cancel' hj])
    rw [e1, e2, Nat.add_sub_cancel' (by omega : i ≤ N + 1)]
  obtain ⟨r, e1, e2, e3⟩ := forLoop_inv (body := fun i out => forLoop (fun j out => do
      let k ← taylorlen ((j : ℤ) - i) i
      let p ← rdBuf D (j - i)
      let x ← rdBuf c j
      let y ← rdBuf out i
      wrBuf out i (y + (k : ℝ) * p * x)) (N + 1 - i) i out) (fun i r => r.length = M + 1 ∧ ∀ k, at' r k = if k < i then TFuns.shift N (at' c) dx k else 0) (M + 1) 0 out0
    ⟨a2, fun k => by rw [a3, if_neg (Nat.not_lt_zero k)]; exact ite_self _⟩ (by
      rintro i r hi hi' ⟨hl, hr⟩
      refine ⟨_, inner i (by omega) r hl, by rw [List.length_set, hl], fun k => ?_⟩
      rw [at_set _ (by omega), hr i, if_neg (Nat.lt_irrefl i), zero_add, hr k]
      by_cases hk : k = i
      · subst hk
        rw [if_pos rfl, if_pos (by omega), TFuns.shift_eq, if_pos (by omega), show N + 1 - k = N - k + 1 by omega]
      · rw [if_neg hk]; exact if_congr (by omega) rfl rfl)
  refine ⟨r, ?_, by rw [fit_one, e2], fun i hi => by rw [e3, if_pos (by omega)]⟩
  rw [shift, assert_ok rfl, Outcome.ok_bind, assert_ok hM, Outcome.ok_bind, a1, Outcome.ok_bind]
  rw [wrBuf_ok (by rw [fresh_length]; omega), Outcome.ok_bind] at hpow ⊢
  rw [hpow, Outcome.ok_bind]
  exact e1

theorem shift_isTaylor {N M : ℕ} (hM : M ≤ N) (x : Coefs) (dx : ℝ) : IsTaylor (fun y => ∑ m ∈ Finset.range (N + 1), x m * y ^ m) dx M (fun i => TFuns.shift N x dx i) :=
  (shift_chain x N M hM).isTaylor isOpen_univ (fun y _ => by
    rw [TFuns.shift_eq, if_pos (by omega)]
    refine Finset.sum_congr rfl fun m _ => ?_
    simp [mul_comm]) (Set.mem_univ dx)

end XCFun.Tay
