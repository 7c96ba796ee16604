/-
Power products of all terms, derivatives, factorials.
-/
import Verif.Proofs.PolymulMore
import Mathlib.Algebra.MvPolynomial.PDeriv

namespace XCFun.Polymul
open XCFun Spec Finset MvPolynomial

section
variable {V : Type} [CommSemiring V]

/-- A loop that writes one entry in each pass. -/
theorem fill_run {body : ℕ → List V → Outcome (List V)} (k lo cnt : ℕ) (f : ℕ → V) {p : List V} (hl : k + lo + cnt ≤ p.length)
    (hb : ∀ i q, lo ≤ i → i < lo + cnt → q.length = p.length → (∀ x, at' q x = if k + lo ≤ x ∧ x < k + i then f (x - k) else at' p x) → body i q = wrBuf q (k + i) (f i)) :
    ∃ out, forLoop body cnt lo p = .ok out ∧ out.length = p.length ∧ ∀ x, at' out x = if k + lo ≤ x ∧ x < k + lo + cnt then f (x - k) else at' p x := by
  obtain ⟨out, h1, h2, h3⟩ := forLoop_inv (body := body)
    (fun i q => q.length = p.length ∧ ∀ x, at' q x = if k + lo ≤ x ∧ x < k + i then f (x - k) else at' p x) cnt lo p ⟨rfl, fun x => by rw [if_neg (by omega)]⟩
    (fun i q hi hi' ⟨hq, hx⟩ => by
      have hlt : k + i < q.length := by omega
      refine ⟨q.set (k + i) (f i), by rw [hb i q hi hi' hq hx]; exact wrBuf_ok hlt _, by rw [List.length_set, hq], fun x => ?_⟩
      rw [at_set _ hlt, hx]
      by_cases e : x = k + i
      · subst e; rw [if_pos rfl, if_pos (by omega), Nat.add_sub_cancel_left]
      · rw [if_neg e]; exact if_congr (by omega) rfl rfl)
  exact ⟨out, h1, h2, fun x => by rw [h3, ← Nat.add_assoc]⟩

/-! ## All terms -/

theorem evp_one {x : List V} {j : ℕ} (h : j < x.length) (N : ℕ) : evp (x.drop j) (term 1 N) = at' x j ^ N := by
  rw [term_one, drop_cons h, evp]
  cases x.drop (j + 1) <;> simp [evp]

theorem binom_L3 (n N : ℕ) : binomial (n + 2 + (N + 1 + 1) - 3) (((N + 1 : ℕ) : ℤ) - 1) = L (n + 1) N := by
  rw [show ((N + 1 : ℕ) : ℤ) - 1 = (N : ℤ) by push_cast; ring, binomial_choose (by omega), L]; congr 1; omega

theorem evalTermsHelper_run {x : List V} (n N kn kp j : ℕ) {p : List V} (hk : kp + L n (N + 1) ≤ kn) (hp : kn + L n (N + 2) ≤ p.length) (hj : j + (n + 1) ≤ x.length)
    (h : ∀ i < L n (N + 1), at' p (kp + i) = evp (x.drop j) (term (n + 1) (st (n + 1) (N + 1) + i))) :
    ∃ out, evalTermsHelper x (n + 1) (N + 2) kn kp j p = .ok out ∧ out.length = p.length ∧
      ∀ i, at' out i = if kn ≤ i ∧ i < kn + L n (N + 2) then evp (x.drop j) (term (n + 1) (st (n + 1) (N + 2) + (i - kn))) else at' p i := by
  induction n generalizing kn kp j p with
  | zero =>
    rw [L_zero_left] at hk hp
    have h0 := h 0 (by rw [L_zero_left]; omega)
    rw [Nat.add_zero, Nat.add_zero] at h0
    refine ⟨p.set kn (at' p kp * at' x j), ?_, List.length_set, fun i => ?_⟩
    · rw [evalTermsHelper, rd_at (by omega)]
      show (rdBuf x j).bind _ = _
      rw [rd_at (by omega)]
      exact wrBuf_ok (by omega) _
    · rw [at_set _ (by omega), L_zero_left]
      by_cases e : i = kn
      · subst e
        rw [if_pos rfl, if_pos (by omega), h0, Nat.sub_self, Nat.add_zero]
        rw [show st (0 + 1) (N + 1) = N + 1 by rw [st, Nat.zero_add, L_one], show st (0 + 1) (N + 2) = N + 2 by rw [st, Nat.zero_add, L_one]]
        rw [Nat.zero_add, evp_one (by omega), evp_one (by omega), ← pow_succ]
      · rw [if_neg e, if_neg (by omega)]
  | succ n ih =>
    have hL1 := L_succ n N
    have hL2 : L (n + 1) (N + 2) = L (n + 1) (N + 1) + L n (N + 2) := L_succ n (N + 1)
    rw [evalTermsHelper, if_neg (by omega)]
    have hb : binomial (n + 2 + (N + 1 + 1) - 2) ((N + 1 : ℕ) : ℤ) = L (n + 1) (N + 1) := by exact binom_L n (N + 1)
    rw [hb, binom_L3]
    obtain ⟨q, q1, q2, q3⟩ := fill_run (body := fun i p => do
        let u ← rdBuf p (kp + i)
        let x0 ← rdBuf x j
        wrBuf p (kn + i) (u * x0)) kn 0 (L (n + 1) (N + 1)) (fun i => at' p (kp + i) * at' x j) (p := p) (by omega) (fun i q _ hi hq hx => by
      rw [rd_at (by omega)]
      show (rdBuf x j).bind _ = _
      rw [rd_at (by omega), hx, if_neg (by omega)]
      rfl)
    rw [q1]
    obtain ⟨out, e1, e2, e3⟩ := ih (kn + L (n + 1) (N + 1)) (kp + L (n + 1) N) (j + 1) (p := q) (by omega) (by omega) (by omega) (fun i hi => by
      rw [q3, if_neg (by omega), Nat.add_assoc, h _ (by omega), drop_cons (by omega : j < x.length), term_rest hi])
    refine ⟨out, e1, by omega, fun i => ?_⟩
    rw [e3]
    split
    · rename_i hi
      rw [if_pos (by omega), drop_cons (by omega : j < x.length)]
      obtain ⟨i', rfl⟩ : ∃ i', i = kn + (L (n + 1) (N + 1) + i') := ⟨i - kn - L (n + 1) (N + 1), by omega⟩
      have hi'' : i' < L n (N + 1 + 1) := by show i' < L n (N + 2); omega
      rw [Nat.add_sub_cancel_left, show st (n + 1 + 1) (N + 2) = st (n + 2) (N + 1 + 1) from rfl, term_rest hi'']
      congr 3; omega
    · rename_i hi
      rw [q3]
      split
      · rename_i hi'
        obtain ⟨i', rfl⟩ : ∃ i', i = kn + i' := ⟨i - kn, by omega⟩
        have hi'' : i' < L (n + 1) (N + 1) := by omega
        rw [if_pos (by omega), Nat.add_sub_cancel_left, h _ hi'', drop_cons (by omega : j < x.length), show st (n + 1 + 1) (N + 2) = st (n + 2) (N + 1 + 1) from rfl,
          term_first hi'', mul_comm]
      · rw [if_neg (by omega)]

theorem L_one_right (n : ℕ) : L n 1 = n + 1 := by rw [L]; simp

theorem evp_unit {x : List V} (n j i : ℕ) (hi : i ≤ n) (hj : j + (n + 1) ≤ x.length) : evp (x.drop j) (term (n + 1) (1 + i)) = at' x (j + i) := by
  induction n generalizing j i with
  | zero =>
    obtain rfl : i = 0 := by omega
    rw [Nat.zero_add, evp_one (by omega), Nat.add_zero, pow_one]
  | succ n ih =>
    have h1 : st (n + 2) (0 + 1) = 1 := by rw [st, L_zero_right]
    have h2 : st (n + 1) (0 + 1) = 1 := by rw [st, L_zero_right]
    rw [drop_cons (by omega : j < x.length)]
    cases i with
    | zero =>
      have := term_first (n := n) (N := 0) (i := 0) (L_pos _ _) (at' x j) (x.drop (j + 1))
      rw [h1] at this
      rw [this, st, Nat.add_zero, term_zero, evp_zero, mul_one, Nat.add_zero]
    | succ i =>
      have := term_rest (n := n) (N := 0) (i := i) (by rw [L_one_right]; omega) (at' x j) (x.drop (j + 1))
      rw [h1, h2, L_zero_right] at this
      rw [show 1 + (i + 1) = 1 + (1 + i) by omega, this, ih (j + 1) i (by omega) (by omega)]
      congr 1; omega

theorem evalTerms_run {x : List V} (n N : ℕ) {p : List V} (hp : L (n + 1) N ≤ p.length) (hx : n + 1 ≤ x.length) :
    ∃ out, evalTerms x (n + 1) N p = .ok out ∧ out.length = p.length ∧ ∀ i, at' out i = if i < L (n + 1) N then evp x (term (n + 1) i) else at' p i := by
  have base : ∀ {p : List V}, 0 < p.length → ∃ out, wrBuf p 0 (1 : V) = .ok out ∧ out.length = p.length ∧
      ∀ i, at' out i = if i < 1 then evp x (term (n + 1) i) else at' p i := by
    intro p h
    refine ⟨p.set 0 1, wrBuf_ok h _, List.length_set, fun i => ?_⟩
    rw [at_set _ h]
    by_cases e : i = 0
    · subst e; rw [if_pos rfl, if_pos (by omega), term_zero, evp_zero]
    · rw [if_neg e, if_neg (by omega)]
  have x0 : ∀ i, n = 0 → evp x (term (n + 1) i) = at' x 0 ^ i := by
    intro i hn; subst hn
    have := evp_one (x := x) (j := 0) (by omega) i
    rwa [List.drop_zero] at this
  induction N generalizing p with
  | zero =>
    rw [L_zero_right] at hp ⊢
    exact base (by omega)
  | succ N ih =>
    rw [evalTerms]
    split
    · rename_i hn
      have hn : n = 0 := by omega
      have hl : L (n + 1) (N + 1) = N + 2 := by rw [hn, Nat.zero_add, L_one]
      rw [hl] at hp ⊢
      obtain ⟨q, q1, q2, q3⟩ := base (p := p) (by omega)
      rw [q1]
      simp only [Outcome.ok_bind, rd_at (by omega : 0 < x.length), wrBuf_ok (by omega : 1 < q.length)]
      obtain ⟨out, e1, e2, e3⟩ := fill_run (body := fun i p => do
        let u ← rdBuf p (i - 1)
        wrBuf p i (at' x 0 * u)) 0 2 N (fun i => at' x 0 ^ i) (p := q.set 1 (at' x 0)) (by rw [List.length_set]; omega) (fun i r hi hi' hr hx' => by
          rw [List.length_set] at hr
          have : at' r (i - 1) = at' x 0 ^ (i - 1) := by
            rw [hx']
            split
            · rw [Nat.sub_zero]
            · obtain rfl : i = 2 := by omega
              rw [at_set _ (by omega), if_pos rfl, pow_one]
          rw [rd_at (by omega), this, Nat.zero_add]
          show wrBuf r i _ = _
          rw [← pow_succ', Nat.sub_add_cancel (by omega)])
      refine ⟨out, e1, by rw [e2, List.length_set, q2], fun i => ?_⟩
      rw [e3]
      by_cases h2 : 2 ≤ i ∧ i < N + 2
      · rw [if_pos (by omega), if_pos (by omega), x0 _ hn, Nat.sub_zero]
      · rw [if_neg (by omega), at_set _ (by omega), q3]
        by_cases h1 : i = 1
        · subst h1; rw [if_pos rfl, if_pos (by omega), x0 _ hn, pow_one]
        · rw [if_neg h1]; exact if_congr (by omega) rfl rfl
    · split
      · rename_i hn hN
        subst hN
        have hl : L (n + 1) (0 + 1) = n + 2 := by rw [Nat.zero_add, L_one_right]
        rw [hl] at hp ⊢
        obtain ⟨q, q1, q2, q3⟩ := base (p := p) (by omega)
        rw [q1]
        obtain ⟨out, e1, e2, e3⟩ := fill_run (body := fun i p => do
          let u ← rdBuf x i
          wrBuf p (i + 1) u) 1 0 (n + 1) (fun i => at' x i) (p := q) (by omega) (fun i r _ hi _ _ => by
            rw [rd_at (by omega), Nat.add_comm 1 i]; rfl)
        refine ⟨out, e1, by omega, fun i => ?_⟩
        rw [e3, q3]
        by_cases h2 : 1 ≤ i ∧ i < n + 2
        · have := evp_unit n 0 (i - 1) (by omega) (x := x) (by omega)
          rw [List.drop_zero, show 1 + (i - 1) = i by omega, Nat.zero_add] at this
          rw [if_pos (by omega), if_pos (by omega), this]
        · rw [if_neg (by omega)]; exact if_congr (by omega) rfl rfl
      · rename_i hn hN
        obtain ⟨M, rfl⟩ : ∃ M, N = M + 1 := ⟨N - 1, by omega⟩
        have hL : L (n + 1) (M + 1 + 1) = L (n + 1) (M + 1) + L n (M + 2) := L_succ n (M + 1)
        obtain ⟨q, q1, q2, q3⟩ := ih (p := p) (by omega)
        rw [q1]
        obtain ⟨out, e1, e2, e3⟩ := evalTermsHelper_run n M (L (n + 1) (M + 1)) (L (n + 1) M) 0 (x := x) (p := q) (by rw [L_succ]) (by omega) (by omega) (fun i hi => by
          rw [q3, if_pos (by rw [L_succ]; omega), List.drop_zero]; rfl)
        refine ⟨out, ?_, by omega, fun i => ?_⟩
        · rw [polylen_nat, show (((M + 1 : ℕ) : ℤ) - 1) = ((M : ℕ) : ℤ) by push_cast; ring, polylen_nat]
          exact e1
        · rw [e3, q3]
          split
          · rename_i hi
            rw [if_pos (by omega), List.drop_zero]
            congr 2
            show L (n + 1) (M + 1) + _ = _
            omega
          · by_cases hi' : i < L (n + 1) (M + 1)
            · rw [if_pos hi', if_pos (by omega)]
            · rw [if_neg hi', if_neg (by omega)]

/-! ## Derivatives -/

theorem dfacs_run {n N k : ℕ} (var : ℕ) (hv : var ≤ N) {dst : List V} (h : k + L (n + 2) N ≤ dst.length) :
    ∃ out, dfacs (n + 2) N k var dst = .ok out ∧ out.length = dst.length ∧
      (∀ i < L (n + 1) N, at' out (k + (st (n + 2) N + i)) =
        at' dst (k + (st (n + 2) N + i)) * ((if N - (term (n + 1) i).sum ≤ var then N - (term (n + 1) i).sum + 1 else 1 : ℕ) : V)) ∧
      ∀ x, (x < k + st (n + 2) N ∨ k + L (n + 2) N ≤ x) → at' out x = at' dst x := by
  have hst : st (n + 2) (N + 1) = st (n + 2) N + L (n + 1) N := st_succ (n + 1) N
  replace hst : L (n + 2) N = st (n + 2) N + L (n + 1) N := hst
  induction var generalizing dst with
  | zero =>
    refine ⟨dst, rfl, rfl, fun i hi => ?_, fun _ _ => rfl⟩
    have : (if N - (term (n + 1) i).sum ≤ 0 then N - (term (n + 1) i).sum + 1 else 1) = 1 := by split <;> omega
    rw [this, Nat.cast_one, mul_one]
  | succ var ih =>
    rw [dfacs, if_neg (by omega)]
    have e1 : polylen (n + 2) ((N : ℤ) - 1) = st (n + 2) N := polylen_pred (n + 1) N
    have e2 : polylen (n + 2 - 1) ((N : ℤ) - (var + 1) - 1) = st (n + 1) (N - (var + 1)) := by
      rw [show n + 2 - 1 = n + 1 by omega, show ((N : ℤ) - (var + 1) - 1) = ((N - (var + 1) : ℕ) : ℤ) - 1 by omega, polylen_pred]
    have e3 : polylen (n + 2 - 1) ((N : ℤ) - (var + 1)) = L (n + 1) (N - (var + 1)) := by
      rw [show n + 2 - 1 = n + 1 by omega, show ((N : ℤ) - (var + 1)) = ((N - (var + 1) : ℕ) : ℤ) by omega, polylen_nat]
    simp only [e1, e2, e3]
    set M := N - (var + 1) with hM
    have hs : L (n + 1) M = st (n + 1) M + L n M := st_succ n M
    have hm : L (n + 1) M ≤ L (n + 1) N := L_mono _ (by omega)
    obtain ⟨q, q1, q2, q3⟩ := fill_run (body := fun i dst => do
      let x ← rdBuf dst (k + i)
      wrBuf dst (k + i) (x * ((var + 1 + 1 : ℕ) : V))) k (st (n + 2) N + st (n + 1) M) (st (n + 2) N + L (n + 1) M - (st (n + 2) N + st (n + 1) M))
      (fun i => at' dst (k + i) * ((var + 1 + 1 : ℕ) : V)) (p := dst) (by omega) (fun i q hi hi' hq hx => by
        rw [rd_at (by omega), hx, if_neg (by omega)]; rfl)
    rw [q1]
    obtain ⟨out, f1, f2, f3, f4⟩ := ih (by omega) (dst := q) (by omega)
    refine ⟨out, f1, by omega, fun i hi => ?_, fun x hx => ?_⟩
    · rw [f3 i hi, q3]
      have key : (term (n + 1) i).sum = M ↔ st (n + 1) M ≤ i ∧ i < L (n + 1) M := term_sum_iff
      have hle := term_sum_le hi
      by_cases hs' : (term (n + 1) i).sum = M
      · have := key.1 hs'
        rw [if_pos (by omega), if_neg (by omega), if_pos (by omega), Nat.cast_one, mul_one]
        rw [show k + (st (n + 2) N + i) - k = st (n + 2) N + i by omega]
        congr 2; omega
      · have : ¬ (st (n + 1) M ≤ i ∧ i < L (n + 1) M) := fun e => hs' (key.2 e)
        rw [if_neg (by omega)]
        congr 2
        by_cases hv' : N - (term (n + 1) i).sum ≤ var
        · rw [if_pos hv', if_pos (by omega)]
        · rw [if_neg hv', if_neg (by omega)]
    · rw [f4 x hx, q3, if_neg (by omega)]

theorem modify_sum {l : List ℕ} {v : ℕ} (h : v < l.length) : (l.modify v (· + 1)).sum = l.sum + 1 := by
  induction l generalizing v with
  | nil => simp at h
  | cons a l ih =>
    cases v with
    | zero => rw [List.modify_zero_cons, List.sum_cons, List.sum_cons]; omega
    | succ v => rw [List.modify_succ_cons, List.sum_cons, List.sum_cons, ih (by simpa using h)]; omega

/-- What the derivative leaves in the array. -/
structure DiffOk (n var k j N : ℕ) (src dst out : List V) : Prop where
  len : out.length = dst.length
  entry : ∀ d < st (n + 1) N, ∃ s < L (n + 1) N, term (n + 1) s = (term (n + 1) d).modify var (· + 1) ∧
    at' out (k + d) = (((term (n + 1) d).getD var 0 + 1 : ℕ) : V) * at' src (j + s)
  frame : ∀ x, (x < k ∨ (k + st (n + 1) N ≤ x ∧ k < x)) → at' out x = at' dst x

theorem diff0_run {src : List V} (n k j N : ℕ) {dst : List V} (hs : j + L (n + 1) N ≤ src.length) (hk : k < dst.length) (h : k + st (n + 1) N ≤ dst.length) :
    ∃ out, diff0 src (n + 1) k j N dst = .ok out ∧ DiffOk n 0 k j N src dst out := by
  have base : ∀ {dst : List V}, k < dst.length → ∃ out, wrBuf dst k (0 : V) = .ok out ∧ DiffOk n 0 k j 0 src dst out := fun {dst} h =>
    ⟨dst.set k 0, wrBuf_ok h _, List.length_set, fun d hd => absurd hd (by simp [st]), fun x hx => by rw [at_set _ h, if_neg (by omega)]⟩
  cases n with
  | zero =>
    cases N with
    | zero => exact base hk
    | succ N =>
      have e1 : ∀ M, L (0 + 1) M = M + 1 := fun M => by rw [Nat.zero_add, L_one]
      have e2 : st (0 + 1) (N + 1) = N + 1 := e1 N
      rw [e1] at hs
      rw [e2] at h
      rw [diff0, if_pos rfl]
      obtain ⟨q, q1, q2, q3⟩ := fill_run (body := fun i dst => do
        let x ← rdBuf src (j + (i + 1))
        wrBuf dst (k + i) (((i + 1 : ℕ) : V) * x)) k 0 (N + 1) (fun i => ((i + 1 : ℕ) : V) * at' src (j + (i + 1))) (p := dst) (by omega) (fun i q _ hi _ _ => by
          rw [rd_at (by omega)]; rfl)
      refine ⟨q, q1, q2, fun d hd => ?_, fun x hx => ?_⟩
      · rw [e2] at hd
        refine ⟨d + 1, by rw [e1]; omega, by rw [Nat.zero_add, term_one, term_one]; rfl, ?_⟩
        rw [q3, if_pos (by omega), Nat.add_sub_cancel_left, Nat.zero_add, term_one]; rfl
      · rw [e2] at hx
        rw [q3, if_neg (by omega)]
  | succ n =>
    induction N generalizing dst with
    | zero => exact base hk
    | succ N ih =>
      have hst : st (n + 1 + 1) (N + 1) = st (n + 1 + 1) N + L (n + 1) N := st_succ (n + 1) N
      have hL : L (n + 1 + 1) (N + 1) = L (n + 1 + 1) N + L (n + 1) (N + 1) := L_succ (n + 1) N
      have hm : L (n + 1) N ≤ L (n + 1) (N + 1) := L_mono _ (by omega)
      have hp := L_pos (n + 1) N
      obtain ⟨q, q1, q2⟩ := ih (dst := dst) hk (by omega) (by omega)
      have ql := q2.len
      rw [diff0, if_neg (by omega), q1]
      have e1 : polylen (n + 1 + 1) ((N : ℤ) - 1) = st (n + 1 + 1) N := polylen_pred (n + 1) N
      have e2 : polylen (n + 1 + 1 - 1) (N : ℤ) = L (n + 1) N := polylen_nat (n + 1) N
      simp only [e1, e2, polylen_nat, Outcome.ok_bind]
      obtain ⟨r, r1, r2, r3⟩ := fill_run (body := fun i dst => do
        let x ← rdBuf src (j + (L (n + 1 + 1) N + i))
        wrBuf dst (k + (st (n + 1 + 1) N + i)) x) (k + st (n + 1 + 1) N) 0 (L (n + 1) N) (fun i => at' src (j + (L (n + 1 + 1) N + i))) (p := q) (by omega)
        (fun i q' _ hi _ _ => by
          rw [rd_at (by omega), Nat.add_assoc k]; rfl)
      rw [r1]
      obtain ⟨out, f1, f2, f3, f4⟩ := dfacs_run (n := n) (N := N) (k := k) N le_rfl (dst := r) (by
        show k + st (n + 1 + 1) (N + 1) ≤ _
        omega)
      have f4' : ∀ x, (x < k + st (n + 1 + 1) N ∨ k + st (n + 1 + 1) (N + 1) ≤ x) → at' out x = at' r x := f4
      refine ⟨out, f1, by omega, fun d hd => ?_, fun x hx => ?_⟩
      · by_cases hd' : d < st (n + 1 + 1) N
        · obtain ⟨s, s1, s2, s3⟩ := q2.entry d hd'
          refine ⟨s, by omega, s2, ?_⟩
          rw [f4' _ (by omega), r3, if_neg (by omega), s3]
        · obtain ⟨i, rfl⟩ : ∃ i, d = st (n + 1 + 1) N + i := ⟨d - st (n + 1 + 1) N, by omega⟩
          have hi : i < L (n + 1) N := by omega
          have hi' : i < L (n + 1) (N + 1) := by omega
          have hle := term_sum_le hi
          refine ⟨L (n + 1 + 1) N + i, by omega, ?_, ?_⟩
          · rw [show L (n + 1 + 1) N + i = st (n + 1 + 1) (N + 1) + i from rfl, term_split hi, term_split hi', List.modify_zero_cons]
            congr 1; omega
          · have f3' : at' out (k + (st (n + 1 + 1) N + i)) = at' r (k + (st (n + 1 + 1) N + i)) *
              ((if N - (term (n + 1) i).sum ≤ N then N - (term (n + 1) i).sum + 1 else 1 : ℕ) : V) := f3 i hi
            rw [f3', if_pos (by omega), r3, if_pos (by omega), term_split hi, show k + (st (n + 1 + 1) N + i) - (k + st (n + 1 + 1) N) = i by omega]
            rw [mul_comm]; rfl
      · rw [f4' x (by omega), r3, if_neg (by omega), q2.frame x (by omega)]

theorem diff_run {src : List V} (n var k j N : ℕ) (hv : var ≤ n) {dst : List V} (hs : j + L (n + 1) N ≤ src.length) (hk : k < dst.length) (h : k + st (n + 1) N ≤ dst.length) :
    ∃ out, diff src (n + 1) var k j N dst = .ok out ∧ DiffOk n var k j N src dst out := by
  induction var generalizing n k j N dst with
  | zero =>
    obtain ⟨out, e⟩ := diff0_run n k j N hs hk h
    exact ⟨out, by rw [diff]; exact e.1, e.2⟩
  | succ var ih =>
    obtain ⟨n, rfl⟩ : ∃ n', n = n' + 1 := ⟨n - 1, by omega⟩
    induction N generalizing dst with
    | zero =>
      exact ⟨dst.set k 0, by rw [diff]; exact wrBuf_ok hk _, List.length_set, fun d hd => absurd hd (by simp [st]), fun x hx => by rw [at_set _ hk, if_neg (by omega)]⟩
    | succ N ihN =>
      have hst : st (n + 1 + 1) (N + 1) = st (n + 1 + 1) N + L (n + 1) N := st_succ (n + 1) N
      have hL : L (n + 1 + 1) (N + 1) = L (n + 1 + 1) N + L (n + 1) (N + 1) := L_succ (n + 1) N
      have hp := L_pos (n + 1) N
      obtain ⟨q, q1, q2⟩ := ihN (dst := dst) hk (by omega) (by omega)
      have ql := q2.len
      have e0 : st (n + 1) (N + 1) = L (n + 1) N := rfl
      have e1 : polylen (n + 1 + 1) ((N : ℤ) - 1) = st (n + 1 + 1) N := polylen_pred (n + 1) N
      rw [diff, q1, e1, polylen_nat]
      obtain ⟨out, o1, o2⟩ := ih n (k + st (n + 1 + 1) N) (j + L (n + 1 + 1) N) (N + 1) (by omega) (dst := q) (by omega) (by omega) (by omega)
      refine ⟨out, o1, by rw [o2.len, ql], fun d hd => ?_, fun x hx => ?_⟩
      · by_cases hd' : d < st (n + 1 + 1) N
        · obtain ⟨s, s1, s2, s3⟩ := q2.entry d hd'
          exact ⟨s, by omega, s2, by rw [o2.frame _ (by omega), s3]⟩
        · obtain ⟨i, rfl⟩ : ∃ i, d = st (n + 1 + 1) N + i := ⟨d - st (n + 1 + 1) N, by omega⟩
          have hi : i < L (n + 1) N := by omega
          obtain ⟨s, s1, s2, s3⟩ := o2.entry i hi
          refine ⟨L (n + 1 + 1) N + s, by omega, ?_, ?_⟩
          · rw [show L (n + 1 + 1) N + s = st (n + 1 + 1) (N + 1) + s from rfl, term_split hi, term_split s1, List.modify_succ_cons, s2]
            congr 1
            have hl : var < (term (n + 1) i).length := by rw [term_length]; omega
            have : ((term (n + 1) i).modify var (· + 1)).sum = (term (n + 1) i).sum + 1 := modify_sum hl
            omega
          · rw [← Nat.add_assoc, s3, term_split hi, List.getD_cons_succ, Nat.add_assoc]
      · rw [o2.frame x (by omega), q2.frame x (by omega)]

/-! ## Factorials -/

theorem mulFac_run {n first last : ℕ} (hf : first ≤ last) {c : List V} (h : last < c.length) :
    ∃ out, mulFac n first last c = .ok out ∧ out.length = c.length ∧ ∀ i, at' out i = if first ≤ i ∧ i ≤ last then at' c i * (derivFac n i : V) else at' c i := by
  induction hd : last - first using Nat.strong_induction_on generalizing first last c with
  | _ d ih =>
    rw [mulFac]
    split
    · rename_i hlt
      obtain ⟨q, q1, q2, q3⟩ := ih ((first + last) / 2 - first) (by omega) (by omega) (c := c) (by omega) rfl
      obtain ⟨out, e1, e2, e3⟩ := ih (last - ((first + last) / 2 + 1)) (by omega) (by omega) (c := q) (by omega) rfl
      refine ⟨out, by rw [q1]; exact e1, by omega, fun i => ?_⟩
      rw [e3, q3]
      by_cases h1 : first ≤ i ∧ i ≤ (first + last) / 2
      · rw [if_neg (by omega), if_pos h1, if_pos (by omega)]
      · rw [if_neg h1]; exact if_congr (by omega) rfl rfl
    · rename_i hlt
      obtain rfl : first = last := by omega
      refine ⟨c.set first (at' c first * (derivFac n first : V)), by rw [rd_at h]; exact wrBuf_ok h _, List.length_set, fun i => ?_⟩
      rw [at_set _ h]
      by_cases e : i = first
      · subst e; rw [if_pos rfl, if_pos (by omega)]
      · rw [if_neg e, if_neg (by omega)]

theorem factorial_eq (n : ℕ) : factorial n = n.factorial := by
  induction n with
  | zero => rfl
  | succ n ih => rw [factorial, ih, Nat.factorial_succ]

theorem derivFac_eq (n t : ℕ) : derivFac (n + 1) t = ((term (n + 1) t).map Nat.factorial).prod := by
  induction n generalizing t with
  | zero => rw [derivFac, factorial_eq, Nat.zero_add, term_one]; simp
  | succ n ih =>
    rw [derivFac]
    split
    · rename_i h; subst h; rw [term_zero]; simp
    · obtain ⟨k, j, hj, rfl⟩ := exists_split (n + 1) t
      have e : termSub (n + 2) (st (n + 1 + 1) k + j) = j := by
        rw [termSub, show n + 2 = n + 1 + 1 from rfl, termDeg_eq, term_sum hj, polylen_pred]; omega
      rw [e, ih, factorial_eq, term_split hj, List.map_cons, List.prod_cons, firstExponent, if_neg (by omega), if_neg (by assumption), e]
      rw [show n + 2 - 1 = n + 1 by omega, termDeg_eq, show n + 2 = n + 1 + 1 from rfl, termDeg_eq, term_sum hj]

theorem polydfac_run {n N : ℕ} {c : List V} (h : L (n + 1) N ≤ c.length) :
    ∃ out, polydfac (n + 1) N c = .ok out ∧ out.length = c.length ∧
      ∀ i, at' out i = if i < L (n + 1) N then at' c i * (((term (n + 1) i).map Nat.factorial).prod : ℕ) else at' c i := by
  have hp := L_pos (n + 1) N
  obtain ⟨out, e1, e2, e3⟩ := mulFac_run (n := n + 1) (first := 0) (last := L (n + 1) N - 1) (by omega) (c := c) (by omega)
  refine ⟨out, by rw [polydfac, polylen_nat]; exact e1, e2, fun i => ?_⟩
  rw [e3, derivFac_eq]
  exact if_congr (by omega) rfl rfl

end

end XCFun.Polymul
