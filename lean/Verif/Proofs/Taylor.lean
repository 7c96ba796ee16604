/-
How Taylor coefficients combine, and closed forms of the array operations of
tmath.hpp.
-/
import Verif.Model.TMath
import Verif.Spec.Taylor
import Mathlib.Analysis.Calculus.IteratedDeriv.Lemmas
import Mathlib.Analysis.Calculus.Deriv.Inv
import Mathlib.Analysis.Calculus.Deriv.Pow
import Mathlib.Analysis.Calculus.ContDiff.Basic
import Mathlib.Tactic.Ring
import Mathlib.Tactic.FieldSimp
import Mathlib.Tactic.IntervalCases

namespace XCFun
open Spec Filter Topology
open scoped Nat ContDiff

/-! Chains of coefficient functions. -/

/-- On the open set `S`, `C (i+1)` is the derivative of `C i` divided by `i+1`. -/
def Chain (N : ℕ) (S : Set ℝ) (C : ℕ → ℝ → ℝ) : Prop :=
  ∀ i < N, ∀ u ∈ S, HasDerivAt (C i) (((i + 1 : ℕ) : ℝ) * C (i + 1) u) u

theorem Chain.iterated_eq {N : ℕ} {S : Set ℝ} (hS : IsOpen S) {C : ℕ → ℝ → ℝ}
    (h : Chain N S C) {f : ℝ → ℝ} (hf : ∀ u ∈ S, f u = C 0 u) :
    ∀ k ≤ N, ∀ u ∈ S, iteratedDeriv k f u = k ! * C k u := by
  intro k
  induction k with
  | zero => intro _ u hu; simp [hf u hu]
  | succ k ih =>
    intro hk u hu
    rw [iteratedDeriv_succ]
    have e : iteratedDeriv k f =ᶠ[𝓝 u] fun v => (k ! : ℝ) * C k v :=
      Filter.eventually_of_mem (hS.mem_nhds hu) fun v hv => ih (by omega) v hv
    rw [e.deriv_eq, ((h k (by omega) u hu).const_mul _).deriv, Nat.factorial_succ]
    push_cast; ring

theorem Chain.isTaylor {N : ℕ} {S : Set ℝ} (hS : IsOpen S) {C : ℕ → ℝ → ℝ}
    (h : Chain N S C) {f : ℝ → ℝ} (hf : ∀ u ∈ S, f u = C 0 u) {u : ℝ} (hu : u ∈ S) :
    IsTaylor f u N (fun k => C k u) := by
  intro k hk
  rw [h.iterated_eq hS hf k hk u hu]
  have : (k ! : ℝ) ≠ 0 := by exact_mod_cast k.factorial_ne_zero
  field_simp

theorem Spec.IsTaylor.congr {f g : ℝ → ℝ} {x : ℝ} {N : ℕ} {c d : ℕ → ℝ} (h : IsTaylor f x N c)
    (hfg : g =ᶠ[𝓝 x] f) (hcd : ∀ k ≤ N, d k = c k) : IsTaylor g x N d := by
  intro k hk
  rw [hcd k hk, h k hk, hfg.iteratedDeriv_eq]

theorem Spec.IsTaylor.mono {f : ℝ → ℝ} {x : ℝ} {N M : ℕ} {c : ℕ → ℝ} (h : IsTaylor f x N c)
    (hM : M ≤ N) : IsTaylor f x M c := fun k hk => h k (hk.trans hM)

/-- Term-by-term integration. -/
theorem Spec.IsTaylor.integrate {f g : ℝ → ℝ} {x : ℝ} {N : ℕ} {c : ℕ → ℝ} (h : IsTaylor g x N c)
    (hfg : ∀ᶠ u in 𝓝 x, HasDerivAt f (g u) u) :
    IsTaylor f x (N + 1) (fun k => if k = 0 then f x else c (k - 1) / k) := by
  intro k hk
  rcases k with _ | k
  · simp
  · have e : deriv f =ᶠ[𝓝 x] g := hfg.mono fun u hu => hu.deriv
    show (if k + 1 = 0 then f x else c (k + 1 - 1) / ((k + 1 : ℕ) : ℝ)) = _
    rw [if_neg k.succ_ne_zero, iteratedDeriv_succ', e.iteratedDeriv_eq, Nat.factorial_succ]
    rw [show k + 1 - 1 = k from rfl, h k (by omega)]
    have : (k ! : ℝ) ≠ 0 := by exact_mod_cast k.factorial_ne_zero
    have : ((k + 1 : ℕ) : ℝ) ≠ 0 := by positivity
    push_cast at *
    field_simp

/-- The identity behind the product rule for coefficient sequences. -/
theorem cauchy_step (c d : ℕ → ℝ) (k : ℕ) :
    ((k + 1 : ℕ) : ℝ) * ∑ i ∈ Finset.range (k + 2), c i * d (k + 1 - i) =
      ∑ i ∈ Finset.range (k + 1),
        (((i + 1 : ℕ) : ℝ) * c (i + 1) * d (k - i) + c i * (((k - i + 1 : ℕ) : ℝ) * d (k - i + 1))) := by
  have e : ((k + 1 : ℕ) : ℝ) * ∑ i ∈ Finset.range (k + 1 + 1), c i * d (k + 1 - i) =
      ∑ i ∈ Finset.range (k + 1 + 1), (i : ℝ) * c i * d (k + 1 - i) +
      ∑ i ∈ Finset.range (k + 1 + 1), ((k + 1 - i : ℕ) : ℝ) * c i * d (k + 1 - i) := by
    rw [← Finset.sum_add_distrib, Finset.mul_sum]
    refine Finset.sum_congr rfl fun i hi => ?_
    have hi : i ≤ k + 1 := by simpa [Nat.lt_succ_iff] using hi
    rw [Nat.cast_sub hi]; ring
  have e1 : ∑ i ∈ Finset.range (k + 1 + 1), (i : ℝ) * c i * d (k + 1 - i) =
      ∑ i ∈ Finset.range (k + 1), ((i + 1 : ℕ) : ℝ) * c (i + 1) * d (k - i) := by
    rw [Finset.sum_range_succ']; simp
  have e2 : ∑ i ∈ Finset.range (k + 1 + 1), ((k + 1 - i : ℕ) : ℝ) * c i * d (k + 1 - i) =
      ∑ i ∈ Finset.range (k + 1), c i * (((k - i + 1 : ℕ) : ℝ) * d (k - i + 1)) := by
    rw [Finset.sum_range_succ]
    simp only [Nat.sub_self, Nat.cast_zero, zero_mul, add_zero]
    refine Finset.sum_congr rfl fun i hi => ?_
    have hi : i ≤ k := by simpa [Nat.lt_succ_iff] using hi
    rw [Nat.succ_sub hi]; ring
  rw [e, e1, e2, Finset.sum_add_distrib]

theorem Chain.mul {N : ℕ} {S : Set ℝ} {C D : ℕ → ℝ → ℝ} (hC : Chain N S C) (hD : Chain N S D) :
    Chain N S (fun k u => ∑ i ∈ Finset.range (k + 1), C i u * D (k - i) u) := by
  intro k hk u hu
  have h : HasDerivAt (fun v => ∑ i ∈ Finset.range (k + 1), C i v * D (k - i) v)
      (∑ i ∈ Finset.range (k + 1), (((i + 1 : ℕ) : ℝ) * C (i + 1) u * D (k - i) u +
        C i u * (((k - i + 1 : ℕ) : ℝ) * D (k - i + 1) u))) u := by
    refine HasDerivAt.fun_sum fun i hi => ?_
    have hi : i ≤ k := by simpa [Nat.lt_succ_iff] using hi
    exact (hC i (by omega) u hu).mul (hD (k - i) (by omega) u hu)
  refine h.congr_deriv ?_
  rw [← cauchy_step (fun i => C i u) (fun i => D i u) k]

/-! Closed forms of the loops. -/

theorem TFuns.multo_eq (N : ℕ) (z x : Coefs) (i : ℕ) :
    TFuns.multo N z x i =
      if i ≤ N then ∑ j ∈ Finset.range (i + 1), x j * z (i - j) else z i := by
  have key : ∀ (k : ℕ) (z : Coefs) (i : ℕ), loopDown (fun i (z : Coefs) =>
      loopUp (fun j z => z.wr i (z i + x j * z (i - j))) 1 i (z.wr i (x 0 * z i))) 0 k z i =
      if i < k then ∑ j ∈ Finset.range (i + 1), x j * z (i - j) else z i := by
    intro k
    induction k with
    | zero => intro z i; simp [loopDown]
    | succ k ih =>
      intro z i
      rw [loopDown, ih, Nat.zero_add]
      have step : ∀ k ≥ 1, ∀ q, q ≠ k →
          loopUp (fun j z => z.wr k (z k + x j * z (k - j))) 1 k (z.wr k (x 0 * z k)) q = z q := by
        intro k hk q hq
        have : ∀ l, loopUp (fun j (z : Coefs) => z.wr k (z k + x j * z (k - j))) 1 l
            (z.wr k (x 0 * z k)) q = z q := by
          intro l
          induction l with
          | zero => simp [loopUp, Coefs.wr, hq]
          | succ l ihl => rw [loopUp, Coefs.wr, if_neg hq, ihl]
        exact this k
      have step0 : ∀ q, q ≠ k →
          loopUp (fun j z => z.wr k (z k + x j * z (k - j))) 1 k (z.wr k (x 0 * z k)) q = z q := by
        intro q hq
        rcases Nat.eq_zero_or_pos k with rfl | hk
        · simp [loopUp, Coefs.wr, hq]
        · exact step k hk q hq
      have val : loopUp (fun j z => z.wr k (z k + x j * z (k - j))) 1 k (z.wr k (x 0 * z k)) k =
          ∑ j ∈ Finset.range (k + 1), x j * z (k - j) := by
        have hl : ∀ l ≤ k, loopUp (fun j (z : Coefs) => z.wr k (z k + x j * z (k - j))) 1 l
            (z.wr k (x 0 * z k)) k = x 0 * z k + ∑ j ∈ Finset.range l, x (1 + j) * z (k - (1 + j)) := by
          intro l
          induction l with
          | zero => intro _; simp [loopUp, Coefs.wr]
          | succ l ihl =>
            intro hl
            rw [loopUp, Coefs.wr, if_pos rfl, ihl (by omega), Finset.sum_range_succ, ← add_assoc]
            congr 2
            -- the entry read lies below the one written
            have : ∀ l', loopUp (fun j (z : Coefs) => z.wr k (z k + x j * z (k - j))) 1 l'
                (z.wr k (x 0 * z k)) (k - (1 + l)) = z (k - (1 + l)) := by
              intro l'
              induction l' with
              | zero => rw [loopUp, Coefs.wr, if_neg (by omega)]
              | succ l' ih' => rw [loopUp, Coefs.wr, if_neg (by omega), ih']
            exact this l
        rw [hl k le_rfl, Finset.sum_range_succ', add_comm]
        simp [add_comm]
      by_cases h1 : i < k
      · rw [if_pos h1, if_pos (by omega)]
        refine Finset.sum_congr rfl fun j hj => ?_
        rw [step0 (i - j) (by omega)]
      · rw [if_neg h1]
        by_cases h2 : i = k
        · subst h2; rw [if_pos (by omega), val]
        · rw [if_neg (by omega), step0 i h2]
  rw [TFuns.multo, key]
  exact if_congr (by omega) rfl rfl

theorem TFuns.integrate_eq (N : ℕ) (x : Coefs) (i : ℕ) :
    TFuns.integrate N x i = if 1 ≤ i ∧ i ≤ N then x (i - 1) / i else x i := by
  have key : ∀ (k : ℕ) (x : Coefs) (i : ℕ),
      loopDown (fun i (x : Coefs) => x.wr i (x (i - 1) / i)) 1 k x i =
      if 1 ≤ i ∧ i ≤ k then x (i - 1) / i else x i := by
    intro k
    induction k with
    | zero => intro x i; rw [loopDown, if_neg (by omega)]
    | succ k ih =>
      intro x i
      rw [loopDown, ih]
      by_cases h1 : 1 ≤ i ∧ i ≤ k
      · rw [if_pos h1, if_pos (by omega), Coefs.wr, if_neg (by omega)]
      · rw [if_neg h1, Coefs.wr]
        by_cases h2 : i = 1 + k
        · subst h2
          rw [if_pos rfl, if_pos (by omega)]
        · rw [if_neg h2, if_neg (by omega)]
  exact key N x i

theorem TFuns.stretchFac_eq (a : ℝ) (i : ℕ) : TFuns.stretchFac a i = a ^ (i + 1) := by
  induction i with
  | zero => simp [TFuns.stretchFac]
  | succ i ih => rw [TFuns.stretchFac, ih]; ring

theorem TFuns.stretch_eq (N : ℕ) (t : Coefs) (a : ℝ) (i : ℕ) :
    TFuns.stretch N t a i = if i ≤ N then t i * a ^ i else t i := by
  have key : ∀ k, loopUp (fun i (t : Coefs) => t.wr i (t i * TFuns.stretchFac a (i - 1))) 1 k t i =
      if i ≤ k then t i * a ^ i else t i := by
    intro k
    induction k with
    | zero =>
      rw [loopUp]
      rcases Nat.eq_zero_or_pos i with rfl | h
      · simp
      · rw [if_neg (by omega)]
    | succ k ih =>
      rw [loopUp, Coefs.wr]
      by_cases h : i = 1 + k
      · subst h
        rw [if_pos rfl, ih, if_neg (by omega), if_pos (by omega), TFuns.stretchFac_eq]
        congr 2; omega
      · rw [if_neg h, ih]
        exact if_congr (by omega) rfl rfl
  exact key N

theorem TFuns.mul_eq (N : ℕ) (z x y : Coefs) (i : ℕ) :
    TFuns.mul N z x y i =
      if i ≤ N then ∑ j ∈ Finset.range (i + 1), x j * y (i - j) else z i := by
  have inner : ∀ (k : ℕ) (z : Coefs) (l : ℕ) (q : ℕ),
      loopUp (fun j (z : Coefs) => z.wr k (z k + x j * y (k - j))) 1 l (z.wr k (x 0 * y k)) q =
      if q = k then x 0 * y k + ∑ j ∈ Finset.range l, x (1 + j) * y (k - (1 + j)) else z q := by
    intro k z l
    induction l with
    | zero => intro q; simp [loopUp, Coefs.wr]
    | succ l ih =>
      intro q
      rw [loopUp, Coefs.wr]
      by_cases h : q = k
      · rw [if_pos h, ih, if_pos rfl, if_pos h, Finset.sum_range_succ, ← add_assoc]
      · rw [if_neg h, ih, if_neg h, if_neg h]
  have key : ∀ (k : ℕ) (i : ℕ), loopUp (fun i (z : Coefs) =>
      loopUp (fun j z => z.wr i (z i + x j * y (i - j))) 1 i (z.wr i (x 0 * y i))) 0 k z i =
      if i < k then ∑ j ∈ Finset.range (i + 1), x j * y (i - j) else z i := by
    intro k
    induction k with
    | zero => intro i; simp [loopUp]
    | succ k ih =>
      intro i
      rw [loopUp, Nat.zero_add, inner, ih]
      by_cases h : i = k
      · subst h
        rw [if_pos rfl, if_pos (by omega), Finset.sum_range_succ', add_comm]
        simp [add_comm]
      · rw [if_neg h]; exact if_congr (by omega) rfl rfl
  rw [TFuns.mul, key]
  exact if_congr (by omega) rfl rfl

theorem TFuns.differentiate_eq (N : ℕ) (x : Coefs) (i : ℕ) :
    TFuns.differentiate N x i =
      if i < N then ((i + 1 : ℕ) : ℝ) * x (i + 1) else if i = N then 0 else x i := by
  have key : ∀ (k : ℕ) (i : ℕ), loopUp (fun i (x : Coefs) => x.wr (i - 1) (i * x i)) 1 k x i =
      if i < k then ((i + 1 : ℕ) : ℝ) * x (i + 1) else x i := by
    intro k
    induction k with
    | zero => intro i; simp [loopUp]
    | succ k ih =>
      intro i
      rw [loopUp, Coefs.wr, ih, ih]
      by_cases h : i = 1 + k - 1
      · subst h
        rw [if_pos rfl, if_neg (by omega), if_pos (by omega)]
        simp [add_comm]
      · rw [if_neg h]; exact if_congr (by omega) rfl rfl
  rw [TFuns.differentiate, Coefs.wr, key]
  by_cases h : i = N
  · subst h; simp
  · simp [h]

theorem TFuns.powers_eq (d : ℝ) (i : ℕ) : TFuns.powers d i = d ^ i := by
  induction i with
  | zero => rfl
  | succ i ih => rw [TFuns.powers, ih]; ring

/-- The running integer `fac` is a binomial coefficient and its division is exact. -/
theorem TFuns.fac_step (n m : ℕ) (h : n < m) :
    m.choose n * (m + 1) / (m - n + 1) = (m + 1).choose n := by
  have e : (m + 1).choose n * (m + 1 - n) = (m + 1) * m.choose n := by
    have := Nat.add_one_mul_choose_eq m n
    have h2 := Nat.choose_succ_right_eq (m + 1) n
    rw [← h2, ← this]
  rw [show m - n + 1 = m + 1 - n by omega]
  rw [Nat.mul_comm, ← e]
  exact Nat.mul_div_cancel _ (by omega)

/-- `shift` is the re-expansion of a polynomial of degree `N` around `d`. -/
theorem TFuns.shift_eq (N : ℕ) (x : Coefs) (d : ℝ) (n : ℕ) :
    TFuns.shift N x d n =
      if n ≤ N then ∑ m ∈ Finset.range (N - n + 1), ((n + m).choose n : ℝ) * d ^ m * x (n + m)
      else x n := by
  -- one pass of the inner loop
  have inner : ∀ (n : ℕ) (x : Coefs) (k : ℕ), n < N →
      loopUp (fun m (s : Coefs × ℕ) =>
        (s.1.wr n (s.1 n + s.2 * powers d (m - n) * s.1 m), s.2 * (m + 1) / (m - n + 1)))
        (n + 1) k (x, n + 1) =
      (x.wr n (x n + ∑ j ∈ Finset.range k, ((n + 1 + j).choose n : ℝ) * d ^ (j + 1) * x (n + 1 + j)),
        (n + 1 + k).choose n) := by
    intro n x k hn
    induction k with
    | zero =>
      simp only [loopUp, Finset.range_zero, Finset.sum_empty, add_zero, Nat.choose_succ_self_right]
      congr 1
      funext q; by_cases h : q = n <;> simp [Coefs.wr, h]
    | succ k ih =>
      rw [loopUp, ih]
      congr 1
      · funext q
        by_cases h : q = n
        · subst h
          simp only [Coefs.wr, if_true]
          rw [if_neg (by omega), Finset.sum_range_succ, powers_eq, ← add_assoc]
          congr 3
          congr 1; omega
        · simp [Coefs.wr, h]
      · rw [show n + 1 + k - n + 1 = (n + 1 + k) - n + 1 from rfl, TFuns.fac_step n (n + 1 + k) (by omega)]
        rfl
  have outer : ∀ (k : ℕ), k ≤ N → ∀ q,
      loopUp (fun n x =>
        let r := loopUp (fun m (s : Coefs × ℕ) =>
          (s.1.wr n (s.1 n + s.2 * powers d (m - n) * s.1 m), s.2 * (m + 1) / (m - n + 1)))
          (n + 1) (N - (n + 1)) (x, n + 1)
        r.1.wr n (r.1 n + r.2 * powers d (N - n) * r.1 N)) 0 k x q =
      if q < k then ∑ m ∈ Finset.range (N - q + 1), ((q + m).choose q : ℝ) * d ^ m * x (q + m)
      else x q := by
    intro k
    induction k with
    | zero => intro _ q; simp [loopUp]
    | succ k ih =>
      intro hk q
      rw [loopUp, Nat.zero_add, inner _ _ _ (by omega)]
      have hge : ∀ q', k ≤ q' → loopUp (fun n x =>
          let r := loopUp (fun m (s : Coefs × ℕ) =>
            (s.1.wr n (s.1 n + s.2 * powers d (m - n) * s.1 m), s.2 * (m + 1) / (m - n + 1)))
            (n + 1) (N - (n + 1)) (x, n + 1)
          r.1.wr n (r.1 n + r.2 * powers d (N - n) * r.1 N)) 0 k x q' = x q' := by
        intro q' hq'; rw [ih (by omega), if_neg (by omega)]
      by_cases h : q = k
      · subst h
        simp only [Coefs.wr, if_true]
        rw [if_neg (by omega), if_pos (by omega), hge q le_rfl, hge N (by omega)]
        have e : ∑ j ∈ Finset.range (N - (q + 1)), ((q + 1 + j).choose q : ℝ) * d ^ (j + 1) *
            loopUp (fun n x =>
              let r := loopUp (fun m (s : Coefs × ℕ) =>
                (s.1.wr n (s.1 n + s.2 * powers d (m - n) * s.1 m), s.2 * (m + 1) / (m - n + 1)))
                (n + 1) (N - (n + 1)) (x, n + 1)
              r.1.wr n (r.1 n + r.2 * powers d (N - n) * r.1 N)) 0 q x (q + 1 + j) =
            ∑ j ∈ Finset.range (N - (q + 1)), ((q + (j + 1)).choose q : ℝ) * d ^ (j + 1) *
              x (q + (j + 1)) := by
          refine Finset.sum_congr rfl fun j _ => ?_
          rw [hge _ (by omega), show q + 1 + j = q + (j + 1) by omega]
        rw [e, show N - q + 1 = N - (q + 1) + 1 + 1 by omega, Finset.sum_range_succ,
          Finset.sum_range_succ' _ (N - (q + 1)), powers_eq,
          show q + 1 + (N - (q + 1)) = N by omega, show q + (N - (q + 1) + 1) = N by omega,
          show N - (q + 1) + 1 = N - q by omega]
        simp
        ring
      · simp only [Coefs.wr, h, if_false]
        rw [ih (by omega)]
        exact if_congr (by omega) rfl rfl
  rw [TFuns.shift, outer N le_rfl]
  by_cases h : n < N
  · rw [if_pos h, if_pos h.le]
  · rw [if_neg h]
    by_cases h2 : n = N
    · subst h2; simp
    · rw [if_neg (by omega)]

end XCFun
