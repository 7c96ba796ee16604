/-
Loops over arrays of coefficients, taylor.hpp.
-/
import Verif.Model.TaylorClass
import Verif.Proofs.TaylorLine
import Verif.Proofs.PolymulIndex

namespace XCFun.Tay
open XCFun Spec Polymul

/-! ### Loops -/

theorem assert_ok {p : Prop} [Decidable p] (h : p) : assert p = .ok () := if_pos h

theorem fresh_length (u : ℕ → ℝ) (k : ℕ) : (fresh u k).length = k := by simp [fresh]

theorem list_eq {c : List ℝ} {F : ℕ → ℝ} (h : ∀ i < c.length, at' c i = F i) : c = (List.range c.length).map F := by
  refine List.ext_getElem (by simp) fun i h1 h2 => ?_
  have := h i h1
  rw [at', List.getD_eq_getElem?_getD, List.getElem?_eq_getElem h1, Option.getD_some] at this
  simp [this]

theorem at_map {F : ℕ → ℝ} {k i : ℕ} (h : i < k) : at' ((List.range k).map F) i = F i := by
  rw [at', List.getD_eq_getElem?_getD]; simp [h]

/-- A loop that fills an array in order. -/
theorem fill (F : ℕ → ℝ) {body : ℕ → List ℝ → Outcome (List ℝ)} (cnt lo : ℕ) (t : List ℝ) (hl : lo + cnt = t.length) (h0 : ∀ j < lo, at' t j = F j)
    (step : ∀ i t', lo ≤ i → i < t.length → t'.length = t.length → (∀ j < i, at' t' j = F j) → body i t' = wrBuf t' i (F i)) :
    forLoop body cnt lo t = .ok ((List.range t.length).map F) := by
  obtain ⟨out, e1, e2, e3⟩ := forLoop_inv (body := body) (fun i t' => t'.length = t.length ∧ ∀ j < i, at' t' j = F j) cnt lo t ⟨rfl, h0⟩ (by
    rintro i t' hi hi' ⟨hl', hj⟩
    rw [step i t' hi (by omega) hl' hj, wrBuf_ok (by omega)]
    refine ⟨_, rfl, by rw [List.length_set, hl'], fun j hj' => ?_⟩
    rw [at_set _ (by omega)]
    split
    · rename_i h; rw [h]
    · exact hj j (by omega))
  rw [e1, list_eq (c := out) (F := F) (fun i hi => e3 i (by omega)), e2]

/-- The same with another variable. -/
theorem fill2 {σ : Type} (F : ℕ → ℝ) (S : ℕ → σ) {body : ℕ → σ × List ℝ → Outcome (σ × List ℝ)} (cnt lo : ℕ) (t : List ℝ) (hl : lo + cnt = t.length)
    (h0 : ∀ j < lo, at' t j = F j)
    (step : ∀ i t', lo ≤ i → i < t.length → t'.length = t.length → (∀ j < i, at' t' j = F j) → body i (S i, t') = (wrBuf t' i (F i)).bind fun t' => .ok (S (i + 1), t')) :
    forLoop body cnt lo (S lo, t) = .ok (S (lo + cnt), (List.range t.length).map F) := by
  obtain ⟨out, e1, e0, e2, e3⟩ := forLoop_inv (body := body) (fun i r => r.1 = S i ∧ r.2.length = t.length ∧ ∀ j < i, at' r.2 j = F j) cnt lo (S lo, t) ⟨rfl, rfl, h0⟩ (by
    rintro i ⟨s, t'⟩ hi hi' ⟨hs, hl', hj⟩
    dsimp only at hs hl' hj
    subst hs
    rw [step i t' hi (by omega) hl' hj, wrBuf_ok (by omega)]
    refine ⟨_, rfl, rfl, by rw [List.length_set, hl'], fun j hj' => ?_⟩
    rw [at_set _ (by omega)]
    split
    · rename_i h; rw [h]
    · exact hj j (by omega))
  obtain ⟨s, out⟩ := out
  dsimp only at e0 e2 e3
  rw [e1, e0, list_eq (c := out) (F := F) (fun i hi => e3 i (by omega)), e2]

/-- A loop that changes each entry of a part of an array. -/
theorem updLoop_run (f : ℝ → ℝ) (cnt lo : ℕ) {c : List ℝ} (h : lo + cnt ≤ c.length) :
    ∃ out, updLoop f cnt lo c = .ok out ∧ out.length = c.length ∧ ∀ i, at' out i = if lo ≤ i ∧ i < lo + cnt then f (at' c i) else at' c i := by
  rw [updLoop]
  obtain ⟨out, e1, e2, e3⟩ := forLoop_inv (body := fun i c => do
      let x ← rdBuf c i
      wrBuf c i (f x)) (fun k t => t.length = c.length ∧ ∀ i, at' t i = if lo ≤ i ∧ i < k then f (at' c i) else at' c i) cnt lo c
    ⟨rfl, fun i => by rw [if_neg (by omega)]⟩ (by
      rintro k t hk hk' ⟨hl, ht⟩
      refine ⟨t.set k (f (at' c k)), ?_, by rw [List.length_set, hl], fun i => ?_⟩
      · rw [rd_at (by omega : k < t.length), ht, if_neg (by omega)]
        exact wrBuf_ok (by omega) _
      · rw [at_set _ (by omega), ht]
        by_cases hi : i = k
        · subst hi; rw [if_pos rfl, if_pos (by omega)]
        · rw [if_neg hi]; exact if_congr (by omega) rfl rfl)
  exact ⟨out, e1, e2, e3⟩

/-- The same for the whole array. -/
theorem updLoop_all (f : ℝ → ℝ) {c : List ℝ} : updLoop f c.length 0 c = .ok (c.map f) := by
  obtain ⟨out, e1, e2, e3⟩ := updLoop_run f c.length 0 (c := c) (by omega)
  rw [e1]; congr 1
  refine List.ext_getElem (by simp; omega) fun i h1 h2 => ?_
  have := e3 i
  rw [if_pos (by omega)] at this
  simpa [at', List.getD_eq_getElem?_getD, h1, show i < c.length by omega] using this

/-! ### taylor.hpp -/

/-- An array of the right size. -/
def Fit (n N : ℕ) (c : List ℝ) : Prop := c.length = L n N

theorem fit_fresh (u : ℕ → ℝ) (n N : ℕ) : Fit n N (fresh u (polylen n N)) := by rw [Fit, fresh_length, polylen_nat]

theorem fit_one {N : ℕ} {c : List ℝ} : Fit 1 N c ↔ c.length = N + 1 := by rw [Fit, L_one]

theorem assign_run {n N : ℕ} {c : List ℝ} (h : Fit n N c) (c0 : ℝ) :
    ∃ out, assign n N c0 c = .ok out ∧ Fit n N out ∧ ∀ i, at' out i = if i = 0 then c0 else 0 := by
  have hL := L_pos n N
  rw [Fit] at h
  rw [assign, wrBuf_ok (by omega)]
  obtain ⟨out, e1, e2, e3⟩ := clear_run 1 (polylen n N - 1) (c := c.set 0 c0) (by rw [List.length_set, polylen_nat]; omega)
  rw [List.length_set] at e2
  refine ⟨out, e1, e2.trans h, fun i => ?_⟩
  rw [e3, at_set _ (by omega), polylen_nat]
  by_cases hi : i = 0
  · rw [if_neg (by omega), if_pos hi, if_pos hi]
  · rw [if_neg hi, if_neg hi]
    split
    · rfl
    · rw [at', List.getD_eq_getElem?_getD, List.getElem?_eq_none (by omega)]; rfl

theorem polyOf_const {n N : ℕ} {c : List ℝ} (h : Fit (n + 1) N c) {c0 : ℝ} (hc : ∀ i, at' c i = if i = 0 then c0 else 0) : polyOf (n + 1) N c = MvPolynomial.C c0 := by
  rw [polyOf_eq h.ge, Finset.sum_eq_single_of_mem 0 (Finset.mem_range.2 (L_pos _ _)), fs_zero, hc, if_pos rfl]
  · rfl
  · intro i _ hi; rw [hc, if_neg hi, map_zero]

theorem scale_run {n N : ℕ} {c : List ℝ} (h : Fit n N c) (x : ℝ) : scale n N x c = .ok (c.map (· * x)) := by
  rw [scale, polylen_nat, ← h, updLoop_all]

theorem at_map' {c : List ℝ} (f : ℝ → ℝ) {i : ℕ} (h : i < c.length) : at' (c.map f) i = f (at' c i) := by
  simp [at', List.getD_eq_getElem?_getD, h]

/-- A linear change of the coefficients. -/
theorem polyOf_smul {n N : ℕ} {c out : List ℝ} (h : Fit n N c) (h' : Fit n N out) (x : ℝ) (e : ∀ i < L n N, at' out i = at' c i * x) :
    polyOf n N out = MvPolynomial.C x * polyOf n N c := by
  rw [polyOf_eq h.ge, polyOf_eq h'.ge, Finset.mul_sum]
  refine Finset.sum_congr rfl fun i hi => ?_
  rw [e i (Finset.mem_range.1 hi), MvPolynomial.C_mul_monomial, mul_comm]

theorem polyOf_scale {n N : ℕ} {c : List ℝ} (h : Fit n N c) (x : ℝ) : polyOf n N (c.map (· * x)) = MvPolynomial.C x * polyOf n N c :=
  polyOf_smul h (by rw [Fit, List.length_map, h]) x fun i hi => at_map' _ (by rw [h]; exact hi)

theorem addScalar_run {n N : ℕ} {c : List ℝ} (h : Fit (n + 1) N c) (x : ℝ) :
    ∃ out, addScalar c x = .ok out ∧ Fit (n + 1) N out ∧ polyOf (n + 1) N out = polyOf (n + 1) N c + MvPolynomial.C x := by
  have hL : 0 < c.length := by rw [h]; exact L_pos _ _
  rw [addScalar, rd_at hL]
  exact ⟨_, wrBuf_ok hL _, by rw [Fit, List.length_set, h], polyOf_set h.ge x⟩

theorem subScalar_run {n N : ℕ} {c : List ℝ} (h : Fit (n + 1) N c) (x : ℝ) :
    ∃ out, subScalar c x = .ok out ∧ Fit (n + 1) N out ∧ polyOf (n + 1) N out = polyOf (n + 1) N c - MvPolynomial.C x := by
  have hL : 0 < c.length := by rw [h]; exact L_pos _ _
  rw [subScalar, rd_at hL]
  refine ⟨_, wrBuf_ok hL _, by rw [Fit, List.length_set, h], ?_⟩
  have := polyOf_set h.ge (-x)
  rwa [← sub_eq_add_neg, map_neg, ← sub_eq_add_neg] at this

theorem zip_run {n N : ℕ} (f : ℝ → ℝ → ℝ) {dst a b : List ℝ} (h : Fit n N dst) (ha : Fit n N a) (hb : Fit n N b) :
    zip f n N dst a b = .ok ((List.range (L n N)).map fun i => f (at' a i) (at' b i)) := by
  rw [zip, polylen_nat]
  have := fill (fun i => f (at' a i) (at' b i)) (body := fun i dst => do
    let x ← rdBuf a i
    let y ← rdBuf b i
    wrBuf dst i (f x y)) (L n N) 0 dst (by rw [h]; omega) (by omega) (by
      intro i t' _ hi ht _
      rw [h] at hi
      rw [rd_at (by rw [ha]; exact hi), Outcome.ok_bind, rd_at (by rw [hb]; exact hi), Outcome.ok_bind])
  rw [this, h]

theorem fit_range (n N : ℕ) (F : ℕ → ℝ) : Fit n N ((List.range (L n N)).map F) := by simp [Fit]

theorem mul_run {n N : ℕ} (u : ℕ → ℝ) {a b : List ℝ} (ha : Fit (n + 1) N a) (hb : Fit (n + 1) N b) :
    ∃ out, mul u (n + 1) N a b = .ok out ∧ Fit (n + 1) N out ∧ SameTo N (polyOf (n + 1) N out) (polyOf (n + 1) N a * polyOf (n + 1) N b) := by
  have hf := fit_fresh u (n + 1) N
  obtain ⟨out, e1, e2, e3, e4⟩ := taylormul_run (V := ℝ) le_rfl hf.ge ha.ge hb.ge
  exact ⟨out, e1, by rw [Fit, e2, hf], same_of_conv ha.ge hb.ge (by rw [e2, hf]) e3⟩

theorem mulBy_run {n N : ℕ} {a b : List ℝ} (ha : Fit (n + 1) N a) (hb : Fit (n + 1) N b) :
    ∃ out, mulBy (n + 1) N N a b = .ok out ∧ Fit (n + 1) N out ∧ SameTo N (polyOf (n + 1) N out) (polyOf (n + 1) N a * polyOf (n + 1) N b) := by
  obtain ⟨out, e1, e2, e3, e4⟩ := taylormulIn_run (V := ℝ) ha.ge hb.ge
  exact ⟨out, e1, by rw [Fit, e2, ha], e3⟩

theorem compose0_fit {n N : ℕ} {t res c : List ℝ} (ht : Fit (n + 1) N t) (hr : Fit (n + 1) N res) (hc : Fit 1 N c) (h0 : at' t 0 = 0) :
    ∃ out, compose0 (n + 1) N t res c = .ok out ∧ Fit (n + 1) N out ∧ SameTo N (polyOf (n + 1) N out) (compSum (at' c) N (polyOf (n + 1) N t)) := by
  obtain ⟨out, e1, e2, e3, e4⟩ := compose0_run (V := ℝ) ht.ge h0 N 0 (c := c) (by rw [fit_one.1 hc]; omega) hr.ge
  refine ⟨out, e1, by rw [Fit, e2, hr], ?_⟩
  rw [compSum, coeff_zero ht.ge, h0, map_zero, sub_zero]
  simpa only [series, zero_add] using e3

theorem compose_fit {n N : ℕ} {t res c : List ℝ} (ht : Fit (n + 1) N t) (hr : Fit (n + 1) N res) (hc : Fit 1 N c) :
    ∃ out, compose (n + 1) N t res c = .ok out ∧ Fit (n + 1) N out ∧ SameTo N (polyOf (n + 1) N out) (compSum (at' c) N (polyOf (n + 1) N t)) := by
  have hL : 0 < t.length := by rw [ht]; exact L_pos _ _
  rw [compose, wrBuf_ok hL]
  have ht' : Fit (n + 1) N (t.set 0 0) := by rw [Fit, List.length_set, ht]
  obtain ⟨out, e1, e2, e3⟩ := compose0_fit ht' hr hc (by rw [at_set _ hL, if_pos rfl])
  refine ⟨out, e1, e2, ?_⟩
  have hp : polyOf (n + 1) N (t.set 0 0) = polyOf (n + 1) N t - MvPolynomial.C (at' t 0) := by
    have := polyOf_set ht.ge (-at' t 0)
    rwa [add_neg_cancel, map_neg, ← sub_eq_add_neg] at this
  rw [compSum, coeff_zero ht.ge]
  rw [compSum, coeff_zero ht'.ge, at_set _ hL, if_pos rfl, map_zero, sub_zero, hp] at e3
  exact e3

theorem integrateLoop_run (i : ℕ) {c : List ℝ} (h : i < c.length) :
    ∃ out, integrateLoop i c = .ok out ∧ out.length = c.length ∧ ∀ j, at' out j = if j = 0 then 0 else if j ≤ i then at' c (j - 1) / j else at' c j := by
  induction i generalizing c with
  | zero =>
    refine ⟨_, wrBuf_ok h _, List.length_set, fun j => ?_⟩
    rw [at_set _ h]
    by_cases hj : j = 0
    · rw [if_pos hj, if_pos hj]
    · rw [if_neg hj, if_neg hj, if_neg (by omega)]
  | succ i ih =>
    rw [integrateLoop, rd_at (by omega : i < c.length), Outcome.ok_bind, wrBuf_ok h, Outcome.ok_bind]
    obtain ⟨out, e1, e2, e3⟩ := ih (c := c.set (i + 1) (at' c i / ((i + 1 : ℕ) : ℝ))) (by rw [List.length_set]; omega)
    refine ⟨out, e1, by rw [e2, List.length_set], fun j => ?_⟩
    rw [e3]
    by_cases hj : j = 0
    · rw [if_pos hj, if_pos hj]
    · rw [if_neg hj, if_neg hj, at_set _ h, at_set _ h]
      by_cases h1 : j ≤ i
      · rw [if_pos h1, if_neg (by omega : ¬ j - 1 = i + 1), if_pos (by omega : j ≤ i + 1)]
      · rw [if_neg h1]
        by_cases h2 : j = i + 1
        · rw [if_pos h2, if_pos (by omega), h2]; rfl
        · rw [if_neg h2, if_neg (by omega)]

theorem integrate_run {N : ℕ} {c : List ℝ} (h : Fit 1 N c) :
    ∃ out, integrate 1 N c = .ok out ∧ Fit 1 N out ∧ ∀ j ≤ N, at' out j = if j = 0 then 0 else at' c (j - 1) / j := by
  rw [fit_one] at h
  obtain ⟨out, e1, e2, e3⟩ := integrateLoop_run N (c := c) (by omega)
  refine ⟨out, ?_, by rw [fit_one, e2, h], fun j hj => ?_⟩
  · rw [integrate, assert_ok rfl]; exact e1
  · rw [e3]; simp only [hj, if_true]

end XCFun.Tay
