/-
Running error bounds: `Near A k v r a` says that the rounded number `v` approximates `r` with
error at most `((1 + u)^k - 1) * a`, where `a` bounds the size of `r`.  The product algorithms
are run on three memories at once: rounded, exact, and exact with absolute values.
-/
import Verif.Spec.Rounding
import Verif.Proofs.CTMem
import Mathlib.Tactic.GCongr
import Mathlib.Tactic.NormNum

namespace XCFun
open Spec

variable {V : Type} [Zero V] [One V] [Add V] [Sub V] [Mul V] [Neg V] (A : Rounded V)

def Near (k : ℕ) (v : V) (r a : ℝ) : Prop :=
  |A.val v - r| ≤ ((1 + A.u) ^ k - 1) * a ∧ |r| ≤ a

variable {A}

theorem one_le_grow (k : ℕ) : 1 ≤ (1 + A.u) ^ k :=
  one_le_pow₀ (by linarith [A.u_nonneg])

theorem grow_mono {k l : ℕ} (h : k ≤ l) : (1 + A.u) ^ k ≤ (1 + A.u) ^ l :=
  pow_le_pow_right₀ (by linarith [A.u_nonneg]) h

theorem Near.nonneg {k : ℕ} {v : V} {r a : ℝ} (h : Near A k v r a) : 0 ≤ a :=
  (abs_nonneg _).trans h.2

theorem Near.mono {k l : ℕ} {v : V} {r a : ℝ} (h : Near A k v r a) (hkl : k ≤ l) :
    Near A l v r a :=
  ⟨h.1.trans (mul_le_mul_of_nonneg_right (by linarith [grow_mono (A := A) hkl]) h.nonneg), h.2⟩

theorem Near.refl (v : V) : Near A 0 v (A.val v) |A.val v| := by simp [Near]

theorem Near.zero : Near A 0 0 0 0 := by simp [Near, A.val_zero]

theorem Near.one : Near A 0 1 1 1 := by simp [Near, A.val_one]

theorem Near.abs_val {k : ℕ} {v : V} {r a : ℝ} (h : Near A k v r a) :
    |A.val v| ≤ (1 + A.u) ^ k * a := by
  have h3 := abs_add_le (A.val v - r) r
  rw [show A.val v - r + r = A.val v by ring] at h3
  linarith [h.1, h.2]

theorem Near.neg {k : ℕ} {v : V} {r a : ℝ} (h : Near A k v r a) : Near A k (-v) (-r) a := by
  refine ⟨?_, by rw [abs_neg]; exact h.2⟩
  rw [A.val_neg, show -A.val v - -r = -(A.val v - r) by ring, abs_neg]; exact h.1

/-- One more rounding. -/
theorem near_round {k : ℕ} {z w r a : ℝ} (hw : |w - z| ≤ A.u * |z|)
    (hz : |z - r| ≤ ((1 + A.u) ^ k - 1) * a) (hr : |r| ≤ a) :
    |w - r| ≤ ((1 + A.u) ^ (k + 1) - 1) * a := by
  have h1 : |z| ≤ (1 + A.u) ^ k * a := by
    have h3 := abs_add_le (z - r) r
    rw [show z - r + r = z by ring] at h3
    linarith
  have h2 := abs_add_le (w - z) (z - r)
  rw [show w - z + (z - r) = w - r by ring] at h2
  have h3 := mul_le_mul_of_nonneg_left h1 A.u_nonneg
  rw [pow_succ]
  linarith

theorem Near.add' {k l j : ℕ} {v w : V} {r a s b : ℝ} (h : Near A k v r a) (h' : Near A l w s b)
    (hk : k + 1 ≤ j) (hl : l + 1 ≤ j) : Near A j (v + w) (r + s) (a + b) := by
  obtain ⟨j, rfl⟩ : ∃ i, j = i + 1 := ⟨j - 1, by omega⟩
  replace h := h.mono (show k ≤ j by omega)
  replace h' := h'.mono (show l ≤ j by omega)
  have h2 : |r + s| ≤ a + b := (abs_add_le _ _).trans (add_le_add h.2 h'.2)
  refine ⟨near_round (A.add_err v w) ?_ h2, h2⟩
  rw [show A.val v + A.val w - (r + s) = (A.val v - r) + (A.val w - s) by ring]
  exact (abs_add_le _ _).trans (by linarith [h.1, h'.1])

theorem Near.sub' {k l j : ℕ} {v w : V} {r a s b : ℝ} (h : Near A k v r a) (h' : Near A l w s b)
    (hk : k + 1 ≤ j) (hl : l + 1 ≤ j) : Near A j (v - w) (r - s) (a + b) := by
  obtain ⟨j, rfl⟩ : ∃ i, j = i + 1 := ⟨j - 1, by omega⟩
  replace h := h.mono (show k ≤ j by omega)
  replace h' := h'.mono (show l ≤ j by omega)
  have h2 : |r - s| ≤ a + b := (abs_sub _ _).trans (add_le_add h.2 h'.2)
  refine ⟨near_round (A.sub_err v w) ?_ h2, h2⟩
  rw [show A.val v - A.val w - (r - s) = (A.val v - r) - (A.val w - s) by ring]
  exact (abs_sub _ _).trans (by linarith [h.1, h'.1])

theorem Near.mul' {k l j : ℕ} {v w : V} {r a s b : ℝ} (h : Near A k v r a) (h' : Near A l w s b)
    (hj : k + l + 1 ≤ j) : Near A j (v * w) (r * s) (a * b) := by
  suffices H : Near A (k + l + 1) (v * w) (r * s) (a * b) from H.mono hj
  have ha := h.nonneg
  have hb := h'.nonneg
  have h2 : |r * s| ≤ a * b := by rw [abs_mul]; exact mul_le_mul h.2 h'.2 (abs_nonneg _) ha
  refine ⟨near_round (A.mul_err v w) ?_ h2, h2⟩
  have e : A.val v * A.val w - r * s = (A.val v - r) * A.val w + r * (A.val w - s) := by ring
  rw [e]
  refine (abs_add_le _ _).trans ?_
  rw [abs_mul, abs_mul]
  have g1 := one_le_grow (A := A) k
  have h3 : |A.val v - r| * |A.val w| ≤ (((1 + A.u) ^ k - 1) * a) * ((1 + A.u) ^ l * b) :=
    mul_le_mul h.1 h'.abs_val (abs_nonneg _) (mul_nonneg (by linarith) ha)
  have h4 : |r| * |A.val w - s| ≤ a * (((1 + A.u) ^ l - 1) * b) :=
    mul_le_mul h.2 h'.1 (abs_nonneg _) ha
  rw [pow_add]
  linarith

theorem Near.add {k l : ℕ} {v w : V} {r a s b : ℝ} (h : Near A k v r a) (h' : Near A l w s b) :
    Near A (max k l + 1) (v + w) (r + s) (a + b) := h.add' h' (by omega) (by omega)

theorem Near.mul {k l : ℕ} {v w : V} {r a s b : ℝ} (h : Near A k v r a) (h' : Near A l w s b) :
    Near A (k + l + 1) (v * w) (r * s) (a * b) := h.mul' h' le_rfl

/-! ### Blocks of memory -/

variable (A) in
/-- The `2 ^ n` cells from `p` on, in the rounded, the exact and the absolute memory. -/
def NearB (n k : ℕ) (m : Mem V) (e a : Mem ℝ) (p : ℕ) : Prop :=
  ∀ i < 2 ^ n, Near A k (m (p + i)) (e (p + i)) (a (p + i))

theorem NearB.mono {n k l : ℕ} {m : Mem V} {e a : Mem ℝ} {p : ℕ} (h : NearB A n k m e a p)
    (hkl : k ≤ l) : NearB A n l m e a p := fun i hi => (h i hi).mono hkl

theorem NearB.lo {n k : ℕ} {m : Mem V} {e a : Mem ℝ} {p : ℕ} (h : NearB A (n + 1) k m e a p) :
    NearB A n k m e a p := fun i hi => h i (by rw [pow_succ]; omega)

theorem NearB.hi {n k : ℕ} {m : Mem V} {e a : Mem ℝ} {p : ℕ} (h : NearB A (n + 1) k m e a p) :
    NearB A n k m e a (p + 2 ^ n) := fun i hi => by
  have := h (2 ^ n + i) (by rw [pow_succ]; omega)
  rwa [← add_assoc] at this

theorem NearB.join {n k : ℕ} {m : Mem V} {e a : Mem ℝ} {p : ℕ} (h1 : NearB A n k m e a p)
    (h2 : NearB A n k m e a (p + 2 ^ n)) : NearB A (n + 1) k m e a p := fun i hi => by
  rcases lt_or_ge i (2 ^ n) with h | h
  · exact h1 i h
  · have := h2 (i - 2 ^ n) (by rw [pow_succ] at hi; omega)
    rwa [add_assoc, show 2 ^ n + (i - 2 ^ n) = i by omega] at this

theorem NearB.frame {n k : ℕ} {m m' : Mem V} {e e' a a' : Mem ℝ} {p : ℕ} (h : NearB A n k m e a p)
    (hm : ∀ i < 2 ^ n, m' (p + i) = m (p + i)) (he : ∀ i < 2 ^ n, e' (p + i) = e (p + i))
    (ha : ∀ i < 2 ^ n, a' (p + i) = a (p + i)) : NearB A n k m' e' a' p := fun i hi => by
  rw [hm i hi, he i hi, ha i hi]; exact h i hi

/-- A write at `p` outside or inside: cellwise statement. -/
theorem near_wr {k : ℕ} {m : Mem V} {e a : Mem ℝ} {p q : ℕ} {v : V} {r b : ℝ}
    (h : q = p → Near A k v r b) (h' : q ≠ p → Near A k (m q) (e q) (a q)) :
    Near A k (m.wr p v q) (e.wr p r q) (a.wr p b q) := by
  unfold Mem.wr
  split
  · exact h (by assumption)
  · exact h' (by assumption)

theorem recClear_val' {W : Type} [Zero W] (res k : ℕ) (m : Mem W) (q : ℕ) :
    recClear res k m q = if res < q ∧ q ≤ res + k then 0 else m q := by
  induction k generalizing q with
  | zero => rw [recClear, if_neg (by omega)]
  | succ k ih =>
    rw [recClear, Mem.wr]
    split
    · rw [if_pos (by omega)]
    · rw [ih]; exact if_congr (by omega) rfl rfl

theorem recMul_near (n dst x y : ℕ) (m : Mem V) (e a : Mem ℝ) {kd kx ky : ℕ}
    (hx : Apart dst (2 ^ n) x (2 ^ n)) (hy : Apart dst (2 ^ n) y (2 ^ n))
    (nd : NearB A n kd m e a dst) (nx : NearB A n kx m e a x) (ny : NearB A n ky m e a y)
    (hk : kx + ky + 4 ≤ kd) :
    NearB A n (kd + 2 ^ (n - 2)) (recMul n dst x y m) (recMul n dst x y e) (recMul n dst x y a)
      dst := by
  induction n using Nat.strongRecOn generalizing dst x y m e a kd with
  | ind n ih =>
    unfold Apart at hx hy
    match n, ih with
    | 0, _ =>
      intro i hi
      obtain rfl : i = 0 := by omega
      simp only [recMul, Nat.add_zero, wr_same]
      have d0 := nd 0 (by norm_num)
      have x0 := nx 0 (by norm_num)
      have y0 := ny 0 (by norm_num)
      simp only [Nat.add_zero] at d0 x0 y0
      exact d0.add' (x0.mul y0) (by norm_num) (by omega)
    | 1, _ =>
      norm_num at hx hy
      have d0 := nd 0 (by norm_num)
      have x0 := nx 0 (by norm_num)
      have y0 := ny 0 (by norm_num)
      have d1 := nd 1 (by norm_num)
      have x1 := nx 1 (by norm_num)
      have y1 := ny 1 (by norm_num)
      simp only [Nat.add_zero] at d0 x0 y0
      intro i hi
      simp only [recMul]
      have hi' : i = 0 ∨ i = 1 := by omega
      rcases hi' with rfl | rfl
      · simp (disch := omega) only [Nat.add_zero, wr_same, wr_other]
        exact d0.add' (x0.mul y0) (by norm_num) (by omega)
      · simp (disch := omega) only [wr_same, wr_other]
        exact d1.add' ((x0.mul y1).add (x1.mul y0)) (by norm_num) (by omega)
    | 2, _ =>
      norm_num at hx hy
      have d0 := nd 0 (by norm_num)
      have x0 := nx 0 (by norm_num)
      have y0 := ny 0 (by norm_num)
      have d1 := nd 1 (by norm_num)
      have x1 := nx 1 (by norm_num)
      have y1 := ny 1 (by norm_num)
      have d2 := nd 2 (by norm_num)
      have x2 := nx 2 (by norm_num)
      have y2 := ny 2 (by norm_num)
      have d3 := nd 3 (by norm_num)
      have x3 := nx 3 (by norm_num)
      have y3 := ny 3 (by norm_num)
      simp only [Nat.add_zero] at d0 x0 y0
      intro i hi
      simp only [recMul]
      have hi' : i = 0 ∨ i = 1 ∨ i = 2 ∨ i = 3 := by omega
      rcases hi' with rfl | rfl | rfl | rfl
      · simp (disch := omega) only [Nat.add_zero, wr_same, wr_other]
        exact d0.add' (x0.mul y0) (by norm_num) (by omega)
      · simp (disch := omega) only [wr_same, wr_other]
        exact d1.add' ((x0.mul y1).add (x1.mul y0)) (by norm_num) (by omega)
      · simp (disch := omega) only [wr_same, wr_other]
        exact d2.add' ((x0.mul y2).add (x2.mul y0)) (by norm_num) (by omega)
      · simp (disch := omega) only [wr_same, wr_other]
        exact d3.add' ((((x0.mul y3).add (x3.mul y0)).add (x1.mul y2)).add (x2.mul y1))
          (by norm_num) (by omega)
    | n + 3, ih =>
      simp only [recMul]
      have e2 : 2 ^ (n + 3) = 2 ^ (n + 2) + 2 ^ (n + 2) := by rw [pow_succ]; ring
      have e3 : 2 ^ (n + 3 - 2) = 2 ^ (n + 2 - 2) + 2 ^ (n + 2 - 2) := by
        rw [show n + 3 - 2 = (n + 2 - 2) + 1 by omega, pow_succ]; ring
      rw [e2] at hx hy
      have hp : 0 < 2 ^ (n + 2) := Nat.two_pow_pos _
      have ndl := nd.lo
      have ndh := nd.hi
      have nxl := nx.lo
      have nxh := nx.hi
      have nyl := ny.lo
      have nyh := ny.hi
      generalize hc : 2 ^ (n + 2 - 2) = c at *
      have ih := ih (n + 2) (by omega)
      rw [hc] at ih
      generalize hh : 2 ^ (n + 2) = h at *
      have fr : ∀ {W : Type} [Add W] [Mul W] (D X Y : ℕ) (mm : Mem W) (q : ℕ),
          q < D ∨ D + h ≤ q → recMul (n + 2) D X Y mm q = mm q := fun D X Y mm q hq =>
        recMul_frame _ _ _ _ _ _ (by omega)
      have s1 := ih dst x y m e a (by unfold Apart; omega) (by unfold Apart; omega) ndl nxl nyl hk
      have s2 := ih (dst + h) (x + h) y _ _ _ (by unfold Apart; omega) (by unfold Apart; omega)
        (ndh.frame (fun i hi => fr dst x y m _ (by omega)) (fun i hi => fr dst x y e _ (by omega))
          (fun i hi => fr dst x y a _ (by omega)))
        (nxh.frame (fun i hi => fr dst x y m _ (by omega)) (fun i hi => fr dst x y e _ (by omega))
          (fun i hi => fr dst x y a _ (by omega)))
        (nyl.frame (fun i hi => fr dst x y m _ (by omega)) (fun i hi => fr dst x y e _ (by omega))
          (fun i hi => fr dst x y a _ (by omega))) hk
      have s3 := ih (dst + h) x (y + h) _ _ _ (by unfold Apart; omega) (by unfold Apart; omega)
        s2
        (nxl.frame (fun i hi => (fr (dst + h) _ _ _ _ (by omega)).trans (fr dst x y m _ (by omega)))
          (fun i hi => (fr (dst + h) _ _ _ _ (by omega)).trans (fr dst x y e _ (by omega)))
          (fun i hi => (fr (dst + h) _ _ _ _ (by omega)).trans (fr dst x y a _ (by omega))))
        (nyh.frame (fun i hi => (fr (dst + h) _ _ _ _ (by omega)).trans (fr dst x y m _ (by omega)))
          (fun i hi => (fr (dst + h) _ _ _ _ (by omega)).trans (fr dst x y e _ (by omega)))
          (fun i hi => (fr (dst + h) _ _ _ _ (by omega)).trans (fr dst x y a _ (by omega))))
        (by omega)
      refine NearB.join ?_ ?_
      · refine (NearB.mono (s1.frame (fun i hi => ?_) (fun i hi => ?_) (fun i hi => ?_))
          (show kd + c ≤ _ by omega)) <;>
        exact (fr (dst + h) _ _ _ _ (by omega)).trans (fr (dst + h) _ _ _ _ (by omega))
      · rw [hh]; exact s3.mono (by omega)

theorem recMulSet_near (n dst x y : ℕ) (m : Mem V) (e a : Mem ℝ) {kx ky : ℕ}
    (hx : Apart dst (2 ^ n) x (2 ^ n)) (hy : Apart dst (2 ^ n) y (2 ^ n))
    (nx : NearB A n kx m e a x) (ny : NearB A n ky m e a y) :
    NearB A n (kx + ky + 3 + 2 ^ (n - 2)) (recMulSet n dst x y m) (recMulSet n dst x y e)
      (recMulSet n dst x y a) dst := by
  induction n using Nat.strongRecOn generalizing dst x y m e a with
  | ind n ih =>
    unfold Apart at hx hy
    match n, ih with
    | 0, _ =>
      intro i hi
      obtain rfl : i = 0 := by omega
      simp only [recMulSet, Nat.add_zero, wr_same]
      have x0 := nx 0 (by norm_num)
      have y0 := ny 0 (by norm_num)
      simp only [Nat.add_zero] at x0 y0
      exact x0.mul' y0 (by norm_num)
    | 1, _ =>
      norm_num at hx hy
      have x0 := nx 0 (by norm_num)
      have y0 := ny 0 (by norm_num)
      have x1 := nx 1 (by norm_num)
      have y1 := ny 1 (by norm_num)
      simp only [Nat.add_zero] at x0 y0
      intro i hi
      simp only [recMulSet]
      have hi' : i = 0 ∨ i = 1 := by omega
      rcases hi' with rfl | rfl
      · simp (disch := omega) only [Nat.add_zero, wr_same, wr_other]
        exact x0.mul' y0 (by norm_num)
      · simp (disch := omega) only [wr_same, wr_other]
        exact (x0.mul y1).add' (x1.mul y0) (by norm_num) (by omega)
    | 2, _ =>
      norm_num at hx hy
      have x0 := nx 0 (by norm_num)
      have y0 := ny 0 (by norm_num)
      have x1 := nx 1 (by norm_num)
      have y1 := ny 1 (by norm_num)
      have x2 := nx 2 (by norm_num)
      have y2 := ny 2 (by norm_num)
      have x3 := nx 3 (by norm_num)
      have y3 := ny 3 (by norm_num)
      simp only [Nat.add_zero] at x0 y0
      intro i hi
      simp only [recMulSet]
      have hi' : i = 0 ∨ i = 1 ∨ i = 2 ∨ i = 3 := by omega
      rcases hi' with rfl | rfl | rfl | rfl
      · simp (disch := omega) only [Nat.add_zero, wr_same, wr_other]
        exact x0.mul' y0 (by norm_num)
      · simp (disch := omega) only [wr_same, wr_other]
        exact (x0.mul y1).add' (x1.mul y0) (by norm_num) (by omega)
      · simp (disch := omega) only [wr_same, wr_other]
        exact (x0.mul y2).add' (x2.mul y0) (by norm_num) (by omega)
      · simp (disch := omega) only [wr_same, wr_other]
        exact (((x0.mul y3).add (x3.mul y0)).add (x1.mul y2)).add' (x2.mul y1)
          (by omega) (by omega)
    | n + 3, ih =>
      simp only [recMulSet]
      have e2 : 2 ^ (n + 3) = 2 ^ (n + 2) + 2 ^ (n + 2) := by rw [pow_succ]; ring
      have e3 : 2 ^ (n + 3 - 2) = 2 ^ (n + 2 - 2) + 2 ^ (n + 2 - 2) := by
        rw [show n + 3 - 2 = (n + 2 - 2) + 1 by omega, pow_succ]; ring
      rw [e2] at hx hy
      have hp : 0 < 2 ^ (n + 2) := Nat.two_pow_pos _
      have hp' : 0 < 2 ^ (n + 2 - 2) := Nat.two_pow_pos _
      have nxl := nx.lo
      have nxh := nx.hi
      have nyl := ny.lo
      have nyh := ny.hi
      have ih := ih (n + 2) (by omega)
      have fr : ∀ {W : Type} [Add W] [Mul W] (D X Y : ℕ) (mm : Mem W) (q : ℕ),
          q < D ∨ D + 2 ^ (n + 2) ≤ q → recMul (n + 2) D X Y mm q = mm q := fun D X Y mm q hq =>
        recMul_frame _ _ _ _ _ _ (by omega)
      have fs : ∀ {W : Type} [Add W] [Mul W] (D X Y : ℕ) (mm : Mem W) (q : ℕ),
          q < D ∨ D + 2 ^ (n + 2) ≤ q → recMulSet (n + 2) D X Y mm q = mm q :=
        fun D X Y mm q hq => recMulSet_frame _ _ _ _ _ _ (by omega)
      have rm := fun dst x y (m : Mem V) e a kd => recMul_near (A := A) (n + 2) dst x y m e a
        (kd := kd) (kx := kx) (ky := ky)
      generalize hc : 2 ^ (n + 2 - 2) = c at *
      generalize hh : 2 ^ (n + 2) = h at *
      have s1 := ih dst x y m e a (by unfold Apart; omega) (by unfold Apart; omega) nxl nyl
      have s2 := ih (dst + h) (x + h) y _ _ _ (by unfold Apart; omega) (by unfold Apart; omega)
        (nxh.frame (fun i hi => fs dst x y m _ (by omega)) (fun i hi => fs dst x y e _ (by omega))
          (fun i hi => fs dst x y a _ (by omega)))
        (nyl.frame (fun i hi => fs dst x y m _ (by omega)) (fun i hi => fs dst x y e _ (by omega))
          (fun i hi => fs dst x y a _ (by omega)))
      have s3 := rm (dst + h) x (y + h) _ _ _ _ (by unfold Apart; omega) (by unfold Apart; omega)
        s2
        (nxl.frame (fun i hi => (fs (dst + h) _ _ _ _ (by omega)).trans (fs dst x y m _ (by omega)))
          (fun i hi => (fs (dst + h) _ _ _ _ (by omega)).trans (fs dst x y e _ (by omega)))
          (fun i hi => (fs (dst + h) _ _ _ _ (by omega)).trans (fs dst x y a _ (by omega))))
        (nyh.frame (fun i hi => (fs (dst + h) _ _ _ _ (by omega)).trans (fs dst x y m _ (by omega)))
          (fun i hi => (fs (dst + h) _ _ _ _ (by omega)).trans (fs dst x y e _ (by omega)))
          (fun i hi => (fs (dst + h) _ _ _ _ (by omega)).trans (fs dst x y a _ (by omega))))
        (by omega)
      refine NearB.join ?_ ?_
      · refine (NearB.mono (s1.frame (fun i hi => ?_) (fun i hi => ?_) (fun i hi => ?_))
          (show kx + ky + 3 + c ≤ _ by omega)) <;>
        exact (fr (dst + h) _ _ _ _ (by omega)).trans (fs (dst + h) _ _ _ _ (by omega))
      · rw [hh]; exact s3.mono (by omega)

theorem recMulto_near (n dst y : ℕ) (m : Mem V) (e a : Mem ℝ) {kd ky : ℕ}
    (hy : Apart dst (2 ^ n) y (2 ^ n))
    (nd : NearB A n kd m e a dst) (ny : NearB A n ky m e a y) :
    NearB A n (kd + ky + 3 + 2 ^ (n - 2)) (recMulto n dst y m) (recMulto n dst y e)
      (recMulto n dst y a) dst := by
  induction n using Nat.strongRecOn generalizing dst y m e a with
  | ind n ih =>
    unfold Apart at hy
    match n, ih with
    | 0, _ =>
      intro i hi
      obtain rfl : i = 0 := by omega
      simp only [recMulto, Nat.add_zero, wr_same]
      have x0 := nd 0 (by norm_num)
      have y0 := ny 0 (by norm_num)
      simp only [Nat.add_zero] at x0 y0
      exact x0.mul' y0 (by norm_num)
    | 1, _ =>
      norm_num at hy
      have x0 := nd 0 (by norm_num)
      have y0 := ny 0 (by norm_num)
      have x1 := nd 1 (by norm_num)
      have y1 := ny 1 (by norm_num)
      simp only [Nat.add_zero] at x0 y0
      intro i hi
      simp only [recMulto]
      have hi' : i = 0 ∨ i = 1 := by omega
      rcases hi' with rfl | rfl
      · simp (disch := omega) only [Nat.add_zero, wr_same, wr_other]
        exact x0.mul' y0 (by norm_num)
      · simp (disch := omega) only [wr_same, wr_other]
        exact (x1.mul y0).add' (x0.mul y1) (by norm_num) (by omega)
    | 2, _ =>
      norm_num at hy
      have x0 := nd 0 (by norm_num)
      have y0 := ny 0 (by norm_num)
      have x1 := nd 1 (by norm_num)
      have y1 := ny 1 (by norm_num)
      have x2 := nd 2 (by norm_num)
      have y2 := ny 2 (by norm_num)
      have x3 := nd 3 (by norm_num)
      have y3 := ny 3 (by norm_num)
      simp only [Nat.add_zero] at x0 y0
      intro i hi
      simp only [recMulto]
      have hi' : i = 0 ∨ i = 1 ∨ i = 2 ∨ i = 3 := by omega
      rcases hi' with rfl | rfl | rfl | rfl
      · simp (disch := omega) only [Nat.add_zero, wr_same, wr_other]
        exact x0.mul' y0 (by norm_num)
      · simp (disch := omega) only [wr_same, wr_other]
        exact (x0.mul y1).add' (x1.mul y0) (by norm_num) (by omega)
      · simp (disch := omega) only [wr_same, wr_other]
        exact (x0.mul y2).add' (x2.mul y0) (by norm_num) (by omega)
      · simp (disch := omega) only [wr_same, wr_other]
        exact (((x0.mul y3).add (x3.mul y0)).add (x1.mul y2)).add' (x2.mul y1)
          (by omega) (by omega)
    | n + 3, ih =>
      simp only [recMulto]
      have e2 : 2 ^ (n + 3) = 2 ^ (n + 2) + 2 ^ (n + 2) := by rw [pow_succ]; ring
      have e3 : 2 ^ (n + 3 - 2) = 2 ^ (n + 2 - 2) + 2 ^ (n + 2 - 2) := by
        rw [show n + 3 - 2 = (n + 2 - 2) + 1 by omega, pow_succ]; ring
      rw [e2] at hy
      have hp : 0 < 2 ^ (n + 2) := Nat.two_pow_pos _
      have hp' : 0 < 2 ^ (n + 2 - 2) := Nat.two_pow_pos _
      have ndl := nd.lo
      have ndh := nd.hi
      have nyl := ny.lo
      have nyh := ny.hi
      have ih := ih (n + 2) (by omega)
      have fr : ∀ {W : Type} [Add W] [Mul W] (D X Y : ℕ) (mm : Mem W) (q : ℕ),
          q < D ∨ D + 2 ^ (n + 2) ≤ q → recMul (n + 2) D X Y mm q = mm q := fun D X Y mm q hq =>
        recMul_frame _ _ _ _ _ _ (by omega)
      have fs : ∀ {W : Type} [Add W] [Mul W] (D Y : ℕ) (mm : Mem W) (q : ℕ),
          q < D ∨ D + 2 ^ (n + 2) ≤ q → recMulto (n + 2) D Y mm q = mm q :=
        fun D Y mm q hq => recMulto_frame _ _ _ _ _ (by omega)
      have rm := fun dst x y (m : Mem V) e a k => recMul_near (A := A) (n + 2) dst x y m e a
        (kd := k) (kx := kd) (ky := ky)
      generalize hc : 2 ^ (n + 2 - 2) = c at *
      generalize hh : 2 ^ (n + 2) = h at *
      have s1 := ih (dst + h) y m e a (by unfold Apart; omega) ndh nyl
      have s2 := rm (dst + h) dst (y + h) _ _ _ _ (by unfold Apart; omega) (by unfold Apart; omega)
        s1
        (ndl.frame (fun i hi => fs (dst + h) y m _ (by omega))
          (fun i hi => fs (dst + h) y e _ (by omega)) (fun i hi => fs (dst + h) y a _ (by omega)))
        (nyh.frame (fun i hi => fs (dst + h) y m _ (by omega))
          (fun i hi => fs (dst + h) y e _ (by omega)) (fun i hi => fs (dst + h) y a _ (by omega)))
        (by omega)
      have s3 := ih dst y _ _ _ (by unfold Apart; omega)
        (ndl.frame
          (fun i hi => (fr (dst + h) dst (y + h) _ _ (by omega)).trans (fs (dst + h) y m _ (by omega)))
          (fun i hi => (fr (dst + h) dst (y + h) _ _ (by omega)).trans (fs (dst + h) y e _ (by omega)))
          (fun i hi => (fr (dst + h) dst (y + h) _ _ (by omega)).trans (fs (dst + h) y a _ (by omega))))
        (nyl.frame
          (fun i hi => (fr (dst + h) dst (y + h) _ _ (by omega)).trans (fs (dst + h) y m _ (by omega)))
          (fun i hi => (fr (dst + h) dst (y + h) _ _ (by omega)).trans (fs (dst + h) y e _ (by omega)))
          (fun i hi => (fr (dst + h) dst (y + h) _ _ (by omega)).trans (fs (dst + h) y a _ (by omega))))
      refine NearB.join (s3.mono (by omega)) ?_
      rw [hh]
      refine (NearB.mono (s2.frame (fun i hi => ?_) (fun i hi => ?_) (fun i hi => ?_))
          (show kd + ky + 3 + c + c ≤ _ by omega)) <;>
        exact fs dst _ _ _ (by omega)

theorem recMultoSkip_near (n dst y : ℕ) (m : Mem V) (e a : Mem ℝ) {kd ky : ℕ}
    (hy : Apart dst (2 ^ n) y (2 ^ n))
    (nd : NearB A n kd m e a dst) (ny : NearB A n ky m e a y) :
    NearB A n (kd + ky + 3 + 2 ^ (n - 2)) (recMultoSkip n dst y m) (recMultoSkip n dst y e)
      (recMultoSkip n dst y a) dst := by
  induction n using Nat.strongRecOn generalizing dst y m e a with
  | ind n ih =>
    unfold Apart at hy
    match n, ih with
    | 0, _ =>
      intro i hi
      obtain rfl : i = 0 := by omega
      simp only [recMultoSkip, Nat.add_zero, wr_same]
      exact Near.zero.mono (by omega)
    | 1, _ =>
      norm_num at hy
      have x0 := nd 0 (by norm_num)
      have y0 := ny 0 (by norm_num)
      have x1 := nd 1 (by norm_num)
      have y1 := ny 1 (by norm_num)
      simp only [Nat.add_zero] at x0 y0
      intro i hi
      simp only [recMultoSkip]
      have hi' : i = 0 ∨ i = 1 := by omega
      rcases hi' with rfl | rfl
      · simp (disch := omega) only [Nat.add_zero, wr_same]
        exact Near.zero.mono (by omega)
      · simp (disch := omega) only [wr_same, wr_other]
        exact x0.mul' y1 (by norm_num)
    | 2, _ =>
      norm_num at hy
      have x0 := nd 0 (by norm_num)
      have y0 := ny 0 (by norm_num)
      have x1 := nd 1 (by norm_num)
      have y1 := ny 1 (by norm_num)
      have x2 := nd 2 (by norm_num)
      have y2 := ny 2 (by norm_num)
      have x3 := nd 3 (by norm_num)
      have y3 := ny 3 (by norm_num)
      simp only [Nat.add_zero] at x0 y0
      intro i hi
      simp only [recMultoSkip]
      have hi' : i = 0 ∨ i = 1 ∨ i = 2 ∨ i = 3 := by omega
      rcases hi' with rfl | rfl | rfl | rfl
      · simp (disch := omega) only [Nat.add_zero, wr_same, wr_other]
        exact Near.zero.mono (by omega)
      · simp (disch := omega) only [wr_same, wr_other]
        exact x0.mul' y1 (by norm_num)
      · simp (disch := omega) only [wr_same, wr_other]
        exact x0.mul' y2 (by norm_num)
      · simp (disch := omega) only [wr_same, wr_other]
        exact ((x0.mul y3).add (x1.mul y2)).add' (x2.mul y1)
          (by omega) (by omega)
    | n + 3, ih =>
      simp only [recMultoSkip]
      have e2 : 2 ^ (n + 3) = 2 ^ (n + 2) + 2 ^ (n + 2) := by rw [pow_succ]; ring
      have e3 : 2 ^ (n + 3 - 2) = 2 ^ (n + 2 - 2) + 2 ^ (n + 2 - 2) := by
        rw [show n + 3 - 2 = (n + 2 - 2) + 1 by omega, pow_succ]; ring
      rw [e2] at hy
      have hp : 0 < 2 ^ (n + 2) := Nat.two_pow_pos _
      have hp' : 0 < 2 ^ (n + 2 - 2) := Nat.two_pow_pos _
      have ndl := nd.lo
      have ndh := nd.hi
      have nyl := ny.lo
      have nyh := ny.hi
      have ih := ih (n + 2) (by omega)
      have fr : ∀ {W : Type} [Add W] [Mul W] (D X Y : ℕ) (mm : Mem W) (q : ℕ),
          q < D ∨ D + 2 ^ (n + 2) ≤ q → recMul (n + 2) D X Y mm q = mm q := fun D X Y mm q hq =>
        recMul_frame _ _ _ _ _ _ (by omega)
      have fs : ∀ {W : Type} [Zero W] [Add W] [Mul W] (D Y : ℕ) (mm : Mem W) (q : ℕ),
          q < D ∨ D + 2 ^ (n + 2) ≤ q → recMultoSkip (n + 2) D Y mm q = mm q :=
        fun D Y mm q hq => recMultoSkip_frame _ _ _ _ _ (by omega)
      have rm := fun dst x y (m : Mem V) e a k => recMul_near (A := A) (n + 2) dst x y m e a
        (kd := k) (kx := kd) (ky := ky)
      generalize hc : 2 ^ (n + 2 - 2) = c at *
      generalize hh : 2 ^ (n + 2) = h at *
      have s1 := ih (dst + h) y m e a (by unfold Apart; omega) ndh nyl
      have s2 := rm (dst + h) dst (y + h) _ _ _ _ (by unfold Apart; omega) (by unfold Apart; omega)
        s1
        (ndl.frame (fun i hi => fs (dst + h) y m _ (by omega))
          (fun i hi => fs (dst + h) y e _ (by omega)) (fun i hi => fs (dst + h) y a _ (by omega)))
        (nyh.frame (fun i hi => fs (dst + h) y m _ (by omega))
          (fun i hi => fs (dst + h) y e _ (by omega)) (fun i hi => fs (dst + h) y a _ (by omega)))
        (by omega)
      have s3 := ih dst y _ _ _ (by unfold Apart; omega)
        (ndl.frame
          (fun i hi => (fr (dst + h) dst (y + h) _ _ (by omega)).trans (fs (dst + h) y m _ (by omega)))
          (fun i hi => (fr (dst + h) dst (y + h) _ _ (by omega)).trans (fs (dst + h) y e _ (by omega)))
          (fun i hi => (fr (dst + h) dst (y + h) _ _ (by omega)).trans (fs (dst + h) y a _ (by omega))))
        (nyl.frame
          (fun i hi => (fr (dst + h) dst (y + h) _ _ (by omega)).trans (fs (dst + h) y m _ (by omega)))
          (fun i hi => (fr (dst + h) dst (y + h) _ _ (by omega)).trans (fs (dst + h) y e _ (by omega)))
          (fun i hi => (fr (dst + h) dst (y + h) _ _ (by omega)).trans (fs (dst + h) y a _ (by omega))))
      refine NearB.join (s3.mono (by omega)) ?_
      rw [hh]
      refine (NearB.mono (s2.frame (fun i hi => ?_) (fun i hi => ?_) (fun i hi => ?_))
          (show kd + ky + 3 + c + c ≤ _ by omega)) <;>
        exact fs dst _ _ _ (by omega)

theorem recHorner_near (n res x coeff i : ℕ) (m : Mem V) (e a : Mem ℝ) {kr kx kc : ℕ}
    (hx : Apart res (2 ^ n) x (2 ^ n)) (hc : Apart res (2 ^ n) coeff i)
    (nr : NearB A n kr m e a res) (nx : NearB A n kx m e a x)
    (nc : ∀ j < i, Near A kc (m (coeff + j)) (e (coeff + j)) (a (coeff + j))) (hk : kc ≤ kr) :
    NearB A n (kr + i * (kx + 4 + 2 ^ (n - 2))) (recHorner n res x coeff i m)
      (recHorner n res x coeff i e) (recHorner n res x coeff i a) res := by
  have hp : 0 < 2 ^ n := Nat.two_pow_pos n
  have hp2 : 0 < 2 ^ (n - 2) := Nat.two_pow_pos _
  induction i generalizing m e a kr with
  | zero => simpa only [recHorner, Nat.zero_mul, Nat.add_zero] using nr
  | succ i ih =>
    unfold Apart at hc hx
    simp only [recHorner]
    have fs : ∀ {W : Type} [Zero W] [Add W] [Mul W] (mm : Mem W) (q : ℕ) (z : W),
        q < res ∨ res + 2 ^ n ≤ q → (recMultoSkip n res x mm).wr res z q = mm q :=
      fun mm q z hq => by
        rw [wr_other _ _ (by omega)]; exact recMultoSkip_frame _ _ _ _ _ (by omega)
    have s1 := recMultoSkip_near n res x m e a (by unfold Apart; omega) nr nx
    have ci : Near A kc (recMultoSkip n res x m (coeff + i)) (recMultoSkip n res x e (coeff + i))
        (recMultoSkip n res x a (coeff + i)) := by
      rw [recMultoSkip_frame _ _ _ _ _ (by omega), recMultoSkip_frame _ _ _ _ _ (by omega),
        recMultoSkip_frame _ _ _ _ _ (by omega)]
      exact nc i (by omega)
    have s2 : NearB A n (kr + (kx + 4 + 2 ^ (n - 2)))
        ((recMultoSkip n res x m).wr res (recMultoSkip n res x m res + recMultoSkip n res x m (coeff + i)))
        ((recMultoSkip n res x e).wr res (recMultoSkip n res x e res + recMultoSkip n res x e (coeff + i)))
        ((recMultoSkip n res x a).wr res (recMultoSkip n res x a res + recMultoSkip n res x a (coeff + i)))
        res := by
      intro j hj
      refine near_wr (fun hq => ?_) (fun hq => ?_)
      · have h0 := s1 0 hp
        rw [Nat.add_zero] at h0
        exact h0.add' ci (by omega) (by omega)
      · exact (s1 j hj).mono (by omega)
    have s3 := ih _ _ _ (by unfold Apart; omega) s2
      (nx.frame (fun j hj => fs m _ _ (by omega)) (fun j hj => fs e _ _ (by omega))
        (fun j hj => fs a _ _ (by omega)))
      (fun j hj => by
        rw [fs m _ _ (by omega), fs e _ _ (by omega), fs a _ _ (by omega)]
        exact nc j (by omega)) (by omega)
    exact s3.mono (le_of_eq (by ring))

theorem recCompose_near (n res x coeff : ℕ) (m : Mem V) (e a : Mem ℝ) {kx kc : ℕ}
    (hx : Apart res (2 ^ n) x (2 ^ n)) (hc : Apart res (2 ^ n) coeff (n + 1))
    (nx : NearB A n kx m e a x)
    (nc : ∀ j < n + 1, Near A kc (m (coeff + j)) (e (coeff + j)) (a (coeff + j))) :
    NearB A n (kc + n * (kx + 4 + 2 ^ (n - 2))) (recCompose n res x coeff m)
      (recCompose n res x coeff e) (recCompose n res x coeff a) res := by
  unfold Apart at hx hc
  match n with
  | 0 =>
    intro i hi
    obtain rfl : i = 0 := by omega
    have c0 := nc 0 (by norm_num)
    simp only [Nat.add_zero] at c0
    simp only [recCompose, Nat.add_zero, wr_same]
    exact c0.mono (by omega)
  | 1 =>
    norm_num at hx hc
    have c0 := nc 0 (by norm_num)
    have c1 := nc 1 (by norm_num)
    have x1 := nx 1 (by norm_num)
    simp only [Nat.add_zero] at c0
    intro i hi
    simp only [recCompose]
    have hi' : i = 0 ∨ i = 1 := by omega
    rcases hi' with rfl | rfl
    · simp (disch := omega) only [Nat.add_zero, wr_same, wr_other]
      exact c0.mono (by omega)
    · simp (disch := omega) only [wr_same, wr_other]
      exact c1.mul' x1 (by omega)
  | 2 =>
    norm_num at hx hc
    have c0 := nc 0 (by norm_num)
    have c1 := nc 1 (by norm_num)
    have c2 := nc 2 (by norm_num)
    have x1 := nx 1 (by norm_num)
    have x2 := nx 2 (by norm_num)
    have x3 := nx 3 (by norm_num)
    simp only [Nat.add_zero] at c0
    intro i hi
    simp only [recCompose]
    have hi' : i = 0 ∨ i = 1 ∨ i = 2 ∨ i = 3 := by omega
    rcases hi' with rfl | rfl | rfl | rfl
    · simp (disch := omega) only [Nat.add_zero, wr_same, wr_other]
      exact c0.mono (by omega)
    · simp (disch := omega) only [wr_same, wr_other]
      exact c1.mul' x1 (by omega)
    · simp (disch := omega) only [wr_same, wr_other]
      exact c1.mul' x2 (by omega)
    · simp (disch := omega) only [wr_same, wr_other]
      exact (c1.mul x3).add' ((((Near.one.add Near.one).mul x1).mul x2).mul c2)
        (by omega) (by omega)
  | n + 3 =>
    simp only [recCompose]
    have hp : 0 < 2 ^ (n + 3) := Nat.two_pow_pos _
    have fs : ∀ {W : Type} [Zero W] (mm : Mem W) (q : ℕ) (z : W),
        q < res ∨ res + 2 ^ (n + 3) ≤ q →
        recClear res (2 ^ (n + 3) - 1) (mm.wr res z) q = mm q := fun mm q z hq => by
      rw [recClear_val', if_neg (by omega), wr_other _ _ (by omega)]
    have s := recHorner_near (n + 3) res x coeff (n + 3)
      (recClear res (2 ^ (n + 3) - 1) (m.wr res (m (coeff + (n + 3)))))
      (recClear res (2 ^ (n + 3) - 1) (e.wr res (e (coeff + (n + 3)))))
      (recClear res (2 ^ (n + 3) - 1) (a.wr res (a (coeff + (n + 3)))))
      (kr := kc) (kx := kx) (kc := kc) hx (by unfold Apart; omega)
      (fun i hi => by
        rw [recClear_val', recClear_val', recClear_val']
        rcases Nat.eq_zero_or_pos i with rfl | hpos
        · rw [if_neg (by omega), if_neg (by omega), if_neg (by omega)]
          simp only [Nat.add_zero, wr_same]
          exact nc (n + 3) (by omega)
        · rw [if_pos (by omega), if_pos (by omega), if_pos (by omega)]
          exact Near.zero.mono (by omega))
      (nx.frame (fun j hj => fs m _ _ (by omega)) (fun j hj => fs e _ _ (by omega))
        (fun j hj => fs a _ _ (by omega)))
      (fun j hj => by
        rw [fs m _ _ (by omega), fs e _ _ (by omega), fs a _ _ (by omega)]
        exact nc j (by omega)) le_rfl
    exact s

end XCFun
