/-
Rounding errors of expansions.
-/
import Verif.Spec.RoundedJet
import Verif.Proofs.RoundedEnergy
import Verif.Proofs.Rounding

namespace XCFun.RJ
open XCFun Spec Expr RE

variable {V : Type} [Zero V] [One V] [Add V] [Sub V] [Mul V] [Neg V] {A : Rounded V}

/-- `v` is `e` up to `exp m - 1` times `b`, which bounds `e`. -/
structure NB (A : Rounded V) (m : ℝ) (v : V) (e b : ℝ) : Prop where
  m0 : 0 ≤ m
  err : |A.val v - e| ≤ (Real.exp m - 1) * b
  le : |e| ≤ b

namespace NB
variable {m k : ℝ} {v v' : V} {e e' b b' : ℝ}

theorem b0 (h : NB A m v e b) : 0 ≤ b := (abs_nonneg _).trans h.le

theorem mono (h : NB A m v e b) (hk : m ≤ k) : NB A k v e b :=
  ⟨h.m0.trans hk, h.err.trans (mul_le_mul_of_nonneg_right (sub_le_sub_right (Real.exp_le_exp.2 hk) 1) h.b0), h.le⟩

theorem val_le (h : NB A m v e b) : |A.val v| ≤ Real.exp m * b := by
  have h1 := abs_add_le (A.val v - e) e
  rw [sub_add_cancel] at h1
  have := h.err; have := h.le
  nlinarith

/-- After a rounding. -/
theorem round (L : MathLib A) {x : ℝ} (h1 : |x - e| ≤ (Real.exp m - 1) * b) (hm : 0 ≤ m) (he : |e| ≤ b) (h2 : |A.val v - x| ≤ L.w * |x|) :
    NB A (m + η L) v e b := by
  have hη := η_nonneg L
  refine ⟨by linarith, ?_, he⟩
  have hx : |x| ≤ Real.exp m * b := by
    have h3 := abs_add_le (x - e) e
    rw [sub_add_cancel] at h3
    nlinarith
  have hw : L.w ≤ Real.exp (η L) - 1 := by have := w_le_η L; have := Real.add_one_le_exp (η L); linarith
  have h4 := abs_add_le (A.val v - x) (x - e)
  rw [sub_add_sub_cancel] at h4
  have h5 : L.w * |x| ≤ (Real.exp (η L) - 1) * (Real.exp m * b) :=
    mul_le_mul hw hx (abs_nonneg _) (by linarith [w_nonneg L])
  rw [Real.exp_add]
  nlinarith

theorem of_val (v : V) : NB A 0 v (A.val v) |A.val v| := ⟨le_rfl, by simp, le_rfl⟩

theorem zero (hm : 0 ≤ m) (hb : 0 ≤ b) : NB A m 0 0 b :=
  ⟨hm, by rw [A.val_zero, sub_zero, abs_zero]; exact mul_nonneg (by have := Real.add_one_le_exp m; linarith) hb, by simpa using hb⟩

theorem of_within (h : Within m e (A.val v)) : NB A m v e |e| := by
  refine ⟨h.m_nonneg, ?_, le_rfl⟩
  obtain ⟨θ, h1, h2⟩ := h
  rw [h2, show e * Real.exp θ - e = (Real.exp θ - 1) * e by ring, abs_mul]
  refine mul_le_mul_of_nonneg_right ?_ (abs_nonneg _)
  have hl := abs_le.1 h1
  rw [abs_le]
  have e1 := Real.exp_le_exp.2 hl.2
  have e2 := Real.exp_le_exp.2 hl.1
  have e3 : 2 ≤ Real.exp m + Real.exp (-m) := by
    have := Real.add_one_le_exp m; have := Real.add_one_le_exp (-m); linarith
  constructor <;> linarith

theorem neg (h : NB A m v e b) : NB A m (-v) (-e) b :=
  ⟨h.m0, by rw [A.val_neg, ← abs_neg]; convert h.err using 2; ring, by rw [abs_neg]; exact h.le⟩

theorem add (L : MathLib A) (h : NB A m v e b) (h' : NB A m v' e' b') : NB A (m + η L) (v + v') (e + e') (b + b') := by
  refine round L (x := A.val v + A.val v') ?_ h.m0 ((abs_add_le _ _).trans (add_le_add h.le h'.le))
    ((A.add_err v v').trans (mul_le_mul_of_nonneg_right L.u_le (abs_nonneg _)))
  have := abs_add_le (A.val v - e) (A.val v' - e')
  rw [show A.val v + A.val v' - (e + e') = A.val v - e + (A.val v' - e') by ring]
  have := h.err; have := h'.err
  linarith

theorem sub (L : MathLib A) (h : NB A m v e b) (h' : NB A m v' e' b') : NB A (m + η L) (v - v') (e - e') (b + b') := by
  refine round L (x := A.val v - A.val v') ?_ h.m0 ((abs_sub _ _).trans (add_le_add h.le h'.le))
    ((A.sub_err v v').trans (mul_le_mul_of_nonneg_right L.u_le (abs_nonneg _)))
  have := abs_sub (A.val v - e) (A.val v' - e')
  rw [show A.val v - A.val v' - (e - e') = A.val v - e - (A.val v' - e') by ring]
  have := h.err; have := h'.err
  linarith

theorem mul (L : MathLib A) (h : NB A m v e b) (h' : NB A k v' e' b') : NB A (m + k + η L) (v * v') (e * e') (b * b') := by
  have hb := h.b0
  have hb' := h'.b0
  refine round L (x := A.val v * A.val v') ?_ (add_nonneg h.m0 h'.m0) (by rw [abs_mul]; exact mul_le_mul h.le h'.le (abs_nonneg _) hb)
    ((A.mul_err v v').trans (mul_le_mul_of_nonneg_right L.u_le (abs_nonneg _)))
  rw [show A.val v * A.val v' - e * e' = A.val v * (A.val v' - e') + (A.val v - e) * e' by ring, Real.exp_add]
  refine (abs_add_le _ _).trans ?_
  rw [abs_mul, abs_mul]
  have h1 := mul_le_mul h.val_le h'.err (abs_nonneg _) (by positivity)
  have h2 := mul_le_mul h.err h'.le (abs_nonneg _) (mul_nonneg (by have := Real.add_one_le_exp m; have := h.m0; linarith) hb)
  nlinarith

end NB

/-- The same for every coefficient of an expansion. -/
def JA (A : Rounded V) (m : ℝ) : {N : ℕ} → CT V N → CT ℝ N → CT ℝ N → Prop
  | _, .leaf v, .leaf e, .leaf b => NB A m v e b
  | _, .node v w, .node e f, .node b c => JA A m v e b ∧ JA A m w f c

namespace JA
variable {m k : ℝ} {N : ℕ}

theorem mono (hk : m ≤ k) : {N : ℕ} → {x : CT V N} → {e b : CT ℝ N} → JA A m x e b → JA A k x e b
  | _, .leaf _, .leaf _, .leaf _, h => NB.mono h hk
  | _, .node _ _, .node _ _, .node _ _, h => ⟨mono hk h.1, mono hk h.2⟩

theorem get : {N : ℕ} → {x : CT V N} → {e b : CT ℝ N} → JA A m x e b → ∀ i, NB A m (x.get i) (e.get i) (b.get i)
  | _, .leaf _, .leaf _, .leaf _, h, _ => h
  | _, @CT.node _ n _ _, .node _ _, .node _ _, h, i => by
    simp only [CT.get]
    split
    · exact get h.1 i
    · exact get h.2 _

theorem c0 : {N : ℕ} → {x : CT V N} → {e b : CT ℝ N} → JA A m x e b → NB A m x.c0 e.c0 b.c0
  | _, .leaf _, .leaf _, .leaf _, h => h
  | _, .node lo _, .node le _, .node lb _, h => c0 (x := lo) (e := le) (b := lb) h.1

theorem setC0 {v : V} {e' b' : ℝ} (hv : NB A m v e' b') : {N : ℕ} → {x : CT V N} → {e b : CT ℝ N} → JA A m x e b →
    JA A m (x.setC0 v) (e.setC0 e') (b.setC0 b')
  | _, .leaf _, .leaf _, .leaf _, _ => hv
  | _, .node _ _, .node _ _, .node _ _, h => ⟨setC0 hv h.1, h.2⟩

theorem const {v : V} {e b : ℝ} (h : NB A m v e b) : (N : ℕ) → JA A m (CT.const N v) (CT.const N e) (CT.const N b)
  | 0 => h
  | n + 1 => ⟨const h n, const (NB.zero h.m0 le_rfl) n⟩

theorem of_val : {N : ℕ} → (x : CT V N) → JA A 0 x (x.map A.val) ((x.map A.val).map _root_.abs)
  | _, .leaf v => NB.of_val v
  | _, .node lo hi => ⟨of_val lo, of_val hi⟩

theorem add (L : MathLib A) : {N : ℕ} → {x y : CT V N} → {e f b c : CT ℝ N} → JA A m x e b → JA A m y f c → JA A (m + η L) (x + y) (e + f) (b + c)
  | _, .leaf _, .leaf _, .leaf _, .leaf _, .leaf _, .leaf _, h, h' => NB.add L h h'
  | _, .node _ _, .node _ _, .node _ _, .node _ _, .node _ _, .node _ _, h, h' => ⟨add L h.1 h'.1, add L h.2 h'.2⟩

theorem m0 : {N : ℕ} → {x : CT V N} → {e b : CT ℝ N} → JA A m x e b → 0 ≤ m
  | _, .leaf _, .leaf _, .leaf _, h => NB.m0 h
  | _, .node _ _, .node _ _, .node _ _, h => m0 h.1

theorem of_get : {N : ℕ} → {x : CT V N} → {e b : CT ℝ N} → (∀ i < 2 ^ N, NB A m (x.get i) (e.get i) (b.get i)) → JA A m x e b
  | _, .leaf _, .leaf _, .leaf _, h => h 0 (by norm_num)
  | _, @CT.node _ n lo hi, .node le he, .node lb hb, h => by
    have hp : 2 ^ (n + 1) = 2 ^ n + 2 ^ n := by rw [pow_succ]; omega
    refine ⟨of_get fun i hi => ?_, of_get fun i hi => ?_⟩
    · have := h i (by omega)
      simpa only [CT.get, hi, if_true] using this
    · have := h (i + 2 ^ n) (by omega)
      have hn : ¬ i + 2 ^ n < 2 ^ n := by omega
      simpa only [CT.get, hn, if_false, Nat.add_sub_cancel] using this

theorem smul (L : MathLib A) {a : V} {c k : ℝ} (ha : NB A k a c |c|) : {N : ℕ} → {x : CT V N} → {e b : CT ℝ N} → JA A m x e b →
    JA A (k + m + η L) (CT.smul a x) (CT.smul c e) (CT.smul |c| b)
  | _, .leaf _, .leaf _, .leaf _, h => NB.mul L ha h
  | _, .node _ _, .node _ _, .node _ _, h => ⟨smul L ha h.1, smul L ha h.2⟩

/-- The arithmetic with the coarser error bound `exp η - 1`. -/
noncomputable def coarse (L : MathLib A) : Rounded V where
  val := A.val
  u := Real.exp (η L) - 1
  u_nonneg := by have := Real.add_one_le_exp (η L); have := η_nonneg L; linarith
  val_zero := A.val_zero
  val_one := A.val_one
  val_neg := A.val_neg
  add_err x y := (A.add_err x y).trans (mul_le_mul_of_nonneg_right
    (L.u_le.trans (by have := w_le_η L; have := Real.add_one_le_exp (η L); linarith)) (abs_nonneg _))
  sub_err x y := (A.sub_err x y).trans (mul_le_mul_of_nonneg_right
    (L.u_le.trans (by have := w_le_η L; have := Real.add_one_le_exp (η L); linarith)) (abs_nonneg _))
  mul_err x y := (A.mul_err x y).trans (mul_le_mul_of_nonneg_right
    (L.u_le.trans (by have := w_le_η L; have := Real.add_one_le_exp (η L); linarith)) (abs_nonneg _))

theorem near_iff (L : MathLib A) (k : ℕ) (v : V) (e b : ℝ) : Near (coarse L) k v e b ↔ NB A (k * η L) v e b := by
  have h : (1 + (coarse L).u) ^ k = Real.exp (k * η L) := by
    rw [Real.exp_nat_mul]
    congr 1
    show 1 + (Real.exp (η L) - 1) = _
    ring
  have h0 := η_nonneg L
  rw [Near, h]
  exact ⟨fun h => ⟨by positivity, h.1, h.2⟩, fun h => ⟨h.err, h.le⟩⟩

theorem compose (L : MathLib A) {kx kc : ℕ} {x : CT V N} {e b : CT ℝ N} (hx : JA A (kx * η L) x e b) {t : ℕ → V} {te tb : ℕ → ℝ}
    (ht : ∀ j ≤ N, NB A (kc * η L) (t j) (te j) (tb j)) :
    JA A ((kc + N * (kx + 4 + 2 ^ (N - 2)) : ℕ) * η L) (composeV x t) (e.compose te) (b.compose tb) := by
  have ap1 : Apart (2 ^ N + N + 1) (2 ^ N) 0 (2 ^ N) := by unfold Apart; omega
  have ap2 : Apart (2 ^ N + N + 1) (2 ^ N) (2 ^ N) (N + 1) := by unfold Apart; omega
  have ex : ∀ (y : CT ℝ N) (s : ℕ → ℝ), y.compose s =
      rd N (recCompose N (2 ^ N + N + 1) 0 (2 ^ N) (fun q => if q < 2 ^ N then y.get q else s (q - 2 ^ N))) (2 ^ N + N + 1) := by
    intro y s
    rw [(recCompose_rd N _ _ _ _ ap1 ap2).1]
    have e1 : rd N (fun q => if q < 2 ^ N then y.get q else s (q - 2 ^ N)) 0 = y := by
      refine CT.ext_get fun i hi => ?_
      rw [get_rd _ _ hi, Nat.zero_add, if_pos hi]
    have e2 : (fun k => if 2 ^ N + k < 2 ^ N then y.get (2 ^ N + k) else s (2 ^ N + k - 2 ^ N)) = s := by
      funext k
      rw [if_neg (by omega), Nat.add_sub_cancel_left]
    rw [e1, e2]
  have h := recCompose_near (A := coarse L) N (2 ^ N + N + 1) 0 (2 ^ N)
    (fun q => if q < 2 ^ N then x.get q else t (q - 2 ^ N)) (fun q => if q < 2 ^ N then e.get q else te (q - 2 ^ N))
    (fun q => if q < 2 ^ N then b.get q else tb (q - 2 ^ N)) (kx := kx) (kc := kc) ap1 ap2
    (fun i hi => by
      simp only [Nat.zero_add, hi, if_true]
      exact (near_iff L _ _ _ _).2 (hx.get i))
    (fun j hj => by
      have hn : ¬ 2 ^ N + j < 2 ^ N := by omega
      simp only [hn, if_false, Nat.add_sub_cancel_left]
      exact (near_iff L _ _ _ _).2 (ht j (by omega)))
  refine of_get fun i hi => ?_
  rw [ex e te, ex b tb, get_rd _ _ hi, get_rd _ _ hi, composeV, CT.get_ofFn _ hi]
  exact (near_iff L _ _ _ _).1 (h i hi)

theorem mul (L : MathLib A) {kx ky : ℕ} {x y : CT V N} {e f b c : CT ℝ N} (hx : JA A (kx * η L) x e b) (hy : JA A (ky * η L) y f c) :
    JA A ((kx + ky + 3 + 2 ^ (N - 2) : ℕ) * η L) (mulV x y) (e * f) (b * c) := by
  have ap1 : Apart (2 ^ N + 2 ^ N) (2 ^ N) 0 (2 ^ N) := by unfold Apart; omega
  have ap2 : Apart (2 ^ N + 2 ^ N) (2 ^ N) (2 ^ N) (2 ^ N) := by unfold Apart; omega
  have ex : ∀ y z : CT ℝ N, y * z =
      rd N (recMulSet N (2 ^ N + 2 ^ N) 0 (2 ^ N) (fun q => if q < 2 ^ N then y.get q else z.get (q - 2 ^ N))) (2 ^ N + 2 ^ N) := by
    intro y z
    rw [recMulSet_rd N _ _ _ _ ap1 ap2]
    have e1 : rd N (fun q => if q < 2 ^ N then y.get q else z.get (q - 2 ^ N)) 0 = y := by
      refine CT.ext_get fun i hi => ?_
      rw [get_rd _ _ hi, Nat.zero_add, if_pos hi]
    have e2 : rd N (fun q => if q < 2 ^ N then y.get q else z.get (q - 2 ^ N)) (2 ^ N) = z := by
      refine CT.ext_get fun i hi => ?_
      rw [get_rd _ _ hi, if_neg (by omega), Nat.add_sub_cancel_left]
    rw [e1, e2]
  have h := recMulSet_near (A := coarse L) N (2 ^ N + 2 ^ N) 0 (2 ^ N)
    (fun q => if q < 2 ^ N then x.get q else y.get (q - 2 ^ N)) (fun q => if q < 2 ^ N then e.get q else f.get (q - 2 ^ N))
    (fun q => if q < 2 ^ N then b.get q else c.get (q - 2 ^ N)) (kx := kx) (ky := ky) ap1 ap2
    (fun i hi => by
      simp only [Nat.zero_add, hi, if_true]
      exact (near_iff L _ _ _ _).2 (hx.get i))
    (fun j hj => by
      have hn : ¬ 2 ^ N + j < 2 ^ N := by omega
      simp only [hn, if_false, Nat.add_sub_cancel_left]
      exact (near_iff L _ _ _ _).2 (hy.get j))
  refine of_get fun i hi => ?_
  rw [ex e f, ex b c, get_rd _ _ hi, get_rd _ _ hi, mulV, CT.get_ofFn _ hi]
  exact (near_iff L _ _ _ _).1 (h i hi)

theorem multo (L : MathLib A) {kx ky : ℕ} {x y : CT V N} {e f b c : CT ℝ N} (hx : JA A (kx * η L) x e b) (hy : JA A (ky * η L) y f c) :
    JA A ((kx + ky + 3 + 2 ^ (N - 2) : ℕ) * η L) (multoV x y) (e * f) (b * c) := by
  have ap : Apart 0 (2 ^ N) (2 ^ N) (2 ^ N) := by unfold Apart; omega
  have ex : ∀ y z : CT ℝ N, y * z = rd N (recMulto N 0 (2 ^ N) (fun q => if q < 2 ^ N then y.get q else z.get (q - 2 ^ N))) 0 := by
    intro y z
    rw [recMulto_rd N _ _ _ ap]
    have e1 : rd N (fun q => if q < 2 ^ N then y.get q else z.get (q - 2 ^ N)) 0 = y := by
      refine CT.ext_get fun i hi => ?_
      rw [get_rd _ _ hi, Nat.zero_add, if_pos hi]
    have e2 : rd N (fun q => if q < 2 ^ N then y.get q else z.get (q - 2 ^ N)) (2 ^ N) = z := by
      refine CT.ext_get fun i hi => ?_
      rw [get_rd _ _ hi, if_neg (by omega), Nat.add_sub_cancel_left]
    rw [e1, e2]
  have h := recMulto_near (A := coarse L) N 0 (2 ^ N)
    (fun q => if q < 2 ^ N then x.get q else y.get (q - 2 ^ N)) (fun q => if q < 2 ^ N then e.get q else f.get (q - 2 ^ N))
    (fun q => if q < 2 ^ N then b.get q else c.get (q - 2 ^ N)) (kd := kx) (ky := ky) ap
    (fun i hi => by
      simp only [Nat.zero_add, hi, if_true]
      exact (near_iff L _ _ _ _).2 (hx.get i))
    (fun j hj => by
      have hn : ¬ 2 ^ N + j < 2 ^ N := by omega
      simp only [hn, if_false, Nat.add_sub_cancel_left]
      exact (near_iff L _ _ _ _).2 (hy.get j))
  refine of_get fun i hi => ?_
  rw [ex e f, ex b c, get_rd _ _ hi, get_rd _ _ hi, multoV, CT.get_ofFn _ hi]
  have := (near_iff L _ _ _ _).1 (h i hi)
  rwa [Nat.zero_add] at this ⊢

theorem neg : {N : ℕ} → {x : CT V N} → {e b : CT ℝ N} → JA A m x e b → JA A m (-x) (-e) b
  | _, .leaf _, .leaf _, .leaf _, h => NB.neg h
  | _, .node _ _, .node _ _, .node _ _, h => ⟨neg h.1, neg h.2⟩

theorem sub (L : MathLib A) : {N : ℕ} → {x y : CT V N} → {e f b c : CT ℝ N} → JA A m x e b → JA A m y f c → JA A (m + η L) (x - y) (e - f) (b + c)
  | _, .leaf _, .leaf _, .leaf _, .leaf _, .leaf _, .leaf _, h, h' => NB.sub L h h'
  | _, .node _ _, .node _ _, .node _ _, .node _ _, .node _ _, .node _ _, h, h' => ⟨sub L h.1 h'.1, sub L h.2 h'.2⟩

theorem addScalar (L : MathLib A) {v : V} {r s : ℝ} (hv : NB A m v r s) {x : CT V N} {e b : CT ℝ N} (h : JA A m x e b) :
    JA A (m + η L) (x.addScalar v) (e.addScalar r) (b.addScalar s) :=
  setC0 (NB.add L h.c0 hv) (h.mono (by have := η_nonneg L; linarith))

theorem subScalar (L : MathLib A) {v : V} {r s : ℝ} (hv : NB A m v r s) {x : CT V N} {e b : CT ℝ N} (h : JA A m x e b) :
    JA A (m + η L) (x.subScalar v) (e.subScalar r) (b.addScalar s) :=
  setC0 (NB.sub L h.c0 hv) (h.mono (by have := η_nonneg L; linarith))

theorem scalarSub (L : MathLib A) {v : V} {r s : ℝ} (hv : NB A m v r s) {x : CT V N} {e b : CT ℝ N} (h : JA A m x e b) :
    JA A (m + η L) (CT.scalarSub v x) (CT.scalarSub r e) (b.addScalar s) :=
  setC0 (NB.add L h.neg.c0 hv) (h.neg.mono (by have := η_nonneg L; linarith))

end JA

theorem nb_lit (L : JetLib A) {c : ℝ} : NB A (η L.toMathLib) (L.const c) c |c| := NB.of_within (step_w (L.const_err c))

/-- Polynomials. -/
theorem ja_poly (L : JetLib A) {ι : Type} {N : ℕ} (ρ : ι → CT V N) (e : Expr ι) (he : IsPoly e) :
    JA A (polySteps N e * η L.toMathLib) (evalCTV L ρ e) (e.evalCT fun i => (ρ i).map A.val) (polyBound (fun i => (ρ i).map A.val) e) := by
  have hη := η_nonneg L.toMathLib
  have lit : ∀ c : ℝ, ∀ k : ℕ, 1 ≤ k → NB A (k * η L.toMathLib) (L.const c) c |c| := fun c k hk =>
    (nb_lit L).mono (le_mul_of_one_le_left hη (by exact_mod_cast hk))
  induction e with
  | var i => exact (JA.of_val (ρ i)).mono (by simp [polySteps])
  | lit c => exact (JA.const (nb_lit L) N).mono (by simp [polySteps])
  | add x y ihx ihy =>
    have hx := ihx he.1
    have hy := ihy he.2
    have hx' := hx.mono (k := (max (polySteps N x) (polySteps N y) : ℕ) * η L.toMathLib)
      (mul_le_mul_of_nonneg_right (by exact_mod_cast le_max_left _ _) hη)
    have hy' := hy.mono (k := (max (polySteps N x) (polySteps N y) : ℕ) * η L.toMathLib)
      (mul_le_mul_of_nonneg_right (by exact_mod_cast le_max_right _ _) hη)
    have e1 : ((polySteps N (.add x y) : ℕ) : ℝ) * η L.toMathLib = (max (polySteps N x) (polySteps N y) : ℕ) * η L.toMathLib + η L.toMathLib := by
      simp only [polySteps]; push_cast; ring
    rw [e1]
    simp only [evalCTV, evalCT, polyBound]
    cases hlx : litOf x with
    | some c =>
      obtain rfl : x = .lit c := by cases x <;> simp_all [litOf]
      have := JA.addScalar L.toMathLib (lit c _ (by simp [polySteps])) hy'
      rw [CT.addScalar_eq, CT.addScalar_eq, add_comm (evalCT _ y), add_comm (polyBound _ y)] at this
      exact this
    | none =>
      cases hly : litOf y with
      | some c =>
        obtain rfl : y = .lit c := by cases y <;> simp_all [litOf]
        have := JA.addScalar L.toMathLib (lit c _ (by simp [polySteps])) hx'
        rw [CT.addScalar_eq, CT.addScalar_eq] at this
        exact this
      | none => exact JA.add L.toMathLib hx' hy'
  | sub x y ihx ihy =>
    have hx := ihx he.1
    have hy := ihy he.2
    have hx' := hx.mono (k := (max (polySteps N x) (polySteps N y) : ℕ) * η L.toMathLib)
      (mul_le_mul_of_nonneg_right (by exact_mod_cast le_max_left _ _) hη)
    have hy' := hy.mono (k := (max (polySteps N x) (polySteps N y) : ℕ) * η L.toMathLib)
      (mul_le_mul_of_nonneg_right (by exact_mod_cast le_max_right _ _) hη)
    have e1 : ((polySteps N (.sub x y) : ℕ) : ℝ) * η L.toMathLib = (max (polySteps N x) (polySteps N y) : ℕ) * η L.toMathLib + η L.toMathLib := by
      simp only [polySteps]; push_cast; ring
    rw [e1]
    simp only [evalCTV, evalCT, polyBound]
    cases hlx : litOf x with
    | some c =>
      obtain rfl : x = .lit c := by cases x <;> simp_all [litOf]
      have := JA.scalarSub L.toMathLib (lit c _ (by simp [polySteps])) hy'
      rw [CT.scalarSub_eq, CT.addScalar_eq, add_comm (polyBound _ y)] at this
      exact this
    | none =>
      cases hly : litOf y with
      | some c =>
        obtain rfl : y = .lit c := by cases y <;> simp_all [litOf]
        have := JA.subScalar L.toMathLib (lit c _ (by simp [polySteps])) hx'
        rw [CT.subScalar_eq, CT.addScalar_eq] at this
        exact this
      | none => exact JA.sub L.toMathLib hx' hy'
  | mul x y ihx ihy =>
    have hx := ihx he.1
    have hy := ihy he.2
    have ev : evalCTV L ρ (.mul x y) = mulLit L (litOf x) (litOf y) (evalCTV L ρ x) (evalCTV L ρ y) := by
      cases x with
      | prim => exact he.1.elim
      | _ => rfl
    simp only [ev, evalCT, polyBound]
    have hp : (0 : ℝ) ≤ 2 ^ (N - 2) * η L.toMathLib := by positivity
    cases hlx : litOf x with
    | some c =>
      obtain rfl : x = .lit c := by cases x <;> simp_all [litOf]
      have := JA.smul L.toMathLib (nb_lit L (c := c)) hy
      rw [CT.smul_eq, CT.smul_eq] at this
      refine this.mono ?_
      simp only [polySteps]
      push_cast
      linarith
    | none =>
      cases hly : litOf y with
      | some c =>
        obtain rfl : y = .lit c := by cases y <;> simp_all [litOf]
        have := JA.smul L.toMathLib (nb_lit L (c := c)) hx
        rw [CT.smul_eq, CT.smul_eq, mul_comm (CT.const N c), mul_comm (CT.const N |c|)] at this
        refine this.mono ?_
        simp only [polySteps]
        push_cast
        linarith
      | none => exact JA.mul L.toMathLib hx hy
  | neg x ih => exact (ih he).neg
  | prim | reg | iflt => exact he.elim

/-- Sixty steps cover a relative error of `54 w`. -/
theorem within_sixty (L : MathLib A) {x y : ℝ} (h : |y - x| ≤ 54 * L.w * |x|) : Within (60 * η L) x y := by
  have hw0 := w_nonneg L
  have hw1 := L.w_le
  have hη := w_le_η L
  have hη0 := η_nonneg L
  have key : ∀ x y : ℝ, 0 ≤ x → |y - x| ≤ 54 * L.w * |x| → Within (60 * η L) x y := by
    intro x y hx h
    rw [abs_of_nonneg hx] at h
    have hl := abs_le.1 h
    have e1 := Real.add_one_le_exp (60 * η L)
    refine Within.of_le (by linarith) hx ?_ ?_
    · have e2 : Real.exp (-(60 * η L)) ≤ 1 - 54 * L.w := by
        rw [Real.exp_neg, inv_eq_one_div, div_le_iff₀ (Real.exp_pos _)]
        have : (1 - 54 * L.w) * (60 * L.w + 1) ≤ (1 - 54 * L.w) * Real.exp (60 * η L) :=
          mul_le_mul_of_nonneg_left (by linarith) (by linarith)
        nlinarith
      nlinarith
    · nlinarith
  rcases le_total 0 x with hx | hx
  · exact key x y hx h
  · have := (key (-x) (-y) (by linarith) (by rw [abs_neg, ← abs_neg]; convert h using 2; ring)).neg
    simpa using this

/-- The factor `a - i + 1` for an exponent that is not an integer. -/
theorem within_factor (L : JetLib A) {a : ℝ} (ha : a = 4 / 3 ∨ a = 5 / 3) {i : ℕ} (hi : i < 6) :
    Within (60 * η L.toMathLib) (a - ((i + 1 : ℕ) : ℝ) + 1) (A.val (L.const a - L.int (i + 1) + 1)) := by
  apply within_sixty
  have hw0 := w_nonneg L.toMathLib
  have hw1 := L.w_le
  have hu := L.u_le
  have e1 := abs_le.1 (L.const_err a)
  have e2 := abs_le.1 (L.int_err (i + 1))
  have e3 := abs_le.1 (A.sub_err (L.const a) (L.int (i + 1)))
  have e4 := abs_le.1 (A.add_err (L.const a - L.int (i + 1)) 1)
  rw [A.val_one] at e4
  have hu0 := A.u_nonneg
  have hin : ((i + 1 : ℕ) : ℝ) ≤ 6 := by exact_mod_cast hi
  have hin1 : (1 : ℝ) ≤ ((i + 1 : ℕ) : ℝ) := by exact_mod_cast Nat.succ_le_succ (Nat.zero_le i)
  have hlow : 1 / 3 ≤ |a - ((i + 1 : ℕ) : ℝ) + 1| := by
    rcases ha with rfl | rfl <;> interval_cases i <;> norm_num
  have ha0 : 4 / 3 ≤ a ∧ a ≤ 5 / 3 := by rcases ha with rfl | rfl <;> norm_num
  rw [abs_of_nonneg (by linarith [ha0.1])] at e1
  set n : ℝ := ((i + 1 : ℕ) : ℝ)
  set a' := A.val (L.const a)
  set n' := A.val (L.int (i + 1))
  set d := A.val (L.const a - L.int (i + 1))
  set f := A.val (L.const a - L.int (i + 1) + 1)
  set w := L.w
  set u := A.u
  have i1 : w * a ≤ w * (5 / 3) := mul_le_mul_of_nonneg_left ha0.2 hw0
  have i2 : w * n ≤ w * 6 := mul_le_mul_of_nonneg_left hin hw0
  have j1 : |a' - n'| ≤ 5.1 := by rw [abs_le]; constructor <;> linarith [e1.1, e1.2, e2.1, e2.2, ha0.1]
  have i3 : u * |a' - n'| ≤ w * 5.1 := mul_le_mul hu j1 (abs_nonneg _) hw0
  have j2 : |d + 1| ≤ 4.2 := by
    have := abs_le.1 j1
    rw [abs_le]; constructor <;> linarith [e1.1, e1.2, e2.1, e2.2, e3.1, e3.2, ha0.1]
  have i4 : u * |d + 1| ≤ w * 4.2 := mul_le_mul hu j2 (abs_nonneg _) hw0
  have h18 : |f - (a - n + 1)| ≤ 18 * w := by
    rw [abs_le]; constructor <;> linarith [e1.1, e1.2, e2.1, e2.2, e3.1, e3.2, e4.1, e4.2]
  have : 54 * w * (1 / 3) ≤ 54 * w * |a - n + 1| := mul_le_mul_of_nonneg_left hlow (by linarith)
  linarith

/-- The coefficients of a power. -/
theorem within_pow (L : JetLib A) {a : ℝ} (ha : a = 4 / 3 ∨ a = 5 / 3) {x : ℝ} {v : V} (hx : Within (η L.toMathLib) x (A.val v))
    (hlo : Real.exp (-51) ≤ x) (hhi : x ≤ Real.exp 51) : (i : ℕ) → i ≤ 6 →
    Within ((90 + 66 * i) * η L.toMathLib) (powExpand x a i) (A.val (powExpandV L v (L.const a) i))
  | 0, _ => by
    have hp : PA L.toMathLib (fun _ : Unit => v) (fun _ => x) (.var ()) 1 51 := ⟨by simpa [RE.Acc, evalV] using hx, hlo, hhi⟩
    have := acc_pow a (5 / 3) (by rcases ha with rfl | rfl <;> rw [abs_of_pos (by norm_num)]; norm_num) hp
    simp only [RE.Acc, Expr.pow, evalR, evalV] at this
    have h0 := η_nonneg L.toMathLib
    refine Within.mono (m := (5 / 3 * (1.01 * 1 + 51) + 1) * η L.toMathLib) this ?_
    exact mul_le_mul_of_nonneg_right (by norm_num) h0
  | i + 1, hi => by
    have hη := η_nonneg L.toMathLib
    have h1 := within_pow L ha hx hlo hhi i (by omega)
    have hxpos : 0 < x := lt_of_lt_of_le (Real.exp_pos _) hlo
    have hv : 0 < A.val v := hx.pos hxpos
    have h2 : Within (η L.toMathLib + η L.toMathLib) (1 / x) (A.val (L.div 1 v)) := by
      have d := L.div_err 1 v hv.ne'
      rw [A.val_one] at d
      refine Within.trans ?_ (step_w d)
      rw [one_div, one_div]
      exact hx.inv
    have h3 := (h1.mul h2).trans (step_u (L := L.toMathLib) (A.mul_err _ _))
    have h4 := (h3.mul (within_factor L ha (i := i) (by omega))).trans (step_u (L := L.toMathLib) (A.mul_err _ _))
    have hn : Within (η L.toMathLib) ((i + 1 : ℕ) : ℝ) (A.val (L.int (i + 1))) :=
      step_w ((L.int_err (i + 1)).trans_eq (by rw [abs_of_nonneg (Nat.cast_nonneg _)]))
    have hn0 : 0 < A.val (L.int (i + 1)) := hn.pos (by exact_mod_cast Nat.succ_pos i)
    have h5 := (h4.mul hn.inv)
    rw [← div_eq_mul_inv, ← div_eq_mul_inv] at h5
    have h6 := h5.trans (step_w (L := L.toMathLib) (L.div_err _ _ hn0.ne'))
    refine Within.mono h6 ?_
    push_cast
    linarith

theorem ja_pow (L : JetLib A) {a : ℝ} (ha : a = 4 / 3 ∨ a = 5 / 3) {N : ℕ} (hN : N ≤ 6) {x : CT V N} {e b : CT ℝ N}
    (hx : JA A (η L.toMathLib) x e b) (h0 : Within (η L.toMathLib) e.c0 (A.val x.c0)) (hlo : Real.exp (-51) ≤ e.c0) (hhi : e.c0 ≤ Real.exp 51) :
    JA A (612 * η L.toMathLib) (composeV x (powExpandV L x.c0 (L.const a))) (e.compose (powExpand e.c0 a)) (powBound b e.c0 a) := by
  have hη := η_nonneg L.toMathLib
  have hx' : JA A ((1 : ℕ) * η L.toMathLib) x e b := by simpa using hx
  refine (JA.compose L.toMathLib hx' (kc := 486) fun j hj => ?_).mono ?_
  · have hj6 : (j : ℝ) ≤ 6 := by exact_mod_cast hj.trans hN
    refine NB.of_within ((within_pow L ha h0 hlo hhi j (hj.trans hN)).mono (mul_le_mul_of_nonneg_right ?_ hη))
    push_cast
    linarith
  · refine mul_le_mul_of_nonneg_right ?_ hη
    have : 486 + N * (1 + 4 + 2 ^ (N - 2)) ≤ 612 := by interval_cases N <;> norm_num
    exact_mod_cast this

omit [One V] [Sub V] [Neg V] in
theorem recMultoSkip_head (n dst y : ℕ) (m : Mem V) : recMultoSkip n dst y m dst = 0 := by
  induction n using Nat.strongRecOn generalizing dst y m with
  | ind n ih =>
    match n, ih with
    | 0, _ | 1, _ | 2, _ => simp only [recMultoSkip, Mem.wr, if_true]
    | n + 3, ih => simp only [recMultoSkip]; exact ih _ (by omega) _ _ _

omit [One V] [Sub V] [Neg V] in
theorem recHorner_head (n res x coeff : ℕ) (hc : res < coeff ∨ coeff < res) (hc' : coeff < res ∨ res + 2 ^ n ≤ coeff) : ∀ (i : ℕ) (m : Mem V),
    recHorner n res x coeff (i + 1) m res = 0 + m coeff
  | 0, m => by
    simp only [recHorner, Mem.wr, if_true, Nat.add_zero]
    rw [recMultoSkip_head, recMultoSkip_frame _ _ _ _ _ hc']
  | i + 1, m => by
    rw [recHorner, recHorner_head n res x coeff hc hc' i]
    simp only [Mem.wr]
    rw [if_neg (by omega), recMultoSkip_frame _ _ _ _ _ hc']

/-- The constant term of a composition is the first coefficient, up to the addition of zero. -/
theorem c0_composeV (L : MathLib A) {N : ℕ} (x : CT V N) (t : ℕ → V) : Within (η L) (A.val (t 0)) (A.val (composeV x t).c0) := by
  have hp := Nat.two_pow_pos N
  rw [CT.c0_eq_get, composeV, CT.get_ofFn _ hp, Nat.add_zero]
  have h0 := η_nonneg L
  match N with
  | 0 | 1 | 2 => exact Within.refl h0
  | n + 3 =>
    have hp := Nat.two_pow_pos (n + 3)
    rw [recCompose, recHorner_head _ _ _ _ (by omega) (by omega), recClear_val', if_neg (by omega), Mem.wr, if_neg (by omega),
      if_neg (by omega), Nat.sub_self]
    have := A.add_err 0 (t 0)
    rw [A.val_zero, zero_add] at this
    exact step_u this

/-- The coefficients of a reciprocal. -/
theorem within_inv (L : JetLib A) {x m : ℝ} {v : V} (hx : Within m x (A.val v)) (h0 : 0 < x) : (i : ℕ) →
    Within ((i + 1) * (m + η L.toMathLib) + i * η L.toMathLib) (invExpand x i) (A.val (invExpandV L v i))
  | 0 => by
    have d := L.div_err 1 v (hx.pos h0).ne'
    rw [A.val_one] at d
    refine Within.mono (Within.trans (m := m) ?_ (step_w d)) (by push_cast; linarith)
    rw [invExpand, one_div, one_div]
    exact hx.inv
  | i + 1 => by
    have d := L.div_err 1 v (hx.pos h0).ne'
    rw [A.val_one] at d
    have h2 : Within (m + η L.toMathLib) (1 / x) (A.val (L.div 1 v)) := by
      refine Within.trans ?_ (step_w d)
      rw [one_div, one_div]
      exact hx.inv
    have h1 := (within_inv L hx h0 i).neg
    rw [← A.val_neg] at h1
    have h3 := (h1.mul h2).trans (step_u (L := L.toMathLib) (A.mul_err _ _))
    refine Within.mono h3 ?_
    push_cast
    linarith

theorem abs_invExpand {x : ℝ} (hx : 0 < x) : ∀ i, |invExpand x i| = 1 / |x| ^ (i + 1)
  | 0 => by rw [invExpand, abs_div, abs_one, zero_add, pow_one]
  | i + 1 => by rw [invExpand, abs_mul, abs_neg, abs_invExpand hx i, abs_div, abs_one, pow_succ |x| (i + 1)]; field_simp

/-- A quotient. -/
theorem ja_div (L : JetLib A) {N kx k0 ky : ℕ} (hN : N ≤ 6) {x y : CT V N} {e f b c : CT ℝ N} (hx : JA A (kx * η L.toMathLib) x e b)
    (h0 : Within (k0 * η L.toMathLib) e.c0 (A.val x.c0)) (he : 0 < e.c0) (hy : JA A (ky * η L.toMathLib) y f c) :
    JA A ((7 * k0 + 6 * kx + ky + 152 : ℕ) * η L.toMathLib) (multoV (composeV x (invExpandV L x.c0)) y)
      (e.compose (invExpand e.c0) * f) (invBound b e.c0 * c) := by
  have hη := η_nonneg L.toMathLib
  have hc := JA.compose L.toMathLib hx (kc := 7 * (k0 + 1) + 6) (t := invExpandV L x.c0) (te := invExpand e.c0) (tb := fun i => 1 / |e.c0| ^ (i + 1))
    fun j hj => by
      have hj6 : (j : ℝ) ≤ 6 := by exact_mod_cast hj.trans hN
      rw [← abs_invExpand he]
      refine NB.of_within ((within_inv L h0 he j).mono ?_)
      have : ((j : ℝ) + 1) * (k0 * η L.toMathLib + η L.toMathLib) ≤ 7 * (k0 * η L.toMathLib + η L.toMathLib) :=
        mul_le_mul_of_nonneg_right (by linarith) (by positivity)
      have : (j : ℝ) * η L.toMathLib ≤ 6 * η L.toMathLib := mul_le_mul_of_nonneg_right hj6 hη
      push_cast
      linarith
  refine (JA.multo L.toMathLib hc hy).mono (mul_le_mul_of_nonneg_right ?_ hη)
  have : 7 * (k0 + 1) + 6 + N * (kx + 4 + 2 ^ (N - 2)) + ky + 3 + 2 ^ (N - 2) ≤ 7 * k0 + 6 * kx + ky + 152 := by
    interval_cases N <;> norm_num <;> omega
  exact_mod_cast this

end XCFun.RJ
