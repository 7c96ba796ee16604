/-
The memory-level recursion computes the value-level operations when the destination
does not overlap the sources.
-/
import Verif.Proofs.CTCoef
import Mathlib.Tactic.Linarith

namespace XCFun

universe u
variable {V : Type u}

/-- The array of `2^n` cells starting at `p`. -/
def rd (n : ℕ) (m : Mem V) (p : ℕ) : CT V n := CT.ofFn n fun i => m (p + i)

/-- Two blocks of `k` and `l` cells have no cell in common. -/
def Apart (p k q l : ℕ) : Prop := p + k ≤ q ∨ q + l ≤ p

theorem wr_same (m : Mem V) (p : ℕ) (v : V) : m.wr p v p = v := by simp [Mem.wr]
theorem wr_other (m : Mem V) {p q : ℕ} (v : V) (h : q ≠ p) : m.wr p v q = m q := by
  simp [Mem.wr, h]

theorem rd_zero (m : Mem V) (p : ℕ) : rd 0 m p = CT.leaf (m p) := rfl

theorem rd_succ (n : ℕ) (m : Mem V) (p : ℕ) :
    rd (n + 1) m p = CT.node (rd n m p) (rd n m (p + 2 ^ n)) := by
  simp only [rd, CT.ofFn]
  congr 2
  funext i
  rw [Nat.add_assoc]

theorem rd_congr {n : ℕ} {m m' : Mem V} {p p' : ℕ} (h : ∀ i < 2 ^ n, m (p + i) = m' (p' + i)) :
    rd n m p = rd n m' p' := CT.ofFn_congr h

theorem rd_one (m : Mem V) (p : ℕ) :
    rd 1 m p = CT.node (CT.leaf (m p)) (CT.leaf (m (p + 1))) := rfl

theorem rd_two (m : Mem V) (p : ℕ) :
    rd 2 m p = CT.node (CT.node (CT.leaf (m p)) (CT.leaf (m (p + 1))))
      (CT.node (CT.leaf (m (p + 2))) (CT.leaf (m (p + 3)))) := rfl

theorem get_rd {n : ℕ} (m : Mem V) (p : ℕ) {i : ℕ} (hi : i < 2 ^ n) :
    (rd n m p).get i = m (p + i) := CT.get_ofFn _ hi

section frame
variable [Add V] [Mul V]

/-- `mul` writes only the destination block. -/
theorem recMul_frame (n dst x y : ℕ) (m : Mem V) (q : ℕ) (hq : q < dst ∨ dst + 2 ^ n ≤ q) :
    recMul n dst x y m q = m q := by
  induction n using Nat.strongRecOn generalizing dst x y m with
  | ind n ih =>
    match n, ih with
    | 0, _ => simp only [recMul]; rw [wr_other]; omega
    | 1, _ => simp only [recMul]; rw [wr_other, wr_other] <;> omega
    | 2, _ => simp only [recMul]; rw [wr_other, wr_other, wr_other, wr_other] <;> omega
    | n + 3, ih =>
      simp only [recMul]
      have e : 2 ^ (n + 3) = 2 ^ (n + 2) + 2 ^ (n + 2) := by rw [pow_succ]; ring
      rw [ih _ (by omega) _ _ _ _ (by omega), ih _ (by omega) _ _ _ _ (by omega),
        ih _ (by omega) _ _ _ _ (by omega)]

theorem recMulSet_frame (n dst x y : ℕ) (m : Mem V) (q : ℕ) (hq : q < dst ∨ dst + 2 ^ n ≤ q) :
    recMulSet n dst x y m q = m q := by
  induction n using Nat.strongRecOn generalizing dst x y m with
  | ind n ih =>
    match n, ih with
    | 0, _ => simp only [recMulSet]; rw [wr_other]; omega
    | 1, _ => simp only [recMulSet]; rw [wr_other, wr_other] <;> omega
    | 2, _ => simp only [recMulSet]; rw [wr_other, wr_other, wr_other, wr_other] <;> omega
    | n + 3, ih =>
      simp only [recMulSet]
      have e : 2 ^ (n + 3) = 2 ^ (n + 2) + 2 ^ (n + 2) := by rw [pow_succ]; ring
      rw [recMul_frame _ _ _ _ _ _ (by omega), ih _ (by omega) _ _ _ _ (by omega),
        ih _ (by omega) _ _ _ _ (by omega)]

theorem recMulto_frame (n dst y : ℕ) (m : Mem V) (q : ℕ) (hq : q < dst ∨ dst + 2 ^ n ≤ q) :
    recMulto n dst y m q = m q := by
  induction n using Nat.strongRecOn generalizing dst y m with
  | ind n ih =>
    match n, ih with
    | 0, _ => simp only [recMulto]; rw [wr_other]; omega
    | 1, _ => simp only [recMulto]; rw [wr_other, wr_other] <;> omega
    | 2, _ => simp only [recMulto]; rw [wr_other, wr_other, wr_other, wr_other] <;> omega
    | n + 3, ih =>
      simp only [recMulto]
      have e : 2 ^ (n + 3) = 2 ^ (n + 2) + 2 ^ (n + 2) := by rw [pow_succ]; ring
      rw [ih _ (by omega) _ _ _ (by omega), recMul_frame _ _ _ _ _ _ (by omega),
        ih _ (by omega) _ _ _ (by omega)]

theorem recMultoSkip_frame [Zero V] (n dst y : ℕ) (m : Mem V) (q : ℕ)
    (hq : q < dst ∨ dst + 2 ^ n ≤ q) : recMultoSkip n dst y m q = m q := by
  induction n using Nat.strongRecOn generalizing dst y m with
  | ind n ih =>
    match n, ih with
    | 0, _ => simp only [recMultoSkip]; rw [wr_other]; omega
    | 1, _ => simp only [recMultoSkip]; rw [wr_other, wr_other] <;> omega
    | 2, _ => simp only [recMultoSkip]; rw [wr_other, wr_other, wr_other, wr_other] <;> omega
    | n + 3, ih =>
      simp only [recMultoSkip]
      have e : 2 ^ (n + 3) = 2 ^ (n + 2) + 2 ^ (n + 2) := by rw [pow_succ]; ring
      rw [ih _ (by omega) _ _ _ (by omega), recMul_frame _ _ _ _ _ _ (by omega),
        ih _ (by omega) _ _ _ (by omega)]

end frame

section refine
variable [CommRing V]

omit [CommRing V] in
/-- Reading a block that a computation left alone. -/
theorem rd_frame {n : ℕ} {m m' : Mem V} {p : ℕ}
    (h : ∀ q, p ≤ q → q < p + 2 ^ n → m' q = m q) : rd n m' p = rd n m p :=
  rd_congr fun i hi => h _ (by omega) (by omega)

theorem recMul_rd (n dst x y : ℕ) (m : Mem V)
    (hx : Apart dst (2 ^ n) x (2 ^ n)) (hy : Apart dst (2 ^ n) y (2 ^ n)) :
    rd n (recMul n dst x y m) dst = rd n m dst + rd n m x * rd n m y := by
  induction n using Nat.strongRecOn generalizing dst x y m with
  | ind n ih =>
    unfold Apart at hx hy
    match n, ih with
    | 0, _ => simp only [recMul, rd_zero]; rw [wr_same]; rfl
    | 1, _ =>
      simp only [recMul, rd_one, CT.node_mul_node, CT.node_add_node, CT.leaf_add_leaf,
        CT.leaf_mul_leaf]
      norm_num at hx hy
      congr 2
      · rw [wr_other _ _ (by omega), wr_same]
      · rw [wr_same]
        repeat rw [wr_other _ _ (by omega)]
        ring
    | 2, _ =>
      simp only [recMul, rd_two, CT.node_mul_node, CT.node_add_node, CT.leaf_add_leaf,
        CT.leaf_mul_leaf]
      norm_num at hx hy
      congr 2 <;> congr 1 <;>
      · simp (disch := omega) only [wr_same, wr_other]
        try ring
    | n + 3, ih =>
      simp only [recMul]
      have e : 2 ^ (n + 3) = 2 ^ (n + 2) + 2 ^ (n + 2) := by rw [pow_succ]; ring
      rw [e] at hx hy
      have hp : 0 < 2 ^ (n + 2) := Nat.two_pow_pos _
      generalize hh : 2 ^ (n + 2) = h at *
      rw [rd_succ (n + 2), rd_succ (n + 2), rd_succ (n + 2), rd_succ (n + 2), hh]
      set m1 := recMul (n + 2) dst x y m with hm1
      set m2 := recMul (n + 2) (dst + h) (x + h) y m1 with hm2
      set m3 := recMul (n + 2) (dst + h) x (y + h) m2 with hm3
      have f1 : ∀ q, q < dst ∨ dst + h ≤ q → m1 q = m q := fun q hq =>
        recMul_frame _ _ _ _ _ _ (by omega)
      have f2 : ∀ q, q < dst + h ∨ dst + h + h ≤ q → m2 q = m1 q := fun q hq =>
        recMul_frame _ _ _ _ _ _ (by omega)
      have f3 : ∀ q, q < dst + h ∨ dst + h + h ≤ q → m3 q = m2 q := fun q hq =>
        recMul_frame _ _ _ _ _ _ (by omega)
      have lo : rd (n + 2) m3 dst = rd (n + 2) m dst + rd (n + 2) m x * rd (n + 2) m y := by
        rw [rd_frame (fun q h1 h2 => (f3 q (by omega)).trans (f2 q (by omega))), hm1,
          ih _ (by omega) _ _ _ _ (by unfold Apart; omega) (by unfold Apart; omega)]
      have hi : rd (n + 2) m3 (dst + h) = rd (n + 2) m (dst + h) +
          (rd (n + 2) m (x + h) * rd (n + 2) m y + rd (n + 2) m x * rd (n + 2) m (y + h)) := by
        rw [hm3, ih _ (by omega) _ _ _ _ (by unfold Apart; omega) (by unfold Apart; omega), hm2,
          ih _ (by omega) _ _ _ _ (by unfold Apart; omega) (by unfold Apart; omega), ← hm2]
        rw [rd_frame (m' := m1) (m := m) (p := dst + h) (fun q h1 h2 => f1 q (by omega)),
          rd_frame (m' := m1) (m := m) (p := x + h) (fun q h1 h2 => f1 q (by omega)),
          rd_frame (m' := m1) (m := m) (p := y) (fun q h1 h2 => f1 q (by omega)),
          rd_frame (m' := m2) (m := m) (p := x)
            (fun q h1 h2 => (f2 q (by omega)).trans (f1 q (by omega))),
          rd_frame (m' := m2) (m := m) (p := y + h)
            (fun q h1 h2 => (f2 q (by omega)).trans (f1 q (by omega)))]
        ring
      rw [lo, hi]; rfl

theorem recMulSet_rd (n dst x y : ℕ) (m : Mem V)
    (hx : Apart dst (2 ^ n) x (2 ^ n)) (hy : Apart dst (2 ^ n) y (2 ^ n)) :
    rd n (recMulSet n dst x y m) dst = rd n m x * rd n m y := by
  induction n using Nat.strongRecOn generalizing dst x y m with
  | ind n ih =>
    unfold Apart at hx hy
    match n, ih with
    | 0, _ => simp only [recMulSet, rd_zero]; rw [wr_same]; rfl
    | 1, _ =>
      simp only [recMulSet, rd_one, CT.node_mul_node, CT.leaf_add_leaf, CT.leaf_mul_leaf]
      norm_num at hx hy
      congr 2
      · rw [wr_other _ _ (by omega), wr_same]
      · rw [wr_same]
        repeat rw [wr_other _ _ (by omega)]
        ring
    | 2, _ =>
      simp only [recMulSet, rd_two, CT.node_mul_node, CT.node_add_node, CT.leaf_add_leaf,
        CT.leaf_mul_leaf]
      norm_num at hx hy
      congr 2 <;> congr 1 <;>
      · simp (disch := omega) only [wr_same, wr_other]
        try ring
    | n + 3, ih =>
      simp only [recMulSet]
      have e : 2 ^ (n + 3) = 2 ^ (n + 2) + 2 ^ (n + 2) := by rw [pow_succ]; ring
      rw [e] at hx hy
      have hp : 0 < 2 ^ (n + 2) := Nat.two_pow_pos _
      have rm := fun dst x y (m : Mem V) => recMul_rd (n + 2) dst x y m
      generalize hh : 2 ^ (n + 2) = h at *
      rw [rd_succ (n + 2), rd_succ (n + 2), rd_succ (n + 2), hh]
      set m1 := recMulSet (n + 2) dst x y m with hm1
      set m2 := recMulSet (n + 2) (dst + h) (x + h) y m1 with hm2
      set m3 := recMul (n + 2) (dst + h) x (y + h) m2 with hm3
      have f1 : ∀ q, q < dst ∨ dst + h ≤ q → m1 q = m q := fun q hq =>
        recMulSet_frame _ _ _ _ _ _ (by omega)
      have f2 : ∀ q, q < dst + h ∨ dst + h + h ≤ q → m2 q = m1 q := fun q hq =>
        recMulSet_frame _ _ _ _ _ _ (by omega)
      have f3 : ∀ q, q < dst + h ∨ dst + h + h ≤ q → m3 q = m2 q := fun q hq =>
        recMul_frame _ _ _ _ _ _ (by omega)
      have lo : rd (n + 2) m3 dst = rd (n + 2) m x * rd (n + 2) m y := by
        rw [rd_frame (fun q h1 h2 => (f3 q (by omega)).trans (f2 q (by omega))), hm1,
          ih _ (by omega) _ _ _ _ (by unfold Apart; omega) (by unfold Apart; omega)]
      have hi : rd (n + 2) m3 (dst + h) =
          rd (n + 2) m (x + h) * rd (n + 2) m y + rd (n + 2) m x * rd (n + 2) m (y + h) := by
        rw [hm3, rm _ _ _ _ (by unfold Apart; omega) (by unfold Apart; omega), hm2,
          ih _ (by omega) _ _ _ _ (by unfold Apart; omega) (by unfold Apart; omega), ← hm2]
        rw [rd_frame (m' := m1) (m := m) (p := x + h) (fun q h1 h2 => f1 q (by omega)),
          rd_frame (m' := m1) (m := m) (p := y) (fun q h1 h2 => f1 q (by omega)),
          rd_frame (m' := m2) (m := m) (p := x)
            (fun q h1 h2 => (f2 q (by omega)).trans (f1 q (by omega))),
          rd_frame (m' := m2) (m := m) (p := y + h)
            (fun q h1 h2 => (f2 q (by omega)).trans (f1 q (by omega)))]
      rw [lo, hi]; rfl

theorem recMulto_rd (n dst y : ℕ) (m : Mem V) (hy : Apart dst (2 ^ n) y (2 ^ n)) :
    rd n (recMulto n dst y m) dst = rd n m dst * rd n m y := by
  induction n using Nat.strongRecOn generalizing dst y m with
  | ind n ih =>
    unfold Apart at hy
    match n, ih with
    | 0, _ => simp only [recMulto, rd_zero]; rw [wr_same]; rfl
    | 1, _ =>
      simp only [recMulto, rd_one, CT.node_mul_node, CT.leaf_add_leaf, CT.leaf_mul_leaf]
      norm_num at hy
      congr 2 <;>
      · simp (disch := omega) only [wr_same, wr_other]
    | 2, _ =>
      simp only [recMulto, rd_two, CT.node_mul_node, CT.node_add_node, CT.leaf_add_leaf,
        CT.leaf_mul_leaf]
      norm_num at hy
      congr 2 <;> congr 1 <;>
      · simp (disch := omega) only [wr_same, wr_other]
        try ring
    | n + 3, ih =>
      simp only [recMulto]
      have e : 2 ^ (n + 3) = 2 ^ (n + 2) + 2 ^ (n + 2) := by rw [pow_succ]; ring
      rw [e] at hy
      have hp : 0 < 2 ^ (n + 2) := Nat.two_pow_pos _
      have rm := fun dst x y (m : Mem V) => recMul_rd (n + 2) dst x y m
      generalize hh : 2 ^ (n + 2) = h at *
      rw [rd_succ (n + 2), rd_succ (n + 2), rd_succ (n + 2), hh]
      set m1 := recMulto (n + 2) (dst + h) y m with hm1
      set m2 := recMul (n + 2) (dst + h) dst (y + h) m1 with hm2
      set m3 := recMulto (n + 2) dst y m2 with hm3
      have f1 : ∀ q, q < dst + h ∨ dst + h + h ≤ q → m1 q = m q := fun q hq =>
        recMulto_frame _ _ _ _ _ (by omega)
      have f2 : ∀ q, q < dst + h ∨ dst + h + h ≤ q → m2 q = m1 q := fun q hq =>
        recMul_frame _ _ _ _ _ _ (by omega)
      have f3 : ∀ q, q < dst ∨ dst + h ≤ q → m3 q = m2 q := fun q hq =>
        recMulto_frame _ _ _ _ _ (by omega)
      have lo : rd (n + 2) m3 dst = rd (n + 2) m dst * rd (n + 2) m y := by
        rw [hm3, ih _ (by omega) _ _ _ (by unfold Apart; omega),
          rd_frame (m' := m2) (m := m) (p := dst)
            (fun q h1 h2 => (f2 q (by omega)).trans (f1 q (by omega))),
          rd_frame (m' := m2) (m := m) (p := y)
            (fun q h1 h2 => (f2 q (by omega)).trans (f1 q (by omega)))]
      have hi : rd (n + 2) m3 (dst + h) =
          rd (n + 2) m (dst + h) * rd (n + 2) m y + rd (n + 2) m dst * rd (n + 2) m (y + h) := by
        rw [rd_frame (m' := m3) (m := m2) (p := dst + h) (fun q h1 h2 => f3 q (by omega)), hm2,
          rm _ _ _ _ (by unfold Apart; omega) (by unfold Apart; omega), hm1,
          ih _ (by omega) _ _ _ (by unfold Apart; omega), ← hm1,
          rd_frame (m' := m1) (m := m) (p := dst) (fun q h1 h2 => f1 q (by omega)),
          rd_frame (m' := m1) (m := m) (p := y + h) (fun q h1 h2 => f1 q (by omega))]
      rw [lo, hi]; rfl

theorem recMultoSkip_rd (n dst y : ℕ) (m : Mem V) (hy : Apart dst (2 ^ n) y (2 ^ n)) :
    rd n (recMultoSkip n dst y m) dst = (rd n m dst).mulSkip (rd n m y) := by
  induction n using Nat.strongRecOn generalizing dst y m with
  | ind n ih =>
    unfold Apart at hy
    match n, ih with
    | 0, _ => simp only [recMultoSkip, rd_zero]; rw [wr_same]; rfl
    | 1, _ =>
      simp only [recMultoSkip, rd_one, CT.mulSkip, CT.mul_def, CT.leaf_add_leaf,
        CT.leaf_mul_leaf]
      norm_num at hy
      congr 2 <;>
      · simp (disch := omega) only [wr_same, wr_other]
        try ring
    | 2, _ =>
      simp only [recMultoSkip, rd_two, CT.mulSkip, CT.mul_def, CT.node_mul_node,
        CT.node_add_node, CT.leaf_add_leaf, CT.leaf_mul_leaf]
      norm_num at hy
      congr 2 <;> congr 1 <;>
      · simp (disch := omega) only [wr_same, wr_other]
        try ring
    | n + 3, ih =>
      simp only [recMultoSkip]
      have e : 2 ^ (n + 3) = 2 ^ (n + 2) + 2 ^ (n + 2) := by rw [pow_succ]; ring
      rw [e] at hy
      have hp : 0 < 2 ^ (n + 2) := Nat.two_pow_pos _
      have rm := fun dst x y (m : Mem V) => recMul_rd (n + 2) dst x y m
      generalize hh : 2 ^ (n + 2) = h at *
      rw [rd_succ (n + 2), rd_succ (n + 2), rd_succ (n + 2), hh]
      set m1 := recMultoSkip (n + 2) (dst + h) y m with hm1
      set m2 := recMul (n + 2) (dst + h) dst (y + h) m1 with hm2
      set m3 := recMultoSkip (n + 2) dst y m2 with hm3
      have f1 : ∀ q, q < dst + h ∨ dst + h + h ≤ q → m1 q = m q := fun q hq =>
        recMultoSkip_frame _ _ _ _ _ (by omega)
      have f2 : ∀ q, q < dst + h ∨ dst + h + h ≤ q → m2 q = m1 q := fun q hq =>
        recMul_frame _ _ _ _ _ _ (by omega)
      have f3 : ∀ q, q < dst ∨ dst + h ≤ q → m3 q = m2 q := fun q hq =>
        recMultoSkip_frame _ _ _ _ _ (by omega)
      have lo : rd (n + 2) m3 dst = (rd (n + 2) m dst).mulSkip (rd (n + 2) m y) := by
        rw [hm3, ih _ (by omega) _ _ _ (by unfold Apart; omega),
          rd_frame (m' := m2) (m := m) (p := dst)
            (fun q h1 h2 => (f2 q (by omega)).trans (f1 q (by omega))),
          rd_frame (m' := m2) (m := m) (p := y)
            (fun q h1 h2 => (f2 q (by omega)).trans (f1 q (by omega)))]
      have hi : rd (n + 2) m3 (dst + h) = (rd (n + 2) m (dst + h)).mulSkip (rd (n + 2) m y) +
          rd (n + 2) m dst * rd (n + 2) m (y + h) := by
        rw [rd_frame (m' := m3) (m := m2) (p := dst + h) (fun q h1 h2 => f3 q (by omega)), hm2,
          rm _ _ _ _ (by unfold Apart; omega) (by unfold Apart; omega), hm1,
          ih _ (by omega) _ _ _ (by unfold Apart; omega), ← hm1,
          rd_frame (m' := m1) (m := m) (p := dst) (fun q h1 h2 => f1 q (by omega)),
          rd_frame (m' := m1) (m := m) (p := y + h) (fun q h1 h2 => f1 q (by omega))]
      rw [lo, hi]; rfl

/-- `eval` at memory level. -/
theorem recEval_rd (n ct x : ℕ) (m : Mem V) :
    recEval n ct x m = (rd n m ct).eval (fun i => m (x + i)) := by
  induction n using Nat.strongRecOn generalizing ct with
  | ind n ih =>
    match n, ih with
    | 0, _ => rfl
    | 1, _ => simp [recEval, rd_one, CT.eval]
    | 2, _ => simp [recEval, rd_two, CT.eval]; ring
    | n + 3, ih =>
      rw [recEval, ih _ (by omega), ih _ (by omega), rd_succ (n + 2), CT.eval]

omit [CommRing V] in
theorem rd_wr_head (n : ℕ) (m : Mem V) (p : ℕ) (v : V) :
    rd n (m.wr p v) p = (rd n m p).setC0 v := by
  induction n with
  | zero => simp [rd_zero, wr_same, CT.setC0]
  | succ n ih =>
    rw [rd_succ, rd_succ, ih]
    have : 0 < 2 ^ n := Nat.two_pow_pos n
    rw [rd_frame (m' := m.wr p v) (m := m) (p := p + 2 ^ n)
      (fun q h1 h2 => wr_other _ _ (by omega))]
    rfl

omit [CommRing V] in
theorem c0_rd (n : ℕ) (m : Mem V) (p : ℕ) : (rd n m p).c0 = m p := by
  rw [CT.c0_eq_get, get_rd _ _ (Nat.two_pow_pos n)]; rfl

theorem recClear_val (res k : ℕ) (m : Mem V) (q : ℕ) :
    recClear res k m q = if res < q ∧ q ≤ res + k then 0 else m q := by
  induction k generalizing q with
  | zero => rw [recClear, if_neg (by omega)]
  | succ k ih =>
    rw [recClear, Mem.wr]
    split
    · rw [if_pos (by omega)]
    · rw [ih]; exact if_congr (by omega) rfl rfl

theorem recHorner_rd (n res x coeff i : ℕ) (m : Mem V) (hx : Apart res (2 ^ n) x (2 ^ n))
    (hc : Apart res (2 ^ n) coeff i) :
    rd n (recHorner n res x coeff i m) res =
      CT.horner (rd n m x) (fun j => m (coeff + j)) i (rd n m res) ∧
    ∀ q, q < res ∨ res + 2 ^ n ≤ q → recHorner n res x coeff i m q = m q := by
  have hp : 0 < 2 ^ n := Nat.two_pow_pos n
  induction i generalizing m with
  | zero => exact ⟨rfl, fun _ _ => rfl⟩
  | succ i ih =>
    unfold Apart at hc hx
    simp only [recHorner]
    set m1 := recMultoSkip n res x m with hm1
    set m2 := m1.wr res (m1 res + m1 (coeff + i)) with hm2
    have f1 : ∀ q, q < res ∨ res + 2 ^ n ≤ q → m1 q = m q := fun q hq =>
      recMultoSkip_frame _ _ _ _ _ hq
    have f2 : ∀ q, q < res ∨ res + 2 ^ n ≤ q → m2 q = m q := fun q hq => by
      rw [hm2, wr_other _ _ (by omega), f1 q hq]
    obtain ⟨h1, h2⟩ := ih m2 (by unfold Apart; omega)
    refine ⟨?_, fun q hq => by rw [h2 q hq, f2 q hq]⟩
    rw [h1, CT.horner]
    have e1 : rd n m2 x = rd n m x := rd_frame fun q h1 h2 => f2 q (by omega)
    have e2 : rd n m2 res = ((rd n m res).mulSkip (rd n m x)).setC0
        (((rd n m res).mulSkip (rd n m x)).c0 + m (coeff + i)) := by
      rw [hm2, rd_wr_head, hm1, recMultoSkip_rd _ _ _ _ hx, ← hm1, f1 (coeff + i) (by omega),
        ← c0_rd n m1 res, hm1, recMultoSkip_rd _ _ _ _ hx]
    rw [e1, e2]
    clear h1 h2
    -- coefficients still to be used are unchanged
    have hcoef : ∀ j < i, m2 (coeff + j) = m (coeff + j) := fun j hj => f2 _ (by omega)
    have hcongr : ∀ (k : ℕ) (r : CT V n), k ≤ i →
        CT.horner (rd n m x) (fun j => m2 (coeff + j)) k r =
          CT.horner (rd n m x) (fun j => m (coeff + j)) k r := by
      intro k
      induction k with
      | zero => intro r _; rfl
      | succ k ihk =>
        intro r hk
        rw [CT.horner, CT.horner, hcoef k (by omega), ihk _ (by omega)]
    rw [hcongr i _ le_rfl]

/-- `compose` at memory level. -/
theorem recCompose_rd (n res x coeff : ℕ) (m : Mem V) (hx : Apart res (2 ^ n) x (2 ^ n))
    (hc : Apart res (2 ^ n) coeff (n + 1)) :
    rd n (recCompose n res x coeff m) res =
      CT.compose (rd n m x) (fun j => m (coeff + j)) ∧
    ∀ q, q < res ∨ res + 2 ^ n ≤ q → recCompose n res x coeff m q = m q := by
  unfold Apart at hx hc
  match n with
  | 0 =>
    refine ⟨by simp only [recCompose, rd_zero]; rw [wr_same]; rfl, fun q hq => ?_⟩
    simp only [recCompose]; rw [wr_other]; omega
  | 1 =>
    norm_num at hx hc
    refine ⟨?_, fun q hq => ?_⟩
    · simp only [recCompose, rd_one, CT.compose_node, CT.compose_leaf, CT.leaf_mul_leaf]
      congr 2 <;>
      · simp (disch := omega) only [wr_same, wr_other]
        try simp
    · simp only [recCompose]; rw [wr_other, wr_other] <;> omega
  | 2 =>
    norm_num at hx hc
    refine ⟨?_, fun q hq => ?_⟩
    · simp only [recCompose, rd_two, CT.compose_node, CT.compose_leaf, CT.leaf_mul_leaf,
        CT.node_mul_node, CT.leaf_add_leaf]
      congr 2 <;> congr 1 <;>
      · simp (disch := omega) only [wr_same, wr_other]
        try (push_cast; ring_nf)
    · simp only [recCompose]; rw [wr_other, wr_other, wr_other, wr_other] <;> omega
  | n + 3 =>
    simp only [recCompose]
    have hp : 0 < 2 ^ (n + 3) := Nat.two_pow_pos _
    set m1 := m.wr res (m (coeff + (n + 3))) with hm1
    set m2 := recClear res (2 ^ (n + 3) - 1) m1 with hm2
    have f2 : ∀ q, q < res ∨ res + 2 ^ (n + 3) ≤ q → m2 q = m q := fun q hq => by
      rw [hm2, recClear_val, if_neg (by omega), hm1, wr_other _ _ (by omega)]
    obtain ⟨h1, h2⟩ := recHorner_rd (n + 3) res x coeff (n + 3) m2 hx (by unfold Apart; omega)
    refine ⟨?_, fun q hq => by rw [h2 q hq, f2 q hq]⟩
    rw [h1, CT.compose]
    have e1 : rd (n + 3) m2 x = rd (n + 3) m x := rd_frame fun q h1 h2 => f2 q (by omega)
    have e2 : rd (n + 3) m2 res = CT.const (n + 3) (m (coeff + (n + 3))) := by
      refine CT.ext_get fun i hi => ?_
      rw [get_rd _ _ hi, CT.get_const _ hi, hm2, recClear_val]
      rcases Nat.eq_zero_or_pos i with rfl | hpos
      · rw [if_neg (by omega), hm1]; simp [wr_same]
      · rw [if_pos (by omega), if_neg (by omega)]
    have hcoef : (fun j => m2 (coeff + j)) = fun j => if j ≤ n + 3 then m (coeff + j)
        else m2 (coeff + j) := by
      funext j
      split
      · exact f2 _ (by omega)
      · rfl
    rw [e1, e2]
    have hcongr : ∀ (k : ℕ) (r : CT V (n + 3)), k ≤ n + 3 →
        CT.horner (rd (n + 3) m x) (fun j => m2 (coeff + j)) k r =
          CT.horner (rd (n + 3) m x) (fun j => m (coeff + j)) k r := by
      intro k
      induction k with
      | zero => intro r _; rfl
      | succ k ihk =>
        intro r hk
        rw [CT.horner, CT.horner, f2 (coeff + k) (by omega), ihk _ (by omega)]
    rw [hcongr _ _ le_rfl]

/-! The first coefficient, whatever overlaps. -/

theorem recMul_head (n dst x y : ℕ) (m : Mem V) :
    recMul n dst x y m dst = m dst + m x * m y := by
  induction n using Nat.strongRecOn generalizing m with
  | ind n ih =>
    match n, ih with
    | 0, _ => simp [recMul, Mem.wr]
    | 1, _ => simp [recMul, Mem.wr]
    | 2, _ => simp [recMul, Mem.wr]
    | n + 3, ih =>
      have hp : 0 < 2 ^ (n + 2) := Nat.two_pow_pos _
      simp only [recMul]
      rw [recMul_frame _ _ _ _ _ _ (by omega), recMul_frame _ _ _ _ _ _ (by omega),
        ih _ (by omega)]

/-- Squaring in place: correct with at most two variables. -/
theorem recMulto_self_le_two (n dst : ℕ) (hn : n ≤ 2) (m : Mem V) :
    rd n (recMulto n dst dst m) dst = rd n m dst * rd n m dst := by
  match n, hn with
  | 0, _ => simp only [recMulto, rd_zero]; rw [wr_same]; rfl
  | 1, _ =>
    simp only [recMulto, rd_one, CT.node_mul_node, CT.leaf_add_leaf, CT.leaf_mul_leaf]
    congr 2 <;>
    · simp (disch := omega) only [wr_same, wr_other]
  | 2, _ =>
    simp only [recMulto, rd_two, CT.node_mul_node, CT.node_add_node, CT.leaf_add_leaf,
      CT.leaf_mul_leaf]
    congr 2 <;> congr 1 <;>
    · simp (disch := omega) only [wr_same, wr_other]
      try ring

/-- Squaring in place with three or more variables: the coefficient of the last
    variable comes out as `c*b + b*(c*b)` instead of `2*b*c`, where `b` is the constant
    coefficient and `c` that of the last variable. -/
theorem recMulto_self_top (n dst : ℕ) (m : Mem V) :
    recMulto (n + 3) dst dst m (dst + 2 ^ (n + 2)) =
      m (dst + 2 ^ (n + 2)) * m dst + m dst * (m (dst + 2 ^ (n + 2)) * m dst) := by
  have hp : 0 < 2 ^ (n + 2) := Nat.two_pow_pos _
  simp only [recMulto]
  rw [recMulto_frame _ _ _ _ _ (by omega), recMul_head]
  have h1 : recMulto (n + 2) (dst + 2 ^ (n + 2)) dst m (dst + 2 ^ (n + 2)) =
      m (dst + 2 ^ (n + 2)) * m dst := by
    have e := c0_rd (n + 2) (recMulto (n + 2) (dst + 2 ^ (n + 2)) dst m) (dst + 2 ^ (n + 2))
    rw [← e, recMulto_rd _ _ _ _ (by unfold Apart; omega), CT.c0_mul, c0_rd, c0_rd]
  rw [h1, recMulto_frame _ _ _ _ _ (by omega)]

end refine
end XCFun
