/-
C25-C28: the truncated multilinear expansions of external/upstream/taylor/ctaylor.hpp.

The scalar type is an arbitrary commutative ring `V` (exact arithmetic; for the
rounding of `double` see C59).  Memory is a map from addresses to scalars, and
`Apart p k q l` says that the `k` cells from `p` and the `l` cells from `q` do not
overlap.
-/
import Verif.Proofs.CTMem
import Mathlib.Tactic.IntervalCases

namespace XCFun.Props
open XCFun Spec

universe u
variable {V : Type u} [CommRing V]

/-! ### C25 -/

/-- C25: with a destination that overlaps neither factor, `mul_set` (hence
    `operator*`) stores, for every bit set `i`, the sum over all ways to split `i`
    between the factors; the two factors may be the same object.  This covers the
    hand-written versions for 0, 1 and 2 variables and the recursion alike. -/
theorem C25_product (n dst x y : ℕ) (m : Mem V)
    (hx : Apart dst (2 ^ n) x (2 ^ n)) (hy : Apart dst (2 ^ n) y (2 ^ n)) :
    (∀ i < 2 ^ n, recMulSet n dst x y m (dst + i) =
      subsetProduct n (fun j => m (x + j)) (fun k => m (y + k)) i) ∧
    ∀ q, q < dst ∨ dst + 2 ^ n ≤ q → recMulSet n dst x y m q = m q := by
  refine ⟨fun i hi => ?_, fun q hq => recMulSet_frame n dst x y m q hq⟩
  have h := congrArg (fun t => CT.get t i) (recMulSet_rd n dst x y m hx hy)
  simp only [get_rd _ _ hi] at h
  rw [h, CT.get_mul _ _ hi]
  unfold subsetProduct
  refine Finset.sum_congr rfl fun j hj => Finset.sum_congr rfl fun k hk => ?_
  rw [Finset.mem_range] at hj hk
  rw [get_rd _ _ hj, get_rd _ _ hk]

/-- C25: `mul` adds the same product to what the destination held. -/
theorem C25_product_accumulate (n dst x y : ℕ) (m : Mem V)
    (hx : Apart dst (2 ^ n) x (2 ^ n)) (hy : Apart dst (2 ^ n) y (2 ^ n)) :
    (∀ i < 2 ^ n, recMul n dst x y m (dst + i) = m (dst + i) +
      subsetProduct n (fun j => m (x + j)) (fun k => m (y + k)) i) ∧
    ∀ q, q < dst ∨ dst + 2 ^ n ≤ q → recMul n dst x y m q = m q := by
  refine ⟨fun i hi => ?_, fun q hq => recMul_frame n dst x y m q hq⟩
  have h := congrArg (fun t => CT.get t i) (recMul_rd n dst x y m hx hy)
  simp only [get_rd _ _ hi, CT.get_add] at h
  rw [h, CT.get_mul _ _ hi]
  unfold subsetProduct
  congr 1
  refine Finset.sum_congr rfl fun j hj => Finset.sum_congr rfl fun k hk => ?_
  rw [Finset.mem_range] at hj hk
  rw [get_rd _ _ hj, get_rd _ _ hk]

/-- C25: the product of values used in the rest of the model has these coefficients. -/
theorem C25_product_value {n : ℕ} (x y : CT V n) {i : ℕ} (hi : i < 2 ^ n) :
    (x * y).get i = subsetProduct n x.get y.get i := CT.get_mul x y hi

/-- C25: as polynomials: the value of an expansion is the sum of its coefficients times
    the monomials, for `eval` as written in the source. -/
theorem C25_eval (n ct x : ℕ) (m : Mem V) :
    recEval n ct x m =
      ∑ i ∈ Finset.range (2 ^ n), m (ct + i) * monomial n i (fun b => m (x + b)) := by
  rw [recEval_rd, CT.eval_eq_sum]
  refine Finset.sum_congr rfl fun i hi => ?_
  rw [Finset.mem_range] at hi
  rw [get_rd _ _ hi]

-- A destination at 0 and both factors (the same object) at 8: three variables.
example : Apart 0 (2 ^ 3) 8 (2 ^ 3) := by unfold Apart; omega

-- (1 + x + y)^2 has coefficient 2 at xy.
example : subsetProduct (V := ℤ) 2 (fun j => if j < 3 then 1 else 0)
    (fun j => if j < 3 then 1 else 0) 3 = 2 := by decide

-- With three variables, coefficient xyz of a product has eight terms.
example : subsetProduct (V := ℤ) 3 (fun _ => 1) (fun _ => 1) 7 = 8 := by decide

/-! ### C26 -/

/-- C26: the ring laws, for the operators of the class. -/
theorem C26_ring_laws {n : ℕ} (x y z : CT V n) :
    x + y = y + x ∧ x + y + z = x + (y + z) ∧ x + 0 = x ∧ x + -x = 0 ∧ x - y = x + -y ∧
    x * y = y * x ∧ x * y * z = x * (y * z) ∧ x * 1 = x ∧ x * (y + z) = x * y + x * z :=
  ⟨add_comm x y, add_assoc x y z, add_zero x, add_neg_cancel x, sub_eq_add_neg x y,
   mul_comm x y, mul_assoc x y z, mul_one x, mul_add x y z⟩

/-- C26: the overloads with a scalar operand are the operations with the constant
    expansion: `scalar*t`, `t+scalar`, `t-scalar`, `scalar-t`. -/
theorem C26_scalar_operands {n : ℕ} (a : V) (x : CT V n) :
    CT.smul a x = CT.const n a * x ∧ x.addScalar a = x + CT.const n a ∧
    x.subScalar a = x - CT.const n a ∧ CT.scalarSub a x = CT.const n a - x :=
  ⟨CT.smul_eq a x, CT.addScalar_eq x a, CT.subScalar_eq x a, CT.scalarSub_eq a x⟩

/-- C26: addition, negation and scaling act on each coefficient, and a constant has
    only coefficient 0. -/
theorem C26_coefficientwise {n : ℕ} (a : V) (x y : CT V n) {i : ℕ} (hi : i < 2 ^ n) :
    (x + y).get i = x.get i + y.get i ∧ (x - y).get i = x.get i - y.get i ∧
    (-x).get i = -x.get i ∧ (CT.smul a x).get i = a * x.get i ∧
    (CT.const n a).get i = if i = 0 then a else 0 :=
  ⟨CT.get_add x y i, CT.get_sub x y i, CT.get_neg x i,
   by rw [CT.smul_eq, CT.get_const_mul], CT.get_const a hi⟩

/-- C26: an expansion without constant term has vanishing `(N+1)`st power. -/
theorem C26_nilpotent {n : ℕ} (x : CT V n) (hx : x.get 0 = 0) : x ^ (n + 1) = 0 :=
  CT.pow_succ_eq_zero x (by rw [CT.c0_eq_get, hx])

/-- C26: the exponent cannot be lowered: with one variable or more, some expansion
    without constant term has a non-zero `N`th power. -/
theorem C26_nilpotent_sharp : ((CT.node (CT.node (CT.leaf 0) (CT.leaf 1))
    (CT.node (CT.leaf 1) (CT.leaf 0)) : CT ℤ 2) ^ 2).get 3 = 2 := by
  decide +kernel

example : (CT.node (CT.leaf 0) (CT.leaf 5) : CT ℤ 1).get 0 = 0 := rfl

/-! ### C27 -/

/-- C27: the in-place product stores the product of the old destination with `y`
    whenever the two do not overlap, and writes nothing else. -/
theorem C27_in_place (n dst y : ℕ) (m : Mem V) (hy : Apart dst (2 ^ n) y (2 ^ n)) :
    (∀ i < 2 ^ n, recMulto n dst y m (dst + i) =
      subsetProduct n (fun j => m (dst + j)) (fun k => m (y + k)) i) ∧
    ∀ q, q < dst ∨ dst + 2 ^ n ≤ q → recMulto n dst y m q = m q := by
  refine ⟨fun i hi => ?_, fun q hq => recMulto_frame n dst y m q hq⟩
  have h := congrArg (fun t => CT.get t i) (recMulto_rd n dst y m hy)
  simp only [get_rd _ _ hi] at h
  rw [h, CT.get_mul _ _ hi]
  unfold subsetProduct
  refine Finset.sum_congr rfl fun j hj => Finset.sum_congr rfl fun k hk => ?_
  rw [Finset.mem_range] at hj hk
  rw [get_rd _ _ hj, get_rd _ _ hk]

/-- C27: `x *= x` is correct with at most two variables ... -/
theorem C27_self_up_to_two (n dst : ℕ) (hn : n ≤ 2) (m : Mem V) :
    ∀ i < 2 ^ n, recMulto n dst dst m (dst + i) =
      subsetProduct n (fun j => m (dst + j)) (fun k => m (dst + k)) i := by
  intro i hi
  have h := congrArg (fun t => CT.get t i) (recMulto_self_le_two n dst hn m)
  simp only [get_rd _ _ hi] at h
  rw [h, CT.get_mul _ _ hi]
  unfold subsetProduct
  refine Finset.sum_congr rfl fun j hj => Finset.sum_congr rfl fun k hk => ?_
  rw [Finset.mem_range] at hj hk
  rw [get_rd _ _ hj, get_rd _ _ hk]

/-- C27: ... and from three variables on the coefficient of the last variable is
    `c*b + b*(c*b)` where the square has `2*b*c` (`b` the constant, `c` that
    coefficient).  The two agree only if `b*c*(b-1) = 0`. -/
theorem C27_self_wrong_value (n dst : ℕ) (m : Mem V) :
    recMulto (n + 3) dst dst m (dst + 2 ^ (n + 2)) =
      m (dst + 2 ^ (n + 2)) * m dst + m dst * (m (dst + 2 ^ (n + 2)) * m dst) ∧
    subsetProduct (n + 3) (fun j => m (dst + j)) (fun k => m (dst + k)) (2 ^ (n + 2)) =
      2 * (m dst * m (dst + 2 ^ (n + 2))) := by
  refine ⟨recMulto_self_top n dst m, ?_⟩
  have hi : 2 ^ (n + 2) < 2 ^ (n + 3) := Nat.pow_lt_pow_right (by omega) (by omega)
  have hr : ∀ j < 2 ^ (n + 3), m (dst + j) = (rd (n + 3) m dst).get j := fun j hj =>
    (get_rd m dst hj).symm
  have e : subsetProduct (n + 3) (fun j => m (dst + j)) (fun k => m (dst + k)) (2 ^ (n + 2)) =
      (rd (n + 3) m dst * rd (n + 3) m dst).get (2 ^ (n + 2)) := by
    rw [CT.get_mul _ _ hi]
    unfold subsetProduct
    refine Finset.sum_congr rfl fun j hj => Finset.sum_congr rfl fun k hk => ?_
    rw [Finset.mem_range] at hj hk
    rw [← hr j hj, ← hr k hk]
  rw [e, rd_succ, CT.node_mul_node, CT.get, if_neg (lt_irrefl _), Nat.sub_self, CT.get_add,
    ← CT.c0_eq_get, ← CT.c0_eq_get, CT.c0_mul, CT.c0_mul, c0_rd, c0_rd]
  ring

/-- C27: so with three or more variables `x *= x` does not compute the square. -/
theorem C27_self_wrong (n : ℕ) : ∃ m : Mem ℤ, ∃ i < 2 ^ (n + 3),
    recMulto (n + 3) 0 0 m i ≠ subsetProduct (n + 3) m m i := by
  refine ⟨fun p => if p = 0 then 2 else if p = 2 ^ (n + 2) then 1 else 0, 2 ^ (n + 2),
    Nat.pow_lt_pow_right (by omega) (by omega), ?_⟩
  have h := C27_self_wrong_value (V := ℤ) n 0
    (fun p => if p = 0 then 2 else if p = 2 ^ (n + 2) then 1 else 0)
  simp only [Nat.zero_add] at h
  rw [h.1, h.2]
  simp

-- Two objects side by side satisfy the hypothesis of `C27_in_place`.
example : Apart 0 (2 ^ 6) (2 ^ 6) (2 ^ 6) := by unfold Apart; omega

/-! ### C28 -/

/-- C28: `compose` stores the truncated series in the non-constant part of `x`, for
    every number of variables (the unrolled versions for 0, 1, 2 included), provided the
    result overlaps neither `x` nor the coefficient array; it writes nothing else. -/
theorem C28_compose (n res x coeff : ℕ) (m : Mem V) (hx : Apart res (2 ^ n) x (2 ^ n))
    (hc : Apart res (2 ^ n) coeff (n + 1)) :
    (rd n (recCompose n res x coeff m) res = ∑ i ∈ Finset.range (n + 1),
      CT.const n (m (coeff + i)) * (rd n m x - CT.const n (m x)) ^ i) ∧
    ∀ q, q < res ∨ res + 2 ^ n ≤ q → recCompose n res x coeff m q = m q := by
  obtain ⟨h1, h2⟩ := recCompose_rd n res x coeff m hx hc
  exact ⟨by rw [h1, CT.compose_eq_sum, c0_rd], h2⟩

/-- C28: higher coefficients would contribute nothing, so nothing is lost by the
    truncation at `N`. -/
theorem C28_no_truncation_error {n k : ℕ} (x : CT V n) (c : ℕ → V) (hk : n ≤ k) :
    CT.compose x c =
      ∑ i ∈ Finset.range (k + 1), CT.const n (c i) * (x - CT.const n (x.get 0)) ^ i := by
  rw [CT.compose_eq_sum_of_le x c hk, CT.c0_eq_get]

/-- C28: the product of two compositions with the same argument is the composition with
    the product series (Cauchy product): composing is compatible with multiplying
    functions. -/
theorem C28_compose_mul {n : ℕ} (x : CT V n) (c d : ℕ → V) :
    CT.compose x c * CT.compose x d =
      CT.compose x (fun k => ∑ i ∈ Finset.range (k + 1), c i * d (k - i)) := by
  induction n generalizing c d with
  | zero => cases x; simp
  | succ n ih =>
    cases x with
    | node l h =>
      rw [CT.compose_node, CT.compose_node, CT.compose_node, CT.node_mul_node, ih]
      congr 1
      rw [mul_right_comm, ih, ← mul_assoc, ih, ← add_mul]
      congr 1
      rw [CT.compose_eq_sum, CT.compose_eq_sum, CT.compose_eq_sum, ← Finset.sum_add_distrib]
      refine Finset.sum_congr rfl fun k _ => ?_
      rw [← add_mul, ← CT.const_add]
      congr 2
      have e : ((k + 1 : ℕ) : V) * ∑ i ∈ Finset.range (k + 1 + 1), c i * d (k + 1 - i) =
          ∑ i ∈ Finset.range (k + 1 + 1), (i : V) * c i * d (k + 1 - i) +
          ∑ i ∈ Finset.range (k + 1 + 1), ((k + 1 - i : ℕ) : V) * c i * d (k + 1 - i) := by
        rw [← Finset.sum_add_distrib, Finset.mul_sum]
        refine Finset.sum_congr rfl fun i hi => ?_
        have hi : i ≤ k + 1 := by simpa [Nat.lt_succ_iff] using hi
        rw [Nat.cast_sub hi]; ring
      have e1 : ∑ i ∈ Finset.range (k + 1 + 1), (i : V) * c i * d (k + 1 - i) =
          ∑ i ∈ Finset.range (k + 1), ((i + 1 : ℕ) : V) * c (i + 1) * d (k - i) := by
        rw [Finset.sum_range_succ']; simp
      have e2 : ∑ i ∈ Finset.range (k + 1 + 1), ((k + 1 - i : ℕ) : V) * c i * d (k + 1 - i) =
          ∑ i ∈ Finset.range (k + 1), c i * (((k - i + 1 : ℕ) : V) * d (k - i + 1)) := by
        rw [Finset.sum_range_succ]
        simp only [Nat.sub_self, Nat.cast_zero, zero_mul, add_zero]
        refine Finset.sum_congr rfl fun i hi => ?_
        have hi : i ≤ k := by simpa [Nat.lt_succ_iff] using hi
        rw [Nat.succ_sub hi]; ring
      rw [e, e1, e2]

-- Argument, coefficients and result placed one after the other, three variables.
example : Apart 0 (2 ^ 3) 8 (2 ^ 3) ∧ Apart 0 (2 ^ 3) 16 (3 + 1) := by unfold Apart; omega

-- The coefficient of xy in c0 + c1*(x+y) + c2*(x+y)^2 is 2*c2.
example : (CT.compose (CT.node (CT.node (CT.leaf 7) (CT.leaf 1))
    (CT.node (CT.leaf 1) (CT.leaf 0)) : CT ℤ 2) (fun i => if i = 2 then 5 else 3)).get 3 = 10 := by
  decide +kernel

end XCFun.Props
