/-
Algebra of `CT V n`: the ring laws, the coefficients of sums and products, and the
sum formula for `compose`.
-/
import Mathlib.Algebra.BigOperators.Ring.Finset
import Mathlib.Algebra.BigOperators.Intervals
import Mathlib.Tactic.Ring
import Mathlib.Tactic.Abel
import Mathlib.Data.Nat.Bitwise
import Verif.Model.CT

namespace XCFun
namespace CT

universe u
variable {V : Type u} {n : ℕ}

section basic
@[simp] theorem leaf_add_leaf [Add V] (a b : V) : (leaf a + leaf b : CT V 0) = leaf (a + b) := rfl
@[simp] theorem node_add_node [Add V] (a b c d : CT V n) :
    node a b + node c d = node (a + c) (b + d) := rfl
@[simp] theorem leaf_sub_leaf [Sub V] (a b : V) : (leaf a - leaf b : CT V 0) = leaf (a - b) := rfl
@[simp] theorem node_sub_node [Sub V] (a b c d : CT V n) :
    node a b - node c d = node (a - c) (b - d) := rfl
@[simp] theorem neg_leaf [Neg V] (a : V) : (-leaf a : CT V 0) = leaf (-a) := rfl
@[simp] theorem neg_node [Neg V] (a b : CT V n) : -node a b = node (-a) (-b) := rfl
@[simp] theorem leaf_mul_leaf [Add V] [Mul V] (a b : V) :
    (leaf a * leaf b : CT V 0) = leaf (a * b) := rfl
@[simp] theorem node_mul_node [Add V] [Mul V] (a b c d : CT V n) :
    node a b * node c d = node (a * c) (b * c + a * d) := rfl
theorem zero_leaf [Zero V] : (0 : CT V 0) = leaf 0 := rfl
theorem zero_node [Zero V] : (0 : CT V (n + 1)) = node 0 0 := rfl
theorem one_leaf [Zero V] [One V] : (1 : CT V 0) = leaf 1 := rfl
theorem one_node [Zero V] [One V] : (1 : CT V (n + 1)) = node 1 0 := rfl
theorem const_zero_eq [Zero V] : const n (0 : V) = 0 := rfl
theorem const_one_eq [Zero V] [One V] : const n (1 : V) = 1 := rfl
@[simp] theorem const_leaf [Zero V] (c : V) : const 0 c = leaf c := rfl
@[simp] theorem const_node [Zero V] (c : V) : const (n + 1) c = node (const n c) 0 := rfl
theorem mul_def [Add V] [Mul V] (x y : CT V n) : x.mul y = x * y := rfl
theorem get_ofFn (f : ℕ → V) {i : ℕ} (hi : i < 2 ^ n) : (ofFn n f).get i = f i := by
  induction n generalizing f i with
  | zero => simp at hi; subst hi; rfl
  | succ n ih =>
    simp only [ofFn, get]
    split
    · rw [ih _ (by assumption)]
    · rw [ih]
      · congr 1; omega
      · rw [pow_succ] at hi; omega

theorem ext_get {x y : CT V n} (h : ∀ i < 2 ^ n, x.get i = y.get i) : x = y := by
  induction x with
  | leaf a => cases y with | leaf b => exact congrArg leaf (h 0 (by simp))
  | @node n a b iha ihb =>
    cases y with
    | node c d =>
      congr 1
      · refine iha fun i hi => ?_
        have := h i (by rw [pow_succ]; omega)
        simpa [get, hi] using this
      · refine ihb fun i hi => ?_
        have := h (2 ^ n + i) (by rw [pow_succ]; omega)
        simpa [get] using this

theorem ofFn_get (x : CT V n) : ofFn n x.get = x :=
  ext_get fun _ hi => get_ofFn _ hi

theorem ofFn_congr {f g : ℕ → V} (h : ∀ i < 2 ^ n, f i = g i) : ofFn n f = ofFn n g :=
  ext_get fun i hi => by rw [get_ofFn _ hi, get_ofFn _ hi, h i hi]

theorem c0_eq_get (x : CT V n) : x.c0 = x.get 0 := by
  induction x with
  | leaf a => rfl
  | node a b iha _ => simp [c0, get, iha]

theorem get_set (x : CT V n) {i j : ℕ} (hi : i < 2 ^ n) (hj : j < 2 ^ n) (v : V) :
    (x.set i v).get j = if j = i then v else x.get j := by
  induction x generalizing i j with
  | leaf a => simp at hi hj; subst hi hj; simp [set, get]
  | @node n a b iha ihb =>
    rw [pow_succ] at hi hj
    simp only [set]
    split <;> simp only [get] <;> split
    · rw [iha (by assumption) (by assumption)]
    · rw [if_neg (by omega)]
    · rw [if_neg (by omega)]
    · rw [ihb (by omega) (by omega)]
      exact if_congr (by omega) rfl rfl

end basic

section ring
variable [CommRing V]

protected theorem add_assoc' (x y z : CT V n) : x + y + z = x + (y + z) := by
  induction x with
  | leaf a => cases y; cases z; simp [add_assoc]
  | node a b iha ihb => cases y; cases z; simp [iha, ihb]

protected theorem add_comm' (x y : CT V n) : x + y = y + x := by
  induction x with
  | leaf a => cases y; simp [add_comm]
  | node a b iha ihb => cases y; rw [node_add_node, node_add_node, iha, ihb]

protected theorem zero_add' (x : CT V n) : 0 + x = x := by
  induction x with
  | leaf a => simp [zero_leaf]
  | node a b iha ihb => simp [zero_node, iha, ihb]

protected theorem neg_add_cancel' (x : CT V n) : -x + x = 0 := by
  induction x with
  | leaf a => simp [zero_leaf]
  | node a b iha ihb => simp [zero_node, iha, ihb]

protected theorem sub_eq_add_neg' (x y : CT V n) : x - y = x + -y := by
  induction x with
  | leaf a => cases y; simp [sub_eq_add_neg]
  | node a b iha ihb => cases y; simp [iha, ihb]

instance instAddCommGroup : AddCommGroup (CT V n) where
  add_assoc := CT.add_assoc'
  zero_add := CT.zero_add'
  add_zero x := by rw [CT.add_comm', CT.zero_add']
  neg_add_cancel := CT.neg_add_cancel'
  add_comm := CT.add_comm'
  sub_eq_add_neg := CT.sub_eq_add_neg'
  nsmul := nsmulRec
  zsmul := zsmulRec

protected theorem mul_comm' (x y : CT V n) : x * y = y * x := by
  induction x with
  | leaf a => cases y; simp [mul_comm]
  | node a b iha ihb =>
    cases y with
    | node c d =>
      rw [node_mul_node, node_mul_node, iha c, ihb c, iha d, add_comm (c * b)]

protected theorem left_distrib' (x y z : CT V n) : x * (y + z) = x * y + x * z := by
  induction x with
  | leaf a => cases y; cases z; simp [mul_add]
  | node a b iha ihb =>
    cases y with
    | node c d =>
      cases z with
      | node e f =>
        simp only [node_add_node, node_mul_node, iha, ihb]
        congr 1; abel

protected theorem right_distrib' (x y z : CT V n) : (x + y) * z = x * z + y * z := by
  rw [CT.mul_comm', CT.left_distrib', CT.mul_comm' z, CT.mul_comm' z]

protected theorem zero_mul' (x : CT V n) : 0 * x = 0 := by
  induction x with
  | leaf a => simp [zero_leaf]
  | node a b iha ihb => simp [zero_node, iha, ihb]

protected theorem one_mul' (x : CT V n) : 1 * x = x := by
  induction x with
  | leaf a => simp [one_leaf]
  | node a b iha ihb => simp [one_node, iha, ihb, CT.zero_mul']

protected theorem mul_assoc' (x y z : CT V n) : x * y * z = x * (y * z) := by
  induction x with
  | leaf a => cases y; cases z; simp [mul_assoc]
  | node a b iha ihb =>
    cases y with
    | node c d =>
      cases z with
      | node e f =>
        simp only [node_mul_node, iha, ihb, CT.right_distrib', CT.left_distrib']
        congr 1; abel

/-- `ctaylor<T,Nvar>` is a commutative ring when its scalar is. -/
instance instCommRing : CommRing (CT V n) where
  __ := instAddCommGroup
  mul := (· * ·)
  one := 1
  mul_assoc := CT.mul_assoc'
  one_mul := CT.one_mul'
  mul_one x := by rw [CT.mul_comm', CT.one_mul']
  left_distrib := CT.left_distrib'
  right_distrib := CT.right_distrib'
  zero_mul := CT.zero_mul'
  mul_zero x := by rw [CT.mul_comm', CT.zero_mul']
  mul_comm := CT.mul_comm'

/-! Constants and scalar operands. -/

@[simp] theorem c0_const (c : V) : (const n c).c0 = c := by
  induction n with
  | zero => rfl
  | succ n ih => exact ih

theorem const_add (a b : V) : const n (a + b) = const n a + const n b := by
  induction n with
  | zero => rfl
  | succ n ih => simp [ih]

theorem const_mul (a b : V) : const n (a * b) = const n a * const n b := by
  induction n with
  | zero => rfl
  | succ n ih => simp [ih]

theorem const_neg (a : V) : const n (-a) = -const n a := by
  induction n with
  | zero => rfl
  | succ n ih => simp [ih]

theorem const_sub (a b : V) : const n (a - b) = const n a - const n b := by
  rw [sub_eq_add_neg, const_add, const_neg, ← sub_eq_add_neg]

/-- Constants form a ring homomorphism. -/
def constHom (V : Type u) [CommRing V] (n : ℕ) : V →+* CT V n where
  toFun := const n
  map_one' := rfl
  map_mul' := const_mul
  map_zero' := rfl
  map_add' := const_add

@[simp] theorem constHom_apply (c : V) : constHom V n c = const n c := rfl

@[simp] theorem c0_add (x y : CT V n) : (x + y).c0 = x.c0 + y.c0 := by
  induction x with
  | leaf a => cases y; rfl
  | node a b iha _ => cases y with | node c d => exact iha c

@[simp] theorem c0_neg (x : CT V n) : (-x).c0 = -x.c0 := by
  induction x with
  | leaf a => rfl
  | node a b iha _ => exact iha

@[simp] theorem c0_mul (x y : CT V n) : (x * y).c0 = x.c0 * y.c0 := by
  induction x with
  | leaf a => cases y; rfl
  | node a b iha _ => cases y with | node c d => exact iha c

@[simp] theorem c0_sub (x y : CT V n) : (x - y).c0 = x.c0 - y.c0 := by
  rw [sub_eq_add_neg, c0_add, c0_neg, sub_eq_add_neg]

theorem setC0_eq (x : CT V n) (v : V) : x.setC0 v = x + const n (v - x.c0) := by
  induction x with
  | leaf a => simp [setC0, c0]
  | node a b iha _ => simp [setC0, c0, iha]

theorem smul_eq (a : V) (x : CT V n) : smul a x = const n a * x := by
  induction x with
  | leaf c => rfl
  | node l h ihl ihh =>
    have e : smul a (node l h) = node (smul a l) (smul a h) := rfl
    rw [e, ihl, ihh]; simp

theorem addScalar_eq (x : CT V n) (a : V) : x.addScalar a = x + const n a := by
  rw [addScalar, setC0_eq]; congr 2; ring

theorem subScalar_eq (x : CT V n) (a : V) : x.subScalar a = x - const n a := by
  rw [subScalar, setC0_eq, sub_eq_add_neg x, ← const_neg]; congr 2; ring

theorem scalarSub_eq (a : V) (x : CT V n) : scalarSub a x = const n a - x := by
  rw [scalarSub, setC0_eq, add_sub_cancel_left, sub_eq_add_neg, add_comm]

/-! Nilpotency and composition. -/

theorem mulSkip_eq (x y : CT V n) : x.mulSkip y = x * (y - const n y.c0) := by
  induction x with
  | leaf a => cases y; simp [mulSkip, c0, zero_leaf]
  | node a b iha ihb =>
    cases y with
    | node c d =>
      simp only [mulSkip, mul_def, iha, ihb, c0, const_node, node_sub_node, node_mul_node, sub_zero]

/-- A value without constant term has vanishing `(n+1)`-st power. -/
theorem pow_succ_eq_zero (x : CT V n) (hx : x.c0 = 0) : x ^ (n + 1) = 0 := by
  induction x with
  | leaf a => simp [c0] at hx; subst hx; simp [zero_leaf]
  | @node n l h ihl _ =>
    have key : ∀ k, (node l h) ^ (k + 1) = node (l ^ (k + 1)) (((k + 1 : ℕ) : CT V n) * l ^ k * h) := by
      intro k
      induction k with
      | zero => simp
      | succ k ih =>
        rw [pow_succ, ih, node_mul_node]
        congr 1
        push_cast; ring
    rw [key, pow_succ, ihl hx]
    simp [zero_node]

theorem horner_eq (x : CT V n) (c : ℕ → V) (i : ℕ) (r : CT V n) :
    horner x c i r = r * (x - const n x.c0) ^ i +
      ∑ j ∈ Finset.range i, const n (c j) * (x - const n x.c0) ^ j := by
  induction i generalizing r with
  | zero => simp [horner]
  | succ i ih =>
    rw [horner, ih, mulSkip_eq, setC0_eq, Finset.sum_range_succ]
    simp only [add_sub_cancel_left]
    ring

/-- `compose` is the truncated power series in the non-constant part. -/
theorem compose_eq_sum (x : CT V n) (c : ℕ → V) :
    compose x c = ∑ i ∈ Finset.range (n + 1), const n (c i) * (x - const n x.c0) ^ i := by
  rw [compose, horner_eq, Finset.sum_range_succ, add_comm]

/-- Terms beyond `n` would not change the sum. -/
theorem compose_eq_sum_of_le (x : CT V n) (c : ℕ → V) {m : ℕ} (hm : n ≤ m) :
    compose x c = ∑ i ∈ Finset.range (m + 1), const n (c i) * (x - const n x.c0) ^ i := by
  rw [compose_eq_sum]
  refine Finset.sum_subset (by intro i; simp; omega) ?_
  intro i _ hi
  have hi : n + 1 ≤ i := by simpa using hi
  have h0 : (x - const n x.c0).c0 = 0 := by simp
  obtain ⟨k, rfl⟩ := Nat.exists_eq_add_of_le hi
  rw [pow_add, pow_succ_eq_zero _ h0]; simp

theorem compose_congr (x : CT V n) {c c' : ℕ → V} (h : ∀ i ≤ n, c i = c' i) :
    compose x c = compose x c' := by
  rw [compose_eq_sum, compose_eq_sum]
  refine Finset.sum_congr rfl fun i hi => ?_
  rw [h i (by simp at hi; omega)]

@[simp] theorem compose_leaf (a : V) (c : ℕ → V) : compose (leaf a) c = leaf (c 0) := rfl

/-- The step that carries differentiation: the part of a composition containing the
    last variable is the composition with the differentiated series times the inner
    part. -/
theorem compose_node (l h : CT V n) (c : ℕ → V) :
    compose (node l h) c =
      node (compose l c) (compose l (fun i => ((i + 1 : ℕ) : V) * c (i + 1)) * h) := by
  have key : ∀ k : ℕ, (node l h - const (n + 1) (node l h).c0) ^ (k + 1) =
      node ((l - const n l.c0) ^ (k + 1)) (((k + 1 : ℕ) : CT V n) * (l - const n l.c0) ^ k * h) := by
    intro k
    have e : node l h - const (n + 1) (node l h).c0 = node (l - const n l.c0) h := by
      simp [c0]
    rw [e]
    induction k with
    | zero => simp
    | succ k ih =>
      rw [pow_succ, ih, node_mul_node]
      congr 1
      push_cast; ring
  have nodesum : ∀ (s : Finset ℕ) (f g : ℕ → CT V n),
      ∑ i ∈ s, node (f i) (g i) = node (∑ i ∈ s, f i) (∑ i ∈ s, g i) := by
    intro s f g
    induction s using Finset.cons_induction with
    | empty => rfl
    | cons a s ha ih => rw [Finset.sum_cons, Finset.sum_cons, Finset.sum_cons, ih, node_add_node]
  have cc : ∀ i : ℕ, const n ((i + 1 : ℕ) : V) = ((i + 1 : ℕ) : CT V n) := by
    intro i; exact map_natCast (constHom V n) (i + 1)
  rw [compose_eq_sum, compose_eq_sum_of_le l c (Nat.le_succ n), compose_eq_sum,
    Finset.sum_range_succ', Finset.sum_range_succ' (n := n + 1), Finset.sum_mul]
  simp only [key]
  simp only [pow_zero, mul_one, const_node, node_mul_node, zero_mul, zero_add,
    nodesum, node_add_node, add_zero]
  congr 1
  refine Finset.sum_congr rfl fun i _ => ?_
  rw [const_mul, cc]; ring

/-! Coefficients. -/

theorem get_add (x y : CT V n) (i : ℕ) : (x + y).get i = x.get i + y.get i := by
  induction x generalizing i with
  | leaf a => cases y; rfl
  | node a b iha ihb =>
    cases y with
    | node c d => simp only [node_add_node, get]; split <;> simp [iha, ihb]

theorem get_neg (x : CT V n) (i : ℕ) : (-x).get i = -x.get i := by
  induction x generalizing i with
  | leaf a => rfl
  | node a b iha ihb => simp only [neg_node, get]; split <;> simp [iha, ihb]

theorem get_sub (x y : CT V n) (i : ℕ) : (x - y).get i = x.get i - y.get i := by
  rw [sub_eq_add_neg, get_add, get_neg, sub_eq_add_neg]

theorem get_zero (i : ℕ) : (0 : CT V n).get i = 0 := by
  induction n generalizing i with
  | zero => rfl
  | succ n ih => rw [zero_node]; simp only [get]; split <;> simp [ih]

theorem get_const (c : V) {i : ℕ} (hi : i < 2 ^ n) :
    (const n c).get i = if i = 0 then c else 0 := by
  induction n generalizing i with
  | zero => simp at hi; subst hi; rfl
  | succ n ih =>
    rw [const_node]; simp only [get]; split
    · exact ih (by assumption)
    · have : 0 < 2 ^ n := Nat.two_pow_pos n
      rw [if_neg (by omega), get_zero]

theorem get_const_mul (a : V) (x : CT V n) (i : ℕ) : (const n a * x).get i = a * x.get i := by
  induction x generalizing i with
  | leaf c => rfl
  | node l h ihl ihh => simp only [const_node, node_mul_node, zero_mul, zero_add, get]
                        split <;> simp [ihl, ihh]

end ring
end CT
end XCFun
