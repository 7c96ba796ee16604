/-
Rounded arithmetic.  The rest of the development computes exactly; this file says what is
needed of a floating point type to bound how far the code's results are from the exact ones.
-/
import Verif.Model.Eval
import Mathlib.Data.Real.Basic
import Mathlib.Algebra.Order.Round
import Mathlib.Algebra.Order.Floor.Ring
import Mathlib.Data.Int.Log
import Mathlib.Algebra.Order.Archimedean.Real.Basic
import Mathlib.Tactic.Linarith
import Mathlib.Tactic.FieldSimp
import Mathlib.Tactic.Positivity

namespace XCFun.Spec
open XCFun

/-- A type of numbers whose operations are exact up to a relative error `u`: `val` is the real
    number represented.  Zero, one and negation are exact.  This is the usual model of floating
    point arithmetic in the absence of overflow and underflow. -/
structure Rounded (V : Type) [Zero V] [One V] [Add V] [Sub V] [Mul V] [Neg V] where
  val : V → ℝ
  u : ℝ
  u_nonneg : 0 ≤ u
  val_zero : val 0 = 0
  val_one : val 1 = 1
  val_neg : ∀ x, val (-x) = -val x
  add_err : ∀ x y, |val (x + y) - (val x + val y)| ≤ u * |val x + val y|
  sub_err : ∀ x y, |val (x - y) - (val x - val y)| ≤ u * |val x - val y|
  mul_err : ∀ x y, |val (x * y) - val x * val y| ≤ u * |val x * val y|

/-! A concrete instance: binary floating point numbers with `p` bits and unlimited exponent,
rounding to nearest (`p = 53` for `double`). -/

/-- The multiple of `2 ^ (e + 1 - p)` nearest to `x`, where `2 ^ e ≤ |x| < 2 ^ (e + 1)`: `x`
    rounded to `p` significant bits. -/
noncomputable def roundBits (p : ℕ) (x : ℝ) : ℝ :=
  round (x / (2 : ℝ) ^ (Int.log 2 |x| + 1 - p)) * (2 : ℝ) ^ (Int.log 2 |x| + 1 - p)

/-- Numbers that are added, subtracted and multiplied with rounding to `p` bits. -/
structure Bits (p : ℕ) where
  real : ℝ

namespace Bits
variable {p : ℕ}

instance : Zero (Bits p) := ⟨⟨0⟩⟩
instance : One (Bits p) := ⟨⟨1⟩⟩
noncomputable instance : Neg (Bits p) := ⟨fun x => ⟨-x.real⟩⟩
noncomputable instance : Add (Bits p) := ⟨fun x y => ⟨roundBits p (x.real + y.real)⟩⟩
noncomputable instance : Sub (Bits p) := ⟨fun x y => ⟨roundBits p (x.real - y.real)⟩⟩
noncomputable instance : Mul (Bits p) := ⟨fun x y => ⟨roundBits p (x.real * y.real)⟩⟩

theorem round_err (x : ℝ) : |roundBits p x - x| ≤ (1 / 2) ^ p * |x| := by
  unfold roundBits
  set h : ℝ := (2 : ℝ) ^ (Int.log 2 |x| + 1 - p) with hh
  have hp : 0 < h := zpow_pos (by norm_num) _
  have h1 : |x / h - round (x / h)| ≤ 1 / 2 := abs_sub_round _
  have h2 : |(round (x / h) : ℝ) * h - x| = |x / h - round (x / h)| * h := by
    rw [← abs_of_pos hp, ← abs_mul, abs_sub_comm, abs_of_pos hp]
    congr 1
    field_simp
  rw [h2]
  rcases eq_or_ne x 0 with rfl | hx
  · simp
  have h3 : (2 : ℝ) ^ (Int.log 2 |x|) ≤ |x| := by
    have := Int.zpow_log_le_self (b := 2) (r := |x|) (by norm_num) (abs_pos.mpr hx)
    exact_mod_cast this
  have h4 : h = 2 * (1 / 2) ^ p * (2 : ℝ) ^ (Int.log 2 |x|) := by
    rw [hh, zpow_sub₀ (by norm_num), zpow_add₀ (by norm_num), zpow_one, zpow_natCast]
    field_simp
    simp
  calc _ ≤ 1 / 2 * h := by gcongr
    _ = (1 / 2) ^ p * (2 : ℝ) ^ (Int.log 2 |x|) := by rw [h4]; ring
    _ ≤ _ := by gcongr

/-- The rounded operations have relative error at most `2 ^ (-p)`. -/
noncomputable def rounded (p : ℕ) : Rounded (Bits p) where
  val := Bits.real
  u := (1 / 2) ^ p
  u_nonneg := by positivity
  val_zero := rfl
  val_one := rfl
  val_neg _ := rfl
  add_err _ _ := round_err _
  sub_err _ _ := round_err _
  mul_err _ _ := round_err _

end Bits

/-! The sum over the functionals. -/

/-- The error allowed for `sum w_id * E_id` over the functionals `l`: the rounding errors of
    `l.length` products and additions, when the exact `E_id` are at most `B id` in size and the
    computed ones are within `ε id` of them, and what these errors contribute themselves. -/
noncomputable def sumBound (u : ℝ) (l : List ℕ) (w B ε : ℕ → ℝ) : ℝ :=
  ((1 + u) ^ (l.length + 1) - 1) * (l.map fun id => |w id| * (B id + ε id)).sum +
    (l.map fun id => |w id| * ε id).sum

/-- Expansions of the inputs `x` in which every input has been perturbed or not: the constant
    terms are the inputs, all other coefficients are 0 or 1. -/
def UnitSeed {V : Type} [Zero V] [One V] (x : ℕ → V) {N : ℕ} (ρ : ℕ → CT V N) : Prop :=
  ∀ l, (ρ l).get 0 = x l ∧ ∀ i, 0 < i → i < 2 ^ N → (ρ l).get i = 0 ∨ (ρ l).get i = 1

/-- The kernel `K` computes with rounding what the kernel `K'` computes exactly, functional `id`
    up to `ε id` in each coefficient, and the exact coefficients are at most `B id` in size: at the
    expansions `ρ`. -/
def Tracks {V : Type} [Zero V] [One V] [Add V] [Sub V] [Mul V] [Neg V] (A : Rounded V)
    (K : Kernel V) (K' : Kernel ℝ) (s : State V) (s' : State ℝ) (v : Vars) (B ε : ℕ → ℝ) {N : ℕ}
    (ρ : ℕ → CT V N) : Prop :=
  ∀ id ∈ s.active, ∀ i < 2 ^ N,
    |A.val ((K.fp v s.settings id N ρ).get i) -
      (K'.fp v s'.settings id N fun l => (ρ l).map A.val).get i| ≤ ε id ∧
    |(K'.fp v s'.settings id N fun l => (ρ l).map A.val).get i| ≤ B id

/-- The same object with the settings of `s` rounded: same functionals, variables, mode and
    order. -/
structure Matches {V : Type} [Zero V] [One V] [Add V] [Sub V] [Mul V] [Neg V] (A : Rounded V)
    (s : State V) (s' : State ℝ) : Prop where
  active : s'.active = s.active
  vars : s'.vars = s.vars
  mode : s'.mode = s.mode
  order : s'.order = s.order
  settings : ∀ id, s'.settings id = A.val (s.settings id)

end XCFun.Spec
