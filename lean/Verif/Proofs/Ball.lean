/-
Verified numerical evaluation: intervals with midpoint and radius in fixed point arithmetic, and the elementary functions on them.
The functions are evaluated by the kernel (`decide +kernel`), hence only natural numbers and recursors.
-/
import Mathlib.Analysis.SpecialFunctions.Log.Deriv
import Mathlib.Analysis.SpecialFunctions.Pow.Real
import Mathlib.Analysis.SpecialFunctions.Arsinh
import Mathlib.Analysis.SpecialFunctions.Trigonometric.ArctanDeriv
import Mathlib.Analysis.Calculus.MeanValue
import Mathlib.Analysis.Complex.Exponential
import Mathlib.Tactic.Positivity
import Mathlib.Tactic.Linarith
import Mathlib.Tactic.FieldSimp
import Mathlib.Tactic.NormNum

set_option exponentiation.threshold 500

namespace XCFun.Num

/-- A number known up to an error, in units of `2^-192`: exactly zero; `n` up to `r`; `-n` up to `r`; unknown. -/
inductive Q where
  | z
  | p (n r : ℕ)
  | m (n r : ℕ)
  | bad

/-- The unit. -/
noncomputable def U : ℝ := 2 ^ 192

theorem U_pos : 0 < U := by unfold U; positivity

/-- What a `Q` says about a real number. -/
def Near : Q → ℝ → Prop
  | .z, x => x = 0
  | .p n r, x => |x * U - n| ≤ r
  | .m n r, x => |x * U + n| ≤ r
  | .bad, _ => True

@[simp] theorem near_z {x : ℝ} : Near .z x ↔ x = 0 := Iff.rfl
@[simp] theorem near_p {n r : ℕ} {x : ℝ} : Near (.p n r) x ↔ |x * U - n| ≤ r := Iff.rfl
@[simp] theorem near_m {n r : ℕ} {x : ℝ} : Near (.m n r) x ↔ |x * U + n| ≤ r := Iff.rfl
@[simp] theorem near_bad {x : ℝ} : Near .bad x := trivial

/-- `k n`, but `n` is evaluated first. -/
noncomputable def force (n : ℕ) (k : ℕ → Q) : Q := Nat.casesOn n (k 0) (fun m => k (Nat.succ m))

@[simp] theorem force_eq (n : ℕ) (k : ℕ → Q) : force n k = k n := by cases n <;> rfl

noncomputable def mkp (n r : ℕ) : Q := force n fun n => force r fun r => .p n r
noncomputable def mkm (n r : ℕ) : Q := force n fun n => force r fun r => .m n r

@[simp] theorem mkp_eq (n r : ℕ) : mkp n r = .p n r := by simp [mkp]
@[simp] theorem mkm_eq (n r : ℕ) : mkm n r = .m n r := by simp [mkm]

namespace Q

noncomputable def neg (x : Q) : Q := Q.casesOn x .z (fun n r => .m n r) (fun n r => .p n r) .bad

theorem near_neg {q : Q} {x : ℝ} (h : Near q x) : Near q.neg (-x) := by
  cases q with
  | z => simpa [neg] using h
  | p n r =>
    show |-x * U + n| ≤ r
    rw [near_p] at h; rw [← abs_neg]; convert h using 2; ring
  | m n r =>
    show |-x * U - n| ≤ r
    rw [near_m] at h; rw [← abs_neg]; convert h using 2; ring
  | bad => trivial

/-- Midpoint of a product. -/
def mid (n n' : ℕ) : ℕ := Nat.shiftRight (Nat.mul n n') 192
/-- Radius of a product. -/
def rad (n r n' r' : ℕ) : ℕ := Nat.succ (Nat.succ (Nat.shiftRight (Nat.add (Nat.mul n r') (Nat.mul r (Nat.add n' r'))) 192))

noncomputable def mul (x y : Q) : Q :=
  Q.casesOn x .z
    (fun n r => Q.casesOn y .z (fun n' r' => mkp (mid n n') (rad n r n' r')) (fun n' r' => mkm (mid n n') (rad n r n' r')) .bad)
    (fun n r => Q.casesOn y .z (fun n' r' => mkm (mid n n') (rad n r n' r')) (fun n' r' => mkp (mid n n') (rad n r n' r')) .bad)
    (Q.casesOn y .z (fun _ _ => .bad) (fun _ _ => .bad) .bad)

theorem shr_le (a k : ℕ) : ((Nat.shiftRight a k : ℕ) : ℝ) * 2 ^ k ≤ a := by
  have : Nat.shiftRight a k = a / 2 ^ k := Nat.shiftRight_eq_div_pow a k
  rw [this]
  exact_mod_cast Nat.div_mul_le_self a (2 ^ k)

theorem lt_shr (a k : ℕ) : (a : ℝ) < (((Nat.shiftRight a k : ℕ) : ℝ) + 1) * 2 ^ k := by
  have : Nat.shiftRight a k = a / 2 ^ k := Nat.shiftRight_eq_div_pow a k
  rw [this]
  have := Nat.lt_div_mul_add (a := a) (b := 2 ^ k) (by positivity)
  have h : (a : ℝ) < ((a / 2 ^ k : ℕ) : ℝ) * ((2 ^ k : ℕ) : ℝ) + ((2 ^ k : ℕ) : ℝ) := by exact_mod_cast this
  push_cast at h ⊢
  linarith

theorem near_mul_pp {n r n' r' : ℕ} {x y : ℝ} (h : |x * U - n| ≤ r) (h' : |y * U - n'| ≤ r') :
    |x * y * U - (mid n n' : ℕ)| ≤ (rad n r n' r' : ℕ) := by
  have hU := U_pos
  have a1 := shr_le (Nat.mul n n') 192
  have a2 := lt_shr (Nat.mul n n') 192
  have b2 := lt_shr (Nat.add (Nat.mul n r') (Nat.mul r (Nat.add n' r'))) 192
  have e1 : ((Nat.mul n n' : ℕ) : ℝ) = n * n' := by rw [Nat.mul_eq]; push_cast; ring
  have e2 : ((Nat.add (Nat.mul n r') (Nat.mul r (Nat.add n' r')) : ℕ) : ℝ) = n * r' + r * (n' + r') := by
    simp only [Nat.mul_eq, Nat.add_eq]; push_cast; ring
  rw [e1] at a1 a2
  rw [e2] at b2
  have key : |x * U * (y * U) - n * n'| ≤ n * r' + r * (n' + r') := by
    have : x * U * (y * U) - n * n' = n * (y * U - n') + (x * U - n) * (y * U) := by ring
    rw [this]
    refine (abs_add_le _ _).trans ?_
    rw [abs_mul, abs_mul, abs_of_nonneg (by positivity : (0 : ℝ) ≤ n)]
    have hy : |y * U| ≤ n' + r' := by
      have : y * U = n' + (y * U - n') := by ring
      rw [this]
      refine (abs_add_le _ _).trans ?_
      rw [abs_of_nonneg (by positivity : (0 : ℝ) ≤ n')]
      linarith
    gcongr
  rw [abs_le] at key ⊢
  simp only [mid, rad]
  generalize Nat.shiftRight (Nat.mul n n') 192 = A at *
  generalize Nat.shiftRight (Nat.add (Nat.mul n r') (Nat.mul r (Nat.add n' r'))) 192 = B at *
  push_cast
  change (A : ℝ) * U ≤ _ at a1
  change _ < ((A : ℝ) + 1) * U at a2
  change _ < ((B : ℝ) + 1) * U at b2
  generalize U = u at *
  constructor
  · rw [← mul_le_mul_iff_left₀ hU]; nlinarith
  · rw [← mul_le_mul_iff_left₀ hU]; nlinarith

theorem near_mul {q q' : Q} {x y : ℝ} (h : Near q x) (h' : Near q' y) : Near (q.mul q') (x * y) := by
  have flip : ∀ {n r : ℕ} {x : ℝ}, |x * U + n| ≤ r ↔ |-x * U - n| ≤ r := by
    intro n r x
    rw [← abs_neg]
    ring_nf
  cases q with
  | z =>
    rw [near_z] at h
    subst h
    simp [mul]
  | p n r =>
    cases q' with
    | z => rw [near_z] at h'; subst h'; simp [mul]
    | p n' r' => simpa [mul] using near_mul_pp h h'
    | m n' r' =>
      have := near_mul_pp h (flip.1 h')
      simp only [mul, mkm_eq, near_m]
      rw [flip]
      convert this using 3
      ring
    | bad => trivial
  | m n r =>
    cases q' with
    | z => rw [near_z] at h'; subst h'; simp [mul]
    | p n' r' =>
      have := near_mul_pp (flip.1 h) h'
      simp only [mul, mkm_eq, near_m]
      rw [flip]
      convert this using 3
      ring
    | m n' r' =>
      have := near_mul_pp (flip.1 h) (flip.1 h')
      simp only [mul, mkp_eq, near_p]
      convert this using 3
      ring
    | bad => trivial
  | bad =>
    cases q' with
    | z => rw [near_z] at h'; subst h'; simp [mul]
    | p n' r' => trivial
    | m n' r' => trivial
    | bad => trivial

/-- `n - n'` up to `r`. -/
noncomputable def subp (n n' r : ℕ) : Q := Bool.casesOn (Nat.ble n' n) (mkm (Nat.sub n' n) r) (mkp (Nat.sub n n') r)

noncomputable def add (x y : Q) : Q :=
  Q.casesOn x y
    (fun n r => Q.casesOn y (.p n r) (fun n' r' => mkp (Nat.add n n') (Nat.add r r')) (fun n' r' => subp n n' (Nat.add r r')) .bad)
    (fun n r => Q.casesOn y (.m n r) (fun n' r' => subp n' n (Nat.add r r')) (fun n' r' => mkm (Nat.add n n') (Nat.add r r')) .bad)
    .bad

theorem near_subp {n n' r : ℕ} {x : ℝ} (h : |x * U - (n - n')| ≤ r) : Near (subp n n' r) x := by
  unfold subp
  cases hb : Nat.ble n' n
  · have : n < n' := by
      by_contra hc
      rw [Nat.ble_eq_true_of_le (not_lt.1 hc)] at hb
      cases hb
    simp only [mkm_eq, near_m, Nat.sub_eq]
    rw [Nat.cast_sub this.le]
    convert h using 2; ring
  · have : n' ≤ n := Nat.le_of_ble_eq_true hb
    simp only [mkp_eq, near_p, Nat.sub_eq]
    rwa [Nat.cast_sub this]

theorem near_add {q q' : Q} {x y : ℝ} (h : Near q x) (h' : Near q' y) : Near (q.add q') (x + y) := by
  cases q with
  | z => rw [near_z] at h; subst h; simpa [add] using h'
  | p n r =>
    cases q' with
    | z => rw [near_z] at h'; subst h'; simpa [add] using h
    | p n' r' =>
      simp only [add, mkp_eq, near_p, Nat.add_eq] at *
      push_cast
      rw [show (x + y) * U - (n + n') = (x * U - n) + (y * U - n') by ring]
      exact (abs_add_le _ _).trans (add_le_add h h')
    | m n' r' =>
      refine near_subp ?_
      simp only [near_p, near_m, Nat.add_eq] at *
      push_cast
      rw [show (x + y) * U - (n - n') = (x * U - n) + (y * U + n') by ring]
      exact (abs_add_le _ _).trans (add_le_add h h')
    | bad => trivial
  | m n r =>
    cases q' with
    | z => rw [near_z] at h'; subst h'; simpa [add] using h
    | p n' r' =>
      refine near_subp ?_
      simp only [near_p, near_m, Nat.add_eq] at *
      push_cast
      rw [show (x + y) * U - (n' - n) = (x * U + n) + (y * U - n') by ring]
      exact (abs_add_le _ _).trans (add_le_add h h')
    | m n' r' =>
      simp only [add, mkm_eq, near_m, Nat.add_eq] at *
      push_cast
      rw [show (x + y) * U + (n + n') = (x * U + n) + (y * U + n') by ring]
      exact (abs_add_le _ _).trans (add_le_add h h')
    | bad => trivial
  | bad => cases q' <;> trivial

noncomputable def sub (x y : Q) : Q := x.add y.neg

theorem near_sub {q q' : Q} {x y : ℝ} (h : Near q x) (h' : Near q' y) : Near (q.sub q') (x - y) := by
  rw [sub_eq_add_neg]; exact near_add h (near_neg h')

/-- Radius of a quotient by a natural number. -/
def drad (r d : ℕ) : ℕ := Nat.succ (Nat.succ (Nat.div r d))

/-- Division by a natural number. -/
noncomputable def divn (x : Q) (d : ℕ) : Q :=
  Q.casesOn x .z (fun n r => mkp (Nat.div n d) (drad r d)) (fun n r => mkm (Nat.div n d) (drad r d)) .bad

theorem near_divn_p {n r d : ℕ} {x : ℝ} (h : |x * U - n| ≤ r) (hd : 0 < d) :
    |x / d * U - (Nat.div n d : ℕ)| ≤ (drad r d : ℕ) := by
  have hd' : (0 : ℝ) < d := by exact_mod_cast hd
  have a1 : ((Nat.div n d : ℕ) : ℝ) * d ≤ n := by exact_mod_cast Nat.div_mul_le_self n d
  have a2 : (n : ℝ) < ((Nat.div n d : ℕ) : ℝ) * d + d := by exact_mod_cast Nat.lt_div_mul_add hd
  have b2 : (r : ℝ) < ((Nat.div r d : ℕ) : ℝ) * d + d := by exact_mod_cast Nat.lt_div_mul_add hd
  simp only [drad]
  push_cast
  rw [abs_le] at h ⊢
  have e : x / d * U * d = x * U := by field_simp
  generalize ((Nat.div n d : ℕ) : ℝ) = A at *
  generalize ((Nat.div r d : ℕ) : ℝ) = B at *
  constructor
  · rw [← mul_le_mul_iff_left₀ hd']; rw [sub_mul, e]; nlinarith
  · rw [← mul_le_mul_iff_left₀ hd']; rw [sub_mul, e]; nlinarith

theorem near_divn {q : Q} {x : ℝ} (h : Near q x) {d : ℕ} (hd : 0 < d) : Near (q.divn d) (x / d) := by
  cases q with
  | z => rw [near_z] at h; subst h; simp [divn]
  | p n r => simpa [divn] using near_divn_p h hd
  | m n r =>
    have : |-x * U - n| ≤ r := by
      rw [near_m, ← abs_neg] at h; convert h using 2; ring
    have := near_divn_p this hd
    simp only [divn, mkm_eq, near_m]
    rw [← abs_neg]; convert this using 2; ring
  | bad => trivial

/-- Natural numbers. -/
noncomputable def ofNat (n : ℕ) : Q := Nat.casesOn n .z fun m => .p (Nat.shiftLeft (Nat.succ m) 192) 0

theorem near_ofNat (n : ℕ) : Near (ofNat n) n := by
  cases n with
  | zero => simp [ofNat]
  | succ m =>
    have : Nat.shiftLeft (Nat.succ m) 192 = (m + 1) * 2 ^ 192 := Nat.shiftLeft_eq _ _
    simp only [ofNat, near_p, this]
    rw [U]; push_cast
    norm_num

/-- The reciprocal of a number that is clearly not zero. -/
noncomputable def invAux (n r : ℕ) (k : ℕ → ℕ → Q) : Q :=
  Bool.casesOn (Nat.blt r n) .bad
    (k (Nat.div (Nat.pow 2 384) (Nat.add n r)) (Nat.sub (Nat.succ (Nat.div (Nat.pow 2 384) (Nat.sub n r))) (Nat.div (Nat.pow 2 384) (Nat.add n r))))

noncomputable def inv (x : Q) : Q := Q.casesOn x .bad (fun n r => invAux n r mkp) (fun n r => invAux n r mkm) .bad

theorem near_inv_p {n r : ℕ} {x : ℝ} (h : |x * U - n| ≤ r) (hr : r < n) :
    |x⁻¹ * U - (Nat.div (Nat.pow 2 384) (Nat.add n r) : ℕ)| ≤
      (Nat.sub (Nat.succ (Nat.div (Nat.pow 2 384) (Nat.sub n r))) (Nat.div (Nat.pow 2 384) (Nat.add n r)) : ℕ) := by
  have hU := U_pos
  have hr' : (r : ℝ) < n := by exact_mod_cast hr
  rw [abs_le] at h
  have hx : 0 < x * U := by linarith
  have hx0 : 0 < x := pos_of_mul_pos_left hx hU.le
  have hi : 0 < x⁻¹ := inv_pos.2 hx0
  have e1 : x⁻¹ * U * (x * U) = U * U := by field_simp
  have hs : n - r ≤ n + r := by omega
  have hle : Nat.div (Nat.pow 2 384) (Nat.add n r) ≤ Nat.succ (Nat.div (Nat.pow 2 384) (Nat.sub n r)) :=
    (Nat.div_le_div_left hs (by omega)).trans (Nat.le_succ _)
  have a1 : ((Nat.div (Nat.pow 2 384) (Nat.add n r) : ℕ) : ℝ) * ((n + r : ℕ) : ℝ) ≤ ((Nat.pow 2 384 : ℕ) : ℝ) := by
    exact_mod_cast Nat.div_mul_le_self (Nat.pow 2 384) (n + r)
  have a2 : ((Nat.pow 2 384 : ℕ) : ℝ) < ((Nat.div (Nat.pow 2 384) (Nat.sub n r) : ℕ) : ℝ) * ((n - r : ℕ) : ℝ) + ((n - r : ℕ) : ℝ) := by
    exact_mod_cast Nat.lt_div_mul_add (a := Nat.pow 2 384) (b := n - r) (by omega)
  have eU : ((Nat.pow 2 384 : ℕ) : ℝ) = U * U := by
    rw [Nat.pow_eq, Nat.cast_pow, U, ← pow_add]; norm_num only [Nat.cast_ofNat]
  rw [Nat.sub_eq, Nat.cast_sub hle]
  rw [eU] at a1 a2
  rw [Nat.cast_sub hr.le] at a2
  push_cast at a1 ⊢
  generalize ((Nat.div (Nat.pow 2 384) (Nat.add n r) : ℕ) : ℝ) = A at *
  generalize ((Nat.div (Nat.pow 2 384) (Nat.sub n r) : ℕ) : ℝ) = B at *
  have l1 : A ≤ x⁻¹ * U := by
    by_contra hc
    rw [not_le] at hc
    have : x⁻¹ * U * (x * U) < A * (n + r) := by
      have h0 : (0 : ℝ) < n + r := by linarith
      have := mul_lt_mul_of_pos_right hc h0
      have := mul_le_mul_of_nonneg_left (show x * U ≤ n + r by linarith) (mul_pos hi hU).le
      linarith
    rw [e1] at this
    linarith
  have l2 : x⁻¹ * U ≤ B + 1 := by
    by_contra hc
    rw [not_le] at hc
    have h0 : (0 : ℝ) < n - r := by linarith
    have h1 := mul_lt_mul_of_pos_right hc h0
    have h2 := mul_le_mul_of_nonneg_left (show (n : ℝ) - r ≤ x * U by linarith) (mul_pos hi hU).le
    rw [e1] at h2
    linarith
  rw [abs_le]
  constructor <;> linarith

theorem near_inv {q : Q} {x : ℝ} (h : Near q x) : Near q.inv x⁻¹ := by
  have pos : ∀ {n r : ℕ}, Nat.blt r n = true → r < n := fun h => Nat.lt_of_lt_of_le (Nat.lt_succ_self _) (Nat.le_of_ble_eq_true h)
  cases q with
  | z => trivial
  | p n r =>
    show Near (invAux n r mkp) _
    unfold invAux
    cases hb : Nat.blt r n
    · trivial
    · simp only [mkp_eq]
      exact near_inv_p h (pos hb)
  | m n r =>
    show Near (invAux n r mkm) _
    unfold invAux
    cases hb : Nat.blt r n
    · trivial
    · simp only [mkm_eq, near_m]
      have h2 : |-x * U - n| ≤ r := by
        rw [near_m, ← abs_neg] at h; convert h using 2; ring
      have := near_inv_p h2 (pos hb)
      rw [← abs_neg]; convert this using 2
      rw [inv_neg]; ring
  | bad => trivial

/-- More uncertainty. -/
noncomputable def widen (x : Q) (e : ℕ) : Q := Q.casesOn x (.p 0 e) (fun n r => mkp n (Nat.add r e)) (fun n r => mkm n (Nat.add r e)) .bad

theorem near_widen {q : Q} {x y : ℝ} {e : ℕ} (h : Near q x) (hy : |y - x| * U ≤ e) : Near (q.widen e) y := by
  have hU := U_pos
  have hy' : |y * U - x * U| ≤ e := by rw [← sub_mul, abs_mul, abs_of_pos hU]; exact hy
  cases q with
  | z => rw [near_z] at h; subst h; simpa [widen] using hy'
  | p n r =>
    simp only [widen, mkp_eq, near_p, Nat.add_eq] at *
    push_cast
    rw [show y * U - n = (x * U - n) + (y * U - x * U) by ring]
    exact (abs_add_le _ _).trans (add_le_add h hy')
  | m n r =>
    simp only [widen, mkm_eq, near_m, Nat.add_eq] at *
    push_cast
    rw [show y * U + n = (x * U + n) + (y * U - x * U) by ring]
    exact (abs_add_le _ _).trans (add_le_add h hy')
  | bad => trivial

/-- Is the absolute value at most `b` units? -/
noncomputable def small (x : Q) (b : ℕ) : Bool :=
  Q.casesOn x true (fun n r => Nat.ble (Nat.add n r) b) (fun n r => Nat.ble (Nat.add n r) b) false

theorem small_le {q : Q} {x : ℝ} {b : ℕ} (h : Near q x) (hb : q.small b = true) : |x| * U ≤ b := by
  have hU := U_pos
  have e : |x| * U = |x * U| := by rw [abs_mul, abs_of_pos hU]
  cases q with
  | z => rw [near_z] at h; subst h; simp
  | p n r =>
    have hb : n + r ≤ b := Nat.le_of_ble_eq_true hb
    have hb' : (n : ℝ) + r ≤ b := by exact_mod_cast hb
    rw [near_p] at h
    rw [e, show x * U = (x * U - n) + n by ring]
    refine (abs_add_le _ _).trans ?_
    rw [Nat.abs_cast]; linarith
  | m n r =>
    have hb : n + r ≤ b := Nat.le_of_ble_eq_true hb
    have hb' : (n : ℝ) + r ≤ b := by exact_mod_cast hb
    rw [near_m] at h
    rw [e, show x * U = (x * U + n) + -n by ring]
    refine (abs_add_le _ _).trans ?_
    rw [abs_neg, Nat.abs_cast]; linarith
  | bad => simp [small] at hb

/-- Is the number clearly positive? -/
noncomputable def pos (x : Q) : Bool := Q.casesOn x false (fun n r => Nat.blt r n) (fun _ _ => false) false

theorem pos_lt {q : Q} {x : ℝ} (h : Near q x) (hb : q.pos = true) : 0 < x := by
  cases q with
  | z => simp [pos] at hb
  | p n r =>
    have : r < n := Nat.lt_of_lt_of_le (Nat.lt_succ_self _) (Nat.le_of_ble_eq_true hb)
    have h1 : (r : ℝ) < n := by exact_mod_cast this
    rw [near_p, abs_le] at h
    exact pos_of_mul_pos_left (by linarith : 0 < x * U) U_pos.le
  | m n r => simp [pos] at hb
  | bad => simp [pos] at hb

/-- `1 / d` with a sign. -/
noncomputable def coef (c : Bool × ℕ) : Q := Bool.casesOn c.1 ((ofNat 1).divn c.2).neg ((ofNat 1).divn c.2)

/-- The real number meant by `coef`. -/
noncomputable def coefR (c : Bool × ℕ) : ℝ := if c.1 then 1 / (c.2 : ℝ) else -(1 / (c.2 : ℝ))

theorem near_coef {c : Bool × ℕ} (hc : 0 < c.2) : Near (coef c) (coefR c) := by
  have h := near_divn (near_ofNat 1) hc
  obtain ⟨b, d⟩ := c
  cases b
  · have := near_neg h
    simpa [coef, coefR] using this
  · simpa [coef, coefR] using h

/-- Horner's rule. -/
noncomputable def poly (cs : List (Bool × ℕ)) (x : Q) : Q := List.rec .z (fun c _ ih => (coef c).add (x.mul ih)) cs

/-- The polynomial meant by `poly`. -/
noncomputable def polyR : List (Bool × ℕ) → ℝ → ℝ
  | [], _ => 0
  | c :: cs, x => coefR c + x * polyR cs x

theorem near_poly {cs : List (Bool × ℕ)} (hc : ∀ c ∈ cs, 0 < c.2) {q : Q} {x : ℝ} (h : Near q x) : Near (poly cs q) (polyR cs x) := by
  induction cs with
  | nil => rfl
  | cons c cs ih =>
    exact near_add (near_coef (hc c (by simp))) (near_mul h (ih fun c h => hc c (by simp [h])))

/-- Division by `2^k`. -/
noncomputable def half (x : Q) (k : ℕ) : Q := x.divn (Nat.pow 2 k)

theorem near_half {q : Q} {x : ℝ} (h : Near q x) (k : ℕ) : Near (q.half k) (x / 2 ^ k) := by
  have := near_divn h (d := Nat.pow 2 k) (by rw [Nat.pow_eq]; positivity)
  rw [Nat.pow_eq] at this
  push_cast at this
  exact this

/-! Exponential -/

/-- Size of a number. -/
noncomputable def size (x : Q) : ℕ := Q.casesOn x 0 (fun n r => Nat.add n r) (fun n r => Nat.add n r) 0

/-- `k` squarings. -/
noncomputable def squares (x : Q) (k : ℕ) : Q := Nat.rec x (fun _ y => y.mul y) k

def expC : List (Bool × ℕ) :=
  [(true, 1), (true, 1), (true, 2), (true, 6), (true, 24), (true, 120), (true, 720), (true, 5040), (true, 40320), (true, 362880), (true, 3628800),
    (true, 39916800), (true, 479001600), (true, 6227020800), (true, 87178291200), (true, 1307674368000), (true, 20922789888000)]

/-- The exponential of a number below `2^-12`. -/
noncomputable def exp0 (y : Q) : Q := Bool.casesOn (y.small (Nat.pow 2 180)) .bad ((poly expC y).widen 1)

noncomputable def expK (x : Q) (k : ℕ) : Q := squares (exp0 (x.half k)) k

noncomputable def exp (x : Q) : Q := expK x (Nat.succ (Nat.log2 (Nat.shiftRight x.size 180)))

theorem near_exp0 {q : Q} {x : ℝ} (h : Near q x) : Near (exp0 q) (Real.exp x) := by
  unfold exp0
  cases hb : q.small (Nat.pow 2 180)
  · trivial
  · have hx := small_le h hb
    rw [Nat.pow_eq] at hx
    have hx' : |x| ≤ 1 / 2 ^ 12 := by
      rw [U] at hx; push_cast at hx
      rw [le_div_iff₀ (by positivity)]
      nlinarith [abs_nonneg x]
    refine near_widen (near_poly (by decide) h) ?_
    have e : polyR expC x = ∑ i ∈ Finset.range 17, x ^ i / (i.factorial : ℝ) := by
      simp only [polyR, expC, coefR, Finset.sum_range_succ, Finset.sum_range_zero, Nat.factorial, if_true]
      push_cast
      ring
    have := Real.exp_bound (x := x) (hx'.trans (by norm_num)) (n := 17) (by norm_num)
    rw [e]
    refine (mul_le_mul_of_nonneg_right this U_pos.le).trans ?_
    have h17 : |x| ^ 17 ≤ (1 / 2 ^ 12) ^ 17 := pow_le_pow_left₀ (abs_nonneg x) hx' 17
    have hc : (0 : ℝ) ≤ ((17 : ℕ).succ : ℝ) / (((17 : ℕ).factorial : ℝ) * ((17 : ℕ) : ℝ)) := by positivity
    refine (mul_le_mul_of_nonneg_right (mul_le_mul_of_nonneg_right h17 hc) U_pos.le).trans ?_
    simp only [U, Nat.factorial]
    norm_num

theorem near_squares {q : Q} {x : ℝ} (h : Near q x) (k : ℕ) : Near (squares q k) (x ^ 2 ^ k) := by
  induction k with
  | zero => simpa [squares] using h
  | succ k ih =>
    have := near_mul ih ih
    rw [← pow_add, ← two_mul, ← pow_succ'] at this
    exact this

theorem near_expK {q : Q} {x : ℝ} (h : Near q x) (k : ℕ) : Near (expK q k) (Real.exp x) := by
  have := near_squares (near_exp0 (near_half h k)) k
  rw [← Real.exp_nat_mul] at this
  have e : (((2 : ℕ) ^ k : ℕ) : ℝ) * (x / 2 ^ k) = x := by push_cast; field_simp
  rw [e] at this
  exact this

theorem near_exp {q : Q} {x : ℝ} (h : Near q x) : Near (exp q) (Real.exp x) := near_expK h _

/-! Logarithm -/

/-- A guess for `2 artanh(y)` where `y` and the result are in units of `2^-64`. -/
def guess0 (y : ℕ) : ℕ :=
  let y2 := Nat.shiftRight (Nat.mul y y) 64
  Nat.shiftRight (Nat.mul (Nat.mul 2 y)
    (List.rec 0 (fun d _ ih => Nat.add (Nat.div (Nat.pow 2 64) d) (Nat.shiftRight (Nat.mul ih y2) 64)) [1, 3, 5, 7, 9, 11, 13, 15, 17, 19])) 64

/-- A guess for the logarithm of a number with midpoint `n`, `2^k ≤ n < 2^(k+1)`. -/
noncomputable def guess (n k : ℕ) : Q :=
  let m := Nat.shiftRight n (Nat.sub k 64)
  let g := guess0 (Nat.div (Nat.shiftLeft (Nat.sub m (Nat.pow 2 64)) 64) (Nat.add m (Nat.pow 2 64)))
  subp (Nat.shiftLeft (Nat.add g (Nat.mul k 12786308645202655660)) 128) (Nat.shiftLeft (Nat.mul 192 12786308645202655660) 128) 0

def logC : List (Bool × ℕ) := [(true, 1), (true, 2), (true, 3), (true, 4), (true, 5), (true, 6), (true, 7), (true, 8)]

/-- `-log(1-d)` for `d` below `2^-24`. -/
noncomputable def log0 (d : Q) : Q := Bool.casesOn (d.small (Nat.pow 2 168)) .bad ((d.mul (poly logC d)).widen 1)

/-- The real number meant by an exact `Q`. -/
noncomputable def val : Q → ℝ
  | .z => 0
  | .p n _ => n / U
  | .m n _ => -(n / U)
  | .bad => 0

/-- The logarithm of `x`, given a guess `w`. -/
noncomputable def logW (x w : Q) : Q := Bool.casesOn x.pos .bad (w.sub (log0 ((ofNat 1).sub (x.mul (exp w.neg)))))

noncomputable def log (x : Q) : Q := Q.casesOn x .bad (fun n r => logW (.p n r) (guess n (Nat.log2 n))) (fun _ _ => .bad) .bad

theorem near_log0 {q : Q} {d : ℝ} (h : Near q d) : Near (log0 q) (-Real.log (1 - d)) := by
  unfold log0
  cases hb : q.small (Nat.pow 2 168)
  · trivial
  · have hx := small_le h hb
    rw [Nat.pow_eq] at hx
    have hx' : |d| ≤ 1 / 2 ^ 24 := by
      rw [U] at hx; push_cast at hx
      rw [le_div_iff₀ (by positivity)]
      nlinarith [abs_nonneg d]
    refine near_widen (near_mul h (near_poly (by decide) h)) ?_
    have e : d * polyR logC d = ∑ i ∈ Finset.range 8, d ^ (i + 1) / ((i : ℝ) + 1) := by
      simp only [polyR, logC, coefR, Finset.sum_range_succ, Finset.sum_range_zero, if_true]
      push_cast
      ring
    have := Real.abs_log_sub_add_sum_range_le (x := d) (lt_of_le_of_lt hx' (by norm_num)) 8
    rw [e, show -Real.log (1 - d) - ∑ i ∈ Finset.range 8, d ^ (i + 1) / ((i : ℝ) + 1) =
      -((∑ i ∈ Finset.range 8, d ^ (i + 1) / ((i : ℝ) + 1)) + Real.log (1 - d)) by ring, abs_neg]
    refine (mul_le_mul_of_nonneg_right this U_pos.le).trans ?_
    have h9 : |d| ^ (8 + 1) / (1 - |d|) ≤ (1 / 2 ^ 24) ^ (8 + 1) / (1 - 1 / 2 ^ 24) := by
      have : (0 : ℝ) < 1 - 1 / 2 ^ 24 := by norm_num
      have : 1 - 1 / 2 ^ 24 ≤ 1 - |d| := by linarith
      gcongr
    refine (mul_le_mul_of_nonneg_right h9 U_pos.le).trans ?_
    simp only [U]
    norm_num

theorem near_logW {q w : Q} {x y : ℝ} (h : Near q x) (hw : Near w y) : Near (logW q w) (Real.log x) := by
  unfold logW
  cases hb : q.pos
  · trivial
  · have hx := pos_lt h hb
    have := near_sub hw (near_log0 (near_sub (near_ofNat 1) (near_mul h (near_exp (near_neg hw)))))
    convert this using 1
    push_cast
    rw [sub_sub_cancel, Real.log_mul hx.ne' (Real.exp_pos _).ne', Real.log_exp]
    ring

theorem subp_exact (a b : ℕ) : ∃ y, Near (subp a b 0) y := by
  refine ⟨((a : ℝ) - b) / U, near_subp ?_⟩
  rw [div_mul_cancel₀ _ U_pos.ne']
  simp

theorem guess_exact (n k : ℕ) : ∃ y, Near (guess n k) y := by
  unfold guess
  exact subp_exact _ _

attribute [irreducible] guess logW exp

theorem near_log {q : Q} {x : ℝ} (h : Near q x) : Near (log q) (Real.log x) := by
  cases q with
  | z => trivial
  | p n r =>
    obtain ⟨y, hy⟩ := guess_exact n (Nat.log2 n)
    show Near (logW (.p n r) (guess n (Nat.log2 n))) _
    exact near_logW h hy
  | m n r => trivial
  | bad => trivial

attribute [irreducible] log

/-! Powers -/

/-- `x^a` for `x > 0`. -/
noncomputable def rpow (x a : Q) : Q := Bool.casesOn x.pos .bad (exp (a.mul (log x)))

theorem near_rpow {q q' : Q} {x a : ℝ} (h : Near q x) (h' : Near q' a) : Near (rpow q q') (x ^ a) := by
  unfold rpow
  cases hb : q.pos
  · trivial
  · rw [Real.rpow_def_of_pos (pos_lt h hb), mul_comm]
    exact near_exp (near_mul h' (near_log h))

noncomputable def sqrt (x : Q) : Q := rpow x ((ofNat 1).divn 2)

theorem near_sqrt {q : Q} {x : ℝ} (h : Near q x) : Near (sqrt q) (√x) := by
  rw [Real.sqrt_eq_rpow]
  refine near_rpow h ?_
  have := near_divn (near_ofNat 1) (d := 2) (by norm_num)
  simpa using this

/-! Inverse trigonometric and hyperbolic functions -/

/-- `arctan x = 2 arctan (arcHalf x)`. -/
noncomputable def arcHalf (x : Q) : Q := x.mul ((ofNat 1).add (sqrt ((ofNat 1).add (x.mul x)))).inv

theorem near_arcHalf {q : Q} {x : ℝ} (h : Near q x) : Near (arcHalf q) (x * (1 + √(1 + x * x))⁻¹) := by
  have h1 := near_ofNat 1
  rw [Nat.cast_one] at h1
  exact near_mul h (near_inv (near_add h1 (near_sqrt (near_add h1 (near_mul h h)))))

theorem arctan_half (x : ℝ) : Real.arctan x = 2 * Real.arctan (x * (1 + √(1 + x * x))⁻¹) := by
  set s := √(1 + x * x) with hs
  have h1 : 0 ≤ x * x := mul_self_nonneg x
  have hss : s * s = 1 + x * x := Real.mul_self_sqrt (by linarith)
  have hs1 : 1 ≤ s := by
    rw [hs]; exact Real.one_le_sqrt.2 (by linarith)
  have hlt : |x| < 1 + s := by
    have : |x| ≤ s := Real.abs_le_sqrt (by nlinarith)
    linarith
  have hy : |x * (1 + s)⁻¹| < 1 := by
    rw [abs_mul, abs_inv, abs_of_pos (by linarith : 0 < 1 + s), ← div_eq_mul_inv, div_lt_one (by linarith)]
    exact hlt
  rw [Real.two_mul_arctan (by linarith [abs_lt.1 hy]) (by linarith [abs_lt.1 hy])]
  congr 1
  have h2 : (1 + s) ≠ 0 := by linarith
  have h3 : (1 + s) ^ 2 - x ^ 2 ≠ 0 := by nlinarith
  have h4 : 1 - (x * (1 + s)⁻¹) ^ 2 ≠ 0 := by
    have : 1 - (x * (1 + s)⁻¹) ^ 2 = ((1 + s) ^ 2 - x ^ 2) / (1 + s) ^ 2 := by field_simp
    rw [this]; positivity
  rw [eq_div_iff h4]
  field_simp
  linear_combination x * hss

def atanC : List (Bool × ℕ) :=
  [(true, 1), (false, 3), (true, 5), (false, 7), (true, 9), (false, 11), (true, 13), (false, 15), (true, 17), (false, 19), (true, 21), (false, 23),
    (true, 25), (false, 27), (true, 29), (false, 31), (true, 33), (false, 35), (true, 37), (false, 39), (true, 41), (false, 43), (true, 45), (false, 47)]

/-- The arc tangent of a number below `2^-4`. -/
noncomputable def atan0 (x : Q) : Q := Bool.casesOn (x.small (Nat.pow 2 188)) .bad ((x.mul (poly atanC (x.mul x))).widen 1)

theorem atan_series {x c : ℝ} (hx : |x| ≤ c) : |Real.arctan x - x * polyR atanC (x * x)| ≤ c ^ 48 * |x| := by
  have hd : ∀ y : ℝ, HasDerivAt (fun y => Real.arctan y - y * polyR atanC (y * y)) (y ^ 48 / (1 + y ^ 2)) y := by
    intro y
    have h1 := Real.hasDerivAt_arctan y
    have h2 : HasDerivAt (fun y : ℝ => y * polyR atanC (y * y)) (∑ i ∈ Finset.range 24, (-1) ^ i * y ^ (2 * i)) y := by
      have e : (fun y : ℝ => y * polyR atanC (y * y)) = fun y => ∑ i ∈ Finset.range 24, (-1) ^ i * y ^ (2 * i + 1) / ((2 * i + 1 : ℕ) : ℝ) := by
        funext y
        simp only [polyR, atanC, coefR, Finset.sum_range_succ, Finset.sum_range_zero, if_true, Bool.false_eq_true, if_false]
        push_cast
        ring
      rw [e]
      refine HasDerivAt.fun_sum fun i _ => ?_
      have := ((hasDerivAt_pow (2 * i + 1) y).const_mul ((-1 : ℝ) ^ i)).div_const ((2 * i + 1 : ℕ) : ℝ)
      refine this.congr_deriv ?_
      have : ((2 * i + 1 : ℕ) : ℝ) ≠ 0 := by positivity
      rw [Nat.add_sub_cancel]
      field_simp
    refine (h1.sub h2).congr_deriv ?_
    have : (1 + y ^ 2) ≠ 0 := by positivity
    field_simp
    simp only [Finset.sum_range_succ, Finset.sum_range_zero]
    ring
  have := (convex_Icc (-|x|) |x|).norm_image_sub_le_of_norm_hasDerivWithin_le (C := c ^ 48)
    (f := fun y => Real.arctan y - y * polyR atanC (y * y)) (fun y _ => (hd y).hasDerivWithinAt) (fun y hy => ?_)
    (show (0 : ℝ) ∈ _ from ⟨by simp, by simp⟩) (show x ∈ _ from ⟨neg_abs_le x, le_abs_self x⟩)
  · simpa using this
  · have hy' : |y| ≤ c := (abs_le.2 hy).trans hx
    rw [Real.norm_eq_abs, abs_div, abs_pow, abs_of_pos (by positivity : (0 : ℝ) < 1 + y ^ 2)]
    refine (div_le_self (by positivity) (by nlinarith [sq_nonneg y])).trans ?_
    exact pow_le_pow_left₀ (abs_nonneg y) hy' 48

theorem near_atan0 {q : Q} {x : ℝ} (h : Near q x) : Near (atan0 q) (Real.arctan x) := by
  unfold atan0
  cases hb : q.small (Nat.pow 2 188)
  · trivial
  · have hx := small_le h hb
    rw [Nat.pow_eq] at hx
    have hx' : |x| ≤ 1 / 2 ^ 4 := by
      rw [U] at hx; push_cast at hx
      rw [le_div_iff₀ (by positivity)]
      nlinarith [abs_nonneg x]
    refine near_widen (near_mul h (near_poly (by decide) (near_mul h h))) ?_
    refine (mul_le_mul_of_nonneg_right (atan_series hx') U_pos.le).trans ?_
    refine (mul_le_mul_of_nonneg_right (mul_le_mul_of_nonneg_left hx' (by positivity)) U_pos.le).trans ?_
    simp only [U]
    norm_num

/-- One halving of the argument of an arc tangent. -/
noncomputable def atanStep (f : Q → Q) (x : Q) : Q := (ofNat 2).mul (f (arcHalf x))

theorem near_atanStep {f : Q → Q} (hf : ∀ {q x}, Near q x → Near (f q) (Real.arctan x)) {q : Q} {x : ℝ} (h : Near q x) :
    Near (atanStep f q) (Real.arctan x) := by
  have := near_mul (near_ofNat 2) (hf (near_arcHalf h))
  rw [arctan_half x]
  exact_mod_cast this

noncomputable def atan (x : Q) : Q := atanStep (atanStep (atanStep (atanStep (atanStep atan0)))) x

theorem near_atan {q : Q} {x : ℝ} (h : Near q x) : Near (atan q) (Real.arctan x) :=
  near_atanStep (near_atanStep (near_atanStep (near_atanStep (near_atanStep near_atan0)))) h

attribute [irreducible] atan

noncomputable def pi : Q := (ofNat 4).mul (atan (ofNat 1))

theorem near_pi : Near pi Real.pi := by
  have := near_mul (near_ofNat 4) (near_atan (near_ofNat 1))
  rw [Nat.cast_one, Real.arctan_one] at this
  unfold pi
  convert this using 1
  push_cast; ring

noncomputable def asinh (x : Q) : Q := log (x.add (sqrt ((ofNat 1).add (x.mul x))))

theorem near_asinh {q : Q} {x : ℝ} (h : Near q x) : Near (asinh q) (Real.arsinh x) := by
  have h1 := near_ofNat 1
  rw [Nat.cast_one] at h1
  have := near_log (near_add h (near_sqrt (near_add h1 (near_mul h h))))
  rw [Real.arsinh, sq]
  exact this

attribute [irreducible] rpow sqrt asinh pi inv divn mul add sub neg

end Q
end XCFun.Num
