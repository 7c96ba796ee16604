/-
Verified numerical evaluation of expressions together with their first and second derivatives.
-/
import Verif.Proofs.Ball
import Verif.Proofs.BallErf
import Verif.Proofs.AD
import Verif.Spec.Layout

namespace XCFun.Num
open XCFun

/-! ## Real constants -/

/-- Syntax of real constants. -/
inductive RE where
  | nat (n : ℕ)
  | sci (m : ℕ) (s : Bool) (e : ℕ)
  | pi
  | neg (x : RE)
  | add (x y : RE)
  | sub (x y : RE)
  | mul (x y : RE)
  | div (x y : RE)
  | rpow (x y : RE)
  | npow (x : RE) (n : ℕ)
  | log (x : RE)
  | sqrt (x : RE)

namespace RE

noncomputable def den : RE → ℝ
  | nat n => n
  | sci m s e => OfScientific.ofScientific m s e
  | pi => Real.pi
  | neg x => -x.den
  | add x y => x.den + y.den
  | sub x y => x.den - y.den
  | mul x y => x.den * y.den
  | div x y => x.den / y.den
  | rpow x y => x.den ^ y.den
  | npow x n => x.den ^ n
  | log x => Real.log x.den
  | sqrt x => √x.den

noncomputable def ball (x : RE) : Q :=
  RE.rec (motive := fun _ => Q) (fun n => .ofNat n)
    (fun m s e => Bool.casesOn s (.ofNat (Nat.mul m (Nat.pow 10 e))) ((Q.ofNat m).divn (Nat.pow 10 e)))
    .pi (fun _ x => x.neg) (fun _ _ x y => x.add y) (fun _ _ x y => x.sub y) (fun _ _ x y => x.mul y) (fun _ _ x y => x.mul y.inv)
    (fun _ _ x y => x.rpow y) (fun _ n x => Nat.rec (.ofNat 1) (fun _ y => y.mul x) n) (fun _ x => x.log) (fun _ x => x.sqrt) x

theorem near_npow {q : Q} {x : ℝ} (h : Near q x) (n : ℕ) :
    Near (Nat.rec (motive := fun _ => Q) (.ofNat 1) (fun _ y => y.mul q) n) (x ^ n) := by
  induction n with
  | zero => simpa using Q.near_ofNat 1
  | succ n ih => rw [pow_succ]; exact Q.near_mul ih h

theorem near_ball (x : RE) : Near x.ball x.den := by
  induction x with
  | nat n => exact Q.near_ofNat n
  | sci m s e =>
    cases s
    · have := Q.near_ofNat (Nat.mul m (Nat.pow 10 e))
      have h : (RE.sci m false e).den = ((Nat.mul m (Nat.pow 10 e) : ℕ) : ℝ) := by
        rw [den, NNRatCast.ofScientific_eq_ite, Nat.mul_eq, Nat.pow_eq]
        push_cast
        simp
      rw [h]; exact this
    · have := Q.near_divn (Q.near_ofNat m) (d := Nat.pow 10 e) (by rw [Nat.pow_eq]; positivity)
      have h : (RE.sci m true e).den = (m : ℝ) / ((Nat.pow 10 e : ℕ) : ℝ) := by
        rw [den, NNRatCast.ofScientific_eq_ite, Nat.pow_eq]
        push_cast
        simp
      rw [h]; exact this
  | pi => exact Q.near_pi
  | neg x ih => exact Q.near_neg ih
  | add x y ih ih' => exact Q.near_add ih ih'
  | sub x y ih ih' => exact Q.near_sub ih ih'
  | mul x y ih ih' => exact Q.near_mul ih ih'
  | div x y ih ih' => rw [den, div_eq_mul_inv]; exact Q.near_mul ih (Q.near_inv ih')
  | rpow x y ih ih' => exact Q.near_rpow ih ih'
  | npow x n ih => exact near_npow ih n
  | log x ih => exact Q.near_log ih
  | sqrt x ih => exact Q.near_sqrt ih

end RE

/-! ## Elementary functions with two derivatives -/

/-- The primitives that are needed; the Pade approximant occurs only in branches that are not taken. -/
inductive IPrim where
  | inv | exp | expm1 | log | pow (a : RE) | sqrt | cbrt | atan | erf | asinh | pade

namespace IPrim

noncomputable def den : IPrim → Prim
  | inv => .inv
  | exp => .exp
  | expm1 => .expm1
  | log => .log
  | pow a => .pow a.den
  | sqrt => .sqrt
  | cbrt => .cbrt
  | atan => .atan
  | erf => .erf
  | asinh => .asinh
  | pade => .pade

/-- `1` up to `q`. -/
noncomputable def oneUpTo (q : Q) : Q := Q.casesOn q (.ofNat 1) (fun n r => (Q.ofNat 1).widen (Nat.add n r)) (fun n r => (Q.ofNat 1).widen (Nat.add n r)) .bad

/-- The error function of a number above 1. -/
noncomputable def erfBall (x : Q) : Q :=
  Bool.casesOn (x.sub (.ofNat 1)).pos .bad (oneUpTo (x.mul x).neg.exp)

/-- `2/√π exp(-x²)` -/
noncomputable def erfDer (x : Q) : Q := (x.mul x).neg.exp.mul ((Q.ofNat 2).mul Q.pi.sqrt.inv)

noncomputable def third : Q := (Q.ofNat 1).divn 3
noncomputable def halfc : Q := (Q.ofNat 1).divn 2

noncomputable def f0 (p : IPrim) (x : Q) : Q :=
  IPrim.casesOn p x.inv x.exp (x.exp.sub (.ofNat 1)) x.log (fun a => x.rpow a.ball) x.sqrt (x.rpow third) x.atan (erfBall x) x.asinh .bad

noncomputable def f1 (p : IPrim) (x : Q) : Q :=
  IPrim.casesOn p (x.inv.mul x.inv).neg x.exp x.exp x.inv (fun a => ((x.rpow a.ball).mul x.inv).mul a.ball) ((x.sqrt.mul x.inv).divn 2)
    (Bool.casesOn x.pos .bad (((x.rpow third).mul x.inv).divn 3)) ((Q.ofNat 1).add (x.mul x)).inv (erfDer x) (((Q.ofNat 1).add (x.mul x)).rpow halfc.neg) .bad

noncomputable def f2 (p : IPrim) (x : Q) : Q :=
  IPrim.casesOn p ((x.inv.mul x.inv).mul x.inv) (x.exp.divn 2) (x.exp.divn 2) ((x.inv.mul x.inv).divn 2).neg
    (fun a => (((((x.rpow a.ball).mul x.inv).mul a.ball).mul x.inv).mul (a.ball.sub (.ofNat 1))).divn 2)
    ((((x.sqrt.mul x.inv).divn 2).mul x.inv).divn 4).neg (Bool.casesOn x.pos .bad ((((x.rpow third).mul x.inv).divn 3).mul x.inv |>.divn 3).neg)
    (x.mul (((Q.ofNat 1).add (x.mul x)).inv.mul ((Q.ofNat 1).add (x.mul x)).inv)).neg (x.mul (erfDer x)).neg
    ((x.mul ((((Q.ofNat 1).add (x.mul x)).rpow halfc.neg).mul ((Q.ofNat 1).add (x.mul x)).inv)).divn 2).neg .bad

theorem near_third : Near third (1 / 3) := by
  have := Q.near_divn (Q.near_ofNat 1) (d := 3) (by norm_num)
  unfold third
  simpa using this

theorem near_halfc : Near halfc (1 / 2) := by
  have := Q.near_divn (Q.near_ofNat 1) (d := 2) (by norm_num)
  unfold halfc
  simpa using this

theorem Near.congr {q : Q} {x y : ℝ} (h : Near q x) (e : y = x) : Near q y := e ▸ h

theorem size_ge {q : Q} {x : ℝ} (h : Near q x) (hq : q ≠ .bad) : |x| * U ≤ q.size := by
  have hU := U_pos
  have e : |x| * U = |x * U| := by rw [abs_mul, abs_of_pos hU]
  cases q with
  | z => rw [near_z] at h; subst h; simp [Q.size]
  | p n r =>
    rw [near_p] at h
    rw [e, show x * U = (x * U - n) + n by ring]
    refine (abs_add_le _ _).trans ?_
    simp only [Q.size, Nat.add_eq]
    push_cast
    rw [Nat.abs_cast]; linarith
  | m n r =>
    rw [near_m] at h
    rw [e, show x * U = (x * U + n) + -n by ring]
    refine (abs_add_le _ _).trans ?_
    simp only [Q.size, Nat.add_eq]
    push_cast
    rw [abs_neg, Nat.abs_cast]; linarith
  | bad => exact absurd rfl hq

theorem near_oneUpTo {q : Q} {x y : ℝ} (h : Near q x) (hy : |y - 1| ≤ |x|) : Near (oneUpTo q) y := by
  have h1 := Q.near_ofNat 1
  rw [Nat.cast_one] at h1
  have hm := mul_le_mul_of_nonneg_right hy U_pos.le
  cases q with
  | z =>
    rw [near_z] at h; subst h
    have : y = 1 := by
      rw [abs_zero] at hy
      linarith [abs_nonpos_iff.1 hy]
    rw [this]; exact h1
  | p n r => exact Q.near_widen h1 (hm.trans (size_ge h (by simp)))
  | m n r => exact Q.near_widen h1 (hm.trans (size_ge h (by simp)))
  | bad => trivial

theorem near_erfBall {q : Q} {x : ℝ} (h : Near q x) : Near (erfBall q) (XCFun.erf x) := by
  unfold erfBall
  cases hb : (q.sub (.ofNat 1)).pos
  · trivial
  · have h1 := Q.near_ofNat 1
    rw [Nat.cast_one] at h1
    have hx : 1 ≤ x := by linarith [Q.pos_lt (Q.near_sub h h1) hb]
    refine near_oneUpTo (Q.near_exp (Q.near_neg (Q.near_mul h h))) ?_
    have a := erf_le_one x
    have b := erf_tail hx
    rw [show -(x * x) = -x ^ 2 by ring, abs_of_pos (Real.exp_pos _), abs_of_nonpos (by linarith)]
    linarith

theorem near_erfDer {q : Q} {x : ℝ} (h : Near q x) : Near (erfDer q) (Real.exp (-(x * x)) * (2 * (√Real.pi)⁻¹)) := by
  have h2 := Q.near_ofNat 2
  exact Q.near_mul (Q.near_exp (Q.near_neg (Q.near_mul h h))) (Q.near_mul (by exact_mod_cast h2) (Q.near_inv (Q.near_sqrt Q.near_pi)))

theorem near_f0 (p : IPrim) {q : Q} {x : ℝ} (h : Near q x) : Near (p.f0 q) (p.den.coef 2 x 0) := by
  rw [Prim.coef_zero _ (by norm_num)]
  have h1 := Q.near_ofNat 1
  rw [Nat.cast_one] at h1
  cases p with
  | inv => simpa [f0, den] using Q.near_inv h
  | exp => exact Q.near_exp h
  | expm1 => rw [den, Prim.fn_expm1]; exact Q.near_sub (Q.near_exp h) h1
  | log => exact Q.near_log h
  | pow a => exact Q.near_rpow h a.near_ball
  | sqrt => exact Q.near_sqrt h
  | cbrt =>
    have : Near (q.rpow third) (x ^ (1 / 3 : ℝ)) := Q.near_rpow h near_third
    cases hb : q.pos
    · simp [f0, Q.rpow, hb]
    · rw [den, Prim.fn_cbrt, XCFun.cbrt, if_pos (Q.pos_lt h hb).le]
      exact this
  | atan => exact Q.near_atan h
  | erf => exact near_erfBall h
  | asinh => exact Q.near_asinh h
  | pade => exact near_bad

theorem near_f1 (p : IPrim) {q : Q} {x : ℝ} (h : Near q x) : Near (p.f1 q) (p.den.coef 2 x 1) := by
  have h1 := Q.near_ofNat 1
  rw [Nat.cast_one] at h1
  have hi := Q.near_inv h
  have hs := Q.near_inv (Q.near_add h1 (Q.near_mul h h))
  cases p with
  | inv =>
    refine Near.congr (Q.near_neg (Q.near_mul hi hi)) ?_
    simp [den, Prim.coef, invExpand]
  | exp =>
    refine Near.congr (Q.near_exp h) ?_
    simp [den, Prim.coef, expExpand, expFac]
  | expm1 =>
    refine Near.congr (Q.near_exp h) ?_
    simp [den, Prim.coef, expm1Expand, expExpand, expFac]
  | log =>
    refine Near.congr (hi) ?_
    simp [den, Prim.coef, logExpand, logPow]
  | pow a =>
    refine Near.congr (Q.near_mul (Q.near_mul (Q.near_rpow h a.near_ball) hi) a.near_ball) ?_
    simp [den, Prim.coef, powExpand]
  | sqrt =>
    refine Near.congr (Q.near_divn (Q.near_mul (Q.near_sqrt h) hi) (d := 2) (by norm_num)) ?_
    simp [den, Prim.coef, sqrtExpand]
    ring
  | cbrt =>
    cases hb : q.pos
    · simp [f1, hb]
    · have := Q.near_divn (Q.near_mul (Q.near_rpow h near_third) hi) (d := 3) (by norm_num)
      rw [show f1 .cbrt q = ((q.rpow third).mul q.inv).divn 3 by simp only [f1, hb]]
      refine Near.congr this ?_
      simp [den, Prim.coef, cbrtExpand, XCFun.cbrt, (Q.pos_lt h hb).le]
      ring
  | atan =>
    refine Near.congr (hs) ?_
    rw [den, Prim.coef, atanExpand_prefix (by norm_num) (by norm_num)]
    simp [compEntry, invExpand]
  | erf =>
    refine Near.congr (near_erfDer h) ?_
    rw [den, Prim.coef, erfExpand_prefix (by norm_num)]
    simp [gaussExpand_eq, gaussG, gaussE]
    ring_nf
  | asinh =>
    refine Near.congr (Q.near_rpow (Q.near_add h1 (Q.near_mul h h)) (Q.near_neg near_halfc)) ?_
    rw [den, Prim.coef, asinhExpand_prefix (by norm_num) (by norm_num)]
    simp [compEntry, powExpand]
  | pade => exact near_bad

theorem near_f2 (p : IPrim) {q : Q} {x : ℝ} (h : Near q x) : Near (p.f2 q) (p.den.coef 2 x 2) := by
  have h1 := Q.near_ofNat 1
  rw [Nat.cast_one] at h1
  have hi := Q.near_inv h
  have hs := Q.near_inv (Q.near_add h1 (Q.near_mul h h))
  cases p with
  | inv =>
    refine Near.congr (Q.near_mul (Q.near_mul hi hi) hi) ?_
    simp [den, Prim.coef, invExpand]
  | exp =>
    refine Near.congr (Q.near_divn (Q.near_exp h) (d := 2) (by norm_num)) ?_
    simp [den, Prim.coef, expExpand, expFac]
  | expm1 =>
    refine Near.congr (Q.near_divn (Q.near_exp h) (d := 2) (by norm_num)) ?_
    simp [den, Prim.coef, expm1Expand, expExpand, expFac]
  | log =>
    refine Near.congr (Q.near_neg (Q.near_divn (Q.near_mul hi hi) (d := 2) (by norm_num))) ?_
    simp [den, Prim.coef, logExpand, logPow]
  | pow a =>
    refine Near.congr (Q.near_divn (Q.near_mul (Q.near_mul (Q.near_mul (Q.near_mul (Q.near_rpow h a.near_ball) hi) a.near_ball) hi) (Q.near_sub a.near_ball h1))
      (d := 2) (by norm_num)) ?_
    simp only [den, Prim.coef, powExpand]
    push_cast
    ring
  | sqrt =>
    refine Near.congr (Q.near_neg (Q.near_divn (Q.near_mul (Q.near_divn (Q.near_mul (Q.near_sqrt h) hi) (d := 2) (by norm_num)) hi) (d := 4) (by norm_num))) ?_
    simp [den, Prim.coef, sqrtExpand]
    ring
  | cbrt =>
    cases hb : q.pos
    · simp [f2, hb]
    · have := Q.near_neg (Q.near_divn (Q.near_mul (Q.near_divn (Q.near_mul (Q.near_rpow h near_third) hi) (d := 3) (by norm_num)) hi) (d := 3) (by norm_num))
      rw [show f2 .cbrt q = ((((q.rpow third).mul q.inv).divn 3).mul q.inv |>.divn 3).neg by simp only [f2, hb]]
      refine Near.congr this ?_
      simp [den, Prim.coef, cbrtExpand, XCFun.cbrt, (Q.pos_lt h hb).le]
      ring
  | atan =>
    refine Near.congr (Q.near_neg (Q.near_mul h (Q.near_mul hs hs))) ?_
    rw [den, Prim.coef, atanExpand_prefix (by norm_num) (by norm_num)]
    simp [compEntry, invExpand, atanInner]
    ring
  | erf =>
    refine Near.congr (Q.near_neg (Q.near_mul h (near_erfDer h))) ?_
    rw [den, Prim.coef, erfExpand_prefix (by norm_num)]
    simp [gaussExpand_eq, gaussG, gaussE, Finset.sum_range_succ]
    ring_nf
  | asinh =>
    refine Near.congr (Q.near_neg (Q.near_divn (Q.near_mul h (Q.near_mul (Q.near_rpow (Q.near_add h1 (Q.near_mul h h)) (Q.near_neg near_halfc)) hs))
      (d := 2) (by norm_num))) ?_
    rw [den, Prim.coef, asinhExpand_prefix (by norm_num) (by norm_num)]
    simp [compEntry, powExpand, asinhInner]
    ring
  | pade => exact near_bad

attribute [irreducible] f0 f1 f2

end IPrim

/-! ## Values with first and second derivatives -/

/-- Value, gradient and the rows `j ≥ i` of the Hessian. -/
structure J where
  v : Q
  g : List Q
  h : List (List Q)

/-- Two lists, element by element. -/
noncomputable def zip {α : Type} (f : α → α → α) (l : List α) : List α → List α :=
  List.rec (motive := fun _ => List α → List α) (fun _ => [])
    (fun a _ ih l' => List.casesOn (motive := fun _ => List α) l' [] fun b bs => f a b :: ih bs) l

/-- A function on a list. -/
noncomputable def lmap {α β : Type} (f : α → β) (l : List α) : List β := List.rec [] (fun a _ ih => f a :: ih) l

/-- Entries `a_i b_j + a_j b_i`, `j ≥ i`. -/
noncomputable def tri (l : List Q) : List Q → List (List Q) :=
  List.rec (motive := fun _ => List Q → List (List Q)) (fun _ => [])
    (fun a as ih l' => List.casesOn (motive := fun _ => List (List Q)) l' [] fun b bs =>
      zip (fun x y => x.add y) (lmap (fun y => a.mul y) (b :: bs)) (lmap (fun x => x.mul b) (a :: as)) :: ih bs) l

noncomputable def hAdd (x y : List (List Q)) : List (List Q) := zip (zip Q.add) x y
noncomputable def hScale (c : Q) (x : List (List Q)) : List (List Q) := lmap (lmap fun a => c.mul a) x

theorem zip_get {α : Type} {f : α → α → α} {l l' : List α} {i : ℕ} {c : α} (h : (zip f l l')[i]? = some c) :
    ∃ a b, l[i]? = some a ∧ l'[i]? = some b ∧ c = f a b := by
  induction l generalizing l' i with
  | nil => simp [zip] at h
  | cons a as ih =>
    cases l' with
    | nil => simp [zip] at h
    | cons b bs =>
      cases i with
      | zero => exact ⟨a, b, rfl, rfl, (Option.some.inj h).symm⟩
      | succ i => exact ih h

theorem lmap_get {α β : Type} {f : α → β} {l : List α} {i : ℕ} {c : β} (h : (lmap f l)[i]? = some c) : ∃ a, l[i]? = some a ∧ c = f a := by
  induction l generalizing i with
  | nil => simp [lmap] at h
  | cons a as ih =>
    cases i with
    | zero => exact ⟨a, rfl, (Option.some.inj h).symm⟩
    | succ i => exact ih h

theorem tri_get {l l' : List Q} {i k : ℕ} {row : List Q} {c : Q} (h : (tri l l')[i]? = some row) (hk : row[k]? = some c) :
    ∃ ai bi aj bj, l[i]? = some ai ∧ l'[i]? = some bi ∧ l[i + k]? = some aj ∧ l'[i + k]? = some bj ∧ c = (ai.mul bj).add (aj.mul bi) := by
  induction l generalizing l' i with
  | nil => simp [tri] at h
  | cons a as ih =>
    cases l' with
    | nil => simp [tri] at h
    | cons b bs =>
      cases i with
      | zero =>
        have : row = zip (fun x y => x.add y) (lmap (fun y => a.mul y) (b :: bs)) (lmap (fun x => x.mul b) (a :: as)) := (Option.some.inj h).symm
        subst this
        obtain ⟨p, q, hp, hq, rfl⟩ := zip_get hk
        obtain ⟨p', hp', rfl⟩ := lmap_get hp
        obtain ⟨q', hq', rfl⟩ := lmap_get hq
        exact ⟨a, b, q', p', rfl, rfl, by simpa using hq', by simpa using hp', rfl⟩
      | succ i =>
        obtain ⟨ai, bi, aj, bj, h1, h2, h3, h4, h5⟩ := ih h
        refine ⟨ai, bi, aj, bj, h1, h2, ?_, ?_, h5⟩
        · rw [show i + 1 + k = (i + k) + 1 by omega]; exact h3
        · rw [show i + 1 + k = (i + k) + 1 by omega]; exact h4

namespace J

noncomputable def bad : J := ⟨.bad, [], []⟩
noncomputable def add (A B : J) : J := ⟨A.v.add B.v, zip Q.add A.g B.g, hAdd A.h B.h⟩
noncomputable def neg (A : J) : J := ⟨A.v.neg, lmap Q.neg A.g, lmap (lmap Q.neg) A.h⟩
noncomputable def sub (A B : J) : J := A.add B.neg
noncomputable def mul (A B : J) : J :=
  ⟨A.v.mul B.v, zip Q.add (lmap (fun a => A.v.mul a) B.g) (lmap (fun a => a.mul B.v) A.g),
    hAdd (hAdd (hScale A.v B.h) (hScale B.v A.h)) (tri A.g B.g)⟩
/-- A function with Taylor coefficients `a`, `b`, `c`. -/
noncomputable def comp (a b c : Q) (A : J) : J :=
  ⟨a, lmap (fun x => b.mul x) A.g, hAdd (hScale b A.h) (tri (lmap (fun x => c.mul x) A.g) A.g)⟩
/-- A constant for `n` variables. -/
noncomputable def const (sh : List Q × List (List Q)) (c : Q) : J := ⟨c, sh.1, sh.2⟩

end J

/-- `A` describes the value and the derivatives with respect to the inputs `i ≤ j`. -/
structure Enc (i j : ℕ) (A : J) (c : CT ℝ 2) : Prop where
  v : Near A.v (c.get 0)
  gi : ∀ a, A.g[i]? = some a → Near a (c.get 1)
  gj : ∀ a, A.g[j]? = some a → Near a (c.get 2)
  h : ∀ row a, A.h[i]? = some row → row[j - i]? = some a → Near a (c.get 3)

theorem ct2_cases (c : CT ℝ 2) : ∃ a b d e, c = .node (.node (.leaf a) (.leaf b)) (.node (.leaf d) (.leaf e)) := by
  obtain _ | ⟨_ | ⟨⟨a⟩, ⟨b⟩⟩, _ | ⟨⟨d⟩, ⟨e⟩⟩⟩ := c
  exact ⟨a, b, d, e, rfl⟩

section
variable {i j : ℕ} {A B : J} {c d : CT ℝ 2}

theorem enc_bad : Enc i j .bad c := ⟨trivial, by simp [J.bad], by simp [J.bad], by simp [J.bad]⟩

theorem enc_add (h : Enc i j A c) (h' : Enc i j B d) : Enc i j (A.add B) (c + d) := by
  refine ⟨?_, fun a ha => ?_, fun a ha => ?_, fun row a hr ha => ?_⟩
  · rw [CT.get_add]; exact Q.near_add h.v h'.v
  · obtain ⟨x, y, hx, hy, rfl⟩ := zip_get ha
    rw [CT.get_add]; exact Q.near_add (h.gi _ hx) (h'.gi _ hy)
  · obtain ⟨x, y, hx, hy, rfl⟩ := zip_get ha
    rw [CT.get_add]; exact Q.near_add (h.gj _ hx) (h'.gj _ hy)
  · obtain ⟨x, y, hx, hy, rfl⟩ := zip_get hr
    obtain ⟨x', y', hx', hy', rfl⟩ := zip_get ha
    rw [CT.get_add]; exact Q.near_add (h.h _ _ hx hx') (h'.h _ _ hy hy')

theorem enc_neg (h : Enc i j A c) : Enc i j A.neg (-c) := by
  refine ⟨?_, fun a ha => ?_, fun a ha => ?_, fun row a hr ha => ?_⟩
  · rw [CT.get_neg]; exact Q.near_neg h.v
  · obtain ⟨x, hx, rfl⟩ := lmap_get ha
    rw [CT.get_neg]; exact Q.near_neg (h.gi _ hx)
  · obtain ⟨x, hx, rfl⟩ := lmap_get ha
    rw [CT.get_neg]; exact Q.near_neg (h.gj _ hx)
  · obtain ⟨x, hx, rfl⟩ := lmap_get hr
    obtain ⟨x', hx', rfl⟩ := lmap_get ha
    rw [CT.get_neg]; exact Q.near_neg (h.h _ _ hx hx')

theorem enc_sub (h : Enc i j A c) (h' : Enc i j B d) : Enc i j (A.sub B) (c - d) := by
  rw [sub_eq_add_neg]; exact enc_add h (enc_neg h')

theorem enc_mul (hij : i ≤ j) (h : Enc i j A c) (h' : Enc i j B d) : Enc i j (A.mul B) (c * d) := by
  obtain ⟨c0, c1, c2, c3, rfl⟩ := ct2_cases c
  obtain ⟨d0, d1, d2, d3, rfl⟩ := ct2_cases d
  obtain ⟨hv, hi, hj, hh⟩ := h
  obtain ⟨hv', hi', hj', hh'⟩ := h'
  simp only [CT.get] at hv hi hj hh hv' hi' hj' hh'
  norm_num at hv hi hj hh hv' hi' hj' hh'
  refine ⟨?_, fun a ha => ?_, fun a ha => ?_, fun row a hr ha => ?_⟩
  · exact IPrim.Near.congr (Q.near_mul hv hv') (by simp [CT.get])
  · obtain ⟨x, y, hx, hy, rfl⟩ := zip_get ha
    obtain ⟨x, hx', rfl⟩ := lmap_get hx
    obtain ⟨y, hy', rfl⟩ := lmap_get hy
    refine IPrim.Near.congr (Q.near_add (Q.near_mul hv (hi' _ hx')) (Q.near_mul (hi _ hy') hv')) ?_
    simp [CT.get]; ring
  · obtain ⟨x, y, hx, hy, rfl⟩ := zip_get ha
    obtain ⟨x, hx', rfl⟩ := lmap_get hx
    obtain ⟨y, hy', rfl⟩ := lmap_get hy
    refine IPrim.Near.congr (Q.near_add (Q.near_mul hv (hj' _ hx')) (Q.near_mul (hj _ hy') hv')) ?_
    simp [CT.get]; ring
  · obtain ⟨r1, r2, hr1, hr2, rfl⟩ := zip_get hr
    obtain ⟨r3, r4, hr3, hr4, rfl⟩ := zip_get hr1
    obtain ⟨r5, hr5, rfl⟩ := lmap_get hr3
    obtain ⟨r6, hr6, rfl⟩ := lmap_get hr4
    obtain ⟨p, q, hp, hq, rfl⟩ := zip_get ha
    obtain ⟨ai, bi, aj, bj, e1, e2, e3, e4, rfl⟩ := tri_get hr2 hq
    obtain ⟨x, y, hx, hy, rfl⟩ := zip_get hp
    obtain ⟨x, hx', rfl⟩ := lmap_get hx
    obtain ⟨y, hy', rfl⟩ := lmap_get hy
    rw [Nat.add_sub_cancel' hij] at e3 e4
    refine IPrim.Near.congr (Q.near_add (Q.near_add (Q.near_mul hv (hh' _ _ hr5 hx')) (Q.near_mul hv' (hh _ _ hr6 hy')))
      (Q.near_add (Q.near_mul (hi _ e1) (hj' _ e4)) (Q.near_mul (hj _ e3) (hi' _ e2)))) ?_
    simp [CT.get]; ring

theorem enc_comp (hij : i ≤ j) (h : Enc i j A c) {p q r : Q} {f : ℕ → ℝ} (h0 : Near p (f 0)) (h1 : Near q (f 1)) (h2 : Near r (f 2)) :
    Enc i j (A.comp p q r) (c.compose f) := by
  obtain ⟨c0, c1, c2, c3, rfl⟩ := ct2_cases c
  obtain ⟨hv, hi, hj, hh⟩ := h
  simp only [CT.get] at hv hi hj hh
  norm_num at hv hi hj hh
  refine ⟨?_, fun a ha => ?_, fun a ha => ?_, fun row a hr ha => ?_⟩
  · exact IPrim.Near.congr h0 (by simp [CT.get, CT.compose_node])
  · obtain ⟨x, hx, rfl⟩ := lmap_get ha
    refine IPrim.Near.congr (Q.near_mul h1 (hi _ hx)) ?_
    simp [CT.get, CT.compose_node]
  · obtain ⟨x, hx, rfl⟩ := lmap_get ha
    refine IPrim.Near.congr (Q.near_mul h1 (hj _ hx)) ?_
    simp [CT.get, CT.compose_node]
  · obtain ⟨r1, r2, hr1, hr2, rfl⟩ := zip_get hr
    obtain ⟨r5, hr5, rfl⟩ := lmap_get hr1
    obtain ⟨p', q', hp, hq, rfl⟩ := zip_get ha
    obtain ⟨ai, bi, aj, bj, e1, e2, e3, e4, rfl⟩ := tri_get hr2 hq
    obtain ⟨ai, f1, rfl⟩ := lmap_get e1
    obtain ⟨aj, f3, rfl⟩ := lmap_get e3
    obtain ⟨x, hx', rfl⟩ := lmap_get hp
    rw [Nat.add_sub_cancel' hij] at f3 e4
    refine IPrim.Near.congr (Q.near_add (Q.near_mul h1 (hh _ _ hr5 hx'))
      (Q.near_add (Q.near_mul (Q.near_mul h2 (hi _ f1)) (hj _ e4)) (Q.near_mul (Q.near_mul h2 (hj _ f3)) (hi _ e2)))) ?_
    simp [CT.get, CT.compose_node]; ring

/-- The shape of the derivatives of a constant. -/
def Zeros (sh : List Q × List (List Q)) : Prop := (∀ a ∈ sh.1, a = .z) ∧ ∀ row ∈ sh.2, ∀ a ∈ row, a = .z

theorem enc_const {sh : List Q × List (List Q)} (hs : Zeros sh) {q : Q} {x : ℝ} (h : Near q x) : Enc i j (.const sh q) (CT.const 2 x) := by
  refine ⟨IPrim.Near.congr h (by simp [CT.get]), fun a ha => ?_, fun a ha => ?_, fun row a hr ha => ?_⟩
  · rw [hs.1 a (List.mem_of_getElem? ha)]; simp [CT.get, CT.zero_leaf]
  · rw [hs.1 a (List.mem_of_getElem? ha)]; simp [CT.get, CT.zero_leaf, CT.zero_node]
  · rw [hs.2 row (List.mem_of_getElem? hr) a (List.mem_of_getElem? ha)]; simp [CT.get, CT.zero_leaf, CT.zero_node]

end

/-! ## Expressions -/

/-- Expressions with real constants given by their syntax. -/
inductive IE (ι : Type) where
  | var (i : ι)
  | lit (c : RE)
  | add (x y : IE ι)
  | sub (x y : IE ι)
  | mul (x y : IE ι)
  | neg (x : IE ι)
  | prim (p : IPrim) (x : IE ι)
  | reg (x : IE ι)
  | iflt (x y a b : IE ι)

namespace IE
variable {ι : Type}

/-- The expression meant. -/
noncomputable def den : IE ι → Expr ι
  | var i => .var i
  | lit c => .lit c.den
  | add x y => .add x.den y.den
  | sub x y => .sub x.den y.den
  | mul x y => .mul x.den y.den
  | neg x => .neg x.den
  | prim p x => .prim p.den x.den
  | reg x => .reg x.den
  | iflt x y a b => .iflt x.den y.den a.den b.den

/-- One of two values, depending on the sign of `q`. -/
noncomputable def choose (q : Q) (a b : J) : J :=
  Q.casesOn q b (fun n r => Bool.casesOn (Nat.blt r n) .bad a) (fun n r => Bool.casesOn (Nat.blt r n) .bad b) .bad

noncomputable def tiny : Q := (Q.ofNat 1).divn (Nat.pow 10 14)

/-- Numerical evaluation. -/
noncomputable def eval (sh : List Q × List (List Q)) (ρ : ι → J) (e : IE ι) : J :=
  IE.rec (motive := fun _ => J) ρ (fun c => .const sh c.ball) (fun _ _ x y => x.add y) (fun _ _ x y => x.sub y) (fun _ _ x y => x.mul y)
    (fun _ x => x.neg) (fun p _ x => x.comp (p.f0 x.v) (p.f1 x.v) (p.f2 x.v)) (fun _ x => choose (x.v.sub tiny) x .bad)
    (fun _ _ _ _ x y a b => choose (y.v.sub x.v) a b) e

theorem enc_choose {i j : ℕ} {q : Q} {x : ℝ} (h : Near q x) {a b : J} {c d : CT ℝ 2} (ha : 0 < x → Enc i j a c) (hb : x ≤ 0 → Enc i j b d) :
    Enc i j (choose q a b) (if 0 < x then c else d) := by
  cases q with
  | z =>
    rw [near_z] at h; subst h
    rw [if_neg (lt_irrefl _)]; exact hb le_rfl
  | p n r =>
    show Enc i j (Bool.casesOn (Nat.blt r n) .bad a) _
    cases hp : Nat.blt r n
    · exact enc_bad
    · have := Q.pos_lt h hp
      rw [if_pos this]; exact ha this
  | m n r =>
    show Enc i j (Bool.casesOn (Nat.blt r n) .bad b) _
    cases hp : Nat.blt r n
    · exact enc_bad
    · have : 0 < -x := Q.pos_lt (q := .p n r) (by rw [near_m, ← abs_neg] at h; rw [near_p]; convert h using 2; ring) hp
      rw [if_neg (by linarith)]; exact hb (by linarith)
  | bad => exact enc_bad

theorem enc_eval {i j : ℕ} (hij : i ≤ j) {sh : List Q × List (List Q)} (hs : Zeros sh) {ρ : ι → J} {σ : ι → CT ℝ 2} (h : ∀ k, Enc i j (ρ k) (σ k)) (e : IE ι) :
    Enc i j (e.eval sh ρ) (e.den.evalCT σ) := by
  induction e with
  | var k => exact h k
  | lit c => exact enc_const hs c.near_ball
  | add x y ihx ihy => exact enc_add ihx ihy
  | sub x y ihx ihy => exact enc_sub ihx ihy
  | mul x y ihx ihy => exact enc_mul hij ihx ihy
  | neg x ih => exact enc_neg ih
  | prim p x ih =>
    have hv := ih.v
    rw [← CT.c0_eq_get] at hv
    exact enc_comp hij ih (p.near_f0 hv) (p.near_f1 hv) (p.near_f2 hv)
  | reg x ih =>
    have hv := ih.v
    rw [← CT.c0_eq_get] at hv
    have ht : Near tiny (1e-14 : ℝ) := by
      have := Q.near_divn (Q.near_ofNat 1) (d := Nat.pow 10 14) (by norm_num)
      refine IPrim.Near.congr this ?_
      rw [Nat.pow_eq]; norm_num
    have := enc_choose (Q.near_sub hv ht) (fun _ => ih) (fun _ => enc_bad (c := (den x).evalCT σ |>.regularize))
    simp only [den, Expr.evalCT]
    show Enc i j (choose ((eval sh ρ x).v.sub tiny) (eval sh ρ x) J.bad) _
    convert this using 1
    split
    · next hp => rw [CT.regularize, if_neg (by linarith)]
    · rfl
  | iflt x y a b ihx ihy iha ihb =>
    have hx := ihx.v
    have hy := ihy.v
    rw [← CT.c0_eq_get] at hx hy
    have := enc_choose (Q.near_sub hy hx) (fun _ => iha) (fun _ => ihb)
    simp only [den, Expr.evalCT]
    show Enc i j (choose ((eval sh ρ y).v.sub (eval sh ρ x).v) (eval sh ρ a) (eval sh ρ b)) _
    simpa only [sub_pos] using this

end IE
end XCFun.Num
