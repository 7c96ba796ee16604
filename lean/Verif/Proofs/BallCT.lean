/-
Verified numerical evaluation of expressions on multilinear expansions of order up to three.
-/
import Verif.Proofs.BallJet

namespace XCFun.Num
open XCFun

/-! ## The third coefficient of the elementary functions -/

namespace IPrim

noncomputable def f3 (p : IPrim) (x : Q) : Q :=
  IPrim.casesOn p (((x.inv.mul x.inv).mul x.inv).mul x.inv).neg (x.exp.divn 6) (x.exp.divn 6) (((x.inv.mul x.inv).mul x.inv).divn 3)
    (fun a => (((((((x.rpow a.ball).mul x.inv).mul a.ball).mul x.inv).mul (a.ball.sub (.ofNat 1))).mul x.inv).mul (a.ball.sub (.ofNat 2))).divn 6)
    (((((x.sqrt.mul x.inv).divn 2).mul x.inv).mul x.inv).divn 8) .bad .bad .bad .bad .bad

theorem near_f3 (p : IPrim) {q : Q} {x : ℝ} (h : Near q x) : Near (p.f3 q) (p.den.coef 3 x 3) := by
  have h1 := Q.near_ofNat 1
  rw [Nat.cast_one] at h1
  have h2 := Q.near_ofNat 2
  rw [Nat.cast_ofNat] at h2
  have hi := Q.near_inv h
  cases p with
  | inv =>
    refine Near.congr (Q.near_neg (Q.near_mul (Q.near_mul (Q.near_mul hi hi) hi) hi)) ?_
    simp [den, Prim.coef, invExpand]
  | exp =>
    refine Near.congr (Q.near_divn (Q.near_exp h) (d := 6) (by norm_num)) ?_
    simp [den, Prim.coef, expExpand, expFac]
    ring
  | expm1 =>
    refine Near.congr (Q.near_divn (Q.near_exp h) (d := 6) (by norm_num)) ?_
    simp [den, Prim.coef, expm1Expand, expExpand, expFac]
    ring
  | log =>
    refine Near.congr (Q.near_divn (Q.near_mul (Q.near_mul hi hi) hi) (d := 3) (by norm_num)) ?_
    simp [den, Prim.coef, logExpand, logPow]
  | pow a =>
    refine Near.congr (Q.near_divn (Q.near_mul (Q.near_mul (Q.near_mul (Q.near_mul (Q.near_mul (Q.near_mul (Q.near_rpow h a.near_ball) hi) a.near_ball) hi)
      (Q.near_sub a.near_ball h1)) hi) (Q.near_sub a.near_ball h2)) (d := 6) (by norm_num)) ?_
    simp only [den, Prim.coef, powExpand]
    push_cast
    ring
  | sqrt =>
    refine Near.congr (Q.near_divn (Q.near_mul (Q.near_mul (Q.near_divn (Q.near_mul (Q.near_sqrt h) hi) (d := 2) (by norm_num)) hi) hi) (d := 8) (by norm_num)) ?_
    simp [den, Prim.coef, sqrtExpand]
    ring
  | cbrt => exact near_bad
  | atan => exact near_bad
  | erf => exact near_bad
  | asinh => exact near_bad
  | pade => exact near_bad

attribute [irreducible] f3

/-- The coefficients up to the third. -/
noncomputable def coefs (p : IPrim) (x : Q) : List Q := [p.f0 x, p.f1 x, p.f2 x, p.f3 x]

theorem near_coefs (p : IPrim) {q : Q} {x : ℝ} (h : Near q x) {N : ℕ} (hN : N ≤ 3) {i : ℕ} (hi : i ≤ N) {c : Q} (hc : (p.coefs q)[i]? = some c) :
    Near c (p.den.coef N x i) := by
  have e3 : ∀ i ≤ N, p.den.coef N x i = p.den.coef 3 x i := fun i hi => (p.den.coef_prefix hi hN (by norm_num) x).symm
  have e2 : ∀ i ≤ 2, p.den.coef 3 x i = p.den.coef 2 x i := fun i hi => p.den.coef_prefix hi (by norm_num) (by norm_num) x
  rw [e3 i hi]
  obtain _ | _ | _ | _ | i := i
  · rw [e2 0 (by norm_num), ← Option.some.inj hc]; exact p.near_f0 h
  · rw [e2 1 (by norm_num), ← Option.some.inj hc]; exact p.near_f1 h
  · rw [e2 2 (by norm_num), ← Option.some.inj hc]; exact p.near_f2 h
  · rw [← Option.some.inj hc]; exact p.near_f3 h
  · omega

end IPrim

/-! ## Expansions -/

/-- Expansions whose coefficients are balls. -/
inductive T where
  | leaf (q : Q)
  | node (l h : T)
  | bad

/-- The coefficients of `c` lie in the balls of `t`. -/
inductive NearT : {n : ℕ} → T → CT ℝ n → Prop where
  | leaf {q x} : Near q x → NearT (.leaf q) (.leaf x)
  | node {n L H} {l h : CT ℝ n} : NearT L l → NearT H h → NearT (.node L H) (.node l h)
  | bad {n} {c : CT ℝ n} : NearT .bad c

namespace T

noncomputable def map2 (f : Q → Q → Q) (x : T) : T → T :=
  T.rec (motive := fun _ => T → T) (fun a y => T.casesOn (motive := fun _ => T) y (fun b => .leaf (f a b)) (fun _ _ => .bad) .bad)
    (fun _ _ il ih y => T.casesOn (motive := fun _ => T) y (fun _ => .bad) (fun l' h' => .node (il l') (ih h')) .bad) (fun _ => .bad) x

noncomputable def add (x y : T) : T := map2 Q.add x y
noncomputable def sub (x y : T) : T := map2 Q.sub x y
noncomputable def neg (x : T) : T := T.rec (motive := fun _ => T) (fun a => .leaf a.neg) (fun _ _ l h => .node l h) .bad x

noncomputable def mul (x : T) : T → T :=
  T.rec (motive := fun _ => T → T) (fun a y => T.casesOn (motive := fun _ => T) y (fun b => .leaf (a.mul b)) (fun _ _ => .bad) .bad)
    (fun _ _ il ih y => T.casesOn (motive := fun _ => T) y (fun _ => .bad) (fun l' h' => .node (il l') ((ih l').add (il h'))) .bad) (fun _ => .bad) x

noncomputable def zero (n : ℕ) : T := Nat.rec (.leaf .z) (fun _ t => .node t t) n
noncomputable def const (n : ℕ) (q : Q) : T := Nat.rec (.leaf q) (fun n t => .node t (zero n)) n

/-- The constant coefficient. -/
noncomputable def c0 (x : T) : Q := T.rec (motive := fun _ => Q) (fun a => a) (fun _ _ l _ => l) .bad x

/-- The last coefficient. -/
noncomputable def last (x : T) : Q := T.rec (motive := fun _ => Q) (fun a => a) (fun _ _ _ h => h) .bad x

/-- The series `(k+1) c_{k+1}`, the numbers starting from `i`. -/
noncomputable def derivFrom (l : List Q) : ℕ → List Q :=
  List.rec (motive := fun _ => ℕ → List Q) (fun _ => []) (fun a _ ih i => (Q.ofNat (Nat.succ i)).mul a :: ih (Nat.succ i)) l

noncomputable def deriv (l : List Q) : List Q := List.casesOn l [] fun _ as => derivFrom as 0

noncomputable def compose (x : T) : List Q → T :=
  T.rec (motive := fun _ => List Q → T) (fun _ cs => List.casesOn cs .bad fun c _ => .leaf c)
    (fun _ h il _ cs => .node (il cs) ((il (deriv cs)).mul h)) (fun _ => .bad) x

end T

section
variable {n : ℕ} {X Y : T} {x y : CT ℝ n}

theorem nearT_map2 {f : Q → Q → Q} {g : ℝ → ℝ → ℝ} (hf : ∀ {q q' a b}, Near q a → Near q' b → Near (f q q') (g a b)) (h : NearT X x) (h' : NearT Y y) :
    NearT (T.map2 f X Y) (CT.zip g x y) := by
  induction h generalizing Y with
  | leaf h =>
    cases h' with
    | leaf h' => exact .leaf (hf h h')
    | bad => exact .bad
  | node _ _ i1 i2 =>
    cases h' with
    | node a b => exact .node (i1 a) (i2 b)
    | bad => exact .bad
  | bad => exact .bad

theorem nearT_add (h : NearT X x) (h' : NearT Y y) : NearT (X.add Y) (x + y) := nearT_map2 (g := (· + ·)) Q.near_add h h'
theorem nearT_sub (h : NearT X x) (h' : NearT Y y) : NearT (X.sub Y) (x - y) := nearT_map2 (g := (· - ·)) Q.near_sub h h'

theorem nearT_neg (h : NearT X x) : NearT X.neg (-x) := by
  induction h with
  | leaf h => exact .leaf (Q.near_neg h)
  | node _ _ i1 i2 => exact .node i1 i2
  | bad => exact .bad

theorem nearT_mul (h : NearT X x) (h' : NearT Y y) : NearT (X.mul Y) (x * y) := by
  induction h generalizing Y with
  | leaf h =>
    cases h' with
    | leaf h' => exact .leaf (Q.near_mul h h')
    | bad => exact .bad
  | node _ _ i1 i2 =>
    cases h' with
    | node a b => exact .node (i1 a) (nearT_add (i2 a) (i1 b))
    | bad => exact .bad
  | bad => exact .bad

theorem nearT_zero (n : ℕ) : NearT (T.zero n) (0 : CT ℝ n) := by
  induction n with
  | zero => exact .leaf (by simp)
  | succ n ih => exact .node ih ih

theorem nearT_const {q : Q} {a : ℝ} (h : Near q a) (n : ℕ) : NearT (T.const n q) (CT.const n a) := by
  induction n with
  | zero => exact .leaf h
  | succ n ih => exact .node ih (nearT_zero n)

theorem nearT_c0 (h : NearT X x) : Near X.c0 x.c0 := by
  induction h with
  | leaf h => exact h
  | node _ _ i1 i2 => exact i1
  | bad => exact near_bad

theorem nearT_last (h : NearT X x) : Near X.last (x.get (2 ^ n - 1)) := by
  induction h with
  | leaf h => exact h
  | @node n L H l h _ _ i1 i2 =>
    have hp : 0 < 2 ^ n := by positivity
    have e : 2 ^ (n + 1) - 1 - 2 ^ n = 2 ^ n - 1 := by omega
    rw [CT.get, if_neg (by omega), e]
    exact i2
  | bad => exact near_bad

/-- The coefficients `f 0, …, f n` lie in the balls of `cs`. -/
def NearC (n : ℕ) (cs : List Q) (f : ℕ → ℝ) : Prop := ∀ i ≤ n, ∀ c, cs[i]? = some c → Near c (f i)

theorem derivFrom_get {l : List Q} {i k : ℕ} {c : Q} (h : (T.derivFrom l k)[i]? = some c) :
    ∃ a, l[i]? = some a ∧ c = (Q.ofNat (k + i + 1)).mul a := by
  induction l generalizing i k with
  | nil => simp [T.derivFrom] at h
  | cons a as ih =>
    cases i with
    | zero => exact ⟨a, rfl, (Option.some.inj h).symm⟩
    | succ i =>
      obtain ⟨b, hb, hc⟩ := ih (k := k + 1) h
      exact ⟨b, hb, by rw [hc]; congr 2; omega⟩

theorem nearC_deriv {cs : List Q} {f : ℕ → ℝ} (h : NearC (n + 1) cs f) : NearC n (T.deriv cs) fun i => ((i + 1 : ℕ) : ℝ) * f (i + 1) := by
  intro i hi c hc
  cases cs with
  | nil => simp [T.deriv] at hc
  | cons a as =>
    obtain ⟨b, hb, rfl⟩ := derivFrom_get (l := as) (k := 0) hc
    rw [Nat.zero_add]
    exact Q.near_mul (Q.near_ofNat _) (h (i + 1) (by omega) b hb)

theorem nearT_compose (h : NearT X x) {cs : List Q} {f : ℕ → ℝ} (hf : NearC n cs f) : NearT (X.compose cs) (x.compose f) := by
  induction h generalizing cs f with
  | leaf h =>
    cases cs with
    | nil => exact .bad
    | cons c cs => exact .leaf (hf 0 le_rfl c rfl)
  | node _ h2 i1 i2 =>
    rw [CT.compose_node]
    exact .node (i1 fun i hi => hf i (by omega)) (nearT_mul (i1 (nearC_deriv hf)) h2)
  | bad => exact .bad

end

/-! ## Expressions -/

namespace IE
variable {ι : Type}

/-- One of two values, depending on the sign of `q`. -/
noncomputable def chooseT (q : Q) (a b : T) : T :=
  Q.casesOn q b (fun n r => Bool.casesOn (Nat.blt r n) .bad a) (fun n r => Bool.casesOn (Nat.blt r n) .bad b) .bad

/-- Numerical evaluation on expansions in `N` variables. -/
noncomputable def evalT (N : ℕ) (ρ : ι → T) (e : IE ι) : T :=
  IE.rec (motive := fun _ => T) ρ (fun c => .const N c.ball) (fun _ _ x y => x.add y) (fun _ _ x y => x.sub y) (fun _ _ x y => x.mul y)
    (fun _ x => x.neg) (fun p _ x => x.compose (p.coefs x.c0)) (fun _ x => chooseT (x.c0.sub tiny) x .bad)
    (fun _ _ _ _ x y a b => chooseT (y.c0.sub x.c0) a b) e

theorem nearT_choose {n : ℕ} {q : Q} {x : ℝ} (h : Near q x) {a b : T} {c d : CT ℝ n} (ha : 0 < x → NearT a c) (hb : x ≤ 0 → NearT b d) :
    NearT (chooseT q a b) (if 0 < x then c else d) := by
  cases q with
  | z =>
    rw [near_z] at h; subst h
    rw [if_neg (lt_irrefl _)]; exact hb le_rfl
  | p n r =>
    show NearT (Bool.casesOn (Nat.blt r n) .bad a) _
    cases hp : Nat.blt r n
    · exact .bad
    · have := Q.pos_lt h hp
      rw [if_pos this]; exact ha this
  | m n r =>
    show NearT (Bool.casesOn (Nat.blt r n) .bad b) _
    cases hp : Nat.blt r n
    · exact .bad
    · have : 0 < -x := Q.pos_lt (q := .p n r) (by rw [near_m, ← abs_neg] at h; rw [near_p]; convert h using 2; ring) hp
      rw [if_neg (by linarith)]; exact hb (by linarith)
  | bad => exact .bad

theorem near_tiny : Near tiny (1e-14 : ℝ) := by
  have := Q.near_divn (Q.near_ofNat 1) (d := Nat.pow 10 14) (by norm_num)
  refine IPrim.Near.congr this ?_
  rw [Nat.pow_eq]; norm_num

theorem nearT_eval {N : ℕ} (hN : N ≤ 3) {ρ : ι → T} {σ : ι → CT ℝ N} (h : ∀ k, NearT (ρ k) (σ k)) (e : IE ι) :
    NearT (e.evalT N ρ) (e.den.evalCT σ) := by
  induction e with
  | var k => exact h k
  | lit c => exact nearT_const c.near_ball N
  | add x y ihx ihy => exact nearT_add ihx ihy
  | sub x y ihx ihy => exact nearT_sub ihx ihy
  | mul x y ihx ihy => exact nearT_mul ihx ihy
  | neg x ih => exact nearT_neg ih
  | prim p x ih => exact nearT_compose ih fun i hi c hc => p.near_coefs (nearT_c0 ih) hN hi hc
  | reg x ih =>
    have := nearT_choose (Q.near_sub (nearT_c0 ih) near_tiny) (fun _ => ih) (fun _ => NearT.bad (c := (den x).evalCT σ |>.regularize))
    simp only [den, Expr.evalCT]
    show NearT (chooseT ((evalT N ρ x).c0.sub tiny) (evalT N ρ x) .bad) _
    convert this using 1
    split
    · next hp => rw [CT.regularize, if_neg (by linarith)]
    · rfl
  | iflt x y a b ihx ihy iha ihb =>
    have := nearT_choose (Q.near_sub (nearT_c0 ihy) (nearT_c0 ihx)) (fun _ => iha) (fun _ => ihb)
    simp only [den, Expr.evalCT]
    show NearT (chooseT ((evalT N ρ y).c0.sub (evalT N ρ x).c0) (evalT N ρ a) (evalT N ρ b)) _
    simpa only [sub_pos] using this

end IE
end XCFun.Num
