/-
Behaviour of the functionals under exchange of the spins.
-/
import Verif.Spec.Spin
import Verif.Proofs.Members

namespace XCFun
open Spec

namespace Fun

/-- The exchange as a substitution. -/
def flipVar : Field → Expr Field := flipField Expr.var

/-- `x` becomes `y` when the spins are exchanged. -/
structure Flip (x y : Expr Field) : Prop where
  eq : ∀ {N : ℕ} (ρ : Field → CT ℝ N), (x.subst flipVar).evalCT ρ = y.evalCT ρ

/-- `x` does not change. -/
abbrev Sym (x : Expr Field) : Prop := Flip x x

/-- `x` changes sign. -/
abbrev Anti (x : Expr Field) : Prop := Flip x (-x)

namespace Flip
variable {x y x' y' p q a b a' b' : Expr Field}

theorem of_eq (h : x.subst flipVar = y) : Flip x y := ⟨fun _ => by rw [h]⟩
theorem lit (c : ℝ) : Sym (.lit c) := ⟨fun _ => rfl⟩
theorem add (h : Flip x x') (k : Flip y y') : Flip (x + y) (x' + y') := ⟨fun ρ => congrArg₂ (· + ·) (h.eq ρ) (k.eq ρ)⟩
theorem sub (h : Flip x x') (k : Flip y y') : Flip (x - y) (x' - y') := ⟨fun ρ => congrArg₂ (· - ·) (h.eq ρ) (k.eq ρ)⟩
theorem mul (h : Flip x x') (k : Flip y y') : Flip (x * y) (x' * y') := ⟨fun ρ => congrArg₂ (· * ·) (h.eq ρ) (k.eq ρ)⟩
theorem neg (h : Flip x x') : Flip (-x) (-x') := ⟨fun ρ => congrArg (- ·) (h.eq ρ)⟩
theorem prim (f : Prim) (h : Flip x x') : Flip (.prim f x) (.prim f x') := ⟨fun ρ => congrArg (CT.prim f) (h.eq ρ)⟩
theorem div (h : Flip x x') (k : Flip y y') : Flip (x / y) (x' / y') := mul (prim .inv k) h
theorem iflt (h : Flip x x') (k : Flip y y') (l : Flip a a') (m : Flip b b') :
    Flip (.iflt x y a b) (.iflt x' y' a' b') := ⟨fun ρ => by
  have h := h.eq ρ; have k := k.eq ρ; have l := l.eq ρ; have m := m.eq ρ
  simp only [Expr.subst, Expr.evalCT, h, k, l, m]⟩
theorem npow (h : Flip x x') : ∀ n, Flip (x.npow n) (x'.npow n)
  | 0 => lit 1
  | 1 => h
  | n + 2 => mul (npow h (n + 1)) h
theorem powi (h : Flip x x') : ∀ n, Flip (x.powi n) (x'.powi n)
  | .ofNat n => npow h n
  | .negSucc _ => prim _ h
theorem pow (h : Flip x x') (c : ℝ) : Flip (x.pow c) (x'.pow c) := prim _ h
theorem sqrt (h : Flip x x') : Flip x.sqrt x'.sqrt := prim _ h
theorem exp (h : Flip x x') : Flip x.exp x'.exp := prim _ h
theorem expm1 (h : Flip x x') : Flip x.expm1 x'.expm1 := prim _ h
theorem log (h : Flip x x') : Flip x.log x'.log := prim _ h
theorem cbrt (h : Flip x x') : Flip x.cbrt x'.cbrt := prim _ h
theorem atan (h : Flip x x') : Flip x.atan x'.atan := prim _ h
theorem abs (h : Flip x x') : Flip x.abs x'.abs := iflt h (lit 0) (neg h) h
theorem max (h : Flip x x') (k : Flip y y') : Flip (x.max y) (x'.max y') := iflt k h h k
theorem pow2 (h : Flip x x') : Flip x.pow2 x'.pow2 := mul h h
theorem pow3 (h : Flip x x') : Flip x.pow3 x'.pow3 := mul (mul h h) h
theorem poly (h : Flip x x') : ∀ c, Flip (x.poly c) (x'.poly c)
  | [] => lit 0
  | [c] => lit c
  | _ :: d :: cs => add (mul (poly h (d :: cs)) h) (lit _)

/-- Sum of the contributions of the two spins. -/
theorem pair (h : Flip x y) (k : Flip y x) : Sym (x + y) := ⟨fun ρ =>
  (congrArg₂ (· + ·) (h.eq ρ) (k.eq ρ)).trans (add_comm _ _)⟩
/-- Product of the contributions of the two spins. -/
theorem mulPair (h : Flip x y) (k : Flip y x) : Sym (x * y) := ⟨fun ρ =>
  (congrArg₂ (· * ·) (h.eq ρ) (k.eq ρ)).trans (mul_comm _ _)⟩
/-- `p + x + y`, associated to the left. -/
theorem addPair (hp : Sym p) (h : Flip x y) (k : Flip y x) : Sym (p + x + y) := ⟨fun ρ =>
  (congrArg₂ (· + ·) (congrArg₂ (· + ·) (hp.eq ρ) (h.eq ρ)) (k.eq ρ)).trans (add_right_comm _ _ _)⟩
/-- `p - x - y`. -/
theorem subPair (hp : Sym p) (h : Flip x y) (k : Flip y x) : Sym (p - x - y) := ⟨fun ρ =>
  (congrArg₂ (· - ·) (congrArg₂ (· - ·) (hp.eq ρ) (h.eq ρ)) (k.eq ρ)).trans (sub_right_comm _ _ _)⟩
/-- `p * x * y`. -/
theorem mulPair' (hp : Sym p) (h : Flip x y) (k : Flip y x) : Sym (p * x * y) := ⟨fun ρ =>
  (congrArg₂ (· * ·) (congrArg₂ (· * ·) (hp.eq ρ) (h.eq ρ)) (k.eq ρ)).trans (mul_right_comm _ _ _)⟩
/-- `-x - y`. -/
theorem negPair (h : Flip x y) (k : Flip y x) : Sym (-x - y) := ⟨fun ρ =>
  (congrArg₂ (· - ·) (congrArg (- ·) (h.eq ρ)) (k.eq ρ)).trans (by
    show -y.evalCT ρ - x.evalCT ρ = -x.evalCT ρ - y.evalCT ρ; ring)⟩
/-! Quantities that change sign -/
theorem anti_mul (h : Anti x) (k : Anti y) : Sym (x * y) := ⟨fun ρ =>
  (congrArg₂ (· * ·) (h.eq ρ) (k.eq ρ)).trans (by show -x.evalCT ρ * -y.evalCT ρ = x.evalCT ρ * y.evalCT ρ; ring)⟩
theorem mul_anti (h : Sym x) (k : Anti y) : Anti (x * y) := ⟨fun ρ =>
  (congrArg₂ (· * ·) (h.eq ρ) (k.eq ρ)).trans (by show x.evalCT ρ * -y.evalCT ρ = -(x.evalCT ρ * y.evalCT ρ); ring)⟩
theorem anti_mul' (h : Anti x) (k : Sym y) : Anti (x * y) := ⟨fun ρ =>
  (congrArg₂ (· * ·) (h.eq ρ) (k.eq ρ)).trans (by show -x.evalCT ρ * y.evalCT ρ = -(x.evalCT ρ * y.evalCT ρ); ring)⟩
theorem npow_anti (h : Anti x) : ∀ n, Sym (x.npow (2 * n)) ∧ Anti (x.npow (2 * n + 1))
  | 0 => ⟨lit 1, h⟩
  | n + 1 => by
    have e : Sym (x.npow (2 * n + 2)) := anti_mul (npow_anti h n).2 h
    exact ⟨e, mul_anti e h⟩
theorem pow2_anti (h : Anti x) : Sym x.pow2 := anti_mul h h
theorem one_add (h : Anti x) : Flip (1 + x) (1 - x) := ⟨fun ρ => by
  refine (congrArg₂ (· + ·) ((lit 1).eq ρ) (h.eq ρ)).trans ?_
  exact (sub_eq_add_neg _ _).symm⟩
theorem one_sub (h : Anti x) : Flip (1 - x) (1 + x) := ⟨fun ρ => by
  refine (congrArg₂ (· - ·) ((lit 1).eq ρ) (h.eq ρ)).trans ?_
  exact sub_neg_eq_add _ _⟩
theorem ufunc (h : Anti x) (c : ℝ) : Sym (x.ufunc c) := pair (prim _ (one_add h)) (prim _ (one_sub h))

end Flip

theorem anti_zeta : Anti d.zeta := Flip.of_eq rfl
theorem anti_s : Anti d.s := Flip.of_eq rfl
theorem anti_gns : Anti d.gns := Flip.of_eq rfl

end Fun

/-- The members computed after the switch. -/
theorem member_derived (par : ℕ → ℝ) (v : Vars) (hv : ¬ Unsupported v) : ∀ {N : ℕ} (ρ : ℕ → CT ℝ N),
    member par v ρ .zeta = (member par v ρ .n).prim .inv * member par v ρ .s ∧
    member par v ρ .r_s = (((member par v ρ .n * CT.const N 4 * CT.const N Real.pi).prim .inv * CT.const N 3).prim
      (.pow (1 / 3))) ∧
    member par v ρ .n_m13 = (member par v ρ .n).prim (.pow (-1 / 3)) ∧
    member par v ρ .a_43 = (member par v ρ .a).prim (.pow (4 / 3)) ∧
    member par v ρ .b_43 = (member par v ρ .b).prim (.pow (4 / 3)) ∧
    ∀ i, member par v ρ (.param i) = CT.const N (par i) := by
  have key : ∃ x : DV ℕ, densvars par v = some (x.finish.field par) := by
    cases v <;> first
      | exact ⟨_, rfl⟩
      | exact absurd (by decide) hv
  obtain ⟨x, hx⟩ := key
  intro N ρ
  simp only [member, hx]
  exact ⟨rfl, rfl, rfl, rfl, rfl, fun _ => rfl⟩

/-- Exchanging the spins in the inputs exchanges them in the density variables. -/
theorem member_flip (par : ℕ → ℝ) {v : Vars} (hv : ¬ Unsupported v) (hA : v ≠ .A ∧ v ≠ .A_GAA) {N : ℕ}
    (ρ : ℕ → CT ℝ N) (f : Field) : member par v (flipInputs v ρ) f = flipField (member par v ρ) f := by
  have core : ∀ f, IsDensity f ∨ IsOther f → member par v (flipInputs v ρ) f = flipField (member par v ρ) f := by
    intro f hf
    simp only [IsDensity, IsOther, List.mem_cons, List.not_mem_nil, or_false] at hf
    cases v <;> first
      | exact absurd rfl hA.1
      | exact absurd rfl hA.2
      | exact absurd (by decide) hv
      | (rcases hf with (rfl | rfl | rfl | rfl) | rfl | rfl | rfl | rfl | rfl | rfl | rfl | rfl | rfl | rfl | rfl | rfl | rfl <;>
          simp only [flipField] <;> unfold_members <;>
          (try simp only [Nat.reduceAdd, flipInputs, flipsSign, flipIndex, spinPairs, List.find?, Nat.reduceBEq, Bool.or_false,
            Bool.or_true, Bool.true_or, if_true, if_false, Bool.false_eq_true, Nat.reduceEqDiff]) <;>
          first | rfl | ring1 | (congr 1; ring1))
  by_cases h : IsDensity f ∨ IsOther f
  · exact core f h
  have ha : member par v (flipInputs v ρ) .a = member par v ρ .b := core .a (by simp [IsDensity])
  have hb : member par v (flipInputs v ρ) .b = member par v ρ .a := core .b (by simp [IsDensity])
  have hn : member par v (flipInputs v ρ) .n = member par v ρ .n := core .n (by simp [IsDensity])
  have hs : member par v (flipInputs v ρ) .s = -member par v ρ .s := core .s (by simp [IsDensity])
  obtain ⟨z, r, m, a, b, p⟩ := member_derived par v hv ρ
  obtain ⟨z', r', m', a', b', p'⟩ := member_derived par v hv (flipInputs v ρ)
  cases f with
  | zeta => rw [z', hn, hs]; simp only [flipField]; rw [z, mul_neg]
  | r_s => rw [r', hn]; simp only [flipField]; rw [r]
  | n_m13 => rw [m', hn]; simp only [flipField]; rw [m]
  | a_43 => rw [a', ha]; simp only [flipField]; rw [b]
  | b_43 => rw [b', hb]; simp only [flipField]; rw [a]
  | param i => rw [p']; simp only [flipField]; rw [p]
  | _ => simp [IsDensity, IsOther] at h

end XCFun
