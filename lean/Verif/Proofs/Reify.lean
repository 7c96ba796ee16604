/-
A command that writes an expression of the model as a code that can be evaluated numerically, with a proof that the code means the expression.
-/
import Verif.Proofs.BallJet
import Verif.Model.Fun.Table

namespace XCFun.Num

/-! ## Meaning of the codes, constructor by constructor -/

namespace RE
variable {x y : RE} {a b : ℝ}

theorem rep_zero : (nat 0).den = 0 := Nat.cast_zero
theorem rep_one : (nat 1).den = 1 := Nat.cast_one
theorem rep_ofNat (n : ℕ) [n.AtLeastTwo] : (nat n).den = OfNat.ofNat n := Nat.cast_ofNat
theorem rep_nat (n : ℕ) : (nat n).den = (n : ℝ) := rfl
theorem rep_negSucc (n : ℕ) : (neg (nat (n + 1))).den = ((Int.negSucc n : ℤ) : ℝ) := by simp [den]
theorem rep_sci (m : ℕ) (s : Bool) (e : ℕ) : (sci m s e).den = OfScientific.ofScientific m s e := rfl
theorem rep_pi : pi.den = Real.pi := rfl
theorem rep_neg (h : x.den = a) : (neg x).den = -a := h ▸ rfl
theorem rep_add (h : x.den = a) (h' : y.den = b) : (add x y).den = a + b := h ▸ h' ▸ rfl
theorem rep_sub (h : x.den = a) (h' : y.den = b) : (sub x y).den = a - b := h ▸ h' ▸ rfl
theorem rep_mul (h : x.den = a) (h' : y.den = b) : (mul x y).den = a * b := h ▸ h' ▸ rfl
theorem rep_div (h : x.den = a) (h' : y.den = b) : (div x y).den = a / b := h ▸ h' ▸ rfl
theorem rep_rpow (h : x.den = a) (h' : y.den = b) : (rpow x y).den = a ^ b := h ▸ h' ▸ rfl
theorem rep_npow (h : x.den = a) (n : ℕ) : (npow x n).den = a ^ n := h ▸ rfl
theorem rep_log (h : x.den = a) : (log x).den = Real.log a := h ▸ rfl
theorem rep_sqrt (h : x.den = a) : (sqrt x).den = √a := h ▸ rfl

end RE

theorem IPrim.rep_pow {x : RE} {a : ℝ} (h : x.den = a) : (IPrim.pow x).den = .pow a := h ▸ rfl

namespace IE
variable {ι : Type} {x y z w : IE ι} {a b c d : Expr ι}

theorem rep_var (i : ι) : (var i).den = .var i := rfl
theorem rep_lit {x : RE} {a : ℝ} (h : x.den = a) : (lit (ι := ι) x).den = .lit a := h ▸ rfl
theorem rep_add (h : x.den = a) (h' : y.den = b) : (add x y).den = .add a b := h ▸ h' ▸ rfl
theorem rep_sub (h : x.den = a) (h' : y.den = b) : (sub x y).den = .sub a b := h ▸ h' ▸ rfl
theorem rep_mul (h : x.den = a) (h' : y.den = b) : (mul x y).den = .mul a b := h ▸ h' ▸ rfl
theorem rep_neg (h : x.den = a) : (neg x).den = .neg a := h ▸ rfl
theorem rep_prim {p : IPrim} {q : Prim} (h : p.den = q) (h' : x.den = a) : (prim p x).den = .prim q a := h ▸ h' ▸ rfl
theorem rep_reg (h : x.den = a) : (reg x).den = .reg a := h ▸ rfl
theorem rep_iflt (h : x.den = a) (h' : y.den = b) (h2 : z.den = c) (h3 : w.den = d) : (iflt x y z w).den = .iflt a b c d :=
  h ▸ h' ▸ h2 ▸ h3 ▸ rfl

end IE

/-! ## The command -/

namespace Reify
open Lean Meta Elab Command

structure Cache where
  real : Std.HashMap Lean.Expr (Lean.Expr × Lean.Expr) := {}
  ex : Std.HashMap Lean.Expr (Lean.Expr × Lean.Expr) := {}

abbrev M := StateRefT Cache MetaM

/-- The proof `pr`, stated for `e`. -/
def hint (den code e pr : Lean.Expr) : MetaM Lean.Expr := do
  let ty ← inferType e
  let u ← getLevel ty
  return mkExpectedTypeHint (mkApp3 (mkConst ``Eq [u]) ty (mkApp den code) e) pr
where mkExpectedTypeHint (t p : Lean.Expr) : Lean.Expr := mkApp2 (mkConst ``id [Level.zero]) t p

def natLit (e : Lean.Expr) : MetaM ℕ := do
  let some n ← evalNat e | do
    match ← whnf e with
    | .lit (.natVal n) => return n
    | e' => throwError "not a number: {e'}"
  return n

partial def real (e : Lean.Expr) : M (Lean.Expr × Lean.Expr) := do
  if let some r := (← get).real[e]? then return r
  let r ← go e
  let p ← hint (mkConst ``RE.den) r.1 e r.2
  modify fun s => { s with real := s.real.insert e (r.1, p) }
  return (r.1, p)
where
  un (c rep : Name) (x : Lean.Expr) : M (Lean.Expr × Lean.Expr) := do
    let (cx, px) ← real x
    return (mkApp (mkConst c) cx, mkAppN (mkConst rep) #[cx, x, px])
  bin (c rep : Name) (x y : Lean.Expr) : M (Lean.Expr × Lean.Expr) := do
    let (cx, px) ← real x
    let (cy, py) ← real y
    return (mkApp2 (mkConst c) cx cy, mkAppN (mkConst rep) #[cx, cy, x, y, px, py])
  go (e : Lean.Expr) : M (Lean.Expr × Lean.Expr) := do
    let e ← whnfCore e
    match e.getAppFnArgs with
    | (``OfNat.ofNat, #[_, n, i]) =>
      let k ← natLit n
      if k = 0 then return (mkApp (mkConst ``RE.nat) (mkRawNatLit 0), mkConst ``RE.rep_zero)
      else if k = 1 then return (mkApp (mkConst ``RE.nat) (mkRawNatLit 1), mkConst ``RE.rep_one)
      else
        let inst ← synthInstance (mkApp (mkConst ``Nat.AtLeastTwo) (mkRawNatLit k))
        let _ := i
        return (mkApp (mkConst ``RE.nat) (mkRawNatLit k), mkApp2 (mkConst ``RE.rep_ofNat) (mkRawNatLit k) inst)
    | (``OfScientific.ofScientific, #[_, _, m, s, k]) =>
      let m' := mkRawNatLit (← natLit m)
      let k' := mkRawNatLit (← natLit k)
      let s' ← whnf s
      return (mkApp3 (mkConst ``RE.sci) m' s' k', mkApp3 (mkConst ``RE.rep_sci) m' s' k')
    | (``Nat.cast, #[_, _, n]) =>
      let n' := mkRawNatLit (← natLit n)
      return (mkApp (mkConst ``RE.nat) n', mkApp (mkConst ``RE.rep_nat) n')
    | (``Int.cast, #[_, _, n]) =>
      match (← whnf n).getAppFnArgs with
      | (``Int.negSucc, #[n]) =>
        let k ← natLit n
        return (mkApp (mkConst ``RE.neg) (mkApp (mkConst ``RE.nat) (mkRawNatLit (k + 1))), mkApp (mkConst ``RE.rep_negSucc) (mkRawNatLit k))
      | _ => throwError "integer {e}"
    | (``Real.pi, #[]) => return (mkConst ``RE.pi, mkConst ``RE.rep_pi)
    | (``Neg.neg, #[_, _, x]) => un ``RE.neg ``RE.rep_neg x
    | (``HAdd.hAdd, #[_, _, _, _, x, y]) => bin ``RE.add ``RE.rep_add x y
    | (``HSub.hSub, #[_, _, _, _, x, y]) => bin ``RE.sub ``RE.rep_sub x y
    | (``HMul.hMul, #[_, _, _, _, x, y]) => bin ``RE.mul ``RE.rep_mul x y
    | (``HDiv.hDiv, #[_, _, _, _, x, y]) => bin ``RE.div ``RE.rep_div x y
    | (``HPow.hPow, #[_, t, _, _, x, y]) =>
      if t.isConstOf ``Nat then
        let (cx, px) ← real x
        let n := mkRawNatLit (← natLit y)
        return (mkApp2 (mkConst ``RE.npow) cx n, mkAppN (mkConst ``RE.rep_npow) #[cx, x, px, n])
      else bin ``RE.rpow ``RE.rep_rpow x y
    | (``Real.log, #[x]) => un ``RE.log ``RE.rep_log x
    | (``Real.sqrt, #[x]) => un ``RE.sqrt ``RE.rep_sqrt x
    | _ =>
      match ← unfoldDefinition? e with
      | some e' => go e'
      | none => throwError "real number {e}"

def prim (p : Lean.Expr) : M (Lean.Expr × Lean.Expr) := do
  let p' ← whnf p
  let r : Lean.Expr × Lean.Expr ← match p'.getAppFnArgs with
    | (``Prim.pow, #[a]) => do
      let (c, h) ← real a
      pure (mkApp (mkConst ``IPrim.pow) c, mkAppN (mkConst ``IPrim.rep_pow) #[c, a, h])
    | (.str _ s, #[]) => do
      let c := mkConst (``IPrim ++ Name.mkSimple s)
      pure (c, mkApp2 (mkConst ``Eq.refl [Level.one]) (mkConst ``Prim) p')
    | _ => throwError "function {p'}"
  return (r.1, ← hint (mkConst ``IPrim.den) r.1 p r.2)

partial def ex (ι : Lean.Expr) (e : Lean.Expr) : M (Lean.Expr × Lean.Expr) := do
  if let some r := (← get).ex[e]? then return r
  let r ← go e
  let p ← hint (mkApp (mkConst ``IE.den) ι) r.1 e r.2
  modify fun s => { s with ex := s.ex.insert e (r.1, p) }
  return (r.1, p)
where
  bin (c rep : Name) (x y : Lean.Expr) : M (Lean.Expr × Lean.Expr) := do
    let (cx, px) ← ex ι x
    let (cy, py) ← ex ι y
    return (mkApp3 (mkConst c) ι cx cy, mkAppN (mkConst rep) #[ι, cx, cy, x, y, px, py])
  go (e : Lean.Expr) : M (Lean.Expr × Lean.Expr) := do
    let e ← whnf e
    match e.getAppFnArgs with
    | (``XCFun.Expr.var, #[_, i]) => return (mkApp2 (mkConst ``IE.var) ι i, mkApp2 (mkConst ``IE.rep_var) ι i)
    | (``XCFun.Expr.lit, #[_, a]) =>
      let (c, h) ← real a
      return (mkApp2 (mkConst ``IE.lit) ι c, mkAppN (mkConst ``IE.rep_lit) #[ι, c, a, h])
    | (``XCFun.Expr.add, #[_, x, y]) => bin ``IE.add ``IE.rep_add x y
    | (``XCFun.Expr.sub, #[_, x, y]) => bin ``IE.sub ``IE.rep_sub x y
    | (``XCFun.Expr.mul, #[_, x, y]) => bin ``IE.mul ``IE.rep_mul x y
    | (``XCFun.Expr.neg, #[_, x]) =>
      let (cx, px) ← ex ι x
      return (mkApp2 (mkConst ``IE.neg) ι cx, mkAppN (mkConst ``IE.rep_neg) #[ι, cx, x, px])
    | (``XCFun.Expr.prim, #[_, p, x]) =>
      let (cx, px) ← ex ι x
      let (cp, pp) ← prim p
      return (mkApp3 (mkConst ``IE.prim) ι cp cx, mkAppN (mkConst ``IE.rep_prim) #[ι, cx, x, cp, p, pp, px])
    | (``XCFun.Expr.reg, #[_, x]) =>
      let (cx, px) ← ex ι x
      return (mkApp2 (mkConst ``IE.reg) ι cx, mkAppN (mkConst ``IE.rep_reg) #[ι, cx, x, px])
    | (``XCFun.Expr.iflt, #[_, x, y, z, w]) =>
      let (cx, px) ← ex ι x
      let (cy, py) ← ex ι y
      let (cz, pz) ← ex ι z
      let (cw, pw) ← ex ι w
      return (mkAppN (mkConst ``IE.iflt) #[ι, cx, cy, cz, cw], mkAppN (mkConst ``IE.rep_iflt) #[ι, cx, cy, cz, cw, x, y, z, w, px, py, pz, pw])
    | _ => throwError "expression {e}"

/-- `reify f` adds the code `f.code` of `f : Expr Field` and the theorem `f.code_den`. -/
elab "reify " ids:ident+ : command => do
  for id in ids do
    liftTermElabM do
      let n ← realizeGlobalConstNoOverloadWithInfo id
      let e := mkConst n
      let ι := mkConst ``Field
      let (c, p) ← (ex ι e).run' {}
      let cn := n ++ `code
      addDecl <| .defnDecl {
        name := cn, levelParams := [], type := mkApp (mkConst ``IE) ι, value := c, hints := .abbrev, safety := .safe }
      let den := mkApp2 (mkConst ``IE.den) ι (mkConst cn)
      addDecl <| .thmDecl {
        name := n ++ `code_den, levelParams := []
        type := mkApp3 (mkConst ``Eq [Level.one]) (mkApp (mkConst ``XCFun.Expr) ι) den e, value := p }

end Reify
end XCFun.Num
