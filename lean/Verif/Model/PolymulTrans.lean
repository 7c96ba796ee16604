/-
Linear change of variables and the second evaluation of external/upstream/taylor/polymul.hpp.

The class templates `transformer` and `new_evaluator` call themselves with the template arguments (J, N + 1) and (J + 1, N), where J is a variable of the source
and N an order; here the recursion counts what remains of them.
-/
import Verif.Model.Polymul

namespace XCFun.Polymul
open XCFun

variable {V : Type}

section
variable [Add V] [Mul V]

/-- Order `N` of `tmp` in `transformer<T, Nvar_dst, Nvar_src, Ndeg, J, N, term>::trans` (polymul.hpp:925-929 and 1020-1023; for `N = 1` 993-994) -/
def transTmp (n' : ℕ) (T : List V) (J N : ℕ) (tmp : List V) : Outcome (List V) :=
  if N = 1 then
    forLoop (fun i tmp => do
      let x ← rdBuf T (i + n' * J)
      wrBuf tmp (1 + i) x) n' 0 tmp
  else
    run id (fun _ => T) ((mulSet (n' - 1) (N - 1) 1).map (Op.shift (polylen n' ((N : ℤ) - 1)) (polylen n' ((N : ℤ) - 2)) (J * n'))) tmp

/-- What `transformer<T, Nvar_dst, Nvar_src, Ndeg, J, N, term>::trans` does before it calls the next ones: order `N` of `tmp` and of `dst`
(polymul.hpp:925-935 and 1020-1034; for `N = 1` 993-1000).  The state is the pair of `tmp` and `dst`. -/
def transRow (n' : ℕ) (src T : List V) (J N term : ℕ) (s : List V × List V) : Outcome (List V × List V) := do
  let tmp ← transTmp n' T J N s.1
  let dst ← forLoop (fun i dst => do
    let a ← rdBuf src term
    let b ← rdBuf tmp i
    if J = 0 then wrBuf dst i (a * b)
    else do
      let z ← rdBuf dst i
      wrBuf dst i (z + a * b)) (polylen n' N - polylen n' ((N : ℤ) - 1)) (polylen n' ((N : ℤ) - 1)) s.2
  .ok (tmp, dst)

/-- `transformer<T, Nvar_dst, Nvar_src, Ndeg, J, N, term>::trans` for a given `J < Nvar_src` and all orders (polymul.hpp:913-947, 1014-1038; for `N = 1` 987-1012);
`next` is `trans` for `J + 1`, and `r = Ndeg - N`. -/
def transJ (n' n Ndeg : ℕ) (src T : List V) (J : ℕ) (next : ℕ → ℕ → List V × List V → Outcome (List V × List V)) :
    ℕ → ℕ → List V × List V → Outcome (List V × List V)
  | 0, term, s => do
    let s ← transRow n' src T J Ndeg term s
    next 0 (term + 1) s
  | r + 1, term, s => do
    let s ← transRow n' src T J (Ndeg - (r + 1)) term s
    let s ← transJ n' n Ndeg src T J next r (termProd n (J + 1) term) s
    next (r + 1) (term + 1) s

/-- `transformer<T, Nvar_dst, Nvar_src, Ndeg, J, N, term>::trans` with `j = Nvar_src - J` and `r = Ndeg - N`; nothing for `J = Nvar_src`
(polymul.hpp:1040-1062). -/
def trans (n' n Ndeg : ℕ) (src T : List V) : ℕ → ℕ → ℕ → List V × List V → Outcome (List V × List V)
  | 0 => fun _ _ s => .ok s
  | j + 1 => transJ n' n Ndeg src T (n - (j + 1)) (trans n' n Ndeg src T j)

/-- `polytrans(dst, src, T)` (polymul.hpp:1421-1432) with `transformer<T, Nvar_dst, Nvar_src, Ndeg, 0, 0, 0>::trans` (949-985).  `tmp` is what the local array, which
is not initialised (1169), holds.  `dst` and `src` are different objects. -/
def polytrans (n' n Ndeg : ℕ) (tmp dst src T : List V) : Outcome (List V) := do
  let c ← rdBuf src 0
  let dst ← wrBuf dst 0 c
  match Ndeg with
  | 0 => .ok dst
  | 1 => do
    let dst ← forLoop (fun i dst => do
      let a ← rdBuf src 1
      let b ← rdBuf T i
      wrBuf dst (1 + i) (a * b)) n' 0 dst
    forLoop (fun j dst => forLoop (fun i dst => do
      let z ← rdBuf dst (1 + i)
      let a ← rdBuf src (1 + j)
      let b ← rdBuf T (i + n' * j)
      wrBuf dst (1 + i) (z + a * b)) n' 0 dst) (n - 1) 1 dst
  | Ndeg + 2 => do
    let s ← trans n' n (Ndeg + 2) src T n (Ndeg + 1) 1 (tmp, dst)
    .ok s.2

end

section
variable [Add V] [Mul V] [Zero V]

/-- The order in which the operands of `tmp[N - 1] * p[term] + new_evaluator<...>::eval(...) + new_evaluator<...>::eval(...)` (polymul.hpp:838-847) are evaluated,
which C++ leaves open.  (Four more orders are possible.) -/
inductive OperandOrder where
  | leftToRight
  | rightToLeft

/-- The sum of three operands, of which the last two update `tmp` and the first reads it (polymul.hpp:838-847, 863-872). -/
def sumOf (o : OperandOrder) (x : List V → Outcome V) (a b : List V → Outcome (List V × V)) (tmp : List V) : Outcome (List V × V) :=
  match o with
  | .leftToRight => do
    let u ← x tmp
    let (tmp, v) ← a tmp
    let (tmp, w) ← b tmp
    .ok (tmp, u + v + w)
  | .rightToLeft => do
    let (tmp, w) ← b tmp
    let (tmp, v) ← a tmp
    let u ← x tmp
    .ok (tmp, u + v + w)

/-- The sum of two operands, of which the second updates `tmp` and the first reads it (polymul.hpp:854-855, 880-882). -/
def sumOf2 (o : OperandOrder) (x : List V → Outcome V) (b : List V → Outcome (List V × V)) (tmp : List V) : Outcome (List V × V) :=
  match o with
  | .leftToRight => do
    let u ← x tmp
    let (tmp, w) ← b tmp
    .ok (tmp, u + w)
  | .rightToLeft => do
    let (tmp, w) ← b tmp
    let u ← x tmp
    .ok (tmp, u + w)

/-- `tmp[N - 1] = tmp[N - 2] * x[J]` (polymul.hpp:837, 879), for `N = 1` `tmp[0] = x[J]` (862) -/
def newRow (x : List V) (J N : ℕ) (tmp : List V) : Outcome (List V) := do
  let y ← rdBuf x J
  if N = 1 then wrBuf tmp 0 y
  else do
    let t ← rdBuf tmp (N - 2)
    wrBuf tmp (N - 1) (t * y)

/-- `new_evaluator<T, S, Nvar, Ndeg, J, N, term>::eval` for a given `J < Nvar` and all orders (polymul.hpp:834-849, 876-885; for `N = 1` 859-874); `next` is `eval` for
`J + 1`, and `r = Ndeg - N`. -/
def newEvalJ (o : OperandOrder) (n Ndeg : ℕ) (p x : List V) (J : ℕ) (next : ℕ → ℕ → List V → Outcome (List V × V)) : ℕ → ℕ → List V → Outcome (List V × V)
  | 0, term, tmp => do
    let tmp ← newRow x J Ndeg tmp
    sumOf2 o (fun tmp => do
      let t ← rdBuf tmp (Ndeg - 1)
      let c ← rdBuf p term
      .ok (t * c)) (next 0 (term + 1)) tmp
  | r + 1, term, tmp => do
    let tmp ← newRow x J (Ndeg - (r + 1)) tmp
    sumOf o (fun tmp => do
      let t ← rdBuf tmp (Ndeg - (r + 1) - 1)
      let c ← rdBuf p term
      .ok (t * c)) (newEvalJ o n Ndeg p x J next r (termProd n (J + 1) term)) (next (r + 1) (term + 1)) tmp

/-- `new_evaluator<T, S, Nvar, Ndeg, J, N, term>::eval` with `j = Nvar - J` and `r = Ndeg - N`; 0 for `J = Nvar` (polymul.hpp:887-906). -/
def newEvalFrom (o : OperandOrder) (n Ndeg : ℕ) (p x : List V) : ℕ → ℕ → ℕ → List V → Outcome (List V × V)
  | 0 => fun _ _ tmp => .ok (tmp, 0)
  | j + 1 => newEvalJ o n Ndeg p x (n - (j + 1)) (newEvalFrom o n Ndeg p x j)

/-- `new_evaluator<T, S, Nvar, Ndeg, 0, 0, 0>::eval(tmp, x, p)` (polymul.hpp:851-857) for `Ndeg ≥ 2`; for `Ndeg ≤ 1` two partial specialisations match and the
program does not compile.  Nothing uses it. -/
def newEval (o : OperandOrder) (n Ndeg : ℕ) (tmp p x : List V) : Outcome V := do
  let s ← sumOf2 o (fun _ => rdBuf p 0) (newEvalFrom o n Ndeg p x n (Ndeg - 1) 1) tmp
  .ok s.2

end

end XCFun.Polymul
