/-
Polynomials in several variables, external/upstream/taylor/polymul.hpp.

The recursive class templates become recursive functions of their integer arguments `Nvar`, `Ndeg1`, ...; a member function that updates an array becomes the list
of the elementary assignments it makes, in order.  A pointer `p + k` passed on is an index shifted by `k`.  Coefficients are elements of any type with `+`, `*`;
`m2[0] * p1[i]` and `p1[i] * m2[0]` are not distinguished.  `POLYMUL_RESTRICT` expands to nothing unless a macro is defined that no compiler defines
(polymul.hpp:57-61), so arrays may overlap.

Instances that do not compile because two partial specialisations match (`polynomial_multiplier<T, 1, N, 0>` with `N > 0`, `polynomial_multiplier<T, 0, 0, N>`,
`polynomial_evaluator<T, S, 1, 0>`, `differentiator<T, 1, 0, 0>`) have some value here; none of the other instances uses them.  `int` overflow of the
compile-time constants, which makes the program ill-formed, is not modelled.  `transformer` and `new_evaluator` are in PolymulTrans.lean, the functions that nothing
calls (`taylor_multiplier::mul`, `mul_monomial_set`) in PolymulAdd.lean.  Not modelled: `polymul_tab.hpp`, which does not exist.
-/
import Verif.Model.Eval
import Verif.Model.Funeval
import Verif.Model.Taylorlen

namespace XCFun.Polymul
open XCFun

variable {V : Type}

/-! ### Compile-time functions -/

/-- `binomial<n, k>` (polymul.hpp:78-96).  `binomial<0, k>` with `k > 0` is 1. -/
def binomial : ℕ → ℤ → ℕ
  | 0, k => if k = 0 then 1 else if 0 < k then 1 else 0
  | n + 1, k => if (n + 1 : ℤ) = k then 1 else if k = 0 then 1 else binomial n (k - 1) + binomial n k

/-- `polylen<Nvar, Ndeg>::len` (polymul.hpp:98-100); the arguments that occur are `Nvar ≥ 0` and `Ndeg ≥ -1`, where `Ndeg = -1` occurs for `Nvar ≥ 1` only. -/
def polylen (n : ℕ) (N : ℤ) : ℕ := binomial (n + N).toNat N

/-- `term_deg<Nvar, term>` (polymul.hpp:104-121) -/
def termDeg (n : ℕ) : ℕ → ℕ
  | 0 => 0
  | t + 1 => if n = 1 then t + 1 else termDeg n t + if t + 1 = polylen n (termDeg n t) then 1 else 0

/-- `term_sub<Nvar, term>` (polymul.hpp:125-127) -/
def termSub (n t : ℕ) : ℕ := t - polylen n ((termDeg n t : ℤ) - 1)

/-- `term_prod<Nvar, t1, t2>` (polymul.hpp:131-155); there is no instance for `Nvar = 0` other than `<0, 0, 0>`. -/
def termProd : ℕ → ℕ → ℕ → ℕ
  | 0, _, _ => 0
  | n + 1, t1, t2 =>
    if t1 = 0 then t2 else if t2 = 0 then t1
    else polylen (n + 1) ((termDeg (n + 1) t1 : ℤ) + termDeg (n + 1) t2 - 1) +
      termProd n (t1 - polylen (n + 1) ((termDeg (n + 1) t1 : ℤ) - 1)) (t2 - polylen (n + 1) ((termDeg (n + 1) t2 : ℤ) - 1))

/-- `first_exponent<Nvar, term>` (polymul.hpp:159-176) -/
def firstExponent (n t : ℕ) : ℕ :=
  if n = 1 then t else if t = 0 then 0 else termDeg n t - termDeg (n - 1) (termSub n t)

/-- `factorial<n>` (polymul.hpp:65-75) -/
def factorial : ℕ → ℕ
  | 0 => 1
  | n + 1 => (n + 1) * factorial n

/-- `deriv_fac<Nvar, term>` (polymul.hpp:181-198) -/
def derivFac : ℕ → ℕ → ℕ
  | 0, _ => 1
  | 1, t => factorial t
  | n + 2, t => if t = 0 then 1 else factorial (firstExponent (n + 2) t) * derivFac (n + 1) (termSub (n + 2) t)

/-! ### Assignments -/

/-- An assignment to the destination; `p1`, `p2` are the two sources. -/
inductive Op where
  /-- `dst[d] += p1[a] * p2[b]` -/
  | add (d a b : ℕ)
  /-- `dst[d] = p1[a] * p2[b]` -/
  | set (d a b : ℕ)
  /-- `dst[d] *= p2[b]` -/
  | scale (d b : ℕ)
  /-- `assert(0)` -/
  | fail

/-- The same assignment through pointers `dst + kd`, `p1 + ka`, `p2 + kb`. -/
def Op.shift (kd ka kb : ℕ) : Op → Op
  | add d a b => add (d + kd) (a + ka) (b + kb)
  | set d a b => set (d + kd) (a + ka) (b + kb)
  | scale d b => scale (d + kd) (b + kb)
  | fail => fail

section
variable [Add V] [Mul V]

/-- One assignment.  `p1` and `p2` give the contents of the sources while the destination holds the argument: a constant for an array of its own, the identity
for the destination itself. -/
def Op.run (p1 p2 : List V → List V) : Op → List V → Outcome (List V)
  | add d a b, dst => do
    let x ← rdBuf (p1 dst) a
    let y ← rdBuf (p2 dst) b
    let z ← rdBuf dst d
    wrBuf dst d (z + x * y)
  | set d a b, dst => do
    let x ← rdBuf (p1 dst) a
    let y ← rdBuf (p2 dst) b
    wrBuf dst d (x * y)
  | scale d b, dst => do
    let y ← rdBuf (p2 dst) b
    let z ← rdBuf dst d
    wrBuf dst d (z * y)
  | fail, _ => .die

/-- Assignments in order. -/
def run (p1 p2 : List V → List V) : List Op → List V → Outcome (List V)
  | [], dst => .ok dst
  | o :: l, dst => do
    let dst ← o.run p1 p2 dst
    run p1 p2 l dst

end

/-! ### Products -/

/-- `mul_monomial` of `polynomial_multiplier<T, Nvar, Ndeg1, Ndeg2>` for `Nvar ≥ 2` (polymul.hpp:231-241, 372-379, 460-465, 497-501); `prev` is `mul` for
`Nvar - 1`. -/
def mulMonomialStep (prev : ℕ → ℕ → List Op) (n : ℕ) : ℕ → ℕ → List Op
  | 0, 0 => [.add 0 0 0]
  | 0, N2 + 1 => (List.range' (polylen n N2) (polylen n (N2 + 1) - polylen n N2)).map fun i => .add i 0 (i - polylen n N2)
  | N1 + 1, 0 => (List.range (polylen n (N1 + 1))).map fun i => .add i i 0
  | N1 + 1, N2 + 1 =>
    (prev (N1 + 1) (N2 + 1)).map (Op.shift (polylen n (N1 + N2 + 1)) (polylen n N1) 0) ++ mulMonomialStep prev n N1 (N2 + 1)

/-- `mul` of `polynomial_multiplier<T, Nvar, Ndeg1, Ndeg2>` for `Nvar ≥ 2` (polymul.hpp:222-230, 366-371, 454-459, 492-496) -/
def mulStep (prev : ℕ → ℕ → List Op) (n : ℕ) (N1 : ℕ) : ℕ → List Op
  | 0 => (List.range (polylen n N1)).map fun i => .add i i 0
  | N2 + 1 =>
    if N1 = 0 then (List.range (polylen n (N2 + 1))).map fun i => .add i 0 i
    else mulStep prev n N1 N2 ++ (mulMonomialStep prev n N1 (N2 + 1)).map (Op.shift 0 0 (polylen n N2))

/-- `polynomial_multiplier<T, Nvar, Ndeg1, Ndeg2>::mul`; one variable: polymul.hpp:283-289 (the same assignments for `Ndeg1 = 0`, 410-415, 523-527), no variable:
333-337. -/
def mul : ℕ → ℕ → ℕ → List Op
  | 0, _, _ => [.add 0 0 0]
  | 1, N1, N2 => (List.range (N1 + 1)).flatMap fun i => (List.range (N2 + 1)).map fun j => .add (i + j) i j
  | n + 2, N1, N2 => mulStep (mul (n + 1)) (n + 2) N1 N2

/-- `polynomial_multiplier<T, Nvar, Ndeg1, Ndeg2>::mul_monomial`; one variable: polymul.hpp:290-295 (the same for `Ndeg1 = 0`, 416-423, 528-532), no variable:
338-342. -/
def mulMonomial : ℕ → ℕ → ℕ → List Op
  | 0, _, _ => [.fail]
  | 1, N1, N2 => (List.range (N1 + 1)).map fun i => .add (i + N2) i 0
  | n + 2, N1, N2 => mulMonomialStep (mul (n + 1)) (n + 2) N1 N2

/-- `mul_set` of `polynomial_multiplier<T, Nvar, Ndeg1, Ndeg2>` for `Nvar ≥ 2` (polymul.hpp:242-255, 380-385, 466-471, 502-506); `prev` is `mul_set` for
`Nvar - 1`. -/
def mulSetStep (prev : ℕ → ℕ → List Op) (n : ℕ) (N1 : ℕ) : ℕ → List Op
  | 0 => (List.range (polylen n N1)).map fun i => .set i i 0
  | N2 + 1 =>
    if N1 = 0 then (List.range (polylen n (N2 + 1))).map fun i => .set i 0 i
    else mulSetStep prev n N1 N2 ++ (mulMonomial n (N1 - 1) (N2 + 1)).map (Op.shift 0 0 (polylen n N2)) ++
      (prev N1 (N2 + 1)).map (Op.shift (polylen n (N1 + N2)) (polylen n ((N1 : ℤ) - 1)) (polylen n N2))

/-- `polynomial_multiplier<T, Nvar, Ndeg1, Ndeg2>::mul_set`; one variable: polymul.hpp:296-308 (for `Ndeg1 = 0` 424-429, 533-537), no variable: 343-347. -/
def mulSet : ℕ → ℕ → ℕ → List Op
  | 0, _, _ => [.set 0 0 0]
  | 1, N1, N2 => (List.range (N1 + 1)).map (fun i => .set i i 0) ++ (List.range' 1 N2).map (fun j => .set (N1 + j) N1 j) ++
      (List.range N1).flatMap fun i => (List.range' 1 N2).map fun j => .add (i + j) i j
  | n + 2, N1, N2 => mulSetStep (mulSet (n + 1)) (n + 2) N1 N2

/-- `taylor_multiplier<T, Nvar, Ndeg1, Ndeg2>::mul_set` (polymul.hpp:564-570, 581-586) for `Ndeg2 ≤ Ndeg1`.  `mul` (557-563, 575-580) adds the same products in the
opposite order of `Ndeg2` and is not used (`taylorMul` in PolymulAdd.lean). -/
def taylorMulSet (n N1 : ℕ) : ℕ → List Op
  | 0 => (List.range (polylen n N1)).map fun i => .set i i 0
  | N2 + 1 => taylorMulSet n N1 N2 ++ (mulMonomial n (N1 - (N2 + 1)) (N2 + 1)).map (Op.shift 0 0 (polylen n N2))

/-- The contributions (2) and (3) of `taylor_inplace_multiplier<T, Nvar, Ndeg, Ndeg2, i2>` for `i2 = 1, ..., Ndeg` (polymul.hpp:589-621); here `Nvar = n + 1`,
`Ndeg = N + 1`. -/
def inplaceTop (n N N2 : ℕ) : List Op :=
  ((List.range' 1 N).flatMap fun i2 => if i2 ≤ N2 then
      (mul n (N + 1 - i2) i2).map (Op.shift (polylen (n + 1) N) (polylen (n + 1) ((N + 1 - i2 : ℕ) - 1 : ℤ)) (polylen (n + 1) ((i2 : ℤ) - 1)))
    else []) ++
  if N + 1 ≤ N2 then (List.range' (polylen (n + 1) N) (polylen (n + 1) (N + 1) - polylen (n + 1) N)).map fun i => .add i 0 i else []

/-- `taylor_inplace_multiplier<T, Nvar, Ndeg, Ndeg2, 0>::mul` (polymul.hpp:623-669); destination and first factor are the same array. -/
def inplace : ℕ → ℕ → ℕ → List Op
  | _, 0, _ => [.scale 0 0]
  | 1, N + 1, N2 =>
    [.scale (N + 1) 0] ++
    (if N + 1 ≤ N2 then (List.range (N + 1)).map fun i => .add (N + 1) i (N + 1 - i)
     else (List.range' (N + 1 - N2) N2).map fun i => .add (N + 1) i (N + 1 - i)) ++ inplace 1 N N2
  | n, N + 1, N2 =>
    (List.range' (polylen n N) (polylen n (N + 1) - polylen n N)).map (fun i => .scale i 0) ++ inplaceTop (n - 1) N N2 ++ inplace n N N2

/-- `term_multiplier<T, Nvar, lterm, rterm>::mul` (polymul.hpp:671-687); the scalar `c` is the only entry of the second source. -/
def termMul (n r : ℕ) : ℕ → List Op
  | 0 => [.add r 0 0]
  | l + 1 => termMul n r l ++ [.add (termProd n (l + 1) r) (l + 1) 0]

section
variable [Zero V] [One V] [Add V] [Mul V]

/-- `polymul(dst, p1, p2)` (polymul.hpp:1348-1355) -/
def polymul (n N1 N2 : ℕ) (dst p1 p2 : List V) : Outcome (List V) := run (fun _ => p1) (fun _ => p2) (mulSet n N1 N2) dst

/-- `taylormul(dst, p1, p2)` (polymul.hpp:1357-1363) -/
def taylormul (n N : ℕ) (dst p1 p2 : List V) : Outcome (List V) := run (fun _ => p1) (fun _ => p2) (taylorMulSet n N N) dst

/-- `taylormul(p1, p2)` (polymul.hpp:1365-1370) -/
def taylormulIn (n N N2 : ℕ) (p1 p2 : List V) : Outcome (List V) := run id (fun _ => p2) (inplace n N (if N2 < N then N2 else N)) p1

/-- `taylormul(p, p)`: both factors are the same object. -/
def taylormulSelf (n N : ℕ) (p : List V) : Outcome (List V) := run id id (inplace n N (if N < N then N else N)) p

/-- `polymul_term(dst, p, c)` (polymul.hpp:1372-1384) -/
def polymulTerm (n N r : ℕ) (dst p : List V) (c : V) : Outcome (List V) := run (fun _ => p) (fun _ => [c]) (termMul n r (polylen n N - 1)) dst

/-- One assignment of `antimul`: `p1[a] += p2[b] * dst[d]`, the array `dst` being read only. -/
def Op.runAnti (p2 p3 : List V) : Op → List V → Outcome (List V)
  | add d a b, p1 => do
    let y ← rdBuf p2 b
    let z ← rdBuf p3 d
    let x ← rdBuf p1 a
    wrBuf p1 a (x + y * z)
  | _, _ => .die

/-- `polynomial_multiplier<T, Nvar, Ndeg1, Ndeg2>::antimul` (polymul.hpp:264-278, 316-326, 354-361, 394-405, 438-449, 478-487, 512-519, 543-550): the recursion and the loops of
`mul` line by line with `p1[a] += p2[b] * dst[d]` in place of `dst[d] += p1[a] * p2[b]`, except without variables, where it fails. -/
def antimul (n N1 N2 : ℕ) (p2 p3 : List V) (p1 : List V) : Outcome (List V) :=
  if n = 0 then .die else (mul n N1 N2).foldlM (fun p1 o => o.runAnti p2 p3 p1) p1

/-- `for (int i = lo; i < lo + cnt; i++) c[i] = 0;` (polymul.hpp:1130-1131, 1401-1402, 1446-1447) -/
def clear (lo cnt : ℕ) (c : List V) : Outcome (List V) := forLoop (fun i c => wrBuf c i 0) cnt lo c

/-- `polycontract(p1, p2, p3)` (polymul.hpp:1393-1405) -/
def polycontract (n N1 N2 : ℕ) (p1 p2 p3 : List V) : Outcome (List V) := do
  let p1 ← clear 0 (polylen n N1) p1
  antimul n N1 N2 p2 p3 p1

/-! ### Composition -/

/-- `composer<T, Nvar, Ndeg, Ndegp>::compose0` (polymul.hpp:1123-1144); `k` is the offset of `c`. -/
def compose0 (n Np : ℕ) (p c : List V) : ℕ → ℕ → List V → Outcome (List V)
  | 0, k, dst => do
    let x ← rdBuf c k
    wrBuf dst 0 x
  | N + 1, k, dst => do
    let dst ← compose0 n Np p c N (k + 1) dst
    let dst ← clear (polylen n N) (polylen n (N + 1) - polylen n N) dst
    let dst ← run id (fun _ => p) (inplace n (N + 1) (if N + 1 < Np then N + 1 else Np)) dst
    let x ← rdBuf c k
    wrBuf dst 0 x

/-- `taylorcompose0(dst, p, c)` (polymul.hpp:1434-1440) -/
def taylorcompose0 (n N Np : ℕ) (dst p c : List V) : Outcome (List V) := compose0 n Np p c N 0 dst

/-- The loop of `taylorcompose` (polymul.hpp:1448-1451), from `i` down to 1. -/
def composeLoop (n N Np : ℕ) (p c : List V) : ℕ → List V → Outcome (List V)
  | 0, dst => .ok dst
  | i + 1, dst => do
    let x ← rdBuf c (i + 1)
    let y ← rdBuf dst 0
    let dst ← wrBuf dst 0 (y + x)
    let dst ← taylormulIn n N Np dst p
    composeLoop n N Np p c i dst

/-- `taylorcompose(dst, p, c)` (polymul.hpp:1442-1453) -/
def taylorcompose (n N Np : ℕ) (dst p c : List V) : Outcome (List V) := do
  let dst ← clear 0 (polylen n N) dst
  let dst ← composeLoop n N Np p c N dst
  let x ← rdBuf c 0
  let y ← rdBuf dst 0
  wrBuf dst 0 (y + x)

/-! ### Evaluation -/

/-- Loop `for (int i = 1; i < Ndeg; i++) xn *= x[0];` (polymul.hpp:778-779) -/
def powLoop (x : V) : ℕ → V → V
  | 0, xn => xn
  | k + 1, xn => powLoop x k (xn * x)

/-- `polynomial_evaluator<T, T, Nvar, Ndeg>::eval_monomial` (polymul.hpp:699-705, 739-744, 776-781, 806-808, 825): pointers `p + k`, `x + j`.  With coefficients and
variables of the same type. -/
def evalMonomial (p x : List V) : ℕ → ℕ → ℕ → ℕ → Outcome V
  | _, 0, k, _ => rdBuf p k
  | 0, _ + 1, _, _ => .ub
  | 1, N + 1, k, j => do
    let x0 ← rdBuf x j
    let p0 ← rdBuf p k
    .ok (powLoop x0 N x0 * p0)
  | n + 2, N + 1, k, j => do
    let x0 ← rdBuf x j
    let u ← evalMonomial p x (n + 2) N k j
    let v ← evalMonomial p x (n + 1) (N + 1) (k + binomial (n + 2 + (N + 1) - 2) N) (j + 1)
    .ok (x0 * u + v)

/-- Horner's rule, `for (int i = Ndeg - 1; i >= 0; i--) sum = sum * x[0] + p[i];` (polymul.hpp:772-773, 802-803) -/
def horner (p : List V) (x0 : V) : ℕ → V → Outcome V
  | 0, sum => .ok sum
  | i + 1, sum => do
    let a ← rdBuf p i
    horner p x0 i (sum * x0 + a)

/-- `polynomial_evaluator<T, T, Nvar, Ndeg>::eval` (polymul.hpp:691-695, 731-735, 769-775, 799-805, 824) -/
def eval (p x : List V) (n : ℕ) : ℕ → Outcome V
  | 0 => rdBuf p 0
  | N + 1 =>
    if n = 1 then do
      let a ← rdBuf p (N + 1)
      let x0 ← rdBuf x 0
      horner p x0 (N + 1) a
    else do
      let u ← evalMonomial p x n (N + 1) (polylen n N) 0
      let v ← eval p x n N
      .ok (u + v)

/-- `eval_terms_helper` (polymul.hpp:708-717, 745-750, 782-786, 809-813, 826-830), pointers `cn = p + kn`, `cp = p + kp`, `x + j`: both monomials are parts of the array
`p`. -/
def evalTermsHelper (x : List V) : ℕ → ℕ → ℕ → ℕ → ℕ → List V → Outcome (List V)
  | _, 0, _, _, _, _ => .die
  | 0, _ + 1, _, _, _, _ => .ub
  | 1, _ + 1, kn, kp, j, p => do
    let u ← rdBuf p kp
    let x0 ← rdBuf x j
    wrBuf p kn (u * x0)
  | n + 2, N + 1, kn, kp, j, p => if N = 0 then forLoop (fun i p => do
      let u ← rdBuf x (j + i)
      wrBuf p (kn + i) u) (n + 2) 0 p
    else do
      let p ← forLoop (fun i p => do
        let u ← rdBuf p (kp + i)
        let x0 ← rdBuf x j
        wrBuf p (kn + i) (u * x0)) (binomial (n + 2 + (N + 1) - 2) N) 0 p
      evalTermsHelper x (n + 1) (N + 1) (kn + binomial (n + 2 + (N + 1) - 2) N) (kp + binomial (n + 2 + (N + 1) - 3) ((N : ℤ) - 1)) (j + 1) p

/-- `eval_terms` (polymul.hpp:720-726, 753-757, 787-793, 816-819, 831), called by `polyterms` (1386-1391) -/
def evalTerms (x : List V) (n : ℕ) : ℕ → List V → Outcome (List V)
  | 0, p => wrBuf p 0 1
  | N + 1, p =>
    if n = 1 then do
      let p ← wrBuf p 0 1
      let x0 ← rdBuf x 0
      let p ← wrBuf p 1 x0
      forLoop (fun i p => do
        let u ← rdBuf p (i - 1)
        wrBuf p i (x0 * u)) N 2 p
    else if N = 0 then do
      let p ← wrBuf p 0 1
      forLoop (fun i p => do
        let u ← rdBuf x i
        wrBuf p (i + 1) u) n 0 p
    else do
      let p ← evalTerms x n N p
      evalTermsHelper x n (N + 1) (polylen n N) (polylen n ((N : ℤ) - 1)) 0 p

end

/-! ### Differentiation -/

section
variable [Zero V] [Mul V] [NatCast V]

/-- `differentiator<T, Nvar, Ndeg, var>::dfacs` (polymul.hpp:1080-1087, 1093, 1098, 1112) through the pointer `dst + k` -/
def dfacs (n N k : ℕ) : ℕ → List V → Outcome (List V)
  | 0, dst => .ok dst
  | var + 1, dst => do
    if N = 0 then .ok dst else
    let lo := polylen n ((N : ℤ) - 1) + polylen (n - 1) ((N : ℤ) - (var + 1) - 1)
    let hi := polylen n ((N : ℤ) - 1) + polylen (n - 1) ((N : ℤ) - (var + 1))
    let dst ← forLoop (fun i dst => do
      let x ← rdBuf dst (k + i)
      wrBuf dst (k + i) (x * ((var + 1 + 1 : ℕ) : V))) (hi - lo) lo dst
    dfacs n N k var dst

/-- `differentiator<T, Nvar, Ndeg, 0>::diff` (polymul.hpp:1097, 1103-1111, 1116-1119) through pointers `dst + k`, `src + j` -/
def diff0 (src : List V) (n k j : ℕ) : ℕ → List V → Outcome (List V)
  | 0, dst => wrBuf dst k 0
  | N + 1, dst =>
    if n = 1 then forLoop (fun i dst => do
      let x ← rdBuf src (j + (i + 1))
      wrBuf dst (k + i) (((i + 1 : ℕ) : V) * x)) (N + 1) 0 dst
    else do
      let dst ← diff0 src n k j N dst
      let dst ← forLoop (fun i dst => do
        let x ← rdBuf src (j + (polylen n N + i))
        wrBuf dst (k + (polylen n ((N : ℤ) - 1) + i)) x) (polylen (n - 1) N) 0 dst
      dfacs n N k N dst

/-- `differentiator<T, Nvar, Ndeg, var>::diff` (polymul.hpp:1065-1069, 1092 and `diff0`), called by `polynomial::diff` (1335-1343) through pointers `dst + k`, `src + j`; `var < Nvar` is required. -/
def diff (src : List V) : ℕ → ℕ → ℕ → ℕ → ℕ → List V → Outcome (List V)
  | n, 0, k, j, N, dst => diff0 src n k j N dst
  | _, _ + 1, k, _, 0, dst => wrBuf dst k 0
  | n, var + 1, k, j, N + 1, dst => do
    let dst ← diff src n (var + 1) k j N dst
    diff src (n - 1) var (k + polylen n ((N : ℤ) - 1)) (j + polylen n N) (N + 1) dst

/-- `deriv_fac_multiplier<T, Nvar, first, last>::mul_fac` (polymul.hpp:200-215) -/
def mulFac (n first last : ℕ) (c : List V) : Outcome (List V) :=
  if first < last then do
    let c ← mulFac n first ((first + last) / 2) c
    mulFac n ((first + last) / 2 + 1) last c
  else do
    let x ← rdBuf c first
    wrBuf c first (x * ((derivFac n first : ℕ) : V))
termination_by last - first

/-- `polydfac(p)` (polymul.hpp:1407-1419) -/
def polydfac (n N : ℕ) (c : List V) : Outcome (List V) := mulFac n 0 (polylen n N - 1) c

end

/-! ### Exponents and tensors -/

/-- `polynomial::next_exponents` (polymul.hpp:1312-1334).  Unlike the function of funeval.c it has no case for one variable. -/
def nextExponents : ℕ → (ℕ → ℕ) → Outcome (ℕ → ℕ)
  | 0, _ => .ub
  | n + 1, m =>
    let k := (List.range n).foldl (fun k i => k + m i) 0
    if k = 0 then .ok (setAt (setAt m 0 (m n + 1)) n 0)
    else if 0 < m (n - 1) then
      let m := setAt m n (m n + 1)
      .ok (setAt m (n - 1) (m (n - 1) - 1))
    else do
      let m ← nextExponents n m
      let m := addToLast n m (m n)
      .ok (setAt m n 0)

/-- `polynomial<T, Nvar, Ndeg>::exponents(term, exponents)` (polymul.hpp:1276-1291); `m` is the array before. -/
def exponents (n N : ℕ) (term : ℤ) (m : ℕ → ℕ) : Outcome (ℕ → ℕ) :=
  if term < 0 then .die
  else if n = 1 then .ok (setAt m 0 term.toNat)
  else
    let m := (List.range n).foldl (fun m i => setAt m i 0) m
    if (polylen n N : ℤ) ≤ term then .die
    else forLoop (fun _ m => nextExponents n m) term.toNat 0 m

/-- `while (N >= 0)` of `term_index` (polymul.hpp:1299-1303), started at variable `i`; the run-time `polylen` (1157-1164) is the loop of `taylorlen`. -/
def indexLoop (n : ℕ) (e : List ℕ) : ℕ → ℕ → ℤ → ℤ → Outcome ℤ
  | 0, _, N, idx => if 0 ≤ N then .diverge else .ok idx
  | fuel + 1, i, N, idx =>
    if 0 ≤ N then do
      let l ← taylorlen ((n : ℤ) - i) N
      let idx ← int32 (idx + l)
      let x ← rdBuf e i
      indexLoop n e fuel (i + 1) (N - x) idx
    else .ok idx

/-- `polynomial::term_index(exponents)` (polymul.hpp:1292-1305).  The fuel exceeds the number of exponents, beyond which reading is undefined. -/
def termIndex (n : ℕ) (e : List ℕ) : Outcome ℤ := do
  let N ← (List.range n).foldlM (fun N i => do
    let x ← rdBuf e i
    int32 (N + x)) (0 : ℤ)
  indexLoop n e (n + 2) 0 (N - 1) 0

/-- The position in the tensor and whether an exponent is too large (polymul.hpp:1234-1243, 1252-1259): the loop over `i` from `Nvar - 1` down to 0. -/
def tensorIndex (Ntens : ℕ) (m : ℕ → ℕ) : ℕ → ℕ → ℕ → Option ℕ
  | 0, _, it => some it
  | i + 1, base, it => if Ntens ≤ m i then none else tensorIndex Ntens m i (base * Ntens) (it + m i * base)

section
variable [Zero V]

/-- `polynomial<T, Nvar, Ndeg>::from_tensor<Ntens>` (polymul.hpp:1227-1248) -/
def fromTensor (n N Ntens : ℕ) (tensor c : List V) : Outcome (List V) := do
  let r ← forLoop (fun term (s : List V × (ℕ → ℕ)) => do
    let c ← match tensorIndex Ntens s.2 n 1 0 with
      | none => wrBuf s.1 term 0
      | some it => do
        let x ← rdBuf tensor it
        wrBuf s.1 term x
    let m ← nextExponents n s.2
    .ok (c, m)) (polylen n N) 0 (c, fun _ => 0)
  .ok r.1

/-- `polynomial<T, Nvar, Ndeg>::to_tensor<Ntens>` (polymul.hpp:1249-1264) -/
def toTensor (n N Ntens : ℕ) (c tensor : List V) : Outcome (List V) := do
  let r ← forLoop (fun term (s : List V × (ℕ → ℕ)) => do
    let t ← match tensorIndex Ntens s.2 n 1 0 with
      | none => .ok s.1
      | some it => do
        let x ← rdBuf c term
        wrBuf s.1 it x
    let m ← nextExponents n s.2
    .ok (t, m)) (polylen n N) 0 (tensor, fun _ => 0)
  .ok r.1

end

end XCFun.Polymul
