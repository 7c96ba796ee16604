# A machine-checked model of XCFun

Source under study: `/repo` (dftlibs/xcfun, C++), read as text.  Model and proofs: Lean 4.33 in `lean/`.
Properties: `properties.jsonl` (C01 ...).  Status: `MANIFEST.json`.  Mutation log: `seeded/LOG.jsonl`.

## 1. Shape of the model

Every definition of the model carries the file and lines it models.  `Model/` is the code, `Spec/` are the
independent specifications the theorems are stated against, `Proofs/` are lemmas, `Props/` are the property
theorems (named `Cxx_...`), each followed by `example`s that meet its hypotheses; `Props/Cases.lean`, `Props/CasesApi.lean`, `Props/CasesMore.lean` and `Props/CasesLate.lean` apply further theorems to concrete arguments.

| Layer | Lean module | C++ source |
|---|---|---|
| Outcomes `ok` / `die` / `ub` / `diverge` | `Model/Outcome` | `src/config.hpp` `xcfun::die`; undefined behaviour |
| Tables (functionals, parameters, aliases, variables) | `Model/Tables`, `Model/Vars`, `Model/RatLit` | `list_of_functionals.hpp`, `aliases.cpp`, `xcint.cpp`, `common_parameters.cpp` |
| Name lookup | `Model/Names` | `src/xcint.cpp:31-50` |
| Object state and API calls, call histories | `Model/Api`, `Model/History` | `src/XCFunctional.cpp:126-491` |
| `taylorlen` with 32-bit `int` | `Model/Taylorlen` | `external/upstream/taylor/taylor.hpp:6-13` |
| Truncated multilinear expansions, pointer level and value level | `Model/CTMem`, `Model/CT` | `ctaylor.hpp` |
| Elementary expansions | `Model/TMath`, `Model/CTMath` | `tmath.hpp`, `ctaylor_math.hpp`, `brx.cpp:21-89` |
| Density variables | `Model/Expr`, `Model/Densvars` | `densvars.hpp` |
| All 78 functionals as expression trees | `Model/Fun/{Basic,Exchange,Correlation,Minnesota,Meta,Scan,Table}` | `src/functionals/*` |
| `xcfun_eval`, `xcfun_eval_vec` | `Model/Eval`, `Model/Fun/Kernel` | `XCFunctional.cpp:493-806` |
| The self test and its reference data | `Model/SelfTest` | `XCFunctional.cpp:74-124`, the data in `src/functionals/*.cpp` |
| The process: lazily filled tables, heap of objects, all C entry points | `Model/Process` | `xcint.cpp:28-151`, `XCFunctional.cpp:302-367, 809-877` |
| Shared-memory accesses of the lazy setup | `Model/Threads` | `xcint.cpp:137-151` |
| Python binding and class | `Model/Python` | `python/export_xcfun.cpp`, `python/xcfun.py` |
| Fortran strings and arrays | `Model/Fortran` | `api/xcfun.f90` |
| Enumerations in C, Fortran and Python | `Model/Enums` | `api/xcfun.h`, `api/xcfun.f90`, `python/export_xcfun.cpp` |

Conventions.

* **Undefined behaviour is an outcome.**  `Outcome.die` is `xcfun::die` (prints and calls `exit(-1)`),
  `Outcome.ub` is an out-of-range array access, signed overflow or use after free, `Outcome.diverge` is
  non-termination.  Slots of the local array `in[XC_MAX_INVARS]` that are never assigned are an explicit universally
  quantified parameter (`junk`): `none` makes reading them undefined, `some j` gives them arbitrary contents.
* **Scalars.**  The state machine and the evaluation driver are generic in the scalar type, with *no* algebraic
  laws assumed, so those theorems hold for IEEE doubles as well.  Theorems about derivatives, symmetries,
  linearity etc. are over the real numbers; rounding is treated by C59, C60, C79 and C88 only.
* **Functionals** are C++ templates over the number type.  They are modelled once, as expression trees
  (`Expr`); instantiating the template at `ctaylor<double,0>` is `Expr.evalR`, instantiating it at `ctaylor<double,N>`
  is `Expr.evalCT`.  Induction over the tree replaces parametricity.
* **Domains.**  Real-number functions are total in Lean (`1/0 = 0`, ...), C++ yields inf/NaN or an assertion.  No
  theorem concludes anything about such values: derivative theorems carry the explicit hypothesis `Expr.Reg`
  (every primitive strictly inside its domain, no tied branch).

## 2. Method per property

* C01-C08, C10, C38: state machine over call histories; fold refinement against a three-line specification
  (list of elementary contributions); invariants by induction over the history.
* C03, C04: alias recursion modelled with the real recursion, termination proved from the table.
* C05: lookup congruence under ASCII case folding.
* C06: whole-table facts (`decide` on the complete table) plus the int-argument case split.
* C09, C12: decision logic stated outright.  C11: the bit code is shown injective below 256, whole table.
* C13: `taylorlen` = binomial coefficient, by induction; no overflow in 32 bits.
* C14, C15: the eval loops as folds over a bounds-checked buffer; closed forms for the running index `k`.
* C16-C20: `jet` of a smooth function along directions; ring/composition homomorphism; induction on `Expr`;
  combined with the layout theorems.
* C21: full decision table of `eval` over (vars, mode, order); negation of the naive claim.
* C22: induction on the number of points over the same buffers.
* C23, C43: world of objects, arbitrary interleavings, projection theorem.
* C24: weighted sums; permutation invariance by a state equivalence.
* C25-C28: pointer-level algorithms refine the value-level ring; subset-convolution specification.
* C29: coefficient systems `C_i' = (i+1) C_{i+1}`, hence `C_i = f^(i)/i!`.
* C30: forgetting the last variable is a homomorphism for every operation used.
* C31-C35, C46: theorems on the density-variable constructor.
* C36: a calculus of expressions related by exchanging the spins (`Flip`), closed under every operation used.
* C37, C42: which members an expression reads, computed over the tree and compared with the declared flags.  That the named functionals do
  depend on the parameters follows from C54 and C78 (`Props/ErfCorr.lean`).
* C39: a calculus of homogeneity degrees (`Deg`) under density scaling, per functional. Range-separated
  functionals: the parameter is replaced by `c n^(1/3)`, which scales like an inverse length.
* C40, C41: real analysis per functional at zero gradient, signs from monotonicity of the enhancement factors.
* C49: positivity of every intermediate quantity, functional by functional, from the densities upwards (`PosReg`,
  `NonnegReg`); the surfaces are the specification `Spec/Smooth.SmoothAt`.  For the PBE family this needs C50 (the argument
  of the logarithm is positive because the local correlation energy is negative).  The surfaces of TPSS correlation, REVTPSSX,
  r2SCAN correlation and LDAERFC_JT are stated with the published formulas of C52; variable sets in which the code doubles the
  spin densities (finding on `N_S`) are not covered for these.  LDAERFC_JT has no pole for a range separation that is not
  negative: the on-top pair density stays below 1/2 (by 4e-5 at infinite density) and VWN5 is below `-0.0187/(r_s+4)`.
* C50: derivative signs of the VWN and PW92 parametrisations and convexity of the spin interpolation.
* C51: the numerators of the enhancement factors as sums of squares.
* C52: the published formulas (`Spec/Literature*.lean`, written in the variables of the papers and without reference to the
  model) against the expression trees, functional by functional; then C49 turns equality on a neighbourhood into equality
  of derivatives.  Constants that the code gives as decimals instead of closed forms are arguments of the formulas, and
  `C52_constants` bounds their distance.  The formulas were written from memory of the papers, no network being available:
  they are part of what a reader has to check.  Points of doubt: `g''` of LDAERFC has 0.022655 where the paper prints
  0.02267; the r4SCAN damping lengths (0.232); rSCAN correlation multiplies the regularised `tau_unif` by `d_s`; PW91C with
  2.363 for 2.3631; the Laplacian terms of the open-shell Colle-Salvetti formula (item 36).
* C44: model of the static flag; arbitrary schedules of any number of threads; race as a pair of accesses.
* C47: row decomposition of C-ordered arrays, then C15, C19, C20 and C22 per point.
* C45: whole tables transcribed from each file, values by the enumeration rules of each language.
* C53: the rational function of `sqrtx_asinh_sqrtx`, its derivative in `t = sqrt x` and the square of that derivative times
  `1 + x` are quotients of polynomials with integer coefficients after scaling; a Horner-type lower bound on `[0, 1/2]`,
  evaluated by the kernel, gives `|slope - 1/sqrt(1+x)| <= 6e-15`, the mean value theorem the rest.
* C54: the attenuation is `(2/3) P(u)/u^4`, `u = 1/(2A)`; bounds of `P` by repeated integration from 0.
* C55: one iteration of the loop of the self test is the chain new, set, eval_setup, output_length, eval, delete of the
  process model; each settled for an arbitrary kernel, then induction over the 78 rows.
* C56: the exact error of one Newton step, a quadratic error bound in the weighted error `|x - r| (1 + 1/r)`, and for each of
  the four starting formulas a proof that this error is at most 1/4.
* C57: `BR_z(BR_taylor(z))` is `z + h` coefficient by coefficient, compared with the same recursion for the exact inverse;
  then the argument of C16 with the exact inverse at a shifted argument (`Expr.evalNear`) in place of the solver.
* C58: quantities within a factor `exp(±ε)`, closed under products, reciprocals, sums and functions whose logarithmic
  derivative is at most 1 in magnitude.  As for C52 the formulas were written from memory of the papers.
* C59, C60: `Near A k v r a`, "`v` is the exact `r` up to `(1+u)^k - 1` times `a`, and `|r| <= a`", is closed under the three
  operations with `k` counted up; the memory algorithms of `ctaylor.hpp` are then followed once more with exact values in one
  copy of the memory and absolute values in another.  The scalar type of the model is generic, so that the rounded run is the
  same definition as the exact one.  `Spec.Bits p` shows that the assumptions hold for p-bit rounding to nearest.
* C61: each functional is, up to a constant factor, `A + B` where `A` reads variables of alpha only and `B` is `A` with alpha
  replaced by beta, both checked by evaluating a substitution; mixed derivatives vanish because a homomorphism of expansions
  that sets a perturbation to zero leaves `A` (or `B`) unchanged.
* C62: `Proofs/Ball` is an arithmetic of numbers known up to an error (fixed point, 192 bits) with a proof for each operation and
  elementary function that the real result lies within the error.  `Proofs/BallJet` extends it to values with first and second
  derivatives and shows that it encloses the evaluation of expressions on `CT ℝ 2`.  The command `reify` (`Proofs/Reify`) writes a
  functional of the model as a code for this arithmetic and lets the kernel check that the code denotes the functional.  The
  comparison with the reference values is then evaluated by the kernel (`decide +kernel`; this is the complete finite statement, not
  a sample).  Branches are decided only if the error permits; otherwise the result is `bad` and the check fails.
* C63, C64, C65: `Model/Programs` writes the bundled programs as sequences of the library calls of the process layer; a failed check
  of a program ends it with an error value, library aborts and undefined accesses stay the outcomes `die` and `ub`.  Every library call
  is rewritten to its result (`Proofs/Programs`), uninitialised buffers stay variables until written.  The numeric comparisons are
  decided by the enclosures of C62, extended to expansions with eight terms (`Proofs/BallCT`, `Proofs/EnergyNum`), also the checks of testall.cpp
  that compare two evaluations.  Output to
  streams is left out, also `xcfun_splash` in example.f90:80, which C48 shows to store out of bounds.
* C66: the order of the exponents is specified by index lists (`Spec.multisets`: non-decreasing lists, lexicographic) and their counts
  (`Spec.exponents`).  `next_exponents` is shown to step along the lists of one degree and from the last of a degree to the first of the next,
  by induction on the number of variables; reading `m[-1]` for no variables is the outcome `ub`.
* C67: `Model/PyTests.lean` follows `tests/test_xcfun.py` statement by statement; numpy is the structure `Numpy` (sin, cos, abs, ≤),
  instantiated with the real functions. `sin` and `cos` of the data are enclosed by Taylor sums (`Proofs/BallTrig.lean`), the energies
  and potentials by the same interval trees as in C62-C65, evaluated in the kernel (`Proofs/PyTestsNum.lean`). The texts of exceptions
  (`match=`) are not modelled.
* C68, C69: `Model/Polymul.lean` writes the templates of `polymul.hpp` as lists of the elementary assignments they make
  (`dst[d] += p1[a] * p2[b]` and the like) in their order; reading or writing outside an array is `ub`.  The specification is Mathlib's
  `MvPolynomial`: `Spec.polyOf n N c` is the sum of `c_i` times the power product with the exponents that C66 lists; truncation is
  agreement of all coefficients of degree at most N (`Spec.SameTo`).  The proofs show that the lists of assignments contain each pair
  of terms exactly once, at the index of the product of the terms (`Proofs/PolymulMul`), and that the in-place variants read each
  coefficient before it is overwritten (`Proofs/PolymulInplace`).  Assignments through `POLYMUL_RESTRICT` pointers are taken in program
  order; overlapping arrays are only modelled for `t *= t`.
* C70: `polynomial::exponents`, `term_index`, `from_tensor`, `to_tensor` as loops over `forLoop`; `term_index` uses the run-time
  `taylorlen`, whose `int` overflow is the outcome `ub`, hence the bound in the hypothesis.
* C71: `Model/TaylorClass.lean` writes `taylor.hpp` and `taylor_math.hpp` as loops over arrays.  Arrays that the code declares without
  initial values hold an arbitrary `u`; the theorems hold for every `u`, so no result depends on uninitialised memory.  `assert` is the
  outcome `die` (a build with `NDEBUG` goes on instead; nothing is claimed there).  "f of an expansion" is specified by derivatives along
  lines (`Spec.Expands`): for every direction v, the derivatives up to order N at s = 0 of s -> q(s v) and of s -> f(p(s v)) agree.
  `C71_unique` shows that this determines every coefficient, mixed ones included.  The proofs identify the composition with
  `sum c_j (P - P_0)^j` (C68), show by Faa di Bruno's formula that it has the derivatives of f(P) (`Proofs/TaylorLine`), and prove each
  one-variable expansion as in C29 but for every degree.  `sinc` for |t0| < 1e-3 is the expansion of the Taylor polynomial of degree
  N + 8 of sin(x)/x, not of sin(x)/x itself, and the theorem says so.
* C72: `BR_taylor` on these arrays, for every degree.  The top coefficient of `BR_z(t)` depends on the top coefficient of `t` linearly
  with the slope as factor (`coefOf_top`), which makes the "linear method" of the code produce the coefficients of the inverse function.
  `C72_model` shows that the series used by the model of the functionals (sums `serMul`, `serCompose` in `Model/CTMath.lean`) is what
  the array code computes; the simplification noted there is thereby justified.
* C73: `funeval.c` as a whole (`Model/CHost.lean`).  What a command line means is a small separate specification
  (`Spec/CommandLine.lean`: options, the last one counts, settings in order); `C73_funeval` and `C73_derivatives` give everything the
  program prints for any number of points.  `sscanf`, memory and the numbers that `scanf` delivers are parameters.
* C74: `example.c` prints the published 0.9 BLYP + 0.1 PBEC and its eight first derivatives at its point.
* C75: the conditions from which PBE correlation was constructed (`Spec/PbeLimits.lean`): uniform gas without a gradient, slope
  `n β φ³ t²`, monotone in the gradient, zero for rapidly varying densities.  The last one fails for `SPBEC` and, for polarised
  densities, for `ZVPBESOLC` and `ZVPBEINTC`; the theorems give the limits they have instead.
* C76: the error of `erf` is that of an alternating series, whose sign is found by differentiation; that of `erfc` is bounded by the
  distance of two convergents, between which the value lies because the moments of the tail of the Gaussian give positive complete
  quotients of the continued fraction (`Proofs/MicroMath`, `Proofs/MicroMathErfc`).
* C77: the recursion of `transformer` and `new_evaluator` visits every term once (`visit_all`); the local array holds the product of the
  linear forms of the factors chosen so far, order by order.
* C78: the long-range energy of LDAERFC is a rational function of the range separation apart from `Q`, which is bounded by a cubic and starts
  quadratically (`Proofs/ErfCorr`); the limits follow by the substitution `t = 1/μ`.
* C79: `evalV` evaluates the same expression trees with rounded operations, constants, powers and functions, in the order of the source.  A relative
  error is carried as a factor `exp θ`; products, quotients, powers and sums of equal sign add up a number of steps, a power also
  `|a| |log x|` for its rounded exponent, so ranges are carried along.  The only differences that cancel are those of the enhancement factors
  `1 + κ - κ/t`, at most six tenths.  Assumed of the mathematical library: a relative error bound `w` (`Spec.MathLib`); a source constant counts as one
  rounding, so `w` has to cover constants computed at start-up such as `S2const`.  Not covered: correlation functionals (logarithms near 1 and
  differences without a bound on the cancellation), derivatives, other variable sets.
* C80: the density variables of a 1s electron are defined by derivatives of its radial density (`Spec/Hydrogenic.lean`); the root of the hole equation
  is `a r`, so the errors of C58 apply.  The tail of Becke exchange is reached at fixed density by growing exponents, since the code replaces densities
  below the threshold.
* C81: the published formulas (C52) differentiated at zero gradient.
* C82: C73 for the command line of the script, with the published formulas; the gas with given `s` and `z` is unique.  (The comment in line 27 of the script lacks the
  square of `2*kf*n`; the code has it.)
* C83: the published formulas (C52) bounded and continued to full polarisation; `ToOneElectron` in `Spec/OneElectron.lean` says which gases approach a single electron.
* C84: within a degree the lists of C66 are in the order of the first index that occurs more often; `GrevLt` in `Spec/GradedOrder.lean` is the textbook order.
* C85: the derivative is that of C52; it is `eps - r_s eps'(r_s)/3`, and `eps'` is positive for each of the published forms.
* C86, C87: `Model/Version.lean`; the table of `docs/functionals.rst` is `Spec/DocNames.lean`.
* C88: `Spec/RoundedCorr.lean` adds logarithm, square root and arc tangent to the rounded arithmetic of C79; errors are absolute (`AA` in
  `Proofs/RoundedCorr.lean`), since terms of both signs are added.
* C89: `Spec/RoundedJet.lean` evaluates expressions on expansions with rounding (`evalCTV`, `powExpandV`), with the products and
  compositions of `Model/CTMem.lean` so that the order of the operations is that of the source; coefficients are compared relative to
  the same expression with all terms taken positive (`NB`, `JA` in `Proofs/RoundedJet.lean`).  A quotient is the composition with
  `inv_expand` followed by `multo` in place (`divLit`), as in ctaylor_math.hpp:30-46; `Props/RoundedGrad.lean` applies it to VWK and KTX.

## 3. Where the code and the claims disagree

The following were found while modelling.  Those marked with a theorem are proved of the model (negation with a
witness, or an exact statement of what the code does); the rest are observations on the source text.

1. `XC_A`, `XC_A_GAA`: `densvars` never reads `d[0]`; the density stays at its initial 0 (C35).
2. `XC_N_S` and `XC_N_S_GNN_...`: `a = n + s`, `b = n - s`, twice the spin densities (C34).
3. Ten variable sets are accepted by `xcfun_eval_setup` but kill the process in `densvars` (C21).
4. `XC_PARTIAL_DERIVATIVES` at order 4 is accepted by setup but `xcfun_eval` dies; undocumented mode numbers are
   accepted by setup and die in eval; `xcfun_output_length` dies for `XC_CONTRACTED` (C13, C21).
5. `xcfun_eval_setup` with `XC_VARS_UNSET` or an out-of-range value reads `xcint_vars` out of range (C09).
6. `xcfun_enumerate_parameters` with a negative argument reads out of range (C06).
7. Potential mode: the declared output length is 3 for `XC_N`, `XC_N_2ND_TAYLOR`, but only two values are written (C19).
8. Potential mode with an LDA and other variable sets: the second value is the derivative with respect to the gradient
   invariant, or a repeated first derivative (C19).
9. The unrestricted GGA potential reads `in[14]`, `in[17]`, `in[19]` before they are assigned; the values do not reach
   the result for functionals that do not use the Laplacian (C46).
10. `XC_N_2ND_TAYLOR` falls through and sets the kinetic energy density from the second derivative `d[4]`; `XC_REVTPSSX`
    reads it although it declares only density and gradient (C37).
11. `xcfun_set` after `xcfun_eval_setup` can make the chosen variables insufficient (C10); with `XC_A_B` and potential
    mode it makes `xcfun_eval` read the input buffer out of range.
12. Alias terms that are parameters overwrite rather than accumulate; the aliases `PBEX`, `OPTX`, `tfk`, `tw` are
    shadowed by functionals of the same name (C04, C06).
13. `asin_expand`, `acos_expand` are wrong at every order (C29).  `multo` with its own operand is wrong from three
    variables on (C27).  `tfuns::compose` does nothing above degree 6.
14. The closed-shell sets agree with the spin sets only from `n = 2e-14` on (C33).
15. `XC_EMODE` alone is never returned (C09).
16. Becke-Roussel: the value is a Newton iterate, so that the energy at order 0 is not exactly the smooth function whose
    derivatives are returned; at each point the two differ by a shift of the argument by the residual (C57).
17. `XC_TW` is `pow(gaa + gbb, 2.0)/(8 n)`: it does not scale as a kinetic energy (C39).
18. `XC_REVTPSSX`: the square root contains `0.5*p*p` where TPSS has the constant, and the denominator is not squared; it
    is not homogeneous (C39).
19. SCAN family thresholds, the rSCAN regularisation, `KTX`'s `DELTA` and `BTK`'s `1e-24` break exact scaling (C39).
20. `SPBEC` has `beta` and `gamma` exchanged, and `beta/gamma` for `gamma` in the exponent (C52).  As a consequence its correlation energy does not
    vanish for rapidly varying densities (`C75_rapid_spbec_fails`).
21. OPTX at zero gradient is 1.05151 times the uniform-gas exchange (C40).
22. `xcint_assure_setup` is a data race if two threads make the first call concurrently (C44).
23. Enumerations: `XC_NR_VARS` is missing in Fortran; `XC_N_GNN` and `XC_A_B_GAA_GAB_GBB` are missing in Python (C45);
    the comments on `GSS` and `GNS` in `api/xcfun.h` are exchanged.
24. `test_in.empty()` in `xcfun_test` never distinguishes a functional without test data (source reading).
25. Python: `eval_potential_n` returns an `(n, 3)` array whose third column is never written (documented: two columns);
    `xcfun_eval` on a one-dimensional array returns `len(density)` rows of which one is written; a scalar argument is
    undefined behaviour; contracted mode ends the process; the shape of the gradient is checked after the object has been
    set up again (C47).  `xcfun_get` receives its result pointer by value conversion and cannot deliver the value (source
    reading).
26. Fortran: `text_handler` stores outside `msg` for every argument and reads a fixed number of characters past the end of
    the C string; `xcfun_describe_short`, `xcfun_describe_long` pass names without a NUL; names padded with blanks are
    rejected (C48).
27. `XC_REVTPSSX`: for the same reason as 18 its enhancement factor has a pole and exceeds 1.804 (C51).
28. `XC_PZ81C` (and through it `XC_P86C`) forms its spin interpolation from `a` and `b` but its density from `n`: with the
    sets of item 2 the energy is positive for the unpolarised gas (C50).
29. SCAN at `alpha = 1` exactly computes `exp(0.8/0)`; the theorems exclude that surface (C49, C51).
30. `XC_TW` squares `gaa + gbb` where the von Weizsaecker energy has `|grad n|^2` (C52).
31. `XC_REVTPSSC` has `z^2` where the published functional has `z^3`; `XC_REVTPSSX` as in item 18 (C52).
32. `XC_LDAERFX` jumps where it changes formula: at `a = 100` its magnitude increases with the range separation (C54).
33. 45 of the 78 functionals have no self test.  For `XC_PBEX` and `XC_M06X` the data exist but are excluded by
    `XCFUN_REF_PBEX_MU`, for `XC_PW86X` and `XC_TW` the initialiser ends before them (C55).
34. `xcfun_test` guards against missing input by `test_in.empty()` on a fixed-size array, which is never true; the test of
    `XC_TFK` has three reference values that are never compared; a NaN result never counts as a failure (read off the
    comparison, NaN is not modelled).
35. `XC_TFK` uses the total density and `XC_TW` the sum `gaa + gbb`: neither obeys the spin scaling relation of kinetic
    energies (C61).
36. `XC_CSC` has `a = b = c = d = 1` for the Colle-Salvetti parameters 0.04918, 0.132, 0.2533, 0.349, and leaves out the
    Laplacians although it declares them (C52).
37. `examples/C_host/funeval.c:126-166`: the loop that reads inputs is `while (1)` and is only left by `return EXIT_FAILURE` when
    a number cannot be read, so `xcfun_delete` and `return 0` after it are never reached: the program ends with a failure status
    at the regular end of its input, without freeing the functional and its buffers (`C73_status`, `C73_funeval`).
38. `tests/test_xcfun.py:223, 261`: two test functions have the name `test_pbe_potential_unrestr_closedshell`; the second
    replaces the first, so the closed-shell potential test is never run (read off the source; C67 shows that it would pass).
39. `polymul.hpp:589-668` (`taylormul(p1, p2)`, `taylor::operator*=`): with both operands the same object the coefficients are overwritten before they have
    been used as second factor: `t *= t` for `t = 2 + x` gives `4 + 6x` instead of `4 + 4x`
    (`C68_square_in_place_fails`).  Nothing in the library does this; nothing prevents it either.
40. `polymul.hpp`, `mul_monomial_set` for one variable loops `i < Ndeg1` where the other variants loop `i <= Ndeg1`, so the last
    coefficient is left unset (`C68_monomial_set_one`); for more variables it aborts (`C68_monomial_set_aborts`)
    unless one factor is constant (`C68_monomial_set_constant`).  The function is never called.
41. `unittest_taylor.cpp:249` calls `acos` on a `taylor` object; no such function exists, so the test of the polynomial library does
    not compile (read off the source).
42. `polymul.hpp:1227-1264, 1312-1334`: for one variable `next_exponents` never advances, so `from_tensor` sets every coefficient
    to `tensor[0]` and `to_tensor` writes only `tensor[0]` (`C70_from_tensor_one_variable`, `C70_one_variable_fails`).
43. `taylor.hpp:142-155`: `compose(res, coeff)` and `compose0(res, coeff)` assert `Nres >= Ndeg` but pass template arguments that
    require `Nres = Ndeg` (read off the source); the form that returns the result works for every `Nres >= Ndeg` (`C71_compose_to`).
44. `taylor_math.hpp:264-277`: `pow(t, n)` negates `n`, which overflows for the smallest `int` (`C71_integer_power`).
45. `funeval.c:111`: the result of `xcfun_set` is not looked at, so a misspelt functional is ignored and zeros are printed
    (`C73_unknown_name`, `C73_misspelt`).
46. `funeval.c:144`: with `--rep 0` nothing is evaluated and the uninitialised array `out` is printed (`C73_no_repetition`).
47. `funeval.c:120`: `--order 4` passes the setup, and the program is aborted by the library at the first point (`C73_order_four`).
48. `example.c:35`, `funeval.c:134-136`: the results of `malloc` are not looked at (`C74_no_memory`).
49. `micromath.hpp:49`: `while (fabs(term) / sum > erf_rel_error)` lacks `fabs` around `sum`; for `-2.2 <= x < 0` the loop ends after one
    round and `erf(-2.2)` is less than -4 (`C76_erf_negative`, `C76_erfc_negative`).  Only with Visual C++; `BECKESRX` and `BECKECAMX`
    (`beckex.cpp:53, 72`) reach it with a negative `RANGESEP_MU`, which `xcfun_set` accepts.
50. `micromath.hpp:10`: `cbrt` of a negative number is not a number (`C76_cbrt_negative`).  Only with Visual C++.
51. `polymul.hpp:838-847, 863-872, 880-882`: the operands of the sums of `new_evaluator` change and read the same array, and C++ leaves
    their order open; from right to left the value is wrong (`C77_new_evaluator_order`).  Nothing uses `new_evaluator`.
52. `XC_LDAERFC_JT`: the coefficient of the range separation in the denominator is negative for `r_s` above 4.46, so that for dilute densities the
    short-range correlation energy of some range separation is below the full one (`C78_jt_overshoots`).  The coefficients are the published
    ones; this is a limit of the fit, not of the code.
53. `pbex.hpp:34` takes `beta = 0.066725`, `constants.hpp:36` `0.06672455060314922`: the gradient terms of PBE exchange and correlation, constructed to cancel for
    the nearly uniform gas, do so to 7e-6 only (`C81_pbe`).
54. `docs/using.rst:227`: the output is in graded reverse lexicographic order only if the last input is taken as the greatest variable; with the convention of the page
    it links to, it is not (`C84_first_greatest`).  The same page misspells `XC_A_B_AX_AY_AZ_BX_BY_BZ` (170) and lacks the gradient in the definition of `tau` (219).
55. `XC_PZ81C`: the two pieces differ by 3e-5 hartree per electron at `r_s = 1` (rounded published parameters), so that the energy per electron is not a decreasing
    function of the density there (`C85_pz81`).
56. `src/version_info.hpp:21-22` shifts the major version but not the minor one: 2.1.1, 2.1.0 and 2.0.1 have the same number (`C86_number_this`).
57. `xcfun_is_compatible_library` compares the major version of the library with itself: it is always true and never looks at the header, against `api/xcfun.h:152-158`
    (`C86_compatible`, `C86_not_header`).
58. `docs/functionals.rst` lists 39 of the 78 functionals (`C87_incomplete`).
59. In `double`, with one spin density at least 256 and the other at the regularisation threshold `1e-14`, `zeta = s/n` (`src/densvars.hpp:213`) rounds to exactly 1
    and `1 - zeta` to 0.  `ufunc` (`src/specmath.hpp:35-37`) takes a power of it, whose expansion asserts a positive argument and divides by it
    (`tmath.hpp:155-160`).  The regularisation protects `b` but not `1 - zeta` (`C88_polarised`, for densities that are powers of two).

## 4. Trusted base

* Lean's kernel, and for every theorem at most the axioms `propext`, `Classical.choice`, `Quot.sound` (checked with
  `#print axioms`).  No own axiom, no `sorry`, no `native_decide`, no `bv_decide`.
* The reading of the source into the model, definition by definition as cited.
* The C++ semantics as encoded by `Outcome`: evaluation order, `int` as 32 bits, `new` returning an unused address.

Modelled: all of `src/XCFunctional.cpp` except the messages of `xcfun_test` and the splash and author strings; `src/xcint.cpp`;
`src/densvars.hpp`; `src/config.hpp` `die`; every functional of `src/functionals/` (formula, declared dependencies, name);
`aliases.cpp`; `common_parameters.cpp`; `ctaylor.hpp`, `ctaylor_math.hpp`, `tmath.hpp`, `polymul.hpp`, `taylor.hpp`, `taylor_math.hpp`, `micromath.hpp` of
`external/upstream/taylor`; the enumerations of the three languages.

Not modelled: floating-point rounding other than in C59, C60, C79, C88, C89 (expansion arithmetic, the sum over functionals, the energies of 17
functionals and the derivatives of four, without overflow and underflow), NaN and infinities (assertions appear as domain hypotheses); the C library
functions beyond their mathematical meaning (`M_PI` is π, decimal literals are exact); descriptions and references
of the functionals; printing, `as_taylor` and the type `tensored_taylor` of `taylor.hpp`;
`acosh_expand` (`tmath.hpp:293-297`; no call of it compiles, since it calls `asinh_expand` without the template argument `Ndeg`, and what it is meant to
compute is `-asinh`); output to streams other than that of the C examples; memory exhaustion other than as `die`; the build system.

Evidence for the reading: C62 is a proof that the formulas of the model have, at the reference points of the self test, the values
that the authors of the library stored there, derivatives included, within the thresholds of the library.  A wrong constant or
exponent in the transcription of one of these 33 functionals would make it fail.
