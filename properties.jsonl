{"id": "C01", "title": "Weights of functionals accumulate over any call history", "statement": "After any sequence of xcfun_set calls on a fresh object, xcfun_get on a functional name returns the sum, in call order, of every contribution made to that functional: each direct set contributes its value, each set through an alias contributes value*weight for every term of the alias naming that functional, and nothing else contributes.", "quantifier": "every finite sequence of xcfun_set calls (arbitrary names and values), every functional", "why_tests_cant": "the number of call histories is infinite; a test fixes one short history", "anchors": ["src/XCFunctional.cpp:xcfun_set", "src/XCFunctional.cpp:xcfun_get", "src/functionals/aliases.cpp"]}
{"id": "C02", "title": "Parameters keep the last value written", "statement": "After any sequence of xcfun_set calls, xcfun_get on a parameter (RANGESEP_MU, EXX, CAM_ALPHA, CAM_BETA) returns the documented default if the parameter was never written, and otherwise the value of the last write to it, where writing through an alias writes value*weight.", "quantifier": "every finite sequence of xcfun_set calls, every parameter", "why_tests_cant": "needs every history, including mixtures of aliases and direct writes", "anchors": ["src/XCFunctional.cpp:xcfun_set", "src/XCFunctional.cpp:XCFunctional::XCFunctional"]}
{"id": "C03", "title": "Unknown names are rejected without effect", "statement": "xcfun_set and xcfun_get return -1 exactly when the name is not (case-insensitively) a known functional, parameter (or, for set, alias); a rejected xcfun_set leaves the object unchanged in every observable respect; no name whatsoever makes xcfun_set abort the process or recurse forever.", "quantifier": "every string, every object state, every value", "why_tests_cant": "the set of strings is infinite, and termination of the alias recursion is not observable by finite tests", "anchors": ["src/XCFunctional.cpp:xcfun_set", "src/XCFunctional.cpp:xcfun_get", "src/xcint.cpp:xcint_lookup_functional"]}
{"id": "C04", "title": "Setting an alias is the same as setting its terms", "statement": "xcfun_set(alias, v) yields exactly the object obtained by calling xcfun_set(term, v*weight) for the alias' terms in order.", "quantifier": "every alias reachable by name, every value, every prior state", "why_tests_cant": "all prior states and values", "anchors": ["src/XCFunctional.cpp:xcfun_set", "src/functionals/aliases.cpp"]}
{"id": "C05", "title": "Names are case-insensitive everywhere", "statement": "Replacing a name by any string equal to it up to ASCII letter case changes neither the result nor the effect of xcfun_set, xcfun_get, xcfun_describe_short and xcfun_describe_long.", "quantifier": "every pair of strings equal up to letter case, every state", "why_tests_cant": "infinitely many spellings", "anchors": ["src/xcint.cpp:xcint_lookup_functional", "src/xcint.cpp:xcint_lookup_parameter", "src/xcint.cpp:xcint_lookup_alias"]}
{"id": "C06", "title": "Enumeration and lookup agree", "statement": "xcfun_enumerate_parameters yields, for n = 0,1,2,..., the 78 functional names and then the 4 parameter names, all pairwise distinct up to case, then null for ever; each of those names is accepted by xcfun_set, xcfun_get and described by xcfun_describe_*; each enumerated alias is accepted by xcfun_set. Negative arguments are out of contract.", "quantifier": "every int argument; every enumerated name", "why_tests_cant": "unbounded int argument and whole-table uniqueness", "anchors": ["src/XCFunctional.cpp:xcfun_enumerate_parameters", "src/XCFunctional.cpp:xcfun_enumerate_aliases", "src/xcint.cpp"]}
{"id": "C07", "title": "The active list never holds duplicates and never overflows", "statement": "In every reachable object the active functionals are pairwise distinct, are exactly the functionals some earlier call named (directly or through an alias), and their number never exceeds the fixed capacity, so appending never writes out of bounds.", "quantifier": "every finite sequence of API calls", "why_tests_cant": "memory safety for all histories", "anchors": ["src/XCFunctional.cpp:xcfun_set", "src/XCFunctional.hpp:XCFunctional"]}
{"id": "C08", "title": "GGA / meta-GGA classification", "statement": "xcfun_is_gga (xcfun_is_metagga) answers true exactly when some functional named so far needs the density gradient (Laplacian or kinetic energy density); the answer never reverts to false and does not depend on the weights or on the order of the calls.", "quantifier": "every finite sequence of API calls", "why_tests_cant": "needs all histories including weights returning to zero", "anchors": ["src/XCFunctional.cpp:xcfun_is_gga", "src/XCFunctional.cpp:xcfun_is_metagga", "src/XCFunctional.cpp:xcfun_set"]}
{"id": "C09", "title": "Exact decision table of xcfun_eval_setup", "statement": "xcfun_eval_setup returns 0 exactly when the variables provide everything the active functionals need, 0<=order<=6 (<=4 for partial derivatives) and, in potential mode, no kinetic/Laplacian dependence and Hessian variables if a gradient is needed; otherwise it returns EVARS, EORDER, EVARS|EMODE or EMODE as documented; on failure the object is unchanged, on success exactly mode, variables and order change.", "quantifier": "every object state, the 31 variable sets, every mode, every int order", "why_tests_cant": "all combinations times all states", "anchors": ["src/XCFunctional.cpp:xcfun_eval_setup"]}
{"id": "C10", "title": "Setup guarantees sufficiency of the variables until the next xcfun_set", "statement": "After a successful xcfun_eval_setup, and as long as no further xcfun_set succeeds, the configured variables provide everything the active functionals depend on. (The stronger claim, that this survives later xcfun_set calls, is expected by users and is false.)", "quantifier": "every history of API calls", "why_tests_cant": "depends on arbitrary interleavings of set and setup", "anchors": ["src/XCFunctional.cpp:xcfun_eval_setup", "src/XCFunctional.cpp:xcfun_set"]}
{"id": "C11", "title": "xcfun_which_vars is a faithful encoding", "statement": "xcfun_which_vars either aborts or returns a variable set whose kind of density, gradient form and provided quantities are those requested; no two different accepted requests return the same variable set; every one of the 31 variable sets is returned for some request.", "quantifier": "all 6-tuples of unsigned integers", "why_tests_cant": "2^192 argument tuples", "anchors": ["src/XCFunctional.cpp:xcfun_which_vars"]}
{"id": "C12", "title": "xcfun_user_eval_setup is decode-then-setup", "statement": "xcfun_user_eval_setup either aborts because the request does not decode, or behaves exactly like xcfun_eval_setup on the decoded variables, mode and order; mode_type 1,2,3 are the three modes and nothing else decodes.", "quantifier": "all argument tuples and object states", "why_tests_cant": "all tuples times all states", "anchors": ["src/XCFunctional.cpp:xcfun_user_eval_setup", "src/XCFunctional.cpp:xcfun_which_mode"]}
{"id": "C13", "title": "Output length is the number of derivatives", "statement": "In partial-derivative mode xcfun_output_length equals the number of monomials of degree at most `order` in `input length` variables, i.e. binomial(n+order, order), computed without intermediate int overflow and with every division exact.", "quantifier": "every number of variables and every order (overflow-freedom: every variable set and order accepted by setup)", "why_tests_cant": "arithmetical identity over all pairs", "anchors": ["external/upstream/taylor/taylor.hpp:taylorlen", "src/XCFunctional.cpp:xcfun_output_length"]}
{"id": "C14", "title": "xcfun_eval writes exactly the promised output", "statement": "In partial-derivative mode (orders 0 to 3) xcfun_eval on a supported variable set writes every entry of output[0 .. output_length-1], writes no other entry, and never reads or writes outside the user's buffers.", "quantifier": "every object, every input vector, every buffer content, every number of input variables", "why_tests_cant": "memory safety and completeness for all inputs and lengths", "anchors": ["src/XCFunctional.cpp:xcfun_eval"]}
{"id": "C15", "title": "Documented order of the derivatives", "statement": "In partial-derivative mode, output entry 0 is the energy, entry 1+i the derivative with respect to input i, and the second and third derivatives follow in lexicographic order of (i<=j) and (i<=j<=k), each at its documented closed-form position.", "quantifier": "every number of input variables n, all index tuples", "why_tests_cant": "loop-index arithmetic for every n", "anchors": ["src/XCFunctional.cpp:xcfun_eval"]}
{"id": "C16", "title": "Returned derivatives are the exact partial derivatives", "statement": "In exact arithmetic every entry returned in partial-derivative mode equals the corresponding iterated partial derivative of the function that the same object returns at order 0, at every input where the intermediate quantities are strictly inside the domains of the elementary functions used and no branch condition is tied.", "quantifier": "every combination of functionals and weights, every variable set, every input in the stated domain, orders 0..3", "why_tests_cant": "derivative correctness at every point cannot be sampled; finite differences only approximate it", "anchors": ["src/XCFunctional.cpp:xcfun_eval", "external/upstream/taylor/ctaylor.hpp", "external/upstream/taylor/ctaylor_math.hpp", "external/upstream/taylor/tmath.hpp"]}
{"id": "C17", "title": "Contracted mode returns the mixed directional derivative", "statement": "In contracted mode of order N the 2^N outputs are exactly the derivatives with respect to every subset of e_1..e_N, at 0, of the energy along the multilinear path x_i(e)=sum_S input[i*2^N+S] e^S.", "quantifier": "every order 0..6, every functional combination, every input in the domain", "why_tests_cant": "infinitely many paths", "anchors": ["src/XCFunctional.cpp:xcfun_eval"]}
{"id": "C18", "title": "Contracted and partial-derivative modes agree", "statement": "Seeding contracted mode with unit perturbations of inputs i (and j, k) returns the same numbers as the corresponding entries of partial-derivative mode.", "quantifier": "every functional combination, every input, every index tuple", "why_tests_cant": "all inputs and indices", "anchors": ["src/XCFunctional.cpp:xcfun_eval"]}
{"id": "C19", "title": "LDA potential mode returns energy and density derivatives", "statement": "For density-only functionals with XC_A_B or XC_N, potential mode returns the energy followed by the derivative with respect to each spin density (resp. the total density), and these equal the entries of partial-derivative mode of order 1.", "quantifier": "every density-only functional combination, every input", "why_tests_cant": "all inputs", "anchors": ["src/XCFunctional.cpp:xcfun_eval"]}
{"id": "C20", "title": "GGA potential is dE/dn minus the divergence of dE/d(grad n)", "statement": "For gradient functionals with XC_N_2ND_TAYLOR or XC_A_B_2ND_TAYLOR the returned potential equals dE/dn - sum_c d/dr_c (dE/dg_c), where the spatial derivative is taken by the chain rule with the supplied gradient and Hessian; for every density field whose value, gradient and Hessian at a point are the inputs this is the functional derivative at that point.", "quantifier": "every GGA functional combination and every 2nd-order density expansion in the domain", "why_tests_cant": "identity in ten or twenty real variables", "anchors": ["src/XCFunctional.cpp:xcfun_eval"]}
{"id": "C21", "title": "What setup accepts, eval can evaluate", "statement": "Every configuration accepted by xcfun_eval_setup can be evaluated by xcfun_eval without aborting. (False of the code; the exact set of accepted configurations that abort is characterised.)", "quantifier": "all configurations", "why_tests_cant": "whole configuration space", "anchors": ["src/XCFunctional.cpp:xcfun_eval_setup", "src/XCFunctional.cpp:xcfun_eval", "src/densvars.hpp:densvars"]}
{"id": "C22", "title": "eval_vec is pointwise eval", "statement": "xcfun_eval_vec equals calling xcfun_eval once per point at the given pitches; when the result pitch is at least the output length no point's results overwrite another's, and entries between the slots are untouched; nr_points <= 0 does nothing.", "quantifier": "every number of points, pitches, buffers", "why_tests_cant": "unbounded number of points and buffer contents", "anchors": ["src/XCFunctional.cpp:xcfun_eval_vec"]}
{"id": "C23", "title": "Evaluation is pure; objects are independent", "statement": "xcfun_eval, xcfun_get and the query functions never change any object; operations on different objects commute, so every interleaving of per-object call sequences gives each object the state and results it would have alone.", "quantifier": "every interleaving of any number of call sequences on any number of objects", "why_tests_cant": "exponentially many schedules", "anchors": ["src/XCFunctional.cpp:xcfun_eval", "src/XCFunctional.cpp:xcfun_set", "src/XCFunctional.cpp:xcfun_new"]}
{"id": "C24", "title": "Results are linear in the weights and independent of call order", "statement": "In exact arithmetic the energy and every derivative are the weighted sum of those of the individual functionals; permuting a sequence of xcfun_set calls on functionals (and functional-only aliases) changes no result; setting a weight twice equals setting the sum once; a functional with total weight zero contributes nothing.", "quantifier": "every permutation of every sequence of set calls, every input", "why_tests_cant": "all permutations and histories", "anchors": ["src/XCFunctional.cpp:xcfun_eval", "src/XCFunctional.cpp:xcfun_set"]}
{"id": "C25", "title": "Truncated Taylor product is the multilinear product", "statement": "Multiplying two truncated expansions gives, for every subset S of the variables, sum over T subset of S of a_T*b_{S\\T}; the hand-unrolled versions for 0, 1 and 2 variables agree with the general recursion.", "quantifier": "every number of variables, all coefficients, every coefficient position", "why_tests_cant": "all N and all coefficients", "anchors": ["external/upstream/taylor/ctaylor.hpp:ctaylor_rec"]}
{"id": "C26", "title": "Expansions form a commutative ring", "statement": "Addition, negation, subtraction and multiplication of expansions satisfy the commutative ring laws, scalar multiplication is multiplication by a constant, and nonconstant parts are nilpotent: the (N+1)st power of an expansion with zero constant term vanishes.", "quantifier": "every number of variables, all expansions", "why_tests_cant": "all N and coefficients", "anchors": ["external/upstream/taylor/ctaylor.hpp"]}
{"id": "C27", "title": "In-place products are correct without aliasing", "statement": "The in-place product used by operator*= gives the same result as the out-of-place product whenever source and destination do not overlap, touches only the destination, and computes in the right order for every number of variables. (With x*=x it is wrong from three variables on; characterised.)", "quantifier": "every number of variables, all memory contents, all disjoint placements", "why_tests_cant": "all memory layouts", "anchors": ["external/upstream/taylor/ctaylor.hpp:ctaylor_rec::multo"]}
{"id": "C28", "title": "Composition with an analytic function", "statement": "compose(x, c) equals sum_i c_i (x-x_0)^i truncated to multilinear terms, for every number of variables, and the unrolled versions agree with the general Horner scheme; if c are the Taylor coefficients of f at x_0 the result is the expansion of f(x).", "quantifier": "every number of variables, all coefficients", "why_tests_cant": "all N", "anchors": ["external/upstream/taylor/ctaylor.hpp:ctaylor_rec::compose"]}
{"id": "C29", "title": "Elementary expansions are exact Taylor coefficients", "statement": "Each coefficient produced for 1/x, exp, expm1, log, pow, sqrt, cbrt, atan, exp(-x^2), erf, sin, cos, asinh equals f^(k)(x_0)/k! at every x_0 in the stated domain (all k for the recursive ones, k<=6 where a fixed-size composition is used). (asin and acos are wrong; characterised.)", "quantifier": "every expansion point in the domain, every order", "why_tests_cant": "continuum of points, all orders", "anchors": ["external/upstream/taylor/tmath.hpp"]}
{"id": "C30", "title": "Lower-order results do not depend on the requested order", "statement": "The output of order k is a prefix of the output of order k+1 for the same object and input (k=0,1,2), in exact arithmetic and without any domain assumption on the derivatives.", "quantifier": "every functional combination, every input", "why_tests_cant": "all inputs", "anchors": ["src/XCFunctional.cpp:xcfun_eval"]}
{"id": "C31", "title": "Regularisation touches only tiny densities", "statement": "Densities at or above the threshold 1e-14 are used exactly as given; below it the evaluation (energy and derivatives) is the one obtained at density 1e-14, with derivative seeds untouched; other inputs are never altered.", "quantifier": "every input vector, every order", "why_tests_cant": "continuum of inputs around the threshold", "anchors": ["src/densvars.hpp:regularize", "src/densvars.hpp:densvars"]}
{"id": "C32", "title": "Gradient components and gradient invariants agree", "statement": "Evaluating with explicit gradient components (A_B_AX..., with or without TAU, or A_B_2ND_TAYLOR) gives the same energy as evaluating with the invariants GAA, GAB, GBB computed from them; hence the energy is invariant under every rotation of the gradients.", "quantifier": "every functional combination, all inputs, every orthogonal matrix", "why_tests_cant": "continuum of inputs and rotations", "anchors": ["src/densvars.hpp:densvars"]}
{"id": "C33", "title": "Closed-shell variables agree with spin variables", "statement": "Evaluating with N (N_GNN, N_NX_NY_NZ, ... TAUN) gives the same energy as the spin-resolved variables with half of each quantity in each spin, for every total density of at least twice the threshold (below that they differ).", "quantifier": "every functional combination, all inputs", "why_tests_cant": "continuum of inputs", "anchors": ["src/densvars.hpp:densvars"]}
{"id": "C34", "title": "Charge/spin-density variables agree with alpha/beta variables", "statement": "Evaluating with N_S_NX_... (N,S components) gives the same energy as the alpha/beta variables a=(n+s)/2, b=(n-s)/2; users expect the same of N_S, N_S_GNN_GNS_GSS and N_S_..._TAUN_TAUS, for which it is false: these use a=n+s, b=n-s.", "quantifier": "every functional combination, all inputs", "why_tests_cant": "continuum of inputs", "anchors": ["src/densvars.hpp:densvars"]}
{"id": "C35", "title": "Fully polarised input is actually used", "statement": "Evaluating with XC_A or XC_A_GAA depends on the supplied density. (False: the result is independent of input[0].)", "quantifier": "all inputs", "why_tests_cant": "needs all inputs to establish independence", "anchors": ["src/densvars.hpp:densvars"]}
{"id": "C36", "title": "Spin-flip symmetry", "statement": "Every functional's energy is invariant under exchanging the alpha and beta quantities, so derivatives permute accordingly.", "quantifier": "each of the modelled functionals, all inputs", "why_tests_cant": "continuum of inputs; all functionals", "anchors": ["src/functionals/*.cpp"]}
{"id": "C37", "title": "Declared dependencies are sound", "statement": "The energy of a functional depends only on the quantities it declares (density, gradient, Laplacian, kinetic energy, current), so a configuration accepted by setup never evaluates a functional on missing data. (False for REVTPSSX, which uses the kinetic energy density but declares only density and gradient.)", "quantifier": "each functional, all inputs", "why_tests_cant": "independence from a variable is universally quantified", "anchors": ["src/functionals/*.cpp", "src/xcint.hpp"]}
{"id": "C38", "title": "Calls before setup are diagnosed", "statement": "On every object that was never successfully set up, xcfun_eval and xcfun_output_length abort with a message rather than reading uninitialised configuration; xcfun_input_length has no such guard and reads outside its table. After any successful setup xcfun_input_length is the length of the chosen variable set.", "quantifier": "every history of API calls", "why_tests_cant": "all histories", "anchors": ["src/XCFunctional.cpp:xcfun_eval", "src/XCFunctional.cpp:xcfun_output_length", "src/XCFunctional.cpp:xcfun_input_length"]}
{"id": "C39", "title": "Uniform coordinate scaling of exchange", "statement": "Exchange energies without range separation satisfy e_x[g^3 n_s, g^8 |grad n_s|^2, g^5 tau_s] = g^4 e_x[n_s, |grad n_s|^2, tau_s] for all g>0, range-separated exchange energies do so when the range-separation parameter is multiplied by g, and kinetic energy functionals scale with g^5. (False of the code for TW, KTX, REVTPSSX; at gradients or kinetic energy densities below fixed thresholds for the SCAN exchange functionals; by a relative amount of at most 1e-24/|grad n|^2 for BTK.)", "quantifier": "all g>0, all positive densities and gradients", "why_tests_cant": "continuum of scalings", "anchors": ["src/functionals/slaterx.cpp", "src/functionals/pbex.cpp", "src/functionals/beckex.cpp", "src/functionals/tfk.cpp"]}
{"id": "C40", "title": "Gradient functionals reduce to the LDA at zero gradient", "statement": "With zero gradients, the PBE family, B88, PW86, PW91 exchange energies equal the Slater exchange energy; gradient corrections (BECKECORRX, OPTXCORR, P86CORRC, KTX) vanish.", "quantifier": "all positive densities", "why_tests_cant": "continuum of densities", "anchors": ["src/functionals/pbex.cpp", "src/functionals/beckex.cpp", "src/functionals/slaterx.cpp"]}
{"id": "C41", "title": "Exchange energies are non-positive", "statement": "The Slater, PBE-like and Becke exchange energies are non-positive for all positive densities and non-negative gradient squares.", "quantifier": "all densities and gradients", "why_tests_cant": "continuum of inputs", "anchors": ["src/functionals/slaterx.cpp", "src/functionals/pbex.cpp", "src/functionals/beckex.cpp"]}
{"id": "C42", "title": "Parameters affect only the functionals that read them", "statement": "Changing EXX, CAM_ALPHA, CAM_BETA or RANGESEP_MU changes the result of xcfun_eval only if an active functional reads that parameter; EXX is read by none.", "quantifier": "every object and input, every parameter value", "why_tests_cant": "continuum of values", "anchors": ["src/functionals/*.cpp", "src/XCFunctional.cpp:xcfun_eval"]}
{"id": "C43", "title": "Object lifecycle", "statement": "xcfun_new returns an object in the documented initial state, independent of everything that happened before; xcfun_delete(NULL) is a no-op; deleting an object affects no other object; using or deleting a deleted object is undefined behaviour and is the only lifecycle error.", "quantifier": "every history of new/delete/set/setup/eval calls over any number of objects", "why_tests_cant": "all histories", "anchors": ["src/XCFunctional.cpp:xcfun_new", "src/XCFunctional.cpp:xcfun_delete"]}
{"id": "C44", "title": "Lazy initialisation is idempotent and confined", "statement": "The lazily filled tables have the same contents whenever any API call reads them, no matter which entry point is called first or how often; concurrent first calls are a data race.", "quantifier": "every sequence of API entry points; every two-thread interleaving of first calls", "why_tests_cant": "all schedules", "anchors": ["src/xcint.cpp:xcint_assure_setup"]}
{"id": "C45", "title": "Language bindings agree on the enumerations", "statement": "The numeric codes of variables and modes in the C header, the internal table, and the Fortran module coincide; the Python binding exports the C values under the same names (some are missing there).", "quantifier": "all enumerators", "why_tests_cant": "whole-table statement across files", "anchors": ["api/xcfun.h", "api/xcfun.f90", "python/export_xcfun.cpp", "src/xcint.cpp:xcint_vars"]}
{"id": "C46", "title": "Indeterminate values never influence results", "statement": "Internal work-array slots that xcfun_eval does not initialise never influence the outputs for functionals that read only what they declare. (The unrestricted GGA potential does read uninitialised slots 14, 17 and 19; the value read reaches only the Laplacian field.)", "quantifier": "every content of uninitialised memory, every input, every configuration", "why_tests_cant": "all memory contents", "anchors": ["src/XCFunctional.cpp:xcfun_eval", "src/densvars.hpp:densvars"]}
{"id": "C47", "title": "Python class returns the documented arrays", "statement": "Functional(dict) succeeds exactly when all names are known and equals setting the entries in order; type, eval_energy_n/ab and eval_potential_n/ab return per grid point the energies and potentials of the values given for that point in the documented layout, raise XCFunException exactly in the documented cases, and change nothing but the setup of the object. (Departures: eval_potential_n returns three columns instead of two, the third never written; xcfun_eval on a one-dimensional array returns unwritten rows; scalars and grids whose offsets exceed an int are undefined.)", "quantifier": "every reachable object, all array shapes and contents, every content of fresh memory", "why_tests_cant": "all shapes and all memory contents", "anchors": ["python/xcfun.py:Functional", "python/export_xcfun.cpp:xcfun_eval"]}
{"id": "C48", "title": "Fortran wrappers pass names, text and arrays faithfully", "statement": "xcfun_set and xcfun_get pass every NUL-free name unchanged (trailing blanks included, so padded names are rejected); xcfun_eval on two-dimensional arrays evaluates column by column and leaves further columns alone. (Departures: text_handler stores outside its buffer and reads a fixed number of characters; xcfun_describe_short/long do not terminate the name.)", "quantifier": "all strings, all array sizes and contents, every set-up object", "why_tests_cant": "all strings and shapes", "anchors": ["api/xcfun.f90:fstring_to_carray", "api/xcfun.f90:text_handler", "api/xcfun.f90:xcfun_eval_vec"]}
{"id": "C49", "title": "Derivatives are exact at all physical densities off listed surfaces", "statement": "At all spin densities above the threshold with gradient squares that are not negative, every supported functional other than BRX, BRC, BRXC (see C57) is strictly inside the domains of the elementary functions it uses, except on explicitly listed surfaces (branch points, zero gradients under a root, zero kinetic energy density, ties of the two energies in TPSS correlation, the pole of REVTPSSX, the domain of the fourth root in r2SCAN and r4SCAN correlation, poles of LDAERFC_JT, of which there are none when the range separation is not negative). Hence partial derivatives, contracted derivatives and potentials returned there are the exact derivatives of the energy.", "quantifier": "all densities, gradients and kinetic energy densities off the surfaces, all variable sets with both spins, all combinations of functionals, modes and orders", "why_tests_cant": "the surfaces have measure zero and the domain is unbounded; tests compare a few points", "anchors": ["src/functionals", "src/XCFunctional.cpp:xcfun_eval"]}
{"id": "C50", "title": "Correlation energies are negative", "statement": "VWN3C, VWN5C, PBEC, SPBEC, VWN_PBEC, PW92C, APBEC, ZVPBESOLC, PBEINTC, PBELOCC, ZVPBEINTC and PZ81C return negative energies at all physical densities, polarisations and gradients. (PZ81C with the variable sets N_S and N_S_GNN_GNS_GSS(_TAUN_TAUS) returns positive ones.)", "quantifier": "all densities above the threshold, all polarisations and gradients, all non-negative weights", "why_tests_cant": "unbounded real domain", "anchors": ["src/functionals/vwn5c.cpp", "src/functionals/pw92c.cpp", "src/functionals/pbec.cpp", "src/functionals/pz81c.cpp"]}
{"id": "C51", "title": "Meta-GGA exchange is bounded by the uniform gas", "statement": "TPSSX and BLOCX return between 1 and 1.804 times the exchange energy of the uniform gas, SCANX between 0 and 1.174 times it (for kinetic energy densities not below those of one orbital). (REVTPSSX violates the bound.)", "quantifier": "all positive densities and kinetic energy densities, all gradients", "why_tests_cant": "unbounded real domain", "anchors": ["src/functionals/tpssx_eps.hpp:F_x", "src/functionals/blocx.cpp", "src/functionals/SCAN_like_eps.hpp:SCAN_X_Fx", "src/functionals/revtpssx_eps.hpp:x"]}
{"id": "C52", "title": "The functionals are the published ones", "statement": "For 70 of the 78 functionals the energy returned for positive spin densities is the value of the formula published in the cited paper (written independently of the code, in terms of r_s, zeta, reduced gradients, exact spin scaling), with the range-separation and attenuation parameters set in the object; the entries returned at order up to 3, in contracted mode and in potential mode are its derivatives. TW, SPBEC, REVTPSSC, REVTPSSX and CSC evaluate a different formula, which is stated, and differ from the published one. BRX, BRC and BRXC are the subject of C58.", "quantifier": "all densities above the threshold, gradients and kinetic energy densities in the stated domain of each formula (branches of the code that switch to other formulas excluded), all combinations of functionals and weights, all variable sets with both spins except those of total and spin density without gradient components", "why_tests_cant": "a test compares a few points with reference values from another program, often the same transcription; a wrong digit of a coefficient multiplied by a small term passes within tolerance", "anchors": ["src/functionals", "src/functionals/constants.hpp", "src/XCFunctional.cpp:xcfun_eval"]}
{"id": "C53", "title": "Approximations stay near the published formulas", "statement": "The rational approximation in sqrtx_asinh_sqrtx is within 6e-15*min(x,1/2) of sqrt(x) asinh sqrt(x), and its derivative within 6e-15. BECKEX, BECKECORRX, PW91X and PW91K are within a relative 1e-16 of the published energies also where the approximation is used, BECKESRX and BECKECAMX within 8e-16 and 4e-16(1+|alpha|+|beta|) times full Becke exchange, LDAERFX with all of its branches within 5e-9 times Slater exchange; xcfun_eval of any combination is within the weighted sum of these tolerances.", "quantifier": "all positive densities, all non-negative gradient squares, all positive range separations", "why_tests_cant": "continuum of arguments on both sides of the switching points; the error is below double rounding, so a comparison in floating point cannot show it", "anchors": ["external/upstream/taylor/ctaylor_math.hpp:275-325", "src/functionals/beckex.cpp", "src/functionals/pw9xx.hpp:73-94", "src/functionals/ldaerfx.cpp:24-48"]}
{"id": "C54", "title": "Range-separated exchange interpolates", "statement": "Short-range Becke exchange lies between full Becke exchange and 0, decreases in magnitude with the range separation, tends to full exchange as it vanishes and to 0 as it grows. BECKECAMX is (1-alpha-beta) BECKEX + beta BECKESRX exactly, for every input of xcfun_eval. LDAERFX lies between Slater exchange and 0 in all its branches. The parameters these functionals read are those set by name through xcfun_set, in any capitalisation. (It is not monotone in the range separation: its magnitude jumps up where it changes formula at a = 100.)", "quantifier": "all positive densities, all non-negative gradient squares, all positive range separations", "why_tests_cant": "monotonicity and limits in a continuous parameter", "anchors": ["src/functionals/beckex.cpp:42-94", "src/functionals/ldaerfx.cpp:24-52"]}
{"id": "C55", "title": "What the self test checks", "statement": "xcfun_test always returns normally, leaves the caller's objects alone, and returns the number of functionals with reference data for which some value that a user obtains at the reference point deviates from its reference value by more than the threshold. Every functional with reference data accepts its own test settings. 45 of the 78 functionals have no reference data: the result does not depend on their code. In real arithmetic the result is 0 exactly if all values are within the thresholds.", "quantifier": "all call histories before the test, all contents of uninitialised memory, all kernels that read only what they declare", "why_tests_cant": "the claim is about the test itself: what a pass implies and which faults it cannot see", "anchors": ["src/XCFunctional.cpp:74-124", "src/xcint.hpp:46-68", "src/functionals/*.cpp"]}
{"id": "C56", "title": "The Becke-Roussel solver finds the root", "statement": "The equation of the exchange hole has exactly one positive solution for every real right hand side. For every right hand side the loop of BR performs Newton steps for this equation, ends by its stopping criterion in at most nine of its twenty rounds (so that 'Not converged' is not printed), and returns the solution with relative error at most 1e-14.", "quantifier": "all real right hand sides", "why_tests_cant": "convergence from four different starting formulas over an unbounded range of arguments", "anchors": ["src/functionals/brx.cpp:20-48"]}
{"id": "C57", "title": "Derivatives of the Becke-Roussel functionals", "statement": "The series of BR_taylor are the Taylor coefficients, to sixth order, of the exact solution at the right hand side that the returned number solves exactly. At all densities above the threshold with gradient squares that are not negative, everything that an object with BRX, BRC or BRXC returns in partial derivative mode (order at most 3) and contracted mode (order at most 6) are the value and partial derivatives of one smooth function: the energy with the exact solution in place of the solver, its argument shifted by the residual at the evaluation point.", "quantifier": "all such densities, all orders, all weights and combinations with other functionals off their surfaces", "why_tests_cant": "implicit differentiation through an iterative solver; a finite-difference test has only a few digits", "anchors": ["src/functionals/brx.cpp:50-89", "src/functionals/brx.cpp:90-135", "src/XCFunctional.cpp:484-685"]}
{"id": "C58", "title": "The Becke-Roussel functionals are the published ones", "statement": "BRX, BRC and BRXC return the energies published by Becke and Roussel (exchange, 1989, with the current density of 1996) and Becke (correlation, 1988), each contribution with relative error at most exp(1e-13(1+X))-1 where X bounds the solutions of the two hole equations.", "quantifier": "all densities above the threshold, all gradients, Laplacians, kinetic energy and current densities", "why_tests_cant": "continuum of inputs; these functionals have no reference data in the self test", "anchors": ["src/functionals/brx.cpp:90-135"]}
{"id": "C59", "title": "Rounding errors of the expansion arithmetic", "statement": "When every addition, subtraction and multiplication has relative error at most u, each coefficient of a product of two expansions in n variables (operator* and operator*=) differs from the exact one by at most ((1+u)^(3+2^(n-2))-1) times the coefficient of the product of the absolute values; a composition with a power series differs by at most ((1+u)^(n(4+2^(n-2)))-1) times the corresponding absolute composition.", "quantifier": "all numbers of variables, all coefficients, all arithmetics with bounded relative error (in particular p-bit binary rounding to nearest without exponent limits)", "why_tests_cant": "a test sees one sequence of roundings; the bound is over all of them and all numbers of variables", "anchors": ["external/upstream/taylor/ctaylor.hpp:60-330"]}
{"id": "C60", "title": "Rounding errors of the sum over functionals", "statement": "If each active functional returns its expansion coefficients within eps_i of the exact ones and of magnitude at most B_i, every number xcfun_eval returns in the partial-derivative mode (order up to 3) and the contracted mode (order up to 6) is within an explicit sum over the active functionals of weight times eps_i plus roundings of the exact result.", "quantifier": "all active lists, weights, inputs and rounding arithmetics", "why_tests_cant": "quantifies over all roundings, weights and mixtures", "anchors": ["src/XCFunctional.cpp:xcfun_eval"]}
{"id": "C61", "title": "Spin scaling of exchange and kinetic energies", "statement": "Every exchange functional and the kinetic energy functionals PW91K, BTK, VWK obey E[a,b] = (E[a,a] + E[b,b])/2, exactly and with all derivatives; hence all returned derivatives with respect to inputs of both spins, or to the overlap of the spin gradients, are zero. (False for TFK and TW, with witnesses.)", "quantifier": "all inputs, weights, parameters, combinations of these functionals, spin-resolved variable sets, orders", "why_tests_cant": "an identity between three evaluations at arbitrary points; reference data cover one point each and most of these functionals have none", "anchors": ["src/functionals/*x.cpp", "src/functionals/tfk.cpp", "src/functionals/tw.cpp"]}
{"id": "C62", "title": "The self test passes", "statement": "In exact real arithmetic xcfun_test returns 0 from every reachable state of the process: for each of the 33 functionals with reference data, the energy and all first and second derivatives returned at the reference point differ from the stored reference values by at most the stored threshold times the value (exactly zero where zero is stored).", "quantifier": "all earlier call sequences, object addresses, contents of uninitialised memory; all 33 functionals and all their reference values", "why_tests_cant": "running the self test shows what one compiled program does in floating point; that the formulas in the source, without rounding, have these values is a statement about real numbers involving exp, log, erf, atan and fractional powers", "anchors": ["src/XCFunctional.cpp:xcfun_test", "src/functionals/*.cpp (test_in, test_out, test_threshold)"]}
{"id": "C63", "title": "The C++ example reports no error", "statement": "In exact real arithmetic the main program of the C++ example prints no complaint: all setups are accepted and the contracted derivatives of PBE of orders 0 to 3 agree with the reference numbers in the program to 1e-6; the functional object is freed.", "quantifier": "all object addresses, contents of uninitialised memory, and earlier library calls of the process", "why_tests_cant": "a run shows rounded results for one memory state; the theorem covers all memory contents and states that the formulas themselves have these values", "anchors": ["examples/CXX_host/example.cpp:main"]}
{"id": "C64", "title": "The test program passes", "statement": "In exact real arithmetic the test program returns 0: spin symmetry, chain rule between gradient components and their scalar products, xcfun_user_eval_setup, weights of B3LYP, enumeration of names, and the self test all succeed; no call aborts or is undefined; every object is freed.", "quantifier": "all placements of objects, contents of uninitialised memory, loop bounds that exceed the number of names", "why_tests_cant": "the program itself is the test; that it passes for every memory content and without any undefined access is not observable by running it", "anchors": ["tests/testall.cpp:main"]}
{"id": "C65", "title": "The Fortran example passes its assertions", "statement": "In exact real arithmetic every assertion of the Fortran example holds: setups through padded Fortran strings, the contracted derivatives of PBE, and the potentials of PBE exchange at five points computed with one call of xcfun_eval_vec, which deviate from the reference values by less than 1e-8 in the sum of squares; all objects are freed.", "quantifier": "all object addresses and contents of uninitialised memory", "why_tests_cant": "a run shows rounded results for one memory state and one compiler; the theorem covers all memory contents and ties the reference potentials to the formulas", "anchors": ["examples/Fortran_host/example.f90"]}
{"id": "C66", "title": "funeval labels every derivative with its exponents", "statement": "The program funeval prints beside each number of the output the exponents of the derivative it is: started from all zeros, next_exponents visits the exponents in exactly the order in which xcfun_eval writes the derivatives, for any number of variables and any order; it never reads or writes outside its array.", "quantifier": "all numbers of variables, all orders, all functionals and variable types with partial derivatives up to the third", "why_tests_cant": "a run shows finitely many tables for a user to compare by eye; the order of the recursion has to agree with the nested loops of xcfun_eval for every number of variables", "anchors": ["examples/C_host/funeval.c:next_exponents", "examples/C_host/funeval.c:main", "src/XCFunctional.cpp:xcfun_eval"]}
{"id": "C67", "title": "The Python tests pass in exact arithmetic", "statement": "In exact real arithmetic every test of tests/test_xcfun.py except test_splash passes, including the one shadowed by a second definition of the same name: every call succeeds or raises the exception the test expects, and energies and potentials of LDA and PBE at the ten points agree with the reference values within the relative tolerance 1e-7. Where the unrestricted GGA potential reads uninitialised storage, the test passes for every content of it and is undefined behaviour if such reads are.", "quantifier": "all contents of freshly allocated arrays and of uninitialised storage", "why_tests_cant": "a run shows rounded results for one memory state; the theorem ties the reference values to the formulas within the tolerance and covers all memory contents", "anchors": ["tests/test_xcfun.py", "python/xcfun.py:Functional", "python/export_xcfun.cpp:xcfun_eval"]}
{"id": "C68", "title": "Products and compositions of polymul.hpp are exact", "statement": "For every number of variables and every degree, over any commutative semiring: polymul writes the coefficients of the product of two polynomials, taylormul (out of place and in place, the latter also for a second factor of different degree) those of the product truncated at the degree of the destination, taylorcompose and taylorcompose0 (inner polynomial without constant term) those of sum c_j P^j truncated; sizes are binomial coefficients, nothing outside the arrays is read or written. The variants that add to their destination (polynomial_multiplier::mul, taylor_multiplier::mul) add these products to what it holds. Multiplying a polynomial in place by itself (t *= t) is wrong. mul_monomial_set, which nothing calls, leaves out the highest coefficient for one variable and aborts for more.", "quantifier": "all numbers of variables, degrees, coefficient arrays, previous contents of the destination", "why_tests_cant": "the code is a family of templates over variables and degrees with recursion on both; a run instantiates a few of them", "anchors": ["external/upstream/taylor/polymul.hpp:polynomial_multiplier", "external/upstream/taylor/polymul.hpp:taylor_multiplier", "external/upstream/taylor/polymul.hpp:taylor_inplace_multiplier", "external/upstream/taylor/polymul.hpp:composer", "external/upstream/taylor/polymul.hpp:taylorcompose"]}
{"id": "C69", "title": "Evaluation, derivatives, factorials and contraction of polymul.hpp are exact", "statement": "For every number of variables and every degree, over any commutative semiring: polynomial::eval returns the value of the polynomial, polyterms the values of all power products, polynomial::diff the coefficients of the partial derivative by any variable, polydfac the partial derivatives at 0 belonging to the coefficients, polymul_term adds a multiple of the polynomial by one term, and polycontract is the adjoint of multiplication.", "quantifier": "all numbers of variables, degrees, coefficient arrays, points, variables of differentiation", "why_tests_cant": "template recursion over variables and degrees; index arithmetic differs for every pair", "anchors": ["external/upstream/taylor/polymul.hpp:polynomial_evaluator", "external/upstream/taylor/polymul.hpp:differentiator", "external/upstream/taylor/polymul.hpp:deriv_fac_multiplier", "external/upstream/taylor/polymul.hpp:term_multiplier", "external/upstream/taylor/polymul.hpp:polycontract"]}
{"id": "C70", "title": "Terms, indices and tensors of polymul.hpp correspond", "statement": "For every number of variables and every degree: polynomial::exponents returns the exponents of every term and rejects other numbers, polynomial::term_index is its inverse as long as the binomial coefficients fit an int, from_tensor and to_tensor exchange the coefficient of each term with the array entry at its exponents, and a tensor large enough loses nothing. For one variable both conversions are wrong.", "quantifier": "all numbers of variables, degrees, terms, tensor dimensions and contents", "why_tests_cant": "index arithmetic over all pairs of variables and degrees; the one-variable case is not in the tests", "anchors": ["external/upstream/taylor/polymul.hpp:exponents", "external/upstream/taylor/polymul.hpp:term_index", "external/upstream/taylor/polymul.hpp:next_exponents", "external/upstream/taylor/polymul.hpp:from_tensor", "external/upstream/taylor/polymul.hpp:to_tensor"]}
{"id": "C71", "title": "taylor.hpp and taylor_math.hpp: arithmetic and functions of expansions are exact to their degree", "statement": "For every number of variables, every degree and all coefficients, whatever uninitialised memory holds: sums, differences, products, scaling, stretching, composition, integration and shifts of taylor objects are those of the polynomials (truncated at the degree where they must be); pick_order gives the terms of one degree and comparisons with numbers look at the constant term; exp, expm1, log, sqrt, cbrt, pow, atan, asinh, sin, cos, erf, sinc, sqrtx_asinh_sqrtx give the coefficients whose derivatives along every line are those of the function of the expansion (for sinc below 1e-3 of its polynomial of degree N+8, for sqrtx_asinh_sqrtx below 0.5 of the tabulated quotient); division, taylor_reciprocal and negative powers give the quotient; arguments outside the domain stop the program.", "quantifier": "all numbers of variables, degrees, coefficient arrays, uninitialised contents, exponents, shifts", "why_tests_cant": "the results are families over variables and degrees; a run checks single points and single instances, and cannot see dependence on uninitialised memory reliably", "anchors": ["external/upstream/taylor/taylor.hpp:taylor", "external/upstream/taylor/taylor.hpp:compose", "external/upstream/taylor/taylor.hpp:stretch", "external/upstream/taylor/taylor.hpp:shift", "external/upstream/taylor/taylor_math.hpp:taylor_reciprocal", "external/upstream/taylor/taylor_math.hpp:erf_taylor", "external/upstream/taylor/taylor_math.hpp:sinc", "external/upstream/taylor/taylor_math.hpp:pow"]}
{"id": "C72", "title": "The Becke-Roussel series is that of the inverse function, to every order", "statement": "BR_taylor<T, Ndeg>, run on arrays with the operations of taylor.hpp, returns for every degree and every z the Taylor coefficients of the inverse of (x-2)/x exp(2x/3) at the right hand side that the value found by the solver satisfies exactly; for the degrees that occur this is the series used in the functionals.", "quantifier": "all degrees from 1 on, all z, all uninitialised contents", "why_tests_cant": "degree and z range over infinite sets; a run at one point cannot separate the series from a neighbouring one", "anchors": ["src/functionals/brx.cpp:BR_taylor", "src/functionals/brx.cpp:BR_z"]}
{"id": "C73", "title": "funeval prints energies and derivatives with the right labels, for every command line and input", "statement": "For a command line whose functionals are satisfied by the chosen variables, with order at most 3 and at least one repetition, funeval prints for every complete point of its input, in order, the energy and the derivatives with the exponents that belong to them (numbers only with --quiet), and stops at the first incomplete point with status 1, without deleting the functional. Settings act in the order of the command line, of the options the last one counts. When it returns, the status is 0 exactly without arguments. Insufficient variables or a wrong order are reported with the error code of the setup, broken command lines with a message; order 4 aborts at the first point, --rep 0 prints uninitialised memory, unknown names have no effect.", "quantifier": "all command lines, conversions of text to numbers, inputs of any length, contents of allocated memory", "why_tests_cant": "command lines and inputs are unbounded; the values of uninitialised memory are not controlled by a test", "anchors": ["examples/C_host/funeval.c:main", "examples/C_host/funeval.c:next_exponents"]}
{"id": "C74", "title": "The C example prints 0.9 BLYP + 0.1 PBEC and its gradient", "statement": "examples/C_host/example.c returns 0 after printing the published energy 0.9 BLYP + 0.1 PBEC at its point and the eight first partial derivatives in the order of the variables, and has then given back the functional; if there is no memory for the output it writes through a null pointer.", "quantifier": "all contents of uninitialised memory, all addresses", "why_tests_cant": "a run compares rounded numbers with stored ones, not with derivatives of the published energy, and sees one memory content", "anchors": ["examples/C_host/example.c:main"]}
{"id": "C75", "title": "PBE-type correlation obeys the conditions it was constructed from", "statement": "PBEC, VWN_PBEC, APBEC, PBEINTC and PBELOCC equal the correlation energy of the uniform gas without a gradient, start from it with the slope n beta phi(zeta)^3 t^2 in the squared gradient, grow strictly with the gradient at fixed spin densities, and tend to zero as it grows beyond all bounds; so they lie between the uniform gas and zero. ZVPBESOLC and ZVPBEINTC lie between the same bounds, but tend to zero only for unpolarised densities and to the uniform gas otherwise. SPBEC is monotone too, but with its exchanged constants a fraction 1 - 0.066725^2/0.031091 of the uniform-gas energy remains for rapidly varying densities. xcfun_eval inherits these for all combinations.", "quantifier": "all spin densities above the threshold, all gradients, all sequences of gradients that grow beyond all bounds, all weights (non-negative ones for monotonicity)", "why_tests_cant": "limits and monotonicity concern infinitely many gradients at every pair of densities; a test evaluates a few", "anchors": ["src/functionals/pbec.cpp:pbec, vwn_pbec", "src/functionals/apbec.cpp", "src/functionals/pbeintc.cpp", "src/functionals/pbelocc.cpp", "src/functionals/zvpbesolc.cpp", "src/functionals/zvpbeint.cpp", "src/functionals/spbec.cpp"]}
{"id": "C76", "title": "The mathematical functions for Visual C++ are accurate where they are", "statement": "Of the functions of micromath.hpp, which replace those of the C library on Visual C++, asinh inverts sinh; cbrt is the cube root of numbers that are not negative and not a number otherwise; the loops of erf and erfc end; erf has a relative error of at most 1e-12 for x >= 0 and x < -2.2; erfc has a relative error of at most 1.001e-12 for x >= 2.2 and an error of at most 1e-12 for 0 <= x < 2.2 and x <= -2.2. For -2.2 <= x < 0 the loop of erf stops at once, because a negative quotient is never larger than the tolerance: the result is the sum of three terms of the series, too small by at least |x|^7/1000 (less than -4 at x = -2.2), and that of erfc is too large by as much.", "quantifier": "all real x (exact arithmetic), all bounds of at least 130 on the number of rounds", "why_tests_cant": "termination and accuracy at every real number; the project's own tests use no negative arguments", "anchors": ["external/upstream/taylor/micromath.hpp:cbrt, asinh, erf, erfc"]}
{"id": "C77", "title": "Changes of variables and the second evaluation of multivariate polynomials", "statement": "polytrans gives, for any numbers of old and new variables, any degree and any matrix T, the coefficients of the polynomial in which every old variable x_i is replaced by the sum over j of T_ji y_j; it does not depend on what the destination and the uninitialised local array held, and it touches nothing beyond the destination's terms. new_evaluator gives the value of a polynomial of degree 2 or more if the operands of its sums are evaluated from left to right; C++ does not fix this order, and from right to left the result is wrong.", "quantifier": "all numbers of variables, degrees, coefficients in a commutative semiring, matrices, initial contents and array lengths that suffice", "why_tests_cant": "the code is recursive class templates, of which tests instantiate a few; the dependence on the order of evaluation does not show with one compiler", "anchors": ["external/upstream/taylor/polymul.hpp:834-906", "external/upstream/taylor/polymul.hpp:908-1062", "external/upstream/taylor/polymul.hpp:1421-1432"]}
{"id": "C78", "title": "Range-separated correlation interpolates between full correlation and none", "statement": "LDAERFC and LDAERFC_JT are PW92C and VWN5C for range separation 0 and tend to zero as it grows, as a constant given by the pair density at contact divided by its square; LDAERFC leaves PW92C quadratically with the coefficient of the random phase approximation. LDAERFC_JT is negative for every range separation; for r_s up to 4.46 it increases with it and stays between VWN5C and zero, beyond that r_s it falls below VWN5C for some range separation. The functionals named as readers of a parameter do depend on it.", "quantifier": "all positive spin densities, all range separations; at the level of xcfun_eval all variable sets, inputs above the threshold and weights", "why_tests_cant": "limits for small and large parameters, continuum of densities and parameters", "anchors": ["src/functionals/ldaerfc.cpp:23-110", "src/functionals/ldaerfc_jt.cpp:24-53"]}
{"id": "C79", "title": "Rounding errors of complete exchange and kinetic energy functionals", "statement": "Evaluated operation by operation in an arithmetic with relative error at most w in every operation, constant, power and function, the energies of SLATERX, PW86X, PBEX, REVPBEX, RPBEX, APBEX, PBEINTX, PBESOLX, OPTX, OPTXCORR, KTX, TFK, BTK and VWK differ from the exact ones by at most (1-w)^(-K) - 1 of them, K a number given per functional (10 to 4700); with w up to 2^-50 by at most 5e-12 of them. For weighted sums xcfun_eval at order 0 is off by at most (1-w)^(-(K+n+1)) - 1 times the sum of the absolute terms.", "quantifier": "all spin densities between 1.01e-14 and 1e21, all squared gradients up to 1e21 (variable set A_B_GAA_GAB_GBB), all weights, any arithmetic without overflow and underflow", "why_tests_cant": "continuum of inputs; a test compares with reference values of limited accuracy at single points", "anchors": ["src/functionals/pbex.hpp:22-52", "src/functionals/pw9xx.hpp:43-63", "src/functionals/pw86x.cpp:17-32", "src/functionals/optx.cpp:18-26", "src/XCFunctional.cpp:503-512"]}
{"id": "C80", "title": "One orbital per spin and hydrogen-like densities", "statement": "If each spin has the density of a 1s electron, the Becke-Roussel hole is that of the orbital: BRX is the exact exchange energy density, minus one half of the density times the electrostatic potential of the electron, up to the error of the hole solver, and BRC has no correlation of equal spins. BECKEX per electron approaches -1/(2r) in the tail of such densities. For one real orbital of any spherical shape per spin VWK is the kinetic energy density and the correlation of M05, M05-2X, M06, M06-HF, M06-L and M06-2X is that of opposite spins alone.", "quantifier": "all exponents, distances from the nucleus, weights; all inputs of that form above the threshold", "why_tests_cant": "exactness along continuous families and a limit", "anchors": ["src/functionals/brx.cpp:20-140", "src/functionals/beckex.cpp:17-25", "src/functionals/vonw.cpp:17-23", "src/functionals/m0xy_fun.hpp:140-150"]}
{"id": "C81", "title": "Gradient expansion of closed shells", "statement": "At zero gradient the derivative of the energy of a closed shell with respect to the squared gradient is -(3 mu/(16 pi))/(k_F n) for the exchange functionals PW86X, PBEX, REVPBEX, RPBEX, APBEX, PBEINTX and PBESOLX and (pi beta/16)/(k_F n) for PBEC, VWN_PBEC, APBEC, PBEINTC, PBELOCC, ZVPBESOLC and ZVPBEINTC, with the published mu and beta. In APBE exchange and correlation cancel to 1e-11 of the correlation term; in PBE they cancel to 7e-6 only, because PBEX and PBEC take different digits of beta.", "quantifier": "all densities above the threshold, all weighted sums of the functionals, all variable sets with gradients", "why_tests_cant": "a derivative at the edge of the domain for a continuum of densities", "anchors": ["src/functionals/pbex.hpp:22-52", "src/functionals/pbec_eps.hpp:20-60", "src/functionals/apbec.cpp:17-30", "src/functionals/apbex.cpp:17-30", "src/functionals/pbelocc.cpp:17-35"]}
{"id": "C82", "title": "plot-functional.py draws M06-L at given s and z", "statement": "For each density the script tests/plot-functional.py obtains from funeval the M06-L exchange-correlation energy of the closed shell with that density, reduced gradient |grad n|/(2 k_F n) = s and tau_W/tau = z; it draws three diagrams of four curves with one hundred points each; where z = 1 the same-spin correlation is zero.", "quantifier": "all lists of densities above twice the threshold, all s != 0, all z > 0", "why_tests_cant": "a continuum of densities, gradients and indicators through a chain of two programs and the library", "anchors": ["tests/plot-functional.py:19-60", "examples/C_host/funeval.c:53-169", "src/functionals/aliases.cpp:51"]}
{"id": "C83", "title": "Correlation energy of a single electron", "statement": "For densities of one orbital (tau = tau_W) the five SCAN correlation functionals have the same energy, between -0.69 b and 0 with b the density of the minority spin; LYPC is bounded by b (0.44 + 0.013 gaa/n^(8/3)) when the minority density has no gradient; TPSSC, REVTPSSC and TPSSLOCC tend to zero when the gas becomes that of a single electron; PW92C, PBEC, APBEC, PBEINTC and PBELOCC tend to a negative value instead.", "quantifier": "all densities and gradients; all families of gases that become one electron", "why_tests_cant": "limits, and bounds over a continuum of inputs", "anchors": ["src/functionals/SCAN_like_eps.hpp", "src/functionals/lypc.cpp:28-51", "src/functionals/revtpssc_eps.hpp", "src/functionals/tpssc_eps.hpp", "src/functionals/pbec_eps.hpp", "src/functionals/pw92eps.hpp"]}
{"id": "C84", "title": "Output in graded reverse lexicographic order", "statement": "In partial-derivative mode the output contains every derivative up to the order once, in increasing graded reverse lexicographic order with the last input as the greatest variable; with the first input as the greatest variable, as on the page the documentation links to, the order is a different one for two or more inputs (also if taken as decreasing within a degree, for three or more).", "quantifier": "all functionals, variable types and smooth points up to order 3; the order of the list for all numbers of variables and all degrees", "why_tests_cant": "all positions for all numbers of inputs", "anchors": ["docs/using.rst:227-232", "src/XCFunctional.cpp:500-612", "examples/C_host/funeval.c:25-51"]}
{"id": "C85", "title": "Energies per electron and potentials of the local functionals", "statement": "For a density without spin above the threshold, any non-negative combination of Slater exchange and VWN3, VWN5, PW92 and PZ81 correlation (PZ81 off its kink at r_s = 1) returns a potential below its energy per electron, which is negative; the energy per electron falls as the density grows, except in PZ81, whose two pieces do not meet at r_s = 1.", "quantifier": "all densities above the threshold, all combinations with non-negative weights", "why_tests_cant": "all densities and pairs of densities", "anchors": ["src/functionals/slater.hpp:19-21", "src/functionals/vwn.hpp:36-90", "src/functionals/pw92eps.hpp:20-61", "src/functionals/pz81c.hpp:20-47"]}
{"id": "C86", "title": "Version number, version text, compatibility check", "statement": "xcfun_version tells any two versions apart; the version number tells major versions apart but not minor and patch versions, which share its lower half; xcfun_is_compatible_library is true for every library and does not depend on the header.", "quantifier": "all versions whose parts fit their fields", "why_tests_cant": "all versions; one build has one version", "anchors": ["src/version_info.hpp:18-22", "src/XCFunctional.cpp:36-51", "src/XCFunctional.cpp:126-129", "api/xcfun.h:152-159"]}
{"id": "C87", "title": "The documented names are accepted", "statement": "Every name in the table of functionals of the documentation is accepted by xcfun_set and xcfun_get on every reachable object, with the semantics of functionals and parameters; the table lists half of what is implemented.", "quantifier": "all documented names, all call histories, all values", "why_tests_cant": "all histories", "anchors": ["docs/functionals.rst:6-56", "src/XCFunctional.cpp:369-418", "src/functionals/list_of_functionals.hpp:17-104"]}
{"id": "C88", "title": "Rounding errors of local correlation energies", "statement": "The correlation energy of VWN3C, VWN5C and PW92C computed with rounding, operation by operation, differs from the exact one by at most 1500 rounding steps of a multiple of the density (for PW92C also of the density times r_s), for spin densities between 1.01e-14 and 1e21 whose ratio is at most 99; in double this is below 1e-10 hartree per electron for VWN. For strongly polarised densities the computed 1 - zeta is exactly zero, outside the domain of pow_expand.", "quantifier": "all arithmetics with the standard error model, all densities in range, all settings", "why_tests_cant": "all densities and all arithmetics", "anchors": ["src/functionals/vwn.hpp:21-90", "src/functionals/pw92eps.hpp:20-61", "src/densvars.hpp:213-214", "src/specmath.hpp:35-37", "external/upstream/taylor/tmath.hpp:154-161"]}
{"id": "C89", "title": "Rounding errors of derivatives", "statement": "Every coefficient of SLATERX and TFK computed with rounding on expansions in up to six variables, operation by operation, is within 620 rounding steps of the exact one, relative to the sum of the sizes of the terms in it. For the partial derivatives up to third order these terms have the same sign, so that the error is relative to the derivative itself; and what xcfun_eval writes in partial-derivative mode at orders 0 to 3 has entry by entry a relative error below 1e-12 in double; in contracted mode, orders 0 to 6, the error is relative to the sum of the sizes of the terms. Polynomials in expansions (sums, differences, products, constant operands) in any number of variables obey the same bound with a number of steps counted from the expression. Quotients of expansions are covered too: every coefficient of VWK is within 179 steps and of KTX within 4482 steps in the same sense, and the partial derivatives of VWK up to third order with respect to the densities and the gradient products have a relative error of 179 steps, whatever the gradients; what xcfun_eval writes for VWK at orders 0 to 3 has entry by entry a relative error of 181 steps when the gradient products gaa and gbb are not negative. In contracted mode, orders 0 to 6, the error of VWK and KTX is 181 and 4484 steps relative to the sum of the sizes of the terms. A polynomial over a constant takes three steps more than the polynomial, a constant over an expansion 135 steps.", "quantifier": "all arithmetics with the standard error model, all spin densities between 1.01e-14 and 1e21, all increments, all weights", "why_tests_cant": "all densities and all arithmetics", "anchors": ["external/upstream/taylor/tmath.hpp:154-161", "external/upstream/taylor/ctaylor.hpp:42-151", "external/upstream/taylor/ctaylor_math.hpp:119-131", "src/functionals/slater.hpp:19-21", "src/functionals/tfk.cpp:20-24", "external/upstream/taylor/tmath.hpp:124-129", "external/upstream/taylor/ctaylor_math.hpp:6-61", "src/functionals/vonw.cpp:17-23", "src/functionals/ktx.cpp:18-24"]}
