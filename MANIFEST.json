{
 "claims": [
  {
   "property": "C01",
   "status": "proved",
   "theorems": [
    "XCFun.Props.C01_weights_accumulate",
    "XCFun.Props.C01_applicable"
   ],
   "note": "any scalar type, no arithmetic laws assumed"
  },
  {
   "property": "C02",
   "status": "proved",
   "theorems": [
    "XCFun.Props.C02_last_write_wins"
   ],
   "note": ""
  },
  {
   "property": "C03",
   "status": "proved",
   "theorems": [
    "XCFun.Props.C03_set_total",
    "XCFun.Props.C03_set_terminates",
    "XCFun.Props.C03_get"
   ],
   "note": ""
  },
  {
   "property": "C04",
   "status": "proved",
   "theorems": [
    "XCFun.Props.C04_alias_is_its_terms",
    "XCFun.Props.C04_shadowed_aliases"
   ],
   "note": ""
  },
  {
   "property": "C05",
   "status": "proved",
   "theorems": [
    "XCFun.Props.C05_case_insensitive"
   ],
   "note": ""
  },
  {
   "property": "C06",
   "status": "proved",
   "theorems": [
    "XCFun.Props.C06_enumerate",
    "XCFun.Props.C06_enumerate_injective",
    "XCFun.Props.C06_enumerated_iff_accepted",
    "XCFun.Props.C06_aliases"
   ],
   "note": "negative arguments are undefined behaviour, as the statement says"
  },
  {
   "property": "C07",
   "status": "proved",
   "theorems": [
    "XCFun.Props.C07_active_list",
    "XCFun.Props.C03_set_total"
   ],
   "note": ""
  },
  {
   "property": "C08",
   "status": "proved",
   "theorems": [
    "XCFun.Props.C08_classification",
    "XCFun.Props.C08_monotone",
    "XCFun.Props.C08_order_independent"
   ],
   "note": ""
  },
  {
   "property": "C09",
   "status": "proved",
   "theorems": [
    "XCFun.Props.C09_decision_table",
    "XCFun.Props.C09_invalid_vars",
    "XCFun.Props.C09_emode_alone_never"
   ],
   "note": ""
  },
  {
   "property": "C10",
   "status": "proved",
   "theorems": [
    "XCFun.Props.C10_sufficiency",
    "XCFun.Props.C10_full_claim_false"
   ],
   "note": "the stronger claim (sufficiency survives later sets) is false of the code; the negation is proved with a witness"
  },
  {
   "property": "C11",
   "status": "proved",
   "theorems": [
    "XCFun.Props.C11_faithful",
    "XCFun.Props.C11_total",
    "XCFun.Props.C11_injective",
    "XCFun.Props.C11_surjective"
   ],
   "note": ""
  },
  {
   "property": "C12",
   "status": "proved",
   "theorems": [
    "XCFun.Props.C12_user_eval_setup"
   ],
   "note": ""
  },
  {
   "property": "C13",
   "status": "proved",
   "theorems": [
    "XCFun.Props.C13_taylorlen",
    "XCFun.Props.C13_output_length"
   ],
   "note": ""
  },
  {
   "property": "C38",
   "status": "proved",
   "theorems": [
    "XCFun.Props.C38_lengths_before_setup",
    "XCFun.Props.C38_input_length_after_setup",
    "XCFun.Props.C38_eval_before_setup"
   ],
   "note": ""
  },
  {
   "property": "C25",
   "status": "proved",
   "theorems": [
    "XCFun.Props.C25_product",
    "XCFun.Props.C25_product_accumulate",
    "XCFun.Props.C25_product_value",
    "XCFun.Props.C25_eval"
   ],
   "note": ""
  },
  {
   "property": "C26",
   "status": "proved",
   "theorems": [
    "XCFun.Props.C26_ring_laws",
    "XCFun.Props.C26_scalar_operands",
    "XCFun.Props.C26_coefficientwise",
    "XCFun.Props.C26_nilpotent",
    "XCFun.Props.C26_nilpotent_sharp",
    "XCFun.Props.C26_scalar_division",
    "XCFun.Props.C26_division"
   ],
   "note": ""
  },
  {
   "property": "C27",
   "status": "proved",
   "theorems": [
    "XCFun.Props.C27_in_place",
    "XCFun.Props.C27_self_up_to_two",
    "XCFun.Props.C27_self_wrong_value",
    "XCFun.Props.C27_self_wrong"
   ],
   "note": "t *= t is wrong from three variables on; witness proved"
  },
  {
   "property": "C28",
   "status": "proved",
   "theorems": [
    "XCFun.Props.C28_compose",
    "XCFun.Props.C28_no_truncation_error",
    "XCFun.Props.C28_compose_mul",
    "XCFun.Props.C28_function"
   ],
   "note": ""
  },
  {
   "property": "C29",
   "status": "proved",
   "theorems": [
    "XCFun.Props.C29_inv",
    "XCFun.Props.C29_exp",
    "XCFun.Props.C29_expm1",
    "XCFun.Props.C29_log",
    "XCFun.Props.C29_pow",
    "XCFun.Props.C29_sqrt",
    "XCFun.Props.C29_cbrt",
    "XCFun.Props.C29_atan",
    "XCFun.Props.C29_gauss",
    "XCFun.Props.C29_erf",
    "XCFun.Props.C29_sin",
    "XCFun.Props.C29_cos",
    "XCFun.Props.C29_asinh",
    "XCFun.Props.C29_pade",
    "XCFun.Props.C29_shift",
    "XCFun.Props.C29_asin_wrong",
    "XCFun.Props.C29_acos_wrong",
    "XCFun.Props.C29_acos_slope_wrong"
   ],
   "note": "asin and acos are characterised as wrong, as the statement says; acosh_expand cannot be instantiated and is not modelled"
  },
  {
   "property": "C14",
   "status": "proved",
   "theorems": [
    "XCFun.Props.C14_writes_exactly",
    "XCFun.Props.C14_code_kernel_local",
    "XCFun.Props.C14_short_buffer_undefined",
    "XCFun.Props.C14_short_input_undefined"
   ],
   "note": "any arithmetic; holds for each kernel that reads only declared slots, which the code's kernels do"
  },
  {
   "property": "C15",
   "status": "proved",
   "theorems": [
    "XCFun.Props.C15_positions",
    "XCFun.Props.C15_order_of_derivatives"
   ],
   "note": ""
  },
  {
   "property": "C16",
   "status": "proved",
   "theorems": [
    "XCFun.Props.C16_exact_partial_derivatives",
    "XCFun.Props.C16_slater_regular"
   ],
   "note": "exact real arithmetic, points strictly inside the domain of every active functional (Expr.Reg); the three Becke-Roussel functionals have no regular points because their value is a Newton iterate; C57 states what their derivatives are"
  },
  {
   "property": "C30",
   "status": "proved",
   "theorems": [
    "XCFun.Props.C30_lower_orders_prefix"
   ],
   "note": ""
  },
  {
   "property": "C35",
   "status": "proved",
   "theorems": [
    "XCFun.Props.C35_density_ignored",
    "XCFun.Props.C35_seeds_ignored",
    "XCFun.Props.C35_eval_ignores_density"
   ],
   "note": "the claim users expect is false of the code; proved is the negation the statement gives in brackets"
  },
  {
   "property": "C37",
   "status": "partial",
   "theorems": [
    "XCFun.Props.C37_declared_dependencies_partial",
    "XCFun.Props.C37_no_missing_data_partial",
    "XCFun.Props.C37_revtpssx_undeclared",
    "XCFun.Props.C37_revtpssx_accepted",
    "XCFun.Props.C37_revtpssx_declares",
    "XCFun.Props.C37_revtpssx_uses"
   ],
   "note": "proved for every functional except REVTPSSX, for which it is false; the negation is proved with a witness"
  },
  {
   "property": "C42",
   "status": "proved",
   "theorems": [
    "XCFun.Props.C42_parameter_locality",
    "XCFun.Props.C42_exx_never_matters",
    "XCFun.Props.C42_readers_read"
   ],
   "note": ""
  },
  {
   "property": "C17",
   "status": "proved",
   "theorems": [
    "XCFun.Props.C17_contracted_expansion",
    "XCFun.Props.C17_contracted_derivatives"
   ],
   "note": "exact real arithmetic; derivative form needs a regular base point, expansion form none"
  },
  {
   "property": "C18",
   "status": "proved",
   "theorems": [
    "XCFun.Props.C18_modes_agree"
   ],
   "note": ""
  },
  {
   "property": "C19",
   "status": "proved",
   "theorems": [
    "XCFun.Props.C19_lda_potential",
    "XCFun.Props.C19_lda_potential_exact",
    "XCFun.Props.C19_closed_shell_output_length"
   ],
   "note": ""
  },
  {
   "property": "C20",
   "status": "proved",
   "theorems": [
    "XCFun.Props.C20_restricted_potential",
    "XCFun.Props.C20_unrestricted_potential",
    "XCFun.Props.C20_every_input_is_an_expansion"
   ],
   "note": "exact real arithmetic, regular points; REVTPSSX excluded in the restricted case because it reads the kinetic energy slot it does not declare; the unrestricted case reads uninitialised storage (C46) and the result is shown not to depend on it"
  },
  {
   "property": "C21",
   "status": "proved",
   "theorems": [
    "XCFun.Props.C21_accepted_configurations",
    "XCFun.Props.C21_full_claim_false"
   ],
   "note": "exact characterisation; the unrestricted claim is false of the code and its negation is proved"
  },
  {
   "property": "C46",
   "status": "proved",
   "theorems": [
    "XCFun.Props.C46_nothing_uninitialised_read",
    "XCFun.Props.C46_unrestricted_gga_undefined",
    "XCFun.Props.C46_contents_irrelevant"
   ],
   "note": ""
  },
  {
   "property": "C22",
   "status": "proved",
   "theorems": [
    "XCFun.Props.C22_eval_vec",
    "XCFun.Props.C22_no_interference",
    "XCFun.Props.C22_no_points"
   ],
   "note": "any arithmetic; input and output buffers are distinct objects"
  },
  {
   "property": "C23",
   "status": "proved",
   "theorems": [
    "XCFun.Props.C23_objects_independent",
    "XCFun.Props.C23_interleavings",
    "XCFun.Props.C23_queries_pure"
   ],
   "note": "Process with tables and heap; the run of all calls is equivalent to separate runs per address. Buffers are owned by the caller and passed by value."
  },
  {
   "property": "C43",
   "status": "proved",
   "theorems": [
    "XCFun.Props.C43_new",
    "XCFun.Props.C43_delete",
    "XCFun.Props.C43_use_after_delete",
    "XCFun.Props.C43_only_errors"
   ],
   "note": "xcfun_delete(NULL) is delete on a null pointer in C++; allocator modelled as any choice of a free address."
  },
  {
   "property": "C44",
   "status": "proved",
   "theorems": [
    "XCFun.Props.C23_objects_independent",
    "XCFun.Props.C44_table_contents",
    "XCFun.Props.C44_visits",
    "XCFun.Props.C44_idempotent",
    "XCFun.Props.C44_first_calls_race",
    "XCFun.Props.C44_later_calls_do_not_race",
    "XCFun.Props.C44_single_thread"
   ],
   "note": "The race is stated for any number of threads and all schedules at the granularity of single memory accesses."
  },
  {
   "property": "C24",
   "status": "proved",
   "theorems": [
    "XCFun.Props.C24_linear_in_weights",
    "XCFun.Props.C24_order_of_sets",
    "XCFun.Props.C24_set_twice",
    "XCFun.Props.C24_zero_weight"
   ],
   "note": "exact arithmetic; every accepted configuration and mode"
  },
  {
   "property": "C31",
   "status": "proved",
   "theorems": [
    "XCFun.Props.C31_regularize",
    "XCFun.Props.C31_above_threshold",
    "XCFun.Props.C31_others_unaltered",
    "XCFun.Props.C31_below_threshold"
   ],
   "note": "Table `given` of what every input stands for; below the threshold stated for xcfun_eval in every accepted configuration, mode and order. XC_A and XC_A_GAA ignore their density altogether (C35)."
  },
  {
   "property": "C32",
   "status": "proved",
   "theorems": [
    "XCFun.Props.C32_energy",
    "XCFun.Props.C32_eval",
    "XCFun.Props.C32_rotation",
    "XCFun.Props.C32_rotation_eval"
   ],
   "note": "Energy on expansions of any order and xcfun_eval in contracted mode (all orders); unconditional in the inputs. N_2ND_TAYLOR reuses input 4 as kinetic energy density, so rotation invariance there needs functionals that do not read tau (disagreement recorded in DESIGN.md)."
  },
  {
   "property": "C33",
   "status": "proved",
   "theorems": [
    "XCFun.Props.C33_energy",
    "XCFun.Props.C33_eval",
    "XCFun.Props.C33_differs_below"
   ],
   "note": "For total density at least 2e-14; witness below. N_2ND_TAYLOR only for functionals that do not read tau."
  },
  {
   "property": "C34",
   "status": "proved",
   "theorems": [
    "XCFun.Props.C34_energy",
    "XCFun.Props.C34_eval",
    "XCFun.Props.C34_negation"
   ],
   "note": "Positive for N_S_NX_...; negation with witness for N_S, N_S_GNN_GNS_GSS(_TAUN_TAUS)."
  },
  {
   "property": "C36",
   "status": "proved",
   "theorems": [
    "XCFun.Props.C36_functional",
    "XCFun.Props.C36_energy",
    "XCFun.Props.C36_contracted",
    "XCFun.Props.C36_derivatives",
    "XCFun.Props.C36_potential"
   ],
   "note": "All 78 functionals; all variable sets with density variables except the one-spin sets A and A_GAA, which have nothing to exchange. Exact arithmetic."
  },
  {
   "property": "C39",
   "status": "partial",
   "theorems": [
    "XCFun.Props.C39_exchange",
    "XCFun.Props.C39_kinetic",
    "XCFun.Props.C39_eval",
    "XCFun.Props.C39_scan_partial",
    "XCFun.Props.C39_tw",
    "XCFun.Props.C39_tw_negation",
    "XCFun.Props.C39_ktx_negation",
    "XCFun.Props.C39_revtpssx_negation",
    "XCFun.Props.C39_scan_negation",
    "XCFun.Props.C39_range_separated",
    "XCFun.Props.C39_eval_range_separated",
    "XCFun.Props.C39_btk",
    "XCFun.Props.C39_btk_negation"
   ],
   "note": "Proved for 25 exchange and 3 kinetic energy functionals, and for xcfun_eval on any combination of them. False of the code for XC_TW (scales with g^13), KTX, REVTPSSX (p*p for p0*p0) and, at zero gradient, the five SCAN exchange functionals: negations with witnesses. SCAN, r++SCAN, r2SCAN, r4SCAN scale away from their thresholds. BECKESRX, BECKECAMX, LDAERFX scale with the parameter. BTK: two-sided bound and the failure at zero gradient."
  },
  {
   "property": "C40",
   "status": "proved",
   "theorems": [
    "XCFun.Props.C40_exchange",
    "XCFun.Props.C40_corrections",
    "XCFun.Props.C40_optx",
    "XCFun.Props.C40_correlation",
    "XCFun.Props.C40_eval"
   ],
   "note": "PBEX, REVPBEX, RPBEX, APBEX, PBEINTX, PBESOLX, BECKEX, PW86X, PW91X equal the uniform gas; OPTX is 1.05151 times it; PBE-like correlation reduces to PW92C or VWN5C, P86C to PZ81C."
  },
  {
   "property": "C41",
   "status": "proved",
   "theorems": [
    "XCFun.Props.C41_exchange",
    "XCFun.Props.C41_below_uniform",
    "XCFun.Props.C41_enhancement_bound",
    "XCFun.Props.C41_kinetic",
    "XCFun.Props.C41_eval",
    "XCFun.Props.C41_components"
   ],
   "note": "15 exchange functionals; bound from below for the PBE family; kinetic energies non-negative; xcfun_eval for arbitrary inputs with non-negative gradient squares."
  },
  {
   "property": "C45",
   "status": "proved",
   "theorems": [
    "XCFun.Props.C45_header_injective",
    "XCFun.Props.C45_internal_table",
    "XCFun.Props.C45_model_codes",
    "XCFun.Props.C45_model_modes",
    "XCFun.Props.C45_fortran",
    "XCFun.Props.C45_python"
   ],
   "note": "Missing: XC_NR_VARS in Fortran, XC_N_GNN and XC_A_B_GAA_GAB_GBB in Python."
  },
  {
   "property": "C47",
   "status": "proved",
   "theorems": [
    "XCFun.Props.C47_init",
    "XCFun.Props.C47_type",
    "XCFun.Props.C47_energy_n",
    "XCFun.Props.C47_energy_ab",
    "XCFun.Props.C47_potential_n_lda",
    "XCFun.Props.C47_potential_n_gga",
    "XCFun.Props.C47_potential_ab_lda",
    "XCFun.Props.C47_potential_ab_gga",
    "XCFun.Props.C47_energy_n_raises",
    "XCFun.Props.C47_energy_ab_raises",
    "XCFun.Props.C47_potential_n_raises",
    "XCFun.Props.C47_potential_ab_raises",
    "XCFun.Props.C47_potential_n_indeterminate",
    "XCFun.Props.C47_one_dimensional",
    "XCFun.Props.C47_no_axes",
    "XCFun.Props.C47_contracted",
    "XCFun.Props.C47_wrong_shape",
    "XCFun.Props.C47_overflow"
   ],
   "note": "Potentials at regular points. Departures proved: eval_potential_n returns three columns, the last unwritten (two are documented); one-dimensional densities give unwritten rows; a scalar argument and very large grids are undefined behaviour."
  },
  {
   "property": "C48",
   "status": "proved",
   "theorems": [
    "XCFun.Props.C48_names",
    "XCFun.Props.C48_padded_name_rejected",
    "XCFun.Props.C48_describe",
    "XCFun.Props.C48_text_handler_undefined",
    "XCFun.Props.C48_text_handler",
    "XCFun.Props.C48_eval_vec"
   ],
   "note": "text_handler stores outside its buffer for every argument (undefined as written); what it returns if that store has no effect is stated separately. eval on arrays for orders up to 3."
  },
  {
   "property": "C49",
   "status": "proved",
   "theorems": [
    "XCFun.Props.C49_regular",
    "XCFun.Props.C49_partial_derivatives",
    "XCFun.Props.C49_contracted",
    "XCFun.Props.C49_restricted_potential",
    "XCFun.Props.C49_unrestricted_potential",
    "XCFun.Props.C49_lda_potential",
    "XCFun.Props.C49_ldaerfc_jt"
   ],
   "note": "75 of 78 functionals; the three Becke-Roussel functionals are in C57."
  },
  {
   "property": "C50",
   "status": "proved",
   "theorems": [
    "XCFun.Props.C50_negative",
    "XCFun.Props.C50_pz81",
    "XCFun.Props.C50_eval",
    "XCFun.Props.C50_pz81_doubled_positive"
   ],
   "note": "Strictly negative; the exception for PZ81C is proved with a witness."
  },
  {
   "property": "C51",
   "status": "proved",
   "theorems": [
    "XCFun.Props.C51_tpss",
    "XCFun.Props.C51_scan",
    "XCFun.Props.C51_eval",
    "XCFun.Props.C51_revtpssx_violates"
   ],
   "note": "SCANX off the surface alpha = 1, where the code divides by zero."
  },
  {
   "property": "C52",
   "status": "proved",
   "theorems": [
    "XCFun.Props.C52_published",
    "XCFun.Props.C52_coverage",
    "XCFun.Props.C52_eval",
    "XCFun.Props.C52_partial_derivatives",
    "XCFun.Props.C52_contracted",
    "XCFun.Props.C52_restricted_potential",
    "XCFun.Props.C52_unrestricted_potential",
    "XCFun.Props.C52_lda_potential",
    "XCFun.Props.C52_tw",
    "XCFun.Props.C52_spbec",
    "XCFun.Props.C52_revtpssc",
    "XCFun.Props.C52_revtpssx",
    "XCFun.Props.C52_revtpssx_differs",
    "XCFun.Props.C52_csc",
    "XCFun.Props.C52_csc_differs",
    "XCFun.Props.C52_csc_laplacian",
    "XCFun.Props.C52_constants"
   ],
   "note": "70 functionals equal, five proved to differ, three (Becke-Roussel) are in C58. The published formulas are in Spec/Literature*.lean."
  },
  {
   "property": "C53",
   "status": "proved",
   "theorems": [
    "XCFun.Props.C53_function",
    "XCFun.Props.C53_slope",
    "XCFun.Props.C53_published",
    "XCFun.Props.C53_eval"
   ],
   "note": "Real arithmetic; the rounding of the code is not modelled."
  },
  {
   "property": "C54",
   "status": "proved",
   "theorems": [
    "XCFun.Props.C54_short_range",
    "XCFun.Props.C54_monotone",
    "XCFun.Props.C54_limits",
    "XCFun.Props.C54_cam",
    "XCFun.Props.C54_cam_bounds",
    "XCFun.Props.C54_local",
    "XCFun.Props.C54_eval",
    "XCFun.Props.C54_eval_cam",
    "XCFun.Props.C54_named",
    "XCFun.Props.C54_local_not_monotone"
   ],
   "note": "The claim of monotonicity for LDAERFX is refuted with a witness."
  },
  {
   "property": "C55",
   "status": "proved",
   "theorems": [
    "XCFun.Props.C55_result",
    "XCFun.Props.C55_coverage",
    "XCFun.Props.C55_untested",
    "XCFun.Props.C55_reference_lengths",
    "XCFun.Props.C55_zero_iff"
   ],
   "note": "That the result is 0 in exact arithmetic is C62."
  },
  {
   "property": "C56",
   "status": "proved",
   "theorems": [
    "XCFun.Props.C56_unique_root",
    "XCFun.Props.C56_holeRoot",
    "XCFun.Props.C56_solver"
   ],
   "note": "Real arithmetic; whether the stopping criterion is met in floating point is not modelled."
  },
  {
   "property": "C57",
   "status": "proved",
   "theorems": [
    "XCFun.Props.C57_series",
    "XCFun.Props.C57_regular",
    "XCFun.Props.C57_partial_derivatives",
    "XCFun.Props.C57_contracted"
   ],
   "note": "The value returned is itself that of the function differentiated; the shift is the residual of the solver at the evaluation point."
  },
  {
   "property": "C58",
   "status": "proved",
   "theorems": [
    "XCFun.Props.C58_published",
    "XCFun.Props.C58_eval"
   ],
   "note": "The published formulas are in Spec/BeckeRoussel.lean."
  },
  {
   "property": "C59",
   "status": "proved",
   "theorems": [
    "XCFun.Props.C59_product",
    "XCFun.Props.C59_product_in_place",
    "XCFun.Props.C59_compose"
   ],
   "note": "Standard model of rounding: relative error u per operation, no overflow or underflow; Spec.Bits p is an instance."
  },
  {
   "property": "C60",
   "status": "proved",
   "theorems": [
    "XCFun.Props.C60_partial_derivatives",
    "XCFun.Props.C60_contracted"
   ],
   "note": "The rounding inside a functional enters as the hypothesis eps."
  },
  {
   "property": "C61",
   "status": "proved",
   "theorems": [
    "XCFun.Props.C61_functional",
    "XCFun.Props.C61_energy",
    "XCFun.Props.C61_contracted",
    "XCFun.Props.C61_no_mixed",
    "XCFun.Props.C61_tfk_negation",
    "XCFun.Props.C61_tw_negation"
   ],
   "note": "38 functionals; refuted with witnesses for TFK and TW."
  },
  {
   "property": "C62",
   "status": "proved",
   "theorems": [
    "XCFun.Props.C62_reference_values",
    "XCFun.Props.C62_self_test_passes"
   ],
   "note": "Exact real arithmetic, M_PI is pi; verified enclosures evaluated in the kernel."
  },
  {
   "property": "C63",
   "status": "proved",
   "theorems": [
    "XCFun.Props.C63_example",
    "XCFun.Props.C63_example_after"
   ],
   "note": "Exact real arithmetic, M_PI is pi; printing is not modelled except for the complaints."
  },
  {
   "property": "C64",
   "status": "proved",
   "theorems": [
    "XCFun.Props.C64_testall"
   ],
   "note": "Exact real arithmetic; the comparisons of the program are made with its own tolerances."
  },
  {
   "property": "C65",
   "status": "proved",
   "theorems": [
    "XCFun.Props.C65_fortran_example"
   ],
   "note": "Exact real arithmetic; xcfun_splash of the Fortran module (see C48) is not part of the modelled program."
  },
  {
   "property": "C66",
   "status": "proved",
   "theorems": [
    "XCFun.Props.C66_labels",
    "XCFun.Props.C66_table",
    "XCFun.Props.C66_no_variables"
   ],
   "note": "Order of exponents for all numbers of variables and degrees; with xcfun_eval up to order 3, the orders C15 covers. The whole program is in C73."
  },
  {
   "property": "C67",
   "status": "proved",
   "theorems": [
    "XCFun.Props.C67_lda_old",
    "XCFun.Props.C67_type",
    "XCFun.Props.C67_lda_energy_restr",
    "XCFun.Props.C67_lda_potential_restr",
    "XCFun.Props.C67_lda_energy_closed",
    "XCFun.Props.C67_lda_potential_closed",
    "XCFun.Props.C67_lda_energy_open",
    "XCFun.Props.C67_lda_potential_open",
    "XCFun.Props.C67_pbe_energy_restr",
    "XCFun.Props.C67_pbe_potential_restr",
    "XCFun.Props.C67_pbe_energy_closed",
    "XCFun.Props.C67_pbe_potential_closed",
    "XCFun.Props.C67_pbe_energy_open",
    "XCFun.Props.C67_pbe_potential_open",
    "XCFun.Props.C67_pbe_potential_open_undefined",
    "XCFun.Props.C67_pbe_potential_closed_undefined",
    "XCFun.Props.C67_raises_energy_n",
    "XCFun.Props.C67_raises_energy_ab",
    "XCFun.Props.C67_raises_potential_n",
    "XCFun.Props.C67_raises_potential_ab",
    "XCFun.Props.C67_raises_potential_ab_undefined"
   ],
   "note": "Exact real arithmetic, M_PI is pi; exception texts and test_splash are not modelled."
  },
  {
   "property": "C68",
   "status": "proved",
   "theorems": [
    "XCFun.Props.C68_size",
    "XCFun.Props.C68_polymul",
    "XCFun.Props.C68_taylormul",
    "XCFun.Props.C68_taylormul_in_place",
    "XCFun.Props.C68_compose0",
    "XCFun.Props.C68_compose",
    "XCFun.Props.C68_square_in_place_fails",
    "XCFun.Props.C68_compose0_needs_no_constant",
    "XCFun.Props.C68_add",
    "XCFun.Props.C68_add_truncated",
    "XCFun.Props.C68_monomial_set_one",
    "XCFun.Props.C68_monomial_set_aborts",
    "XCFun.Props.C68_monomial_set_constant"
   ],
   "note": "At least one variable, exact arithmetic over a commutative semiring; the destination does not overlap the operands except where stated. The in-place product with itself is disproved by a witness."
  },
  {
   "property": "C69",
   "status": "proved",
   "theorems": [
    "XCFun.Props.C69_eval",
    "XCFun.Props.C69_terms",
    "XCFun.Props.C69_diff",
    "XCFun.Props.C69_dfac",
    "XCFun.Props.C69_dfac_derivative",
    "XCFun.Props.C69_term",
    "XCFun.Props.C69_contract"
   ],
   "note": "At least one variable, exact arithmetic over a commutative semiring; new_evaluator and polytrans are in C77."
  },
  {
   "property": "C70",
   "status": "proved",
   "theorems": [
    "XCFun.Props.C70_exponents",
    "XCFun.Props.C70_exponents_rejected",
    "XCFun.Props.C70_index",
    "XCFun.Props.C70_inverse",
    "XCFun.Props.C70_from_tensor",
    "XCFun.Props.C70_to_tensor",
    "XCFun.Props.C70_round_trip",
    "XCFun.Props.C70_from_tensor_one_variable",
    "XCFun.Props.C70_one_variable_fails"
   ],
   "note": "Tensor conversion for two variables or more; refuted for one variable."
  },
  {
   "property": "C71",
   "status": "proved",
   "theorems": [
    "XCFun.Props.C71_unique",
    "XCFun.Props.C71_assign",
    "XCFun.Props.C71_variable",
    "XCFun.Props.C71_numbers",
    "XCFun.Props.C71_ring",
    "XCFun.Props.C71_dot",
    "XCFun.Props.C71_compose",
    "XCFun.Props.C71_compose_to",
    "XCFun.Props.C71_stretch",
    "XCFun.Props.C71_integrate",
    "XCFun.Props.C71_shift",
    "XCFun.Props.C71_shift_refused",
    "XCFun.Props.C71_pick_order",
    "XCFun.Props.C71_compare",
    "XCFun.Props.C71_entire",
    "XCFun.Props.C71_erf",
    "XCFun.Props.C71_positive",
    "XCFun.Props.C71_divide",
    "XCFun.Props.C71_divide_by_zero",
    "XCFun.Props.C71_integer_power",
    "XCFun.Props.C71_sinc",
    "XCFun.Props.C71_sqrtx_asinh_sqrtx",
    "XCFun.Props.C71_min_max"
   ],
   "note": "At least one variable, exact arithmetic; sizes have to fit int where the code computes them (stretch, shift, erf, sinc)."
  },
  {
   "property": "C72",
   "status": "proved",
   "theorems": [
    "XCFun.Props.C72_series",
    "XCFun.Props.C72_model",
    "XCFun.Props.C72_degree_zero"
   ],
   "note": "Exact arithmetic; the value of the iterative solver is kept as it is (C57 bounds its error)."
  },
  {
   "property": "C73",
   "status": "proved",
   "theorems": [
    "XCFun.Props.C73_funeval",
    "XCFun.Props.C73_derivatives",
    "XCFun.Props.C73_status",
    "XCFun.Props.C73_refused",
    "XCFun.Props.C73_order_four",
    "XCFun.Props.C73_no_repetition",
    "XCFun.Props.C73_malformed",
    "XCFun.Props.C73_unknown_name",
    "XCFun.Props.C73_misspelt"
   ],
   "note": "Exact arithmetic; sscanf, scanf and malloc are parameters."
  },
  {
   "property": "C74",
   "status": "proved",
   "theorems": [
    "XCFun.Props.C74_example",
    "XCFun.Props.C74_no_memory"
   ],
   "note": "Exact arithmetic."
  },
  {
   "property": "C75",
   "status": "proved",
   "theorems": [
    "XCFun.Props.C75_lda",
    "XCFun.Props.C75_uniform",
    "XCFun.Props.C75_increasing",
    "XCFun.Props.C75_rapid",
    "XCFun.Props.C75_rapid_zv",
    "XCFun.Props.C75_rapid_spbec",
    "XCFun.Props.C75_rapid_spbec_fails",
    "XCFun.Props.C75_slow",
    "XCFun.Props.C75_eval_increasing",
    "XCFun.Props.C75_eval_rapid",
    "XCFun.Props.C75_eval_slow"
   ],
   "note": "Exact arithmetic; the energies in terms of density variables (Sound: positive densities, non-negative gradient squares) and of inputs above the threshold."
  },
  {
   "property": "C76",
   "status": "proved",
   "theorems": [
    "XCFun.Props.C76_cbrt",
    "XCFun.Props.C76_cbrt_negative",
    "XCFun.Props.C76_asinh",
    "XCFun.Props.C76_erf",
    "XCFun.Props.C76_erf_below",
    "XCFun.Props.C76_erf_negative",
    "XCFun.Props.C76_erfc_large",
    "XCFun.Props.C76_erfc",
    "XCFun.Props.C76_erfc_negative"
   ],
   "note": "Exact arithmetic; loops and calls with a bound on their number, of which 130 is shown to suffice."
  },
  {
   "property": "C77",
   "status": "proved",
   "theorems": [
    "XCFun.Props.C77_polytrans",
    "XCFun.Props.C77_polytrans_value",
    "XCFun.Props.C77_new_evaluator",
    "XCFun.Props.C77_new_evaluator_order"
   ],
   "note": "Exact arithmetic in any commutative semiring; destination, source and matrix are different arrays. Two orders of evaluation are modelled, the wrong result is shown for one polynomial."
  },
  {
   "property": "C78",
   "status": "proved",
   "theorems": [
    "XCFun.Props.C78_zero",
    "XCFun.Props.C78_erf_small",
    "XCFun.Props.C78_erf_large",
    "XCFun.Props.C78_jt_large",
    "XCFun.Props.C78_vanish",
    "XCFun.Props.C78_erf_sign",
    "XCFun.Props.C78_jt_negative",
    "XCFun.Props.C78_jt_monotone",
    "XCFun.Props.C78_jt_overshoots",
    "XCFun.Props.C78_eval_zero",
    "XCFun.Props.C78_eval_vanish",
    "XCFun.Props.C42_readers_read"
   ],
   "note": "For LDAERFC the sign and the comparison with PW92C are proved for weak and for strong range separation only. Limits and energies at order 0."
  },
  {
   "property": "C79",
   "status": "proved",
   "theorems": [
    "XCFun.Props.C79_energy",
    "XCFun.Props.C79_double",
    "XCFun.Props.C79_eval",
    "XCFun.Props.roundedKernel_computes"
   ],
   "note": "Order 0, spin-resolved densities and gradients. Overflow and underflow are excluded by the assumptions on the arithmetic; every constant of the source counts as one rounding."
  },
  {
   "property": "C80",
   "status": "proved",
   "theorems": [
    "XCFun.Props.C80_potential",
    "XCFun.Props.C80_hole",
    "XCFun.Props.C80_brx",
    "XCFun.Props.C80_brc",
    "XCFun.Props.C80_beckex",
    "XCFun.Props.C80_vwk",
    "XCFun.Props.C80_minnesota"
   ],
   "note": "Energies at order 0. The Becke-Roussel theorems are for the variable set with Laplacians, kinetic energies and currents, the only one these functionals accept."
  },
  {
   "property": "C81",
   "status": "proved",
   "theorems": [
    "XCFun.Props.C81_eval",
    "XCFun.Props.C81_pbe",
    "XCFun.Props.C81_apbe"
   ],
   "note": "Order 0, as a function of the squared gradient; spin-polarised densities and the functionals with asinh (BECKEX, PW91X), where the program uses a rational approximation at small gradients, are left out."
  },
  {
   "property": "C82",
   "status": "proved",
   "theorems": [
    "XCFun.Props.C82_curve",
    "XCFun.Props.C82_one_orbital",
    "XCFun.Props.C82_plot"
   ],
   "note": "Conversions of numbers to text and back are taken as exact, and matplotlib is left out."
  },
  {
   "property": "C83",
   "status": "proved",
   "theorems": [
    "XCFun.Props.C83_scan",
    "XCFun.Props.C83_lyp",
    "XCFun.Props.C83_tpss",
    "XCFun.Props.C83_pbe"
   ],
   "note": "SCAN and LYP at the level of xcfun_eval; the limits of TPSS and PBE are over density variables, since xcfun_eval raises densities below the threshold."
  },
  {
   "property": "C84",
   "status": "proved",
   "theorems": [
    "XCFun.Props.C84_output",
    "XCFun.Props.C84_positions",
    "XCFun.Props.C84_first_greatest",
    "XCFun.Props.C84_first_greatest_decreasing"
   ],
   "note": ""
  },
  {
   "property": "C85",
   "status": "proved",
   "theorems": [
    "XCFun.Props.C85_potential",
    "XCFun.Props.C85_decreasing",
    "XCFun.Props.C85_pz81"
   ],
   "note": "PZ81 is excluded from C85_decreasing because the claim is false of it (C85_pz81)"
  },
  {
   "property": "C86",
   "status": "proved",
   "theorems": [
    "XCFun.Props.C86_text",
    "XCFun.Props.C86_number_major",
    "XCFun.Props.C86_number_collides",
    "XCFun.Props.C86_number_this",
    "XCFun.Props.C86_compatible",
    "XCFun.Props.C86_not_header"
   ],
   "note": "the number separates major versions only and the check is always true: negations proved"
  },
  {
   "property": "C87",
   "status": "proved",
   "theorems": [
    "XCFun.Props.C87_accepted",
    "XCFun.Props.C87_incomplete"
   ],
   "note": ""
  },
  {
   "property": "C88",
   "status": "proved",
   "theorems": [
    "XCFun.Props.C88_energy",
    "XCFun.Props.C88_double",
    "XCFun.Props.C88_eval",
    "XCFun.Props.C88_polarised"
   ],
   "note": "C88_polarised is the witness that the bound on the polarisation is needed for derivatives"
  },
  {
   "property": "C89",
   "status": "proved",
   "theorems": [
    "XCFun.Props.C89_jet",
    "XCFun.Props.C89_polynomial",
    "XCFun.Props.C89_no_cancellation",
    "XCFun.Props.C89_relative",
    "XCFun.Props.C89_partials",
    "XCFun.Props.C89_double",
    "XCFun.Props.C89_eval",
    "XCFun.Props.C89_contracted",
    "XCFun.Props.C89_gradient",
    "XCFun.Props.C89_over_constant",
    "XCFun.Props.C89_constant_over",
    "XCFun.Props.C89_vwk_partials",
    "XCFun.Props.C89_vwk_eval",
    "XCFun.Props.C89_gradient_contracted"
   ],
   "note": ""
  }
 ]
}