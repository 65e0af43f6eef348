{
 "claims": [
  {
   "property": "C01",
   "status": "proved",
   "theorems": [
    "FNFT.C01_nextpowerof2",
    "FNFT.C01_zero",
    "FNFT.C01_diverges"
   ],
   "note": ""
  },
  {
   "property": "C02",
   "status": "proved",
   "theorems": [
    "FNFT.C02_filter",
    "FNFT.C02_filter_invalid",
    "FNFT.C02_C03_nan"
   ],
   "note": ""
  },
  {
   "property": "C03",
   "status": "proved",
   "theorems": [
    "FNFT.C03_filter_inv",
    "FNFT.C03_filter_inv_invalid",
    "FNFT.C02_C03_nan"
   ],
   "note": ""
  },
  {
   "property": "C04",
   "status": "proved",
   "theorems": [
    "FNFT.C04_filter_nonreal",
    "FNFT.C04_filter_nonreal_invalid"
   ],
   "note": ""
  },
  {
   "property": "C05",
   "status": "proved",
   "theorems": [
    "FNFT.C05_merge",
    "FNFT.C05_merge_trivial",
    "FNFT.C05_merge_chain_negation"
   ],
   "note": ""
  },
  {
   "property": "C06",
   "status": "proved",
   "theorems": [
    "FNFT.C06_downsample",
    "FNFT.C06_downsample_invalid"
   ],
   "note": ""
  },
  {
   "property": "C07",
   "status": "proved",
   "theorems": [
    "FNFT.C07_next_fft_length",
    "FNFT.C07_next_fft_length_mono",
    "FNFT.C07_zero_diverges"
   ],
   "note": ""
  },
  {
   "property": "C08",
   "status": "proved",
   "theorems": [
    "FNFT.C08_factor_table",
    "FNFT.C08_factor_overflow"
   ],
   "note": ""
  },
  {
   "property": "C09",
   "status": "proved",
   "theorems": [
    "FNFT.C09_fft",
    "FNFT.C09_fft_inplace",
    "FNFT.C09_plan_invalid"
   ],
   "note": ""
  },
  {
   "property": "C10",
   "status": "proved",
   "theorems": [
    "FNFT.C10_fft_roundtrip"
   ],
   "note": ""
  },
  {
   "property": "C11",
   "status": "proved",
   "theorems": [
    "FNFT.C11_poly_eval",
    "FNFT.C11_C12_null"
   ],
   "note": ""
  },
  {
   "property": "C12",
   "status": "proved",
   "theorems": [
    "FNFT.C12_poly_evalderiv",
    "FNFT.C11_C12_null"
   ],
   "note": ""
  },
  {
   "property": "C13",
   "status": "proved",
   "theorems": [
    "FNFT.C13_chirpz",
    "FNFT.C13_chirpz_invalid"
   ],
   "note": ""
  },
  {
   "property": "C14",
   "status": "proved",
   "theorems": [
    "FNFT.C14_fmult"
   ],
   "note": ""
  },
  {
   "property": "C15",
   "status": "proved",
   "theorems": [
    "FNFT.C15_fmult2x2"
   ],
   "note": ""
  },
  {
   "property": "C16",
   "status": "proved",
   "theorems": [
    "FNFT.C16_fmult3x3"
   ],
   "note": ""
  },
  {
   "property": "C17",
   "status": "proved",
   "theorems": [
    "FNFT.C17_fscatter_one",
    "FNFT.C17_fmult_one",
    "FNFT.C17_fmultM_one"
   ],
   "note": ""
  },
  {
   "property": "C18",
   "status": "proved",
   "theorems": [
    "FNFT.C18_normalize_vector",
    "FNFT.C18_rescale"
   ],
   "note": ""
  },
  {
   "property": "C19",
   "status": "proved",
   "theorems": [
    "FNFT.C19_matrix_mult"
   ],
   "note": ""
  },
  {
   "property": "C20",
   "status": "proved",
   "theorems": [
    "FNFT.C20_hausdorff",
    "FNFT.C20_hausdorff_empty"
   ],
   "note": ""
  },
  {
   "property": "C21",
   "status": "proved",
   "theorems": [
    "FNFT.C21_legendre",
    "FNFT.C21_legendre_rodrigues"
   ],
   "note": ""
  },
  {
   "property": "C22",
   "status": "proved",
   "theorems": [
    "FNFT.C22_C23_fscatter",
    "FNFT.C22_order7_coefficient",
    "FNFT.C22_C23_fscatter_exact",
    "FNFT.C22_C23_fscatter_modal"
   ],
   "note": ""
  },
  {
   "property": "C23",
   "status": "proved",
   "theorems": [
    "FNFT.C22_C23_fscatter",
    "FNFT.C22_C23_fscatter_exact",
    "FNFT.C22_C23_fscatter_modal"
   ],
   "note": ""
  },
  {
   "property": "C24",
   "status": "proved",
   "theorems": [
    "FNFT.C24_slow_scattering",
    "FNFT.C24_slow_scattering_exact"
   ],
   "note": ""
  },
  {
   "property": "C25",
   "status": "proved",
   "theorems": [
    "FNFT.C25_unimodular",
    "FNFT.C25_step_inverse"
   ],
   "note": ""
  },
  {
   "property": "C26",
   "status": "proved",
   "theorems": [
    "FNFT.C26_energy"
   ],
   "note": ""
  },
  {
   "property": "C27",
   "status": "proved",
   "theorems": [
    "FNFT.C27_derivative_block",
    "FNFT.C27_derivative_exact"
   ],
   "note": ""
  },
  {
   "property": "C28",
   "status": "proved",
   "theorems": [
    "FNFT.C28_bound_states",
    "FNFT.C28_norming_constant",
    "FNFT.C28_derivative"
   ],
   "note": ""
  },
  {
   "property": "C29",
   "status": "proved",
   "theorems": [
    "FNFT.C29_modal",
    "FNFT.C29_split2A_focusing",
    "FNFT.C29_split2A_defocusing"
   ],
   "note": ""
  },
  {
   "property": "C30",
   "status": "proved",
   "theorems": [
    "FNFT.C30_finvscatter",
    "FNFT.C30_finvscatter_focusing",
    "FNFT.C30_layers_unique",
    "FNFT.C30_finvscatter_errors",
    "FNFT.C30_stack_overrun"
   ],
   "note": ""
  },
  {
   "property": "C31",
   "status": "proved",
   "theorems": [
    "FNFT.C31_change_of_basis",
    "FNFT.C31_nse_identity",
    "FNFT.C31_kdv_explicit",
    "FNFT.C31_errors"
   ],
   "note": ""
  },
  {
   "property": "C32",
   "status": "proved",
   "theorems": [
    "FNFT.C32_akns_tables",
    "FNFT.C32_degree_splitting",
    "FNFT.C32_akns_unknown",
    "FNFT.C32_fscatter_rejects",
    "FNFT.C32_scatter_rejects",
    "FNFT.C32_nse_names",
    "FNFT.C32_nse_complete",
    "FNFT.C32_nse_documented",
    "FNFT.C32_nse_rejects",
    "FNFT.C32_akns_rejects"
   ],
   "note": ""
  },
  {
   "property": "C33",
   "status": "proved",
   "theorems": [
    "FNFT.C33_lambda_to_z",
    "FNFT.C33_z_to_lambda",
    "FNFT.C33_reject",
    "FNFT.C33_roundtrip_z",
    "FNFT.C33_roundtrip_lambda",
    "FNFT.C33_geometry"
   ],
   "note": ""
  },
  {
   "property": "C34",
   "status": "proved",
   "theorems": [
    "FNFT.C34_pointwise",
    "FNFT.C34_same_as_downsample",
    "FNFT.C34_commutator_free",
    "FNFT.C34_es4",
    "FNFT.C34_invalid",
    "FNFT.C34_two_samples",
    "FNFT.C34_nse_pointwise"
   ],
   "note": ""
  },
  {
   "property": "C35",
   "status": "proved",
   "theorems": [
    "FNFT.C35_weights_pointwise",
    "FNFT.C35_weights_two",
    "FNFT.C35_weights_CF4_3",
    "FNFT.C35_weights_CF5_3",
    "FNFT.C35_weights_CF6_4"
   ],
   "note": ""
  },
  {
   "property": "C36",
   "status": "proved",
   "theorems": [
    "FNFT.C36_interpolant",
    "FNFT.C36_resample",
    "FNFT.C36_circular_shift",
    "FNFT.C36_compose",
    "FNFT.C36_linear",
    "FNFT.C36_invalid"
   ],
   "note": ""
  },
  {
   "property": "C37",
   "status": "proved",
   "theorems": [
    "FNFT.C37_real",
    "FNFT.C37_paraherm",
    "FNFT.C37_paraherm_invalid"
   ],
   "note": ""
  },
  {
   "property": "C38",
   "status": "proved",
   "theorems": [
    "FNFT.C38_gridsearch",
    "FNFT.C38_count",
    "FNFT.C38_near",
    "FNFT.C38_exact",
    "FNFT.C38_least_squares",
    "FNFT.C38_invalid"
   ],
   "note": ""
  },
  {
   "property": "C39",
   "status": "proved",
   "theorems": [
    "FNFT.C39_success",
    "FNFT.C39_propagation",
    "FNFT.C39_cases",
    "FNFT.C39_nsev_invalid_arguments"
   ],
   "note": ""
  },
  {
   "property": "C40",
   "status": "proved",
   "theorems": [
    "FNFT.C40_message_callback",
    "FNFT.C40_threads_independent"
   ],
   "note": ""
  },
  {
   "property": "C41",
   "status": "proved",
   "theorems": [
    "FNFT.C41_continuous_spectrum",
    "FNFT.C41_any_request"
   ],
   "note": ""
  },
  {
   "property": "C42",
   "status": "proved",
   "theorems": [
    "FNFT.C42_newton"
   ],
   "note": ""
  },
  {
   "property": "C43",
   "status": "proved",
   "theorems": [
    "FNFT.C43_fast_eigenvalue",
    "FNFT.C43_exact_roots"
   ],
   "note": ""
  },
  {
   "property": "C44",
   "status": "proved",
   "theorems": [
    "FNFT.C44_norming_constant"
   ],
   "note": ""
  },
  {
   "property": "C45",
   "status": "proved",
   "theorems": [
    "FNFT.C45_subsample_and_refine"
   ],
   "note": ""
  },
  {
   "property": "C46",
   "status": "proved",
   "theorems": [
    "FNFT.C46_richardson",
    "FNFT.C46_removes_leading_error"
   ],
   "note": ""
  },
  {
   "property": "C47",
   "status": "proved",
   "theorems": [
    "FNFT.C47_names",
    "FNFT.C47_complete",
    "FNFT.C47_documented",
    "FNFT.C47_slow",
    "FNFT.C47_phase_factors",
    "FNFT.C47_rejects",
    "FNFT.C47_spectral_maps"
   ],
   "note": ""
  },
  {
   "property": "C48",
   "status": "proved",
   "theorems": [
    "FNFT.C48_continuous_spectrum",
    "FNFT.C48_any_request",
    "FNFT.C48_rejects",
    "FNFT.C48_schroedinger"
   ],
   "note": ""
  },
  {
   "property": "C49",
   "status": "proved",
   "theorems": [
    "FNFT.C49_newton"
   ],
   "note": ""
  },
  {
   "property": "C50",
   "status": "proved",
   "theorems": [
    "FNFT.C50_grid_search",
    "FNFT.C50_guesses",
    "FNFT.C50_grid",
    "FNFT.C50_bracket_zero"
   ],
   "note": ""
  },
  {
   "property": "C51",
   "status": "proved",
   "theorems": [
    "FNFT.C51_norming_constant"
   ],
   "note": ""
  },
  {
   "property": "C52",
   "status": "proved",
   "theorems": [
    "FNFT.C52_bounding_interval",
    "FNFT.C52_real_samples"
   ],
   "note": ""
  },
  {
   "property": "C53",
   "status": "proved",
   "theorems": [
    "FNFT.C53_man_fscatter",
    "FNFT.C53_man_fscatter_exact",
    "FNFT.C53_split3A",
    "FNFT.C53_man_fscatter_rejects"
   ],
   "note": ""
  },
  {
   "property": "C54",
   "status": "proved",
   "theorems": [
    "FNFT.C54_man_scatter",
    "FNFT.C54_man_scatter_rejects"
   ],
   "note": ""
  },
  {
   "property": "C55",
   "status": "proved",
   "theorems": [
    "FNFT.C55_man_scatter_conservation",
    "FNFT.C55_man_scatter_focusing"
   ],
   "note": ""
  },
  {
   "property": "C56",
   "status": "proved",
   "theorems": [
    "FNFT.C56_preprocess",
    "FNFT.C56_lambda_to_z",
    "FNFT.C56_roundtrip_z",
    "FNFT.C56_roundtrip_lambda",
    "FNFT.C56_phase_factors",
    "FNFT.C56_rejects"
   ],
   "note": ""
  },
  {
   "property": "C57",
   "status": "proved",
   "theorems": [
    "FNFT.C57_continuous_spectrum",
    "FNFT.C57_any_request",
    "FNFT.C57_rejects"
   ],
   "note": ""
  },
  {
   "property": "C58",
   "status": "proved",
   "theorems": [
    "FNFT.C58_bound_states",
    "FNFT.C58_both",
    "FNFT.C58_exact_roots",
    "FNFT.C58_slow"
   ],
   "note": ""
  },
  {
   "property": "C59",
   "status": "proved",
   "theorems": [
    "FNFT.C59_richardson",
    "FNFT.C59_removes_leading_error"
   ],
   "note": ""
  },
  {
   "property": "C60",
   "status": "proved",
   "theorems": [
    "FNFT.C60_gridsearch",
    "FNFT.C60_auto",
    "FNFT.C60_not_missed",
    "FNFT.C60_aux_not_missed",
    "FNFT.C60_near",
    "FNFT.C60_in_box"
   ],
   "note": ""
  },
  {
   "property": "C61",
   "status": "proved",
   "theorems": [
    "FNFT.C61_newton",
    "FNFT.C61_exact",
    "FNFT.C61_double",
    "FNFT.C61_budget",
    "FNFT.C61_in_box",
    "FNFT.C61_fast"
   ],
   "note": ""
  },
  {
   "property": "C62",
   "status": "proved",
   "theorems": [
    "FNFT.C62_subsample",
    "FNFT.C62_candidates",
    "FNFT.C62_aux_candidates",
    "FNFT.C62_strip",
    "FNFT.C62_complete"
   ],
   "note": ""
  },
  {
   "property": "C63",
   "status": "proved",
   "theorems": [
    "FNFT.C63_mixed",
    "FNFT.C63_nonreal",
    "FNFT.C63_auto",
    "FNFT.C63_rejects",
    "FNFT.C63_unknown"
   ],
   "note": ""
  },
  {
   "property": "C64",
   "status": "proved",
   "theorems": [
    "FNFT.C64_grid",
    "FNFT.C64_odd",
    "FNFT.C64_rejects"
   ],
   "note": ""
  },
  {
   "property": "C65",
   "status": "proved",
   "theorems": [
    "FNFT.C65_interpolation",
    "FNFT.C65_focusing",
    "FNFT.C65_roundtrip",
    "FNFT.C65_roundtrip_modal"
   ],
   "note": ""
  },
  {
   "property": "C66",
   "status": "proved",
   "theorems": [
    "FNFT.C66_specfact",
    "FNFT.C66_rejects",
    "FNFT.C66_monomial",
    "FNFT.C66_off_by_one"
   ],
   "note": ""
  },
  {
   "property": "C67",
   "status": "proved",
   "theorems": [
    "FNFT.C67_data_unique",
    "FNFT.C67_soliton",
    "FNFT.C67_one_soliton"
   ],
   "note": ""
  },
  {
   "property": "C68",
   "status": "proved",
   "theorems": [
    "FNFT.C68_seed",
    "FNFT.C68_mixed"
   ],
   "note": ""
  },
  {
   "property": "C69",
   "status": "proved",
   "theorems": [
    "FNFT.C69_cell_coefficient",
    "FNFT.C69_mixed_residues",
    "FNFT.C69_seed_residues",
    "FNFT.C69_soliton_residues"
   ],
   "note": ""
  },
  {
   "property": "C70",
   "status": "proved",
   "theorems": [
    "FNFT.C70_rejects",
    "FNFT.C70_multiple",
    "FNFT.C70_multiple_undetected"
   ],
   "note": ""
  },
  {
   "property": "C71",
   "status": "proved",
   "theorems": [
    "FNFT.C71_b_of_xi",
    "FNFT.C71_b_of_tau",
    "FNFT.C71_b_of_tau_rejects",
    "FNFT.C71_single"
   ],
   "note": ""
  },
  {
   "property": "C72",
   "status": "proved",
   "theorems": [
    "FNFT.C72_iteration",
    "FNFT.C72_modulus",
    "FNFT.C72_fixed_point",
    "FNFT.C72_rejects",
    "FNFT.C72_unique",
    "FNFT.C72_single"
   ],
   "note": ""
  },
  {
   "property": "C73",
   "status": "proved",
   "theorems": [
    "FNFT.C73_norming_constants",
    "FNFT.C73_both_used",
    "FNFT.C73_both",
    "FNFT.C73_residues",
    "FNFT.C73_residues_overflow",
    "FNFT.C73_residues_uninitialised",
    "FNFT.C73_both_null"
   ],
   "note": ""
  },
  {
   "property": "C74",
   "status": "proved",
   "theorems": [
    "FNFT.C74_continuous",
    "FNFT.C74_norming_constants",
    "FNFT.C74_both_used",
    "FNFT.C74_both",
    "FNFT.C74_residues_overflow",
    "FNFT.C74_residues_uninitialised",
    "FNFT.C74_both_null"
   ],
   "note": ""
  },
  {
   "property": "C75",
   "status": "proved",
   "theorems": [
    "FNFT.C75_scattering_exists",
    "FNFT.C75_first_order",
    "FNFT.C75_second_order",
    "FNFT.C75_bounds_vanish"
   ],
   "note": ""
  },
  {
   "property": "C76",
   "status": "proved",
   "theorems": [
    "FNFT.C76_bound_states"
   ],
   "note": ""
  },
  {
   "property": "C77",
   "status": "proved",
   "theorems": [
    "FNFT.C77_scattering_exists",
    "FNFT.C77_first_order",
    "FNFT.C77_second_order",
    "FNFT.C77_bounds_vanish"
   ],
   "note": ""
  },
  {
   "property": "C78",
   "status": "proved",
   "theorems": [
    "FNFT.C78_monodromy_exists",
    "FNFT.C78_floquet",
    "FNFT.C78_candidates",
    "FNFT.C78_main_spectrum",
    "FNFT.C78_modal_coeffs"
   ],
   "note": ""
  },
  {
   "property": "C79",
   "status": "proved",
   "theorems": [
    "FNFT.C79_exists",
    "FNFT.C79_continuous_spectrum",
    "FNFT.C79_norming_constant"
   ],
   "note": ""
  },
  {
   "property": "C80",
   "status": "proved",
   "theorems": [
    "FNFT.C80_scattering_exists",
    "FNFT.C80_first_order",
    "FNFT.C80_second_order",
    "FNFT.C80_floor"
   ],
   "note": ""
  },
  {
   "property": "C81",
   "status": "proved",
   "theorems": [
    "FNFT.C81_finvscatter",
    "FNFT.C81_medium",
    "FNFT.C81_roundtrip_modal",
    "FNFT.C81_errors",
    "FNFT.C81_stack_overrun",
    "FNFT.C81_split2A_first"
   ],
   "note": ""
  },
  {
   "property": "C82",
   "status": "proved",
   "theorems": [
    "FNFT.Res.C82_run",
    "FNFT.Res.C82_not_safe",
    "FNFT.Res.C82_safe_polyChirpz",
    "FNFT.Res.C82_safe_polyFmult",
    "FNFT.Res.C82_safe_polyFmultMat",
    "FNFT.Res.C82_safe_polySpecfact",
    "FNFT.Res.C82_safe_miscDownsample",
    "FNFT.Res.C82_safe_miscResample",
    "FNFT.Res.C82_safe_aknsFscatter",
    "FNFT.Res.C82_safe_manFscatter",
    "FNFT.Res.C82_safe_fftGridsearch",
    "FNFT.Res.C82_safe_methodWeights",
    "FNFT.Res.C82_safe_aknsScatterMatrix",
    "FNFT.Res.C82_safe_finvscatter",
    "FNFT.Res.C82_safe_nsevBase",
    "FNFT.Res.C82_safe_manakovvBase",
    "FNFT.Res.C82_safe_nsevBoundstates",
    "FNFT.Res.C82_safe_kdvvBoundstates",
    "FNFT.Res.C82_safe_fnftKdvv",
    "FNFT.Res.C82_safe_nsepGridsearch",
    "FNFT.Res.C82_safe_nsepNewton",
    "FNFT.Res.C82_safe_fnftNsevInverse",
    "FNFT.Res.C82_safe_invTfMatrix",
    "FNFT.Res.C82_safe_invTfMatrixIter",
    "FNFT.Res.C82_garbage_polyFmultOne",
    "FNFT.Res.C82_except_aknsPreprocess",
    "FNFT.Res.C82_leak_aknsPreprocess",
    "FNFT.Res.C82_except_manPreprocess",
    "FNFT.Res.C82_fault_manPreprocess",
    "FNFT.Res.C82_leak_manPreprocess",
    "FNFT.Res.C82_hide_manPreprocess",
    "FNFT.Res.C82_except_aknsScatterBoundStates",
    "FNFT.Res.C82_fault_aknsScatterBoundStates",
    "FNFT.Res.C82_except_nsevContspec",
    "FNFT.Res.C82_leak_nsevContspec",
    "FNFT.Res.C82_except_kdvvContspec",
    "FNFT.Res.C82_leak_kdvvContspec",
    "FNFT.Res.C82_except_manakovvContspec",
    "FNFT.Res.C82_leak_manakovvContspec",
    "FNFT.Res.C82_except_normconsts",
    "FNFT.Res.C82_leak_normconsts",
    "FNFT.Res.C82_except_fnftNsev",
    "FNFT.Res.C82_fault_fnftNsev",
    "FNFT.Res.C82_except_fnftManakovv",
    "FNFT.Res.C82_fault_fnftManakovv",
    "FNFT.Res.C82_except_fnftNsep",
    "FNFT.Res.C82_leak_fnftNsep",
    "FNFT.Res.C82_except_nsepSubsample",
    "FNFT.Res.C82_leak_nsepSubsample",
    "FNFT.Res.C82_hide_nsepSubsample",
    "FNFT.Res.C82_except_invAddDiscrete",
    "FNFT.Res.C82_leak_invAddDiscrete"
   ],
   "note": ""
  },
  {
   "property": "C83",
   "status": "proved",
   "theorems": [
    "FNFT.C83_exists",
    "FNFT.C83_continuous_spectrum"
   ],
   "note": ""
  },
  {
   "property": "C84",
   "status": "proved",
   "theorems": [
    "FNFT.C84_nsev",
    "FNFT.C84_nsev_rejects",
    "FNFT.C84_nsev_single",
    "FNFT.C84_inverse",
    "FNFT.C84_inverse_rejects",
    "FNFT.C84_kdvv",
    "FNFT.C84_kdvv_rejects",
    "FNFT.C84_kdvv_single",
    "FNFT.C84_manakovv",
    "FNFT.C84_manakovv_help_text",
    "FNFT.C84_manakovv_rejects",
    "FNFT.C84_nsep",
    "FNFT.C84_nsep_rejects",
    "FNFT.C84_nsep_empty",
    "FNFT.C84_nsev_end_to_end",
    "FNFT.C84_inverse_XI",
    "FNFT.C84_inverse_XI_error",
    "FNFT.C84_inverse_XI_rejects",
    "FNFT.C84_inverse_XI_one",
    "FNFT.C84_version",
    "FNFT.C84_mex_version"
   ],
   "note": ""
  },
  {
   "property": "C85",
   "status": "proved",
   "theorems": [
    "FNFT.C85_entries",
    "FNFT.C85_candidates",
    "FNFT.C85_aux_spectrum",
    "FNFT.C85_const_coeffs",
    "FNFT.C85_degenerate_splittings",
    "FNFT.C85_degenerate"
   ],
   "note": ""
  },
  {
   "property": "C86",
   "status": "proved",
   "theorems": [
    "FNFT.C86_bound_states",
    "FNFT.C86_subsampled"
   ],
   "note": ""
  }
 ]
}