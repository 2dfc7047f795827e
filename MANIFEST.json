{
 "claims": [
  {
   "property": "C01",
   "status": "proved",
   "theorems": [
    "SF.C01_LM_layout",
    "SF.C01_LM_index_bijOn",
    "SF.C01_negative_ell_min_out_of_bounds"
   ],
   "note": "the last theorem shows why ell_min>=0 is needed"
  },
  {
   "property": "C02",
   "status": "proved",
   "theorems": [
    "SF.C02_deduce_ell_max",
    "SF.C02_deduce_round_trip"
   ],
   "note": ""
  },
  {
   "property": "C03",
   "status": "proved",
   "theorems": [
    "SF.C03_LMpM_layout",
    "SF.C03_LMpM_index_bijOn",
    "SF.C03_divisions_exact"
   ],
   "note": ""
  },
  {
   "property": "C04",
   "status": "proved",
   "theorems": [
    "SF.C04_half_integer_layout",
    "SF.C04_Wigner_index_row",
    "SF.C04_Wigner_index_bijOn"
   ],
   "note": ""
  },
  {
   "property": "C05",
   "status": "proved",
   "theorems": [
    "SF.C05_offsets_agree",
    "SF.C05_block_size"
   ],
   "note": ""
  },
  {
   "property": "C06",
   "status": "proved",
   "theorems": [
    "SF.C06_factorial",
    "SF.C06_factorial_wraps",
    "SF.C06_binomial",
    "SF.C06_binomial_overrun",
    "SF.C06_ladder"
   ],
   "note": "tables modelled by their generator for every limit L"
  },
  {
   "property": "C07",
   "status": "proved",
   "theorems": [
    "SF.C07_Wigner_coefficient"
   ],
   "note": "for every table limit L"
  },
  {
   "property": "C08",
   "status": "proved",
   "theorems": [
    "SF.C08_index_check",
    "SF.C08_index_check_single",
    "SF.C08_parity_not_checked",
    "SF.C08_rounding",
    "SF.C08_rounding_list"
   ],
   "note": "all unit rotors (also in the epsilon neighbourhoods), all integer triples; for every table limit L"
  },
  {
   "property": "C09",
   "status": "proved",
   "theorems": [
    "SF.C09_triples",
    "SF.C09_ells",
    "SF.C10_Wigner_D_element",
    "SF.C09_single_ell_fails",
    "SF.C09_parts_with_numbers_fail"
   ],
   "note": ""
  },
  {
   "property": "C10",
   "status": "proved",
   "theorems": [
    "SF.C10_Wigner_D_element",
    "SF.C09_triples",
    "SF.C57_flag_off_gives_zero"
   ],
   "note": "exact arithmetic"
  },
  {
   "property": "C11",
   "status": "proved",
   "theorems": [
    "SF.C11_shortcut_error"
   ],
   "note": "bound (2 ell+3) epsilon for the single-element call"
  },
  {
   "property": "C12",
   "status": "proved",
   "theorems": [
    "SF.C12_representation",
    "SF.C12_closed_form",
    "SF.C12_every_rotor"
   ],
   "note": "exact at rotors outside the punctured epsilon-neighbourhoods of the poles; at every unit rotor within the stated multiple of epsilon"
  },
  {
   "property": "C13",
   "status": "proved",
   "theorems": [
    "SF.C13_identity",
    "SF.C13_z_rotation",
    "SF.C13_double_cover",
    "SF.C13_double_cover_every_rotor"
   ],
   "note": "double cover exact at every unit rotor"
  },
  {
   "property": "C14",
   "status": "proved",
   "theorems": [
    "SF.C14_inverse",
    "SF.C14_unitary",
    "SF.C14_bound",
    "SF.C14_conjugate",
    "SF.C14_every_rotor",
    "SF.C14_unitary_every_rotor"
   ],
   "note": "as C12"
  },
  {
   "property": "C15",
   "status": "proved",
   "theorems": [
    "SF.C15_euler",
    "SF.C15_every_angle"
   ],
   "note": "exact Euler form at all angles"
  },
  {
   "property": "C16",
   "status": "proved",
   "theorems": [
    "SF.C16_Wigner_D_matrices",
    "SF.C16_non_integer_rejected",
    "SF.C61_Wigner_D_matrices"
   ],
   "note": "agreement with Wigner_D_element for every unit rotor; equality with the D function outside the open epsilon-neighbourhoods, C61 bounds the error inside"
  },
  {
   "property": "C17",
   "status": "proved",
   "theorems": [
    "SF.C17_array_of_rotors"
   ],
   "note": "every unit rotor"
  },
  {
   "property": "C18",
   "status": "proved",
   "theorems": [
    "SF.C18_SWSH",
    "SF.C61_SWSH"
   ],
   "note": "D is what Wigner_D_element returns, for every unit rotor; C61 bounds the distance from the mathematical harmonic"
  },
  {
   "property": "C19",
   "status": "proved",
   "theorems": [
    "SF.C19_SWSH_array",
    "SF.C19_SWSH_grid",
    "SF.C19_SWSH_grid_empty",
    "SF.C19_SWSH_rejected"
   ],
   "note": "also which argument combinations are rejected"
  },
  {
   "property": "C20",
   "status": "proved",
   "theorems": [
    "SF.C20_conjugate",
    "SF.sYlm_conj",
    "SF.C20_every_rotor"
   ],
   "note": "as C12"
  },
  {
   "property": "C21",
   "status": "proved",
   "theorems": [
    "SF.C21_spin",
    "SF.C21_rotation",
    "SF.sYlm_spin",
    "SF.sYlm_rotate",
    "SF.C21_spin_every_rotor",
    "SF.C21_rotation_every_rotor"
   ],
   "note": "spin behaviour exact at every unit rotor; rotation as C12"
  },
  {
   "property": "C22",
   "status": "proved",
   "theorems": [
    "SF.C22_addition",
    "SF.sYlm_addition",
    "SF.C22_every_rotor"
   ],
   "note": "as C12"
  },
  {
   "property": "C23",
   "status": "proved",
   "theorems": [
    "SF.C23_construct",
    "SF.C23_reject_length",
    "SF.C23_reject_args",
    "SF.C23_zero_dim",
    "SF.WF_iff_constructed"
   ],
   "note": "all ways of passing the arguments; 0-d input gives IndexError instead of ValueError (C23_zero_dim)"
  },
  {
   "property": "C24",
   "status": "proved",
   "theorems": [
    "SF.C24_view_zeroes_caller",
    "SF.C24_copy"
   ],
   "note": "a side effect of the code on its argument, proved to be present"
  },
  {
   "property": "C25",
   "status": "proved",
   "theorems": [
    "SF.C25_closure",
    "SF.C25_wf",
    "SF.C25_misaligned_views"
   ],
   "note": "C25_misaligned_views shows why views must start at the same slot"
  },
  {
   "property": "C26",
   "status": "proved",
   "theorems": [
    "SF.C26_index",
    "SF.C26_index_injective"
   ],
   "note": ""
  },
  {
   "property": "C27",
   "status": "proved",
   "theorems": [
    "SF.C27_truncate"
   ],
   "note": ""
  },
  {
   "property": "C28",
   "status": "proved",
   "theorems": [
    "SF.C28_conjugate",
    "SF.C28_modes",
    "SF.C28_inplace",
    "SF.C28_involution",
    "SF.C28_every_rotor"
   ],
   "note": "exact outside the punctured epsilon-neighbourhoods of the poles; at every unit rotor up to the evaluation error of C61"
  },
  {
   "property": "C29",
   "status": "proved",
   "theorems": [
    "SF.C29_real_imag",
    "SF.C29_decompose",
    "SF.C29_self_conjugate",
    "SF.C29_inplace",
    "SF.C29_reject",
    "SF.C29_every_rotor"
   ],
   "note": "as C28"
  },
  {
   "property": "C30",
   "status": "proved",
   "theorems": [
    "SF.C30_add",
    "SF.C30_reject",
    "SF.C30_add_comm"
   ],
   "note": "objects with at least one mode; every unit rotor"
  },
  {
   "property": "C31",
   "status": "proved",
   "theorems": [
    "SF.C31_scale",
    "SF.C31_reject",
    "SF.C31_add_scalar"
   ],
   "note": "exact arithmetic; division by zero is not modelled; every unit rotor"
  },
  {
   "property": "C32",
   "status": "proved",
   "theorems": [
    "SF.C32_product",
    "SF.C32_no_exception",
    "SF.C32_default_ell_max",
    "SF.C32_comm",
    "SF.C32_linear",
    "SF.C32_truncation",
    "SF.C32_rejected",
    "SF.C32_function_rejected"
   ],
   "note": "ell_max_f+ell_max_g <= 151 (32-bit coefficients); a product may raise ZeroDivisionError only as in C47"
  },
  {
   "property": "C33",
   "status": "proved",
   "theorems": [
    "SF.C33_pointwise",
    "SF.C33_multiply",
    "SF.C33_every_rotor"
   ],
   "note": "as C28; array version for all unit rotors"
  },
  {
   "property": "C34",
   "status": "proved",
   "theorems": [
    "SF.C34_norm",
    "SF.C34_homogeneous",
    "SF.C34_triangle",
    "SF.C34_conjugate",
    "SF.C34_rotation",
    "SF.C34_absolute",
    "SF.C34_every_rotor"
   ],
   "note": "C34_absolute records that np.absolute is elementwise; rotation as C28"
  },
  {
   "property": "C35",
   "status": "proved",
   "theorems": [
    "SF.C35_preserve",
    "SF.C35_Lz_Lplus",
    "SF.C35_Lz_Lminus",
    "SF.C35_Lplus_Lminus",
    "SF.C35_Lsquared",
    "SF.C35_Lsquared_comm",
    "SF.C35_eigenvalues"
   ],
   "note": ""
  },
  {
   "property": "C36",
   "status": "proved",
   "theorems": [
    "SF.C36_spin",
    "SF.C36_Rz_Rplus",
    "SF.C36_Rz_Rminus",
    "SF.C36_Rplus_Rminus",
    "SF.C36_Rsquared",
    "SF.C36_LR_commute"
   ],
   "note": ""
  },
  {
   "property": "C37",
   "status": "proved",
   "theorems": [
    "SF.C37_ethbar_eth",
    "SF.C37_commutator",
    "SF.C37_conjugate",
    "SF.C37_agree_NP"
   ],
   "note": ""
  },
  {
   "property": "C38",
   "status": "proved",
   "theorems": [
    "SF.C38_Lz",
    "SF.C38_Lplus",
    "SF.C38_Lminus",
    "SF.C38_Rz",
    "SF.C38_Rplus",
    "SF.C38_Rminus",
    "SF.C38_ethbar",
    "SF.C38_left_all_generators",
    "SF.C38_right_all_generators",
    "SF.isLeftLie_unique",
    "SF.isRightLie_unique"
   ],
   "note": "f(Q) is the value returned by evaluate; exp is the exponential of Mathlib's quaternions. The documented signs of Rplus and Rminus are wrong; the theorems state the signs the code has."
  },
  {
   "property": "C39",
   "status": "proved",
   "theorems": [
    "SF.C39_unary",
    "SF.C39_modes_modes",
    "SF.C39_modes_array",
    "SF.C39_array_modes",
    "SF.C39_passed",
    "SF.C39_other",
    "SF.C39_kwargs",
    "SF.push_old",
    "SF.push_new"
   ],
   "note": ""
  },
  {
   "property": "C40",
   "status": "proved",
   "theorems": [
    "SF.C40_add_disjoint",
    "SF.C40_iadd",
    "SF.C40_add_out_second",
    "SF.C40_add_size",
    "SF.C40_mul_disjoint",
    "SF.C40_mul_size",
    "SF.C40_imul_fails",
    "SF.C40_scalar_out_fails",
    "SF.C40_negative_plain",
    "SF.outRes_spec"
   ],
   "note": "several defects of the code, proved to be present"
  },
  {
   "property": "C41",
   "status": "proved",
   "theorems": [
    "SF.C41_constant_inverse",
    "SF.C41_vector_inverse",
    "SF.C41_constant_value",
    "SF.C41_vector_value",
    "SF.direction_spherical",
    "SF.C41_every_rotor"
   ],
   "note": "constants exact at every unit rotor; vectors as C28; complex vectors too"
  },
  {
   "property": "C42",
   "status": "proved",
   "theorems": [
    "SF.C42_eth_NP",
    "SF.C42_ethbar_NP",
    "SF.C42_eth_GHP",
    "SF.C42_ethbar_GHP"
   ],
   "note": "that the argument is left alone is in the model by construction: the functions work on np.copy(modes)"
  },
  {
   "property": "C43",
   "status": "proved",
   "theorems": [
    "SF.C43_inverse_of_ethbar",
    "SF.C43_ethbar_of_inverse",
    "SF.C43_low_modes_kept"
   ],
   "note": ""
  },
  {
   "property": "C44",
   "status": "proved",
   "theorems": [
    "SF.C44_new",
    "SF.C44_new_reject",
    "SF.C44_new_WF",
    "SF.C44_add_subtract",
    "SF.C44_spin_mismatch",
    "SF.C44_multiply_divide",
    "SF.C44_shape_mismatch",
    "SF.C44_unary",
    "SF.C44_unary_enough",
    "SF.C44_methods",
    "SF.C44_sqrt_power",
    "SF.C44_scalar_products",
    "SF.C44_scalar_sums",
    "SF.C44_ufunc_WF",
    "SF.C44_out",
    "SF.C44_unsupported",
    "SF.C44_array_rejected"
   ],
   "note": ""
  },
  {
   "property": "C45",
   "status": "proved",
   "theorems": [
    "SF.C45_too_few_points",
    "SF.C45_undefined_names"
   ],
   "note": "these are defects of the code, proved to be present"
  },
  {
   "property": "C46",
   "status": "proved",
   "theorems": [
    "SF.C46_Wigner3j_zero",
    "SF.C46_calculate_zero"
   ],
   "note": ""
  },
  {
   "property": "C47",
   "status": "proved",
   "theorems": [
    "SF.C47_new",
    "SF.C47_memory_safe",
    "SF.C47_reachable",
    "SF.C47_history",
    "SF.C47_outcome",
    "SF.C47_exceptions",
    "SF.C47_growing_zero_location",
    "SF.C47_growing_zero_large",
    "SF.C47_returns",
    "SF.C47_returns_small",
    "SF.C47_stretched"
   ],
   "note": "whether a growing zero exists at all for larger j2, j3 is open (a search found none)"
  },
  {
   "property": "C48",
   "status": "proved",
   "theorems": [
    "SF.C48_values",
    "SF.C48_values_of_fits",
    "SF.C48_Wigner3j"
   ],
   "note": ""
  },
  {
   "property": "C49",
   "status": "proved",
   "theorems": [
    "SF.C49_cyclic",
    "SF.C49_swap",
    "SF.C49_neg",
    "SF.C49_orthogonality_m",
    "SF.C49_orthogonality_j",
    "SF.C49_clebsch_gordan",
    "SF.C49_clebsch_gordan_orthonormal"
   ],
   "note": ""
  },
  {
   "property": "C50",
   "status": "proved",
   "theorems": [
    "SF.C50_no_overflow",
    "SF.C50_overflow"
   ],
   "note": "C50_overflow shows that the coefficient does wrap for larger arguments"
  },
  {
   "property": "C51",
   "status": "proved",
   "theorems": [
    "SF.C51_complex_powers",
    "SF.C51_M_zero_out_of_bounds",
    "SF.C51_documented_buffer_rejected"
   ],
   "note": ""
  },
  {
   "property": "C52",
   "status": "proved",
   "theorems": [
    "SF.C52_wedge_index_bijOn",
    "SF.C52_wedgeify"
   ],
   "note": ""
  },
  {
   "property": "C53",
   "status": "proved",
   "theorems": [
    "SF.C53_nabsm_index",
    "SF.C53_nm_nmpm_index"
   ],
   "note": ""
  },
  {
   "property": "C54",
   "status": "proved",
   "theorems": [
    "SF.C54_safe",
    "SF.C54_history_independent",
    "SF.C54_n_max_zero",
    "SF.C54_errors"
   ],
   "note": "arguments are cosines and sines of angles; outOfBounds means that numba would touch other memory"
  },
  {
   "property": "C55",
   "status": "proved",
   "theorems": [
    "SF.C55_quaternion_angles",
    "SF.C55_euler",
    "SF.C55_singular"
   ],
   "note": ""
  },
  {
   "property": "C56",
   "status": "proved",
   "theorems": [
    "SF.C56_theta_phi",
    "SF.C56_limits"
   ],
   "note": ""
  },
  {
   "property": "C57",
   "status": "proved",
   "theorems": [
    "SF.C57_error_switch_ineffective",
    "SF.C57_flag_off_gives_zero"
   ],
   "note": ""
  },
  {
   "property": "C58",
   "status": "proved",
   "theorems": [
    "SF.C58_single_number",
    "SF.C58_misaligned",
    "SF.C58_rejected"
   ],
   "note": "the array case is a defect of the code, proved to be present"
  },
  {
   "property": "C59",
   "status": "proved",
   "theorems": [
    "SF.C59_H_values",
    "SF.C59_H_values_default"
   ],
   "note": "exact real arithmetic"
  },
  {
   "property": "C60",
   "status": "proved",
   "theorems": [
    "SF.C60_full_H_values"
   ],
   "note": "exact real arithmetic"
  },
  {
   "property": "C61",
   "status": "proved",
   "theorems": [
    "SF.C61_bound",
    "SF.C61_Wigner_D_matrices",
    "SF.C61_array_of_rotors",
    "SF.C61_SWSH",
    "SF.C61_SWSH_array",
    "SF.C61_SWSH_grid",
    "SF.C61_evaluate"
   ],
   "note": "exact real arithmetic; outside the open neighbourhoods the error is zero (C10, C16-C19)"
  },
  {
   "property": "C62",
   "status": "proved",
   "theorems": [
    "SF.C62_LM_index",
    "SF.C62_LM_total_size",
    "SF.C62_LMpM_index",
    "SF.C62_LMpM_total_size",
    "SF.C62_linear_matrix",
    "SF.C62_Wigner_index",
    "SF.C62_wedge",
    "SF.C62_LM_sharp",
    "SF.C62_LMpM_sharp",
    "SF.C62_Wigner_index_sharp",
    "SF.C62_wedge_sharp"
   ],
   "note": "the *_sharp theorems are the counterexamples one step beyond the limits"
  },
  {
   "property": "C63",
   "status": "proved",
   "theorems": [
    "SF.C63_deduce_rounded",
    "SF.C63_deduce_ell_max"
   ],
   "note": "the rounding is any function satisfying IsRounding"
  },
  {
   "property": "C64",
   "status": "proved",
   "theorems": [
    "SF.C64_shape",
    "SF.C64_too_few",
    "SF.C64_values",
    "SF.C64_conjugate",
    "SF.C64_add_subtract",
    "SF.C64_multiply"
   ],
   "note": "spinsfast.salm2map is any function with the contract IsSalm2map, which is shown to be satisfiable"
  },
  {
   "property": "C65",
   "status": "proved",
   "theorems": [
    "SF.C65_round_trip",
    "SF.C65_setstate",
    "SF.C65_view",
    "SF.C65_frame",
    "SF.C65_history",
    "SF.C65_independent"
   ],
   "note": "state machine of Model/ModesHeap.lean"
  },
  {
   "property": "C66",
   "status": "proved",
   "theorems": [
    "SF.C66_rotate",
    "SF.C66_rotate_never",
    "SF.C66_rotate_shape",
    "SF.C66_legendre",
    "SF.C66_rotate_formula"
   ],
   "note": "defects of the code, proved to be present"
  },
  {
   "property": "C67",
   "status": "proved",
   "theorems": [
    "SF.C67_recursions_agree",
    "SF.C67_powers"
   ],
   "note": "exact real arithmetic"
  },
  {
   "property": "C68",
   "status": "proved",
   "theorems": [
    "SF.C68_homogeneous",
    "SF.C68_normalisation_error",
    "SF.C68_axis"
   ],
   "note": "exact real arithmetic"
  },
  {
   "property": "C69",
   "status": "proved",
   "theorems": [
    "SF.C69_away_from_poles",
    "SF.C69_every_unit_rotor",
    "SF.C69_bound",
    "SF.C69_double"
   ],
   "note": "standard model of floating-point arithmetic (no overflow or underflow); the kernel behind the single-element and list-of-indices calls"
  },
  {
   "property": "C70",
   "status": "proved",
   "theorems": [
    "SF.C70_away_from_poles",
    "SF.C70_every_unit_rotor",
    "SF.C70_array",
    "SF.C70_grid",
    "SF.C70_evaluate",
    "SF.C70_bound",
    "SF.C70_double"
   ],
   "note": "standard model of floating-point arithmetic (no overflow or underflow)"
  },
  {
   "property": "C71",
   "status": "proved",
   "theorems": [
    "SF.C71_select",
    "SF.C71_getitem",
    "SF.C71_methods",
    "SF.C71_two_objects",
    "SF.C71_broadcast",
    "SF.C71_numbers",
    "SF.C71_add_numbers"
   ],
   "note": "addition of numbers: for calls that return"
  },
  {
   "property": "C72",
   "status": "proved",
   "theorems": [
    "SF.C72_mode_slice",
    "SF.C72_evaluate",
    "SF.C72_one_mode"
   ],
   "note": "negative findings: where indexing gives inconsistent objects"
  },
  {
   "property": "C73",
   "status": "proved",
   "theorems": [
    "SF.C73_at_never_changes",
    "SF.C73_at_calls",
    "SF.C73_reductions",
    "SF.C73_outer_reduceat",
    "SF.C73_any_all",
    "SF.C73_grid"
   ],
   "note": "negative findings; numpy's own argument checks and the effect of methods of the ufuncs that are passed on are not described"
  },
  {
   "property": "C74",
   "status": "proved",
   "theorems": [
    "SF.C74_matrices",
    "SF.C74_array",
    "SF.C74_bound",
    "SF.C74_double"
   ],
   "note": "no underflow or overflow; complex powers accurate to w"
  },
  {
   "property": "C75",
   "status": "proved",
   "theorems": [
    "SF.C75_assign",
    "SF.C75_shape",
    "SF.C75_below",
    "SF.C75_positive",
    "SF.C75_ignored",
    "SF.C75_add",
    "SF.C75_multiply",
    "SF.C75_evaluate",
    "SF.C75_kept",
    "SF.C75_norm"
   ],
   "note": "the product statement assumes that no 3-j row divides by zero (see C32)"
  },
  {
   "property": "C76",
   "status": "proved",
   "theorems": [
    "SF.C76_inplace",
    "SF.C76_conjugate",
    "SF.C76_loop",
    "SF.C76_set",
    "SF.C76_set_single",
    "SF.C76_set_rejected",
    "SF.C76_iadd"
   ],
   "note": "views are injective selections of leading indices; numpy's rule which keys give views is not modelled"
  },
  {
   "property": "C77",
   "status": "proved",
   "theorems": [
    "SF.C77_accepts",
    "SF.C77_rejects",
    "SF.C77_zero_dim",
    "SF.C77_with_ell_max",
    "SF.C77_float64",
    "SF.C77_float32",
    "SF.C77_misread"
   ],
   "note": "arrays are C-contiguous; the number encoded by given bytes is a parameter"
  },
  {
   "property": "C78",
   "status": "proved",
   "theorems": [
    "SF.C78_every_rotor",
    "SF.C78_double"
   ],
   "note": "the single-element and list-of-indices kernel; the accuracy of each operation (including libm functions) is a hypothesis, shown to hold for correctly rounded double precision"
  },
  {
   "property": "C79",
   "status": "proved",
   "theorems": [
    "SF.C79_ells",
    "SF.C79_ells_pole",
    "SF.C79_array_of_rotors",
    "SF.C79_Wigner_D_matrices",
    "SF.C79_SWSH",
    "SF.C79_SWSH_array",
    "SF.C79_SWSH_grid",
    "SF.C79_evaluate"
   ],
   "note": "the model reports the first read outside the table as an error; what the compiled code then computes is not modelled"
  },
  {
   "property": "C80",
   "status": "proved",
   "theorems": [
    "SF.C80_complex_powers",
    "SF.C80_double"
   ],
   "note": "no underflow; powers of i are exact; the accuracy of each operation (including the complex square root in the first quadrant) is a hypothesis, shown to hold for correct rounding to 53 bits"
  },
  {
   "property": "C81",
   "status": "proved",
   "theorems": [
    "SF.C81_modes",
    "SF.C81_all_equal",
    "SF.C81_spin_ignored",
    "SF.C81_different_ell_max",
    "SF.C81_array_modes",
    "SF.C81_grids",
    "SF.C81_order",
    "SF.C81_array_grid",
    "SF.C81_type_errors"
   ],
   "note": "finite numbers; calls of the ufuncs without keywords (what the operators == etc. do with the exceptions depends on the numpy version)"
  },
  {
   "property": "C82",
   "status": "proved",
   "theorems": [
    "SF.C82_orthonormal",
    "SF.C82_inner",
    "SF.C82_norm",
    "SF.C82_projection",
    "SF.C82_unique",
    "SF.C82_bound"
   ],
   "note": "integrals of the returned values in exact real arithmetic, with the error of the neighbourhoods of the poles (C61)"
  },
  {
   "property": "C83",
   "status": "proved",
   "theorems": [
    "SF.C83_computed",
    "SF.C83_differentiable",
    "SF.C83_eth",
    "SF.C83_ethbar",
    "SF.C83_Lz",
    "SF.C83_Lplus",
    "SF.C83_Lminus",
    "SF.C83_Lsquared"
   ],
   "note": "derivatives of the returned values, exact real arithmetic"
  },
  {
   "property": "C84",
   "status": "proved",
   "theorems": [
    "SF.C84_steps",
    "SF.C84_exclusive",
    "SF.C84_own_workspaces",
    "SF.C84_whole_calls",
    "SF.C84_shared_workspace",
    "SF.C84_wigner3j_shared"
   ],
   "note": "atomic steps are the compiled functions (global interpreter lock); exact real arithmetic"
  },
  {
   "property": "C85",
   "status": "proved",
   "theorems": [
    "SF.C85_evaluate",
    "SF.C85_grid",
    "SF.C85_grid_default",
    "SF.C85_aliasing",
    "SF.C85_rings"
   ],
   "note": "exact real arithmetic; spinsfast.salm2map assumed to be correct (IsSalm2map) for the grid theorems"
  },
  {
   "property": "C86",
   "status": "proved",
   "theorems": [
    "SF.C86_derivatives",
    "SF.C86_real",
    "SF.C86_real_fixed",
    "SF.C86_imag",
    "SF.C86_add",
    "SF.C86_add_comm",
    "SF.C86_sub_self",
    "SF.C86_scale",
    "SF.C86_divide",
    "SF.C86_norm",
    "SF.C86_errors"
   ],
   "note": "standard model of rounding (no underflow or overflow); the sum in norm by its error bound"
  },
  {
   "property": "C87",
   "status": "proved",
   "theorems": [
    "SF.C87_every_rotor",
    "SF.C87_array",
    "SF.C87_grid",
    "SF.C87_evaluate",
    "SF.C87_double"
   ],
   "note": "the accuracy of each operation (including libm functions and the inner product) is a hypothesis, shown to hold for correctly rounded double precision with binary powering and sequential sums"
  },
  {
   "property": "C88",
   "status": "proved",
   "theorems": [
    "SF.C88_constant",
    "SF.C88_vector",
    "SF.C88_real_vector",
    "SF.C88_complex_vector",
    "SF.C88_eth",
    "SF.C88_inverse",
    "SF.C88_round_trips"
   ],
   "note": "standard model of rounding (no underflow or overflow), exact doubling and exact square roots of squares of integers up to a limit; division of a complex by a real number as at most two roundings per component"
  },
  {
   "property": "C89",
   "status": "proved",
   "theorems": [
    "SF.C89_product",
    "SF.C89_relative",
    "SF.C89_multiply"
   ],
   "note": "standard model of rounding (no underflow or overflow); the accuracy of the 3-j symbols (and that the calculators return) is a hypothesis, not derived from a rounding analysis of the 3-j recursion"
  },
  {
   "property": "C90",
   "status": "proved",
   "theorems": [
    "SF.C90_matrices",
    "SF.C90_array",
    "SF.C90_double"
   ],
   "note": "operations as in IEEE double precision with underflow; nothing assumed about results beyond the largest number; the accuracy of the library functions (pow, hypot, atan2, cos, sin) is a hypothesis"
  },
  {
   "property": "C91",
   "status": "proved",
   "theorems": [
    "SF.C91_safe",
    "SF.C91_history",
    "SF.C91_Wigner3j_selection",
    "SF.C91_normalised",
    "SF.C91_bound",
    "SF.C91_Wigner3j_bound",
    "SF.C91_clebsch_gordan_bound",
    "SF.C91_single",
    "SF.C91_zero_row",
    "SF.C91_Wigner3j_zero",
    "SF.C91_double"
   ],
   "note": "relative rounding only (no underflow or overflow); no accuracy claim for general rows with m2, m3 not both zero beyond normalisation and sign, as the property says; division of an array by zero stops the model and is proved impossible"
  },
  {
   "property": "C92",
   "status": "proved",
   "theorems": [
    "SF.C92_factorial",
    "SF.C92_factorial_23",
    "SF.C92_binomial",
    "SF.C92_binomial_57",
    "SF.C92_ladder",
    "SF.C92_Wigner_coefficient",
    "SF.C92_RoundedTable",
    "SF.C92_Wigner_D_element"
   ],
   "note": "the accuracy of the mpmath functions is a hypothesis; no overflow or underflow (none occurs for the shipped limit); the files in the package were produced with a conversion that truncates, see C97"
  },
  {
   "property": "C93",
   "status": "proved",
   "theorems": [
    "SF.C93_expression",
    "SF.C93_linear",
    "SF.C93_exact",
    "SF.C93_value",
    "SF.C93_evaluate"
   ],
   "note": "no overflow or underflow; the accuracy of the 3-j symbols is a hypothesis (C91)"
  },
  {
   "property": "C94",
   "status": "proved",
   "theorems": [
    "SF.C94_H_accuracy",
    "SF.C94_H_accuracy_default",
    "SF.C94_H_converges",
    "SF.C94_H_history",
    "SF.C94_H_errors"
   ],
   "note": "relative rounding only (no underflow or overflow); the error constant is far from sharp, so that in double precision the bound is qualitative"
  },
  {
   "property": "C95",
   "status": "proved",
   "theorems": [
    "SF.C95_incomplete",
    "SF.C95_negative_ell_min"
   ],
   "note": "one-dimensional arrays, as documented; ethbar_inverse_NP with a negative ell_min is not covered"
  },
  {
   "property": "C96",
   "status": "proved",
   "theorems": [
    "SF.C96_columns",
    "SF.C96_memory_order",
    "SF.C96_same_layout",
    "SF.C96_mixed_layout",
    "SF.C96_returns"
   ],
   "note": "arrays of more than two dimensions and strided views are left out"
  },
  {
   "property": "C97",
   "status": "proved",
   "theorems": [
    "SF.C97_lengths",
    "SF.C97_binomial",
    "SF.C97_ladder",
    "SF.C97_Wigner_coefficient",
    "SF.C97_RoundedTable",
    "SF.C97_Wigner_D_element",
    "SF.C97_not_exact",
    "SF.C97_ladder_not_nearest"
   ],
   "note": "the bytes of the .npy files are transcribed by tools/gen_tables.py; np.load and the file headers are not modelled. The quantifier is a finite table: the kernel evaluates the check on every entry, and a lemma proves what the check means"
  },
  {
   "property": "C98",
   "status": "proved",
   "theorems": [
    "SF.C98_Wigner_D_element",
    "SF.C98_Wigner_D_matrices",
    "SF.C98_SWSH",
    "SF.C98_grid",
    "SF.C98_evaluate",
    "SF.F64Y_double"
   ],
   "note": "library functions (pow, cos, sin, atan2, hypot, complex powers) within the stated errors; F64Y_double: correctly rounded IEEE doubles are an instance"
  },
  {
   "property": "C99",
   "status": "proved",
   "theorems": [
    "SF.C99_exists",
    "SF.C99_evaluate",
    "SF.C99_norm",
    "SF.C99_compose",
    "SF.C99_inverse",
    "SF.C99_operators",
    "SF.C99_conjugate",
    "SF.C99_product",
    "SF.C99_add",
    "SF.C99_scale",
    "SF.C99_truncate",
    "SF.C99_real_imag",
    "SF.C99_vector",
    "SF.C99_every_rotor"
   ],
   "note": "the sum over n is the user's program (RotatedBy), the package has no working rotation function (C66)"
  },
  {
   "property": "C100",
   "status": "proved",
   "theorems": [
    "SF.C100_assoc",
    "SF.C100_conjugate",
    "SF.C100_product_rule",
    "SF.C100_scalar_product",
    "SF.C100_norm"
   ],
   "note": "products as in C32: operands with ell_max >= 0 and sum at most 151, broadcastable leading shapes, and calls that return"
  },
  {
   "property": "C101",
   "status": "proved",
   "theorems": [
    "SF.C101_adjoint",
    "SF.C101_eth_adjoint",
    "SF.C101_conjugate",
    "SF.C101_kernel"
   ],
   "note": "scalarProduct is the sum over the modes; C82 identifies it with the integral over the sphere"
  },
  {
   "property": "C102",
   "status": "proved",
   "theorems": [
    "SF.C102_values",
    "SF.C102_every_rotor",
    "SF.C102_attained",
    "SF.C102_scalar_product",
    "SF.C102_operators",
    "SF.C102_operators_attained",
    "SF.C102_products"
   ],
   "note": "exact arithmetic; scalarProduct as in C101"
  },
  {
   "property": "C103",
   "status": "proved",
   "theorems": [
    "SF.C103_image",
    "SF.C103_eigenfunctions"
   ],
   "note": "exact arithmetic"
  },
  {
   "property": "C104",
   "status": "proved",
   "theorems": [
    "SF.C104_constant",
    "SF.C104_zero",
    "SF.C104_cancel"
   ],
   "note": "products as in C32 and C100; exact arithmetic"
  },
  {
   "property": "C105",
   "status": "proved",
   "theorems": [
    "SF.C105_identities",
    "SF.C105_lower"
   ],
   "note": "exact arithmetic; scalarProduct as in C101"
  },
  {
   "property": "C106",
   "status": "proved",
   "theorems": [
    "SF.C106_faithful",
    "SF.C106_collision"
   ],
   "note": "exact arithmetic"
  },
  {
   "property": "C107",
   "status": "proved",
   "theorems": [
    "SF.C107_character",
    "SF.C107_angle"
   ],
   "note": "exact arithmetic"
  },
  {
   "property": "C108",
   "status": "proved",
   "theorems": [
    "SF.C108_commutant"
   ],
   "note": "exact arithmetic"
  },
  {
   "property": "C109",
   "status": "proved",
   "theorems": [
    "SF.C109_SWSH",
    "SF.C109_evaluate"
   ],
   "note": "exact arithmetic"
  },
  {
   "property": "C110",
   "status": "proved",
   "theorems": [
    "SF.C110_SWSH",
    "SF.C110_evaluate",
    "SF.C110_symmetric"
   ],
   "note": "exact arithmetic"
  },
  {
   "property": "C111",
   "status": "proved",
   "theorems": [
    "SF.C111_fold",
    "SF.C111_reflection",
    "SF.C111_real"
   ],
   "note": "exact arithmetic"
  }
 ]
}