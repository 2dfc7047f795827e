C01 proved C01_LM_layout,C01_LM_index_bijOn,C01_negative_ell_min_out_of_bounds | the last theorem shows why ell_min>=0 is needed
C02 proved C02_deduce_ell_max,C02_deduce_round_trip |
C03 proved C03_LMpM_layout,C03_LMpM_index_bijOn,C03_divisions_exact |
C04 proved C04_half_integer_layout,C04_Wigner_index_row,C04_Wigner_index_bijOn |
C05 proved C05_offsets_agree,C05_block_size |
C06 proved C06_factorial,C06_factorial_wraps,C06_binomial,C06_binomial_overrun,C06_ladder | tables modelled by their generator for every limit L
C07 proved C07_Wigner_coefficient | for every table limit L
C08 proved C08_index_check,C08_index_check_single,C08_parity_not_checked,C08_rounding,C08_rounding_list | all unit rotors (also in the epsilon neighbourhoods), all integer triples; for every table limit L
C09 proved C09_triples,C09_ells,C10_Wigner_D_element,C09_single_ell_fails,C09_parts_with_numbers_fail |
C10 proved C10_Wigner_D_element,C09_triples,C57_flag_off_gives_zero | exact arithmetic
C11 proved C11_shortcut_error | bound (2 ell+3) epsilon for the single-element call
C12 proved C12_representation,C12_closed_form,C12_every_rotor | exact at rotors outside the punctured epsilon-neighbourhoods of the poles; at every unit rotor within the stated multiple of epsilon
C13 proved C13_identity,C13_z_rotation,C13_double_cover,C13_double_cover_every_rotor | double cover exact at every unit rotor
C14 proved C14_inverse,C14_unitary,C14_bound,C14_conjugate,C14_every_rotor,C14_unitary_every_rotor | as C12
C15 proved C15_euler,C15_every_angle | exact Euler form at all angles
C16 proved C16_Wigner_D_matrices,C16_non_integer_rejected,C61_Wigner_D_matrices | agreement with Wigner_D_element for every unit rotor; equality with the D function outside the open epsilon-neighbourhoods, C61 bounds the error inside
C17 proved C17_array_of_rotors | every unit rotor
C18 proved C18_SWSH,C61_SWSH | D is what Wigner_D_element returns, for every unit rotor; C61 bounds the distance from the mathematical harmonic
C19 proved C19_SWSH_array,C19_SWSH_grid,C19_SWSH_grid_empty,C19_SWSH_rejected | also which argument combinations are rejected
C20 proved C20_conjugate,sYlm_conj,C20_every_rotor | as C12
C21 proved C21_spin,C21_rotation,sYlm_spin,sYlm_rotate,C21_spin_every_rotor,C21_rotation_every_rotor | spin behaviour exact at every unit rotor; rotation as C12
C22 proved C22_addition,sYlm_addition,C22_every_rotor | as C12
C23 proved C23_construct,C23_reject_length,C23_reject_args,C23_zero_dim,WF_iff_constructed | all ways of passing the arguments; 0-d input gives IndexError instead of ValueError (C23_zero_dim)
C24 proved C24_view_zeroes_caller,C24_copy | a side effect of the code on its argument, proved to be present
C25 proved C25_closure,C25_wf,C25_misaligned_views | C25_misaligned_views shows why views must start at the same slot
C26 proved C26_index,C26_index_injective |
C27 proved C27_truncate |
C28 proved C28_conjugate,C28_modes,C28_inplace,C28_involution,C28_every_rotor | exact outside the punctured epsilon-neighbourhoods of the poles; at every unit rotor up to the evaluation error of C61
C29 proved C29_real_imag,C29_decompose,C29_self_conjugate,C29_inplace,C29_reject,C29_every_rotor | as C28
C30 proved C30_add,C30_reject,C30_add_comm | objects with at least one mode; every unit rotor
C31 proved C31_scale,C31_reject,C31_add_scalar | exact arithmetic; division by zero is not modelled; every unit rotor
C32 proved C32_product,C32_no_exception,C32_default_ell_max,C32_comm,C32_linear,C32_truncation,C32_rejected,C32_function_rejected | ell_max_f+ell_max_g <= 151 (32-bit coefficients); a product may raise ZeroDivisionError only as in C47
C33 proved C33_pointwise,C33_multiply,C33_every_rotor | as C28; array version for all unit rotors
C34 proved C34_norm,C34_homogeneous,C34_triangle,C34_conjugate,C34_rotation,C34_absolute,C34_every_rotor | C34_absolute records that np.absolute is elementwise; rotation as C28
C35 proved C35_preserve,C35_Lz_Lplus,C35_Lz_Lminus,C35_Lplus_Lminus,C35_Lsquared,C35_Lsquared_comm,C35_eigenvalues |
C36 proved C36_spin,C36_Rz_Rplus,C36_Rz_Rminus,C36_Rplus_Rminus,C36_Rsquared,C36_LR_commute |
C37 proved C37_ethbar_eth,C37_commutator,C37_conjugate,C37_agree_NP |
C38 proved C38_Lz,C38_Lplus,C38_Lminus,C38_Rz,C38_Rplus,C38_Rminus,C38_ethbar,C38_left_all_generators,C38_right_all_generators,isLeftLie_unique,isRightLie_unique | f(Q) is the value returned by evaluate; exp is the exponential of Mathlib's quaternions. The documented signs of Rplus and Rminus are wrong; the theorems state the signs the code has.
C39 proved C39_unary,C39_modes_modes,C39_modes_array,C39_array_modes,C39_passed,C39_other,C39_kwargs,push_old,push_new |
C40 proved C40_add_disjoint,C40_iadd,C40_add_out_second,C40_add_size,C40_mul_disjoint,C40_mul_size,C40_imul_fails,C40_scalar_out_fails,C40_negative_plain,outRes_spec | several defects of the code, proved to be present
C41 proved C41_constant_inverse,C41_vector_inverse,C41_constant_value,C41_vector_value,direction_spherical,C41_every_rotor | constants exact at every unit rotor; vectors as C28; complex vectors too
C42 proved C42_eth_NP,C42_ethbar_NP,C42_eth_GHP,C42_ethbar_GHP | that the argument is left alone is in the model by construction: the functions work on np.copy(modes)
C43 proved C43_inverse_of_ethbar,C43_ethbar_of_inverse,C43_low_modes_kept |
C44 proved C44_new,C44_new_reject,C44_new_WF,C44_add_subtract,C44_spin_mismatch,C44_multiply_divide,C44_shape_mismatch,C44_unary,C44_unary_enough,C44_methods,C44_sqrt_power,C44_scalar_products,C44_scalar_sums,C44_ufunc_WF,C44_out,C44_unsupported,C44_array_rejected |
C45 proved C45_too_few_points,C45_undefined_names | these are defects of the code, proved to be present
C46 proved C46_Wigner3j_zero,C46_calculate_zero |
C47 proved C47_new,C47_memory_safe,C47_reachable,C47_history,C47_outcome,C47_exceptions,C47_growing_zero_location,C47_growing_zero_large,C47_returns,C47_returns_small,C47_stretched | whether a growing zero exists at all for larger j2, j3 is open (a search found none)
C48 proved C48_values,C48_values_of_fits,C48_Wigner3j |
C49 proved C49_cyclic,C49_swap,C49_neg,C49_orthogonality_m,C49_orthogonality_j,C49_clebsch_gordan,C49_clebsch_gordan_orthonormal |
C50 proved C50_no_overflow,C50_overflow | C50_overflow shows that the coefficient does wrap for larger arguments
C51 proved C51_complex_powers,C51_M_zero_out_of_bounds,C51_documented_buffer_rejected |
C52 proved C52_wedge_index_bijOn,C52_wedgeify |
C53 proved C53_nabsm_index,C53_nm_nmpm_index |
C54 proved C54_safe,C54_history_independent,C54_n_max_zero,C54_errors | arguments are cosines and sines of angles; outOfBounds means that numba would touch other memory
C55 proved C55_quaternion_angles,C55_euler,C55_singular |
C56 proved C56_theta_phi,C56_limits |
C57 proved C57_error_switch_ineffective,C57_flag_off_gives_zero |
C58 proved C58_single_number,C58_misaligned,C58_rejected | the array case is a defect of the code, proved to be present
C59 proved C59_H_values,C59_H_values_default | exact real arithmetic
C60 proved C60_full_H_values | exact real arithmetic
C61 proved C61_bound,C61_Wigner_D_matrices,C61_array_of_rotors,C61_SWSH,C61_SWSH_array,C61_SWSH_grid,C61_evaluate | exact real arithmetic; outside the open neighbourhoods the error is zero (C10, C16-C19)
C62 proved C62_LM_index,C62_LM_total_size,C62_LMpM_index,C62_LMpM_total_size,C62_linear_matrix,C62_Wigner_index,C62_wedge,C62_LM_sharp,C62_LMpM_sharp,C62_Wigner_index_sharp,C62_wedge_sharp | the *_sharp theorems are the counterexamples one step beyond the limits
C63 proved C63_deduce_rounded,C63_deduce_ell_max | the rounding is any function satisfying IsRounding
C64 proved C64_shape,C64_too_few,C64_values,C64_conjugate,C64_add_subtract,C64_multiply | spinsfast.salm2map is any function with the contract IsSalm2map, which is shown to be satisfiable
C65 proved C65_round_trip,C65_setstate,C65_view,C65_frame,C65_history,C65_independent | state machine of Model/ModesHeap.lean
C66 proved C66_rotate,C66_rotate_never,C66_rotate_shape,C66_legendre,C66_rotate_formula | defects of the code, proved to be present
C67 proved C67_recursions_agree,C67_powers | exact real arithmetic
C68 proved C68_homogeneous,C68_normalisation_error,C68_axis | exact real arithmetic
C69 proved C69_away_from_poles,C69_every_unit_rotor,C69_bound,C69_double | standard model of floating-point arithmetic (no overflow or underflow); the kernel behind the single-element and list-of-indices calls
C70 proved C70_away_from_poles,C70_every_unit_rotor,C70_array,C70_grid,C70_evaluate,C70_bound,C70_double | standard model of floating-point arithmetic (no overflow or underflow)
C71 proved C71_select,C71_getitem,C71_methods,C71_two_objects,C71_broadcast,C71_numbers,C71_add_numbers | addition of numbers: for calls that return
C72 proved C72_mode_slice,C72_evaluate,C72_one_mode | negative findings: where indexing gives inconsistent objects
C73 proved C73_at_never_changes,C73_at_calls,C73_reductions,C73_outer_reduceat,C73_any_all,C73_grid | negative findings; numpy's own argument checks and the effect of methods of the ufuncs that are passed on are not described
C74 proved C74_matrices,C74_array,C74_bound,C74_double | no underflow or overflow; complex powers accurate to w
C75 proved C75_assign,C75_shape,C75_below,C75_positive,C75_ignored,C75_add,C75_multiply,C75_evaluate,C75_kept,C75_norm | the product statement assumes that no 3-j row divides by zero (see C32)
C76 proved C76_inplace,C76_conjugate,C76_loop,C76_set,C76_set_single,C76_set_rejected,C76_iadd | views are injective selections of leading indices; numpy's rule which keys give views is not modelled
C77 proved C77_accepts,C77_rejects,C77_zero_dim,C77_with_ell_max,C77_float64,C77_float32,C77_misread | arrays are C-contiguous; the number encoded by given bytes is a parameter
C78 proved C78_every_rotor,C78_double | the single-element and list-of-indices kernel; the accuracy of each operation (including libm functions) is a hypothesis, shown to hold for correctly rounded double precision
C79 proved C79_ells,C79_ells_pole,C79_array_of_rotors,C79_Wigner_D_matrices,C79_SWSH,C79_SWSH_array,C79_SWSH_grid,C79_evaluate | the model reports the first read outside the table as an error; what the compiled code then computes is not modelled
C80 proved C80_complex_powers,C80_double | no underflow; powers of i are exact; the accuracy of each operation (including the complex square root in the first quadrant) is a hypothesis, shown to hold for correct rounding to 53 bits
C81 proved C81_modes,C81_all_equal,C81_spin_ignored,C81_different_ell_max,C81_array_modes,C81_grids,C81_order,C81_array_grid,C81_type_errors | finite numbers; calls of the ufuncs without keywords (what the operators == etc. do with the exceptions depends on the numpy version)
C82 proved C82_orthonormal,C82_inner,C82_norm,C82_projection,C82_unique,C82_bound | integrals of the returned values in exact real arithmetic, with the error of the neighbourhoods of the poles (C61)
C83 proved C83_computed,C83_differentiable,C83_eth,C83_ethbar,C83_Lz,C83_Lplus,C83_Lminus,C83_Lsquared | derivatives of the returned values, exact real arithmetic
C84 proved C84_steps,C84_exclusive,C84_own_workspaces,C84_whole_calls,C84_shared_workspace,C84_wigner3j_shared | atomic steps are the compiled functions (global interpreter lock); exact real arithmetic
C85 proved C85_evaluate,C85_grid,C85_grid_default,C85_aliasing,C85_rings | exact real arithmetic; spinsfast.salm2map assumed to be correct (IsSalm2map) for the grid theorems
C86 proved C86_derivatives,C86_real,C86_real_fixed,C86_imag,C86_add,C86_add_comm,C86_sub_self,C86_scale,C86_divide,C86_norm,C86_errors | standard model of rounding (no underflow or overflow); the sum in norm by its error bound
C87 proved C87_every_rotor,C87_array,C87_grid,C87_evaluate,C87_double | the accuracy of each operation (including libm functions and the inner product) is a hypothesis, shown to hold for correctly rounded double precision with binary powering and sequential sums
C88 proved C88_constant,C88_vector,C88_real_vector,C88_complex_vector,C88_eth,C88_inverse,C88_round_trips | standard model of rounding (no underflow or overflow), exact doubling and exact square roots of squares of integers up to a limit; division of a complex by a real number as at most two roundings per component
C89 proved C89_product,C89_relative,C89_multiply | standard model of rounding (no underflow or overflow); the accuracy of the 3-j symbols (and that the calculators return) is a hypothesis, not derived from a rounding analysis of the 3-j recursion
C90 proved C90_matrices,C90_array,C90_double | operations as in IEEE double precision with underflow; nothing assumed about results beyond the largest number; the accuracy of the library functions (pow, hypot, atan2, cos, sin) is a hypothesis
C91 proved C91_safe,C91_history,C91_Wigner3j_selection,C91_normalised,C91_bound,C91_Wigner3j_bound,C91_clebsch_gordan_bound,C91_single,C91_zero_row,C91_Wigner3j_zero,C91_double | relative rounding only (no underflow or overflow); no accuracy claim for general rows with m2, m3 not both zero beyond normalisation and sign, as the property says; division of an array by zero stops the model and is proved impossible
C92 proved C92_factorial,C92_factorial_23,C92_binomial,C92_binomial_57,C92_ladder,C92_Wigner_coefficient,C92_RoundedTable,C92_Wigner_D_element | the accuracy of the mpmath functions is a hypothesis; no overflow or underflow (none occurs for the shipped limit); the files in the package were produced with a conversion that truncates, see C97
C93 proved C93_expression,C93_linear,C93_exact,C93_value,C93_evaluate | no overflow or underflow; the accuracy of the 3-j symbols is a hypothesis (C91)
C94 proved C94_H_accuracy,C94_H_accuracy_default,C94_H_converges,C94_H_history,C94_H_errors | relative rounding only (no underflow or overflow); the error constant is far from sharp, so that in double precision the bound is qualitative
C95 proved C95_incomplete,C95_negative_ell_min | one-dimensional arrays, as documented; ethbar_inverse_NP with a negative ell_min is not covered
C96 proved C96_columns,C96_memory_order,C96_same_layout,C96_mixed_layout,C96_returns | arrays of more than two dimensions and strided views are left out
C97 proved C97_lengths,C97_binomial,C97_ladder,C97_Wigner_coefficient,C97_RoundedTable,C97_Wigner_D_element,C97_not_exact,C97_ladder_not_nearest | the bytes of the .npy files are transcribed by tools/gen_tables.py; np.load and the file headers are not modelled. The quantifier is a finite table: the kernel evaluates the check on every entry, and a lemma proves what the check means
C98 proved C98_Wigner_D_element,C98_Wigner_D_matrices,C98_SWSH,C98_grid,C98_evaluate,F64Y_double | library functions (pow, cos, sin, atan2, hypot, complex powers) within the stated errors; F64Y_double: correctly rounded IEEE doubles are an instance
C99 proved C99_exists,C99_evaluate,C99_norm,C99_compose,C99_inverse,C99_operators,C99_conjugate,C99_product,C99_add,C99_scale,C99_truncate,C99_real_imag,C99_vector,C99_every_rotor | the sum over n is the user's program (RotatedBy), the package has no working rotation function (C66)
C100 proved C100_assoc,C100_conjugate,C100_product_rule,C100_scalar_product,C100_norm | products as in C32: operands with ell_max >= 0 and sum at most 151, broadcastable leading shapes, and calls that return
C101 proved C101_adjoint,C101_eth_adjoint,C101_conjugate,C101_kernel | scalarProduct is the sum over the modes; C82 identifies it with the integral over the sphere
C102 proved C102_values,C102_every_rotor,C102_attained,C102_scalar_product,C102_operators,C102_operators_attained,C102_products | exact arithmetic; scalarProduct as in C101
C103 proved C103_image,C103_eigenfunctions | exact arithmetic
C104 proved C104_constant,C104_zero,C104_cancel | products as in C32 and C100; exact arithmetic
C105 proved C105_identities,C105_lower | exact arithmetic; scalarProduct as in C101
C106 proved C106_faithful,C106_collision | exact arithmetic
C107 proved C107_character,C107_angle | exact arithmetic
C108 proved C108_commutant | exact arithmetic
C109 proved C109_SWSH,C109_evaluate | exact arithmetic
C110 proved C110_SWSH,C110_evaluate,C110_symmetric | exact arithmetic
C111 proved C111_fold,C111_reflection,C111_real | exact arithmetic
