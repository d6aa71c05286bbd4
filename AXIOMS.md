# Axioms

What `#print axioms` reports for each theorem named in `MANIFEST.json`.  No theorem depends on
anything outside `propext`, `Classical.choice` and `Quot.sound`, the three axioms of Lean itself.

| property | theorem | axioms |
|---|---|---|
| C01 | `C01_chebyshev_sizes` | Classical.choice, Quot.sound, propext |
| C02 | `C02_chebyshev_mirror` | Classical.choice, Quot.sound, propext |
| C03 | `C03_gc1_sorted` | Classical.choice, Quot.sound, propext |
| C04 | `C04_gc1_exact` | Classical.choice, Quot.sound, propext |
| C05 | `C05_gc2_sorted` | Classical.choice, Quot.sound, propext |
| C06 | `C06_gc2_exact` | Classical.choice, Quot.sound, propext |
| C07 | `C07_gc3_sorted` | Classical.choice, Quot.sound, propext |
| C08 | `C08_gc3_exact` | Classical.choice, Quot.sound, propext |
| C09 | `C09_gc2m_constants` | Classical.choice, Quot.sound, propext |
| C10 | `C10_gc2m_substitution` | Classical.choice, Quot.sound, propext |
| C11 | `C11_eval_pn` | Classical.choice, Quot.sound, propext |
| C11 | `C11_special_values` | Classical.choice, Quot.sound, propext |
| C12 | `C12_gauss_legendre_symmetric_or_throws` | Classical.choice, Quot.sound, propext |
| C13 | `C13_nodes_near_roots` | Classical.choice, Quot.sound, propext |
| C14 | `C14_roots` | Classical.choice, Quot.sound, propext |
| C14 | `C14_weight_formula_exact` | Classical.choice, Quot.sound, propext |
| C14 | `C14_newton_at_root` | Classical.choice, Quot.sound, propext |
| C15 | `C15_gauss_lobatto` | Classical.choice, Quot.sound, propext |
| C16 | `C16_roots` | Classical.choice, Quot.sound, propext |
| C16 | `C16_weight_formula_exact` | Classical.choice, Quot.sound, propext |
| C16 | `C16_newton_at_root` | Classical.choice, Quot.sound, propext |
| C17 | `C17_uniform_trapezoid` | Classical.choice, Quot.sound, propext |
| C18 | `C18_uniform_degenerate` | Classical.choice, Quot.sound, propext |
| C19 | `C19_radial_jacobian` | Classical.choice, Quot.sound, propext |
| C19 | `C19_ln2_literal` | Classical.choice, Quot.sound, propext |
| C20 | `C20_radial_bijection` | Classical.choice, Quot.sound, propext |
| C21 | `C21_radial_quadrature` | Classical.choice, Quot.sound, propext |
| C21 | `C21_radial_sizes` | Classical.choice, Quot.sound, propext |
| C22 | `C22_mhl_interior` | Classical.choice, Quot.sound, propext |
| C22 | `C22_mk_interior` | Classical.choice, Quot.sound, propext |
| C23 | `C23_radial_sum` | Classical.choice, Quot.sound, propext |
| C23 | `C23_change_of_variables` | Classical.choice, Quot.sound, propext |
| C23 | `C23_becke_exact` | Classical.choice, Quot.sound, propext |
| C24 | `C24_radial_scale` | Classical.choice, Quot.sound, propext |
| C25 | `C25_bound_transform_partial` | Classical.choice, Quot.sound, propext |
| C25 | `C25_bound_transform_sign_error` | Classical.choice, Quot.sound, propext |
| C25 | `C25_bound_transform_violated` | Classical.choice, Quot.sound, propext |
| C26 | `C26_product_indexing` | Classical.choice, Quot.sound, propext |
| C27 | `C27_separable` | Classical.choice, Quot.sound, propext |
| C28 | `C28_spherical_entries` | Classical.choice, Quot.sound, propext |
| C29 | `C29_spherical_separable` | Classical.choice, Quot.sound, propext |
| C29 | `C29_weight_sum` | Classical.choice, Quot.sound, propext |
| C30 | `C30_recenter_step` | Classical.choice, Quot.sound, propext |
| C30 | `C30_history_invariant` | Classical.choice, Quot.sound, propext |
| C30 | `C30_recenter_history` | Classical.choice, Quot.sound, propext |
| C30 | `C30_recenter_history_pruned` | Classical.choice, Quot.sound, propext |
| C31 | `C31_sub_slice` | Classical.choice, Quot.sound, propext |
| C31 | `C31_sub_debug` | Quot.sound, propext |
| C31 | `C31_sub_release` | Classical.choice, Quot.sound, propext |
| C32 | `C32_debug_check` | Classical.choice, Quot.sound, propext |
| C32 | `C32_iteration` | Classical.choice, Quot.sound, propext |
| C32 | `C32_release` | Classical.choice, Quot.sound, propext |
| C32 | `C32_tiles_cover` | Quot.sound, propext |
| C33 | `C33_finalize_empty` | Quot.sound, propext |
| C33 | `C33_bad_partition` | Quot.sound, propext |
| C33 | `C33_last_at_npts` | Quot.sound, propext |
| C33 | `C33_no_grid` | Quot.sound, propext |
| C34 | `C34_pruned_concat` | Classical.choice, Quot.sound, propext |
| C35 | `C35_single_region` | Classical.choice, Quot.sound, propext |
| C36 | `C36_same_angular_perm` | Classical.choice, Quot.sound, propext |
| C37 | `C37_pruned_integral` | Classical.choice, Quot.sound, propext |
| C38 | `C38_robust_tiles` | Classical.choice, Quot.sound, propext |
| C39 | `C39_treutler_tiles` | Classical.choice, Quot.sound, propext |
| C40 | `C40_robust_sizes` | Classical.choice, Quot.sound, propext |
| C40 | `C40_treutler_sizes` | Classical.choice, Quot.sound, propext |
| C40 | `C40_robust_orders` | Classical.choice, Quot.sound, propext |
| C40 | `C40_treutler_orders` | Classical.choice, Quot.sound, propext |
| C40 | `C40_other_rejected` | propext |
| C41 | `C41_robust_monotone` | Classical.choice, Quot.sound, propext |
| C41 | `C41_not_monotone` | Classical.choice, Quot.sound, propext |
| C42 | `C42_scheme_generates` | Classical.choice, Quot.sound, propext |
| C42 | `C42_debug_small` | Classical.choice, Quot.sound, propext |
| C42 | `C42_release_tiny` | Classical.choice, Quot.sound, propext |
| C42 | `C42_release` | Classical.choice, Quot.sound, propext |
| C43 | `C43_end_ignored` | Classical.choice, Quot.sound, propext |
| C44 | `C44_bad_cast` | Classical.choice, Quot.sound, propext |
| C44 | `C44_unsupported_radial` | Classical.choice, Quot.sound, propext |
| C44 | `C44_unpruned_angular_first` | Classical.choice, Quot.sound, propext |
| C44 | `C44_unpruned_radial` | Classical.choice, Quot.sound, propext |
| C44 | `C44_region_errors` | Classical.choice, Quot.sound, propext |
| C45 | `C45_unpruned_round_trip` | Classical.choice, Quot.sound, propext |
| C45 | `C45_empty_radial` | Classical.choice, Quot.sound, propext |
| C46 | `C46_tables_inverse` | Classical.choice, Quot.sound, propext |
| C46 | `C46_tables_range` | Classical.choice, Quot.sound, propext |
| C46 | `C46_tables_increasing` | Classical.choice, Quot.sound, propext |
| C47 | `C47_next_least` | Classical.choice, Quot.sound, propext |
| C47 | `C47_next_monotone` | Classical.choice, Quot.sound, propext |
| C48 | `C48_generator_supported` | Classical.choice, Quot.sound, propext |
| C48 | `C48_generator_sizes` | Classical.choice, Quot.sound, propext |
| C48 | `C48_ll_5294_unreachable` | Classical.choice, Quot.sound, propext |
| C49 | `C49_unsupported_silent` | Classical.choice, Quot.sound, propext |
| C49 | `C49_unsupported_integral` | Classical.choice, Quot.sound, propext |
| C49 | `C49_delley_int_overflow` | Quot.sound, propext |
| C50 | `C50_radial_from_string` | Classical.choice, Quot.sound, propext |
| C50 | `C50_angular_from_string` | Classical.choice, Quot.sound, propext |
| C51 | `C51_make_traits_accepts` | Classical.choice, Quot.sound, propext |
| C51 | `C51_make_traits_rejects` | Classical.choice, Quot.sound, propext |
| C51 | `C51_make_traits_copy` | Classical.choice, Quot.sound, propext |
| C51 | `C51_make_traits_class` | Classical.choice, Quot.sound, propext |
| C52 | `C52_radial_factory` | Classical.choice, Quot.sound, propext |
| C52 | `C52_factory_accepts_made` | Classical.choice, Quot.sound, propext |
| C53 | `C53_compare` | Classical.choice, Quot.sound, propext |
| C53 | `C53_compare_real` | Classical.choice, Quot.sound, propext |
| C53 | `C53_spec_equals` | Classical.choice, Quot.sound, propext |
| C53 | `C53_copy` | Classical.choice, Quot.sound, propext |
| C53 | `C53_copy_independent` | Quot.sound, propext |
| C53 | `C53_copy_unpruned` | Classical.choice, Quot.sound, propext |
| C53 | `C53_nan_copy` | Classical.choice, Quot.sound, propext |
| C54 | `C54_null_traits` | Classical.choice, Quot.sound, propext |
| C54 | `C54_spec_has_traits` | Quot.sound, propext |
| C54 | `C54_direct_null` | propext |
| C55 | `C55_batches_permute` | Classical.choice, Quot.sound, propext |
| C55 | `C55_rule_value` | Classical.choice, Quot.sound, propext |
| C56 | `C56_batches_tile` | Classical.choice, Quot.sound, propext |
| C57 | `C57_tight_boxes` | Quot.sound, propext |
| C58 | `C58_hangs` | Classical.choice, Quot.sound, propext |
| C58 | `C58_zero_batch_size` | Classical.choice, Quot.sound, propext |
| C58 | `C58_terminates_parted` | Classical.choice, Quot.sound, propext |
| C58 | `C58_terminates` | Classical.choice, Quot.sound, propext |
| C58 | `C58_terminates_iff` | Classical.choice, Quot.sound, propext |
| C58 | `C58_empty` | Classical.choice, Quot.sound, propext |
| C59 | `C59_partition_box` | Classical.choice, Quot.sound, propext |
| C59 | `C59_first_partition` | Classical.choice, Quot.sound, propext |
| C60 | `C60_at_iteration` | Classical.choice, Quot.sound, propext |
| C60 | `C60_int_conversion` | Quot.sound, propext |
| C60 | `C60_empty_index` | Quot.sound, propext |
| C61 | `C61_recenter_families` | Quot.sound, propext |
| C61 | `C61_copy_clone_view` | Classical.choice, Quot.sound, propext |
| C61 | `C61_moved_from` | Classical.choice, Quot.sound, propext |
| C62 | `C62_checked_access` | propext |
| C62 | `C62_copy_move` | none |
| C62 | `C62_constructor` | Classical.choice, Quot.sound, propext |
| C63 | `C63_weights_sum` | Classical.choice, Quot.sound, propext |
| C63 | `C63_ab552_violation` | Classical.choice, Quot.sound, propext |
| C64 | `C64_unit_points` | Classical.choice, Quot.sound, propext |
| C65 | `C65_positive` | Classical.choice, Quot.sound, propext |
| C65 | `C65_negative` | Classical.choice, Quot.sound, propext |
| C65 | `C65_abs_sum` | Classical.choice, Quot.sound, propext |
| C66 | `C66_low_degree` | Classical.choice, Quot.sound, propext |
| C67 | `C67_octahedral` | Classical.choice, Quot.sound, propext |
| C67 | `C67_ahrens_beylkin` | Classical.choice, Quot.sound, propext |
| C67 | `C67_ahrens_beylkin_general` | Classical.choice, Quot.sound, propext |
| C67 | `C67_ab552_violation` | Classical.choice, Quot.sound, propext |
| C67 | `C67_womersley` | Classical.choice, Quot.sound, propext |
| C67 | `C67_womersley_general` | Classical.choice, Quot.sound, propext |
| C68 | `C68_gauss_legendre_converges` | Classical.choice, Quot.sound, propext |
| C68 | `C68_gauss_legendre_increasing` | Classical.choice, Quot.sound, propext |
| C69 | `C69_gauss_lobatto_converges` | Classical.choice, Quot.sound, propext |
| C69 | `C69_gauss_lobatto_increasing` | Classical.choice, Quot.sound, propext |
| C70 | `C70_gauss_legendre_accuracy` | Classical.choice, Quot.sound, propext |
| C71 | `C71_gauss_lobatto_accuracy` | Classical.choice, Quot.sound, propext |
| C72 | `C72_gaussChebyshev1_double` | Classical.choice, Quot.sound, propext |
| C72 | `C72_gaussChebyshev2_double` | Classical.choice, Quot.sound, propext |
| C72 | `C72_gaussChebyshev3_double` | Classical.choice, Quot.sound, propext |
| C73 | `C73_uniform_double` | Classical.choice, Quot.sound, propext |
| C73 | `C73_uniform_double_misses_end` | Classical.choice, Quot.sound, propext |
| C74 | `C74_batches_double` | Classical.choice, Quot.sound, propext |
| C74 | `C74_terminates_double` | Classical.choice, Quot.sound, propext |
| C74 | `C74_grid_separated` | Classical.choice, Quot.sound, propext |
| C74 | `C74_hangs_double` | Classical.choice, Quot.sound, propext |
| C75 | `C75_becke_double` | Classical.choice, Quot.sound, propext |
| C75 | `C75_mhl_double` | Classical.choice, Quot.sound, propext |
| C75 | `C75_mk_double` | Classical.choice, Quot.sound, propext |
| C75 | `C75_ta_double` | Classical.choice, Quot.sound, propext |
| C75 | `C75_mk_double_zero` | Classical.choice, Quot.sound, propext |
| C76 | `C76_evalPn_double` | Classical.choice, Quot.sound, propext |
| C76 | `C76_evalPn_derivative_double` | Classical.choice, Quot.sound, propext |
| C77 | `C77_gauss_legendre_double` | Classical.choice, Quot.sound, propext |
| C77 | `C77_one_point_double` | Classical.choice, Quot.sound, propext |
| C77 | `C77_few_points_double` | Classical.choice, Quot.sound, propext |
| C78 | `C78_gauss_lobatto_double` | Classical.choice, Quot.sound, propext |
| C78 | `C78_two_points_double` | Classical.choice, Quot.sound, propext |
| C78 | `C78_few_points_double` | Classical.choice, Quot.sound, propext |
| C79 | `C79_chebyshev_converges` | Classical.choice, Quot.sound, propext |
| C79 | `C79_chebyshev_rate` | Classical.choice, Quot.sound, propext |
| C80 | `C80_radial_error` | Classical.choice, Quot.sound, propext |
| C80 | `C80_becke_converges` | Classical.choice, Quot.sound, propext |
| C80 | `C80_ta_converges` | Classical.choice, Quot.sound, propext |
| C80 | `C80_mk_exp` | Classical.choice, Quot.sound, propext |
| C81 | `C81_sphereInt_is_surface_integral` | Classical.choice, Quot.sound, propext |
| C81 | `C81_becke_grid_converges` | Classical.choice, Quot.sound, propext |
| C81 | `C81_ta_grid_converges` | Classical.choice, Quot.sound, propext |
| C82 | `C82_pruned_grid_error` | Classical.choice, Quot.sound, propext |
| C82 | `C82_scheme_error` | Classical.choice, Quot.sound, propext |
| C83 | `C83_history` | Classical.choice, Quot.sound, propext |
| C83 | `C83_moved_object` | Classical.choice, Quot.sound, propext |
| C84 | `C84_plus_moves_operand` | Classical.choice, Quot.sound, propext |
| C84 | `C84_plus_value_semantics` | Classical.choice, Quot.sound, propext |
| C84 | `C84_neighbours` | Classical.choice, Quot.sound, propext |
| C85 | `C85_angular_double` | Classical.choice, Quot.sound, propext |
| C86 | `C86_unpruned_double` | Classical.choice, Quot.sound, propext |
| C86 | `C86_pruned_double` | Classical.choice, Quot.sound, propext |
| C87 | `C87_value_error` | Classical.choice, Quot.sound, propext |
| C87 | `C87_pruned_double_error` | Classical.choice, Quot.sound, propext |
| C88 | `C88_recenter_drift` | Classical.choice, Quot.sound, propext |
| C88 | `C88_recenter_collapse` | Classical.choice, Quot.sound, propext |
| C88 | `C88_nan_centre` | Classical.choice, Quot.sound, propext |
| C88 | `C88_infinite_centre` | Classical.choice, Quot.sound, propext |
| C89 | `C89_gc2m_double` | Classical.choice, Quot.sound, propext |
| C89 | `C89_nodes_collide` | Classical.choice, Quot.sound, propext |
| C90 | `C90_finite_double` | Classical.choice, Quot.sound, propext |
| C90 | `C90_upper_infinite_double` | Classical.choice, Quot.sound, propext |
| C90 | `C90_lower_infinite_double` | Classical.choice, Quot.sound, propext |
| C90 | `C90_both_infinite_double` | Classical.choice, Quot.sound, propext |
| C90 | `C90_overflow` | Classical.choice, Quot.sound, propext |
| C90 | `C90_leaves_interval` | Classical.choice, Quot.sound, propext |
| C90 | `C90_both_infinite_loss` | Classical.choice, Quot.sound, propext |
| C90 | `C90_end_nodes` | Classical.choice, Quot.sound, propext |
| C91 | `C91_real` | Classical.choice, Quot.sound, propext |
| C91 | `C91_double` | Classical.choice, Quot.sound, propext |
| C91 | `C91_angular` | Classical.choice, Quot.sound, propext |
| C91 | `C91_unpruned` | Classical.choice, Quot.sound, propext |
| C91 | `C91_pruned` | Classical.choice, Quot.sound, propext |
| C91 | `C91_sum` | Classical.choice, Quot.sound, propext |
| C92 | `C92_angular` | Classical.choice, Quot.sound, propext |
| C92 | `C92_unpruned` | Classical.choice, Quot.sound, propext |
| C92 | `C92_pruned` | Classical.choice, Quot.sound, propext |
| C92 | `C92_batcher` | Classical.choice, Quot.sound, propext |
| C92 | `C92_batcher_unpruned` | Classical.choice, Quot.sound, propext |
| C92 | `C92_batcher_pruned` | Classical.choice, Quot.sound, propext |
| C93 | `C93_all_points_equal` | Classical.choice, Quot.sound, propext |
| C93 | `C93_hangs` | Classical.choice, Quot.sound, propext |
| C93 | `C93_hangs_real` | Classical.choice, Quot.sound, propext |
| C93 | `C93_hangs_double` | Classical.choice, Quot.sound, propext |
| C94 | `C94_gc1` | Classical.choice, Quot.sound, propext |
| C94 | `C94_gc2` | Classical.choice, Quot.sound, propext |
| C94 | `C94_gc3` | Classical.choice, Quot.sound, propext |
| C94 | `C94_trapezoid` | Classical.choice, Quot.sound, propext |
| C94 | `C94_radial` | Classical.choice, Quot.sound, propext |
| C95 | `C95_becke` | Classical.choice, Quot.sound, propext |
| C95 | `C95_mhl` | Classical.choice, Quot.sound, propext |
| C95 | `C95_middle` | Classical.choice, Quot.sound, propext |
| C96 | `C96_gauss_legendre` | Classical.choice, Quot.sound, propext |
| C96 | `C96_gauss_lobatto` | Classical.choice, Quot.sound, propext |
| C96 | `C96_gauss_legendre_double` | Classical.choice, Quot.sound, propext |
| C96 | `C96_gauss_lobatto_double` | Classical.choice, Quot.sound, propext |
| C97 | `C97_terminates_double` | Classical.choice, Quot.sound, propext |
| C97 | `C97_angular` | Classical.choice, Quot.sound, propext |
| C97 | `C97_separated_unpruned` | Classical.choice, Quot.sound, propext |
| C97 | `C97_separated_pruned` | Classical.choice, Quot.sound, propext |
| C97 | `C97_batcher_unpruned_double` | Classical.choice, Quot.sound, propext |
| C97 | `C97_batcher_pruned_double` | Classical.choice, Quot.sound, propext |
| C97 | `C97_recentred_hangs` | Classical.choice, Quot.sound, propext |
| C98 | `C98_chebyshev_second_order` | Classical.choice, Quot.sound, propext |
| C98 | `C98_radial_second_order` | Classical.choice, Quot.sound, propext |
| C98 | `C98_muraknowles_exponential` | Classical.choice, Quot.sound, propext |
| C99 | `C99_batches_determined` | Classical.choice, Quot.sound, propext |
| C99 | `C99_rebatch` | Classical.choice, Quot.sound, propext |
| C99 | `C99_pruned_same_batches` | Classical.choice, Quot.sound, propext |
| C99 | `C99_number_of_batches` | Classical.choice, Quot.sound, propext |
| C99 | `C99_exact` | Classical.choice, Quot.sound, propext |
| C99 | `C99_double` | Classical.choice, Quot.sound, propext |
| C99 | `C99_nan_order_matters` | Classical.choice, Quot.sound, propext |
| C100 | `C100_chebyshev1` | Classical.choice, Quot.sound, propext |
| C100 | `C100_chebyshev2` | Classical.choice, Quot.sound, propext |
| C100 | `C100_chebyshev3` | Classical.choice, Quot.sound, propext |
| C100 | `C100_gauss_legendre` | Classical.choice, Quot.sound, propext |
| C100 | `C100_gauss_lobatto` | Classical.choice, Quot.sound, propext |
| C100 | `C100_trapezoid` | Classical.choice, Quot.sound, propext |
| C100 | `C100_not_exact` | Classical.choice, Quot.sound, propext |
| C101 | `C101_becke` | Classical.choice, Quot.sound, propext |
| C101 | `C101_murray_handy_laming` | Classical.choice, Quot.sound, propext |
| C101 | `C101_muraknowles` | Classical.choice, Quot.sound, propext |
| C101 | `C101_treutler_ahlrichs` | Classical.choice, Quot.sound, propext |
| C102 | `C102_becke` | Classical.choice, Quot.sound, propext |
| C102 | `C102_murray_handy_laming` | Classical.choice, Quot.sound, propext |
| C102 | `C102_muraknowles` | Classical.choice, Quot.sound, propext |
| C102 | `C102_treutler_ahlrichs` | Classical.choice, Quot.sound, propext |
| C102 | `C102_becke_unpruned` | Classical.choice, Quot.sound, propext |
| C102 | `C102_murray_handy_laming_unpruned` | Classical.choice, Quot.sound, propext |
| C102 | `C102_muraknowles_unpruned` | Classical.choice, Quot.sound, propext |
| C102 | `C102_treutler_ahlrichs_unpruned` | Classical.choice, Quot.sound, propext |
| C103 | `C103_radial_from_type` | Quot.sound, propext |
| C103 | `C103_angular_from_type` | Classical.choice, Quot.sound, propext |
| C103 | `C103_not_both` | Classical.choice, Quot.sound, propext |
| C103 | `C103_radial_names` | Classical.choice, Quot.sound, propext |
| C103 | `C103_angular_names` | Classical.choice, Quot.sound, propext |
| C103 | `C103_radial_factory` | Classical.choice, Quot.sound, propext |
| C103 | `C103_angular_factory` | Classical.choice, Quot.sound, propext |
| C103 | `C103_no_type` | Classical.choice, Quot.sound, propext |
| C104 | `C104_order_sharp` | Classical.choice, Quot.sound, propext |
| C104 | `C104_womersley6` | Classical.choice, Quot.sound, propext |
| C105 | `C105_unpruned_count` | Classical.choice, Quot.sound, propext |
| C105 | `C105_robust_saves` | Classical.choice, Quot.sound, propext |
| C105 | `C105_treutler_saves` | Classical.choice, Quot.sound, propext |
| C106 | `C106_no_inversion` | Classical.choice, Quot.sound, propext |
| C107 | `C107_boxes_apart` | Classical.choice, Quot.sound, propext |
| C107 | `C107_interiors_disjoint` | Classical.choice, Quot.sound, propext |
| C107 | `C107_double` | Classical.choice, Quot.sound, propext |
| C108 | `C108_robust_cuts` | Classical.choice, Quot.sound, propext |
| C108 | `C108_treutler_cuts` | Classical.choice, Quot.sound, propext |
| C108 | `C108_distances` | Classical.choice, Quot.sound, propext |
| C109 | `C109_becke` | Classical.choice, Quot.sound, propext |
| C109 | `C109_mhl` | Classical.choice, Quot.sound, propext |
| C109 | `C109_mk` | Classical.choice, Quot.sound, propext |
| C109 | `C109_ta` | Classical.choice, Quot.sound, propext |
| C110 | `C110_harmonics` | Classical.choice, Quot.sound, propext |
| C110 | `C110_trigonometric` | Classical.choice, Quot.sound, propext |
| C111 | `C111_gauss_legendre` | Classical.choice, Quot.sound, propext |
| C111 | `C111_gauss_lobatto` | Classical.choice, Quot.sound, propext |
| C111 | `C111_gauss_legendre_double` | Classical.choice, Quot.sound, propext |
| C111 | `C111_gauss_lobatto_double` | Classical.choice, Quot.sound, propext |
| C111 | `C111_gauss_chebyshev_1` | Classical.choice, Quot.sound, propext |
| C111 | `C111_gauss_chebyshev_2` | Classical.choice, Quot.sound, propext |
| C111 | `C111_gauss_chebyshev_3` | Classical.choice, Quot.sound, propext |
| C112 | `C112_passes` | Classical.choice, Quot.sound, propext |
| C112 | `C112_separated` | Classical.choice, Quot.sound, propext |
| C113 | `C113_no_holes` | Classical.choice, Quot.sound, propext |
| C113 | `C113_no_holes_octahedral` | Classical.choice, Quot.sound, propext |
| C113 | `C113_no_holes_double` | Classical.choice, Quot.sound, propext |
| C113 | `C113_sharp` | Classical.choice, Quot.sound, propext |
| C114 | `C114_unpruned` | Classical.choice, Quot.sound, propext |
| C114 | `C114_pruned` | Classical.choice, Quot.sound, propext |
| C114 | `C114_unpruned_schemes` | Classical.choice, Quot.sound, propext |
| C114 | `C114_pruned_schemes` | Classical.choice, Quot.sound, propext |
| C115 | `C115_exponentials` | Classical.choice, Quot.sound, propext |
| C115 | `C115_functions` | Classical.choice, Quot.sound, propext |
| C115 | `C115_surface_integral` | Classical.choice, Quot.sound, propext |
| C116 | `C116_series` | Classical.choice, Quot.sound, propext |
| C116 | `C116_shell_potential` | Classical.choice, Quot.sound, propext |
| C117 | `C117_lower_bound` | Classical.choice, Quot.sound, propext |
| C117 | `C117_sizes` | Classical.choice, Quot.sound, propext |
| C117 | `C117_near_minimal` | Classical.choice, Quot.sound, propext |
| C118 | `C118_chebyshev1` | Classical.choice, Quot.sound, propext |
| C118 | `C118_chebyshev2` | Classical.choice, Quot.sound, propext |
| C118 | `C118_chebyshev3` | Classical.choice, Quot.sound, propext |
| C118 | `C118_gauss_legendre` | Classical.choice, Quot.sound, propext |
| C118 | `C118_gauss_lobatto` | Classical.choice, Quot.sound, propext |
