{
 "claims": [
  {
   "property": "C01",
   "status": "proved",
   "theorems": [
    "IntegratorXX.C01_chebyshev_sizes"
   ],
   "note": ""
  },
  {
   "property": "C02",
   "status": "proved",
   "theorems": [
    "IntegratorXX.C02_chebyshev_mirror"
   ],
   "note": ""
  },
  {
   "property": "C03",
   "status": "proved",
   "theorems": [
    "IntegratorXX.C03_gc1_sorted"
   ],
   "note": ""
  },
  {
   "property": "C04",
   "status": "proved",
   "theorems": [
    "IntegratorXX.C04_gc1_exact"
   ],
   "note": ""
  },
  {
   "property": "C05",
   "status": "proved",
   "theorems": [
    "IntegratorXX.C05_gc2_sorted"
   ],
   "note": ""
  },
  {
   "property": "C06",
   "status": "proved",
   "theorems": [
    "IntegratorXX.C06_gc2_exact"
   ],
   "note": ""
  },
  {
   "property": "C07",
   "status": "proved",
   "theorems": [
    "IntegratorXX.C07_gc3_sorted"
   ],
   "note": ""
  },
  {
   "property": "C08",
   "status": "proved",
   "theorems": [
    "IntegratorXX.C08_gc3_exact"
   ],
   "note": ""
  },
  {
   "property": "C09",
   "status": "proved",
   "theorems": [
    "IntegratorXX.C09_gc2m_constants"
   ],
   "note": ""
  },
  {
   "property": "C10",
   "status": "proved",
   "theorems": [
    "IntegratorXX.C10_gc2m_substitution"
   ],
   "note": ""
  },
  {
   "property": "C11",
   "status": "proved",
   "theorems": [
    "IntegratorXX.C11_eval_pn",
    "IntegratorXX.C11_special_values"
   ],
   "note": ""
  },
  {
   "property": "C12",
   "status": "proved",
   "theorems": [
    "IntegratorXX.C12_gauss_legendre_symmetric_or_throws"
   ],
   "note": ""
  },
  {
   "property": "C13",
   "status": "proved",
   "theorems": [
    "IntegratorXX.C13_nodes_near_roots"
   ],
   "note": ""
  },
  {
   "property": "C14",
   "status": "proved",
   "theorems": [
    "IntegratorXX.C14_roots",
    "IntegratorXX.C14_weight_formula_exact",
    "IntegratorXX.C14_newton_at_root"
   ],
   "note": ""
  },
  {
   "property": "C15",
   "status": "proved",
   "theorems": [
    "IntegratorXX.C15_gauss_lobatto"
   ],
   "note": ""
  },
  {
   "property": "C16",
   "status": "proved",
   "theorems": [
    "IntegratorXX.C16_roots",
    "IntegratorXX.C16_weight_formula_exact",
    "IntegratorXX.C16_newton_at_root"
   ],
   "note": ""
  },
  {
   "property": "C17",
   "status": "proved",
   "theorems": [
    "IntegratorXX.C17_uniform_trapezoid"
   ],
   "note": ""
  },
  {
   "property": "C18",
   "status": "proved",
   "theorems": [
    "IntegratorXX.C18_uniform_degenerate"
   ],
   "note": "npts=1 is stated in XReal (exact arithmetic with IEEE inf/NaN)."
  },
  {
   "property": "C19",
   "status": "proved",
   "theorems": [
    "IntegratorXX.C19_radial_jacobian",
    "IntegratorXX.C19_ln2_literal"
   ],
   "note": ""
  },
  {
   "property": "C20",
   "status": "proved",
   "theorems": [
    "IntegratorXX.C20_radial_bijection"
   ],
   "note": ""
  },
  {
   "property": "C21",
   "status": "proved",
   "theorems": [
    "IntegratorXX.C21_radial_quadrature",
    "IntegratorXX.C21_radial_sizes"
   ],
   "note": ""
  },
  {
   "property": "C22",
   "status": "proved",
   "theorems": [
    "IntegratorXX.C22_mhl_interior",
    "IntegratorXX.C22_mk_interior"
   ],
   "note": ""
  },
  {
   "property": "C23",
   "status": "proved",
   "theorems": [
    "IntegratorXX.C23_radial_sum",
    "IntegratorXX.C23_change_of_variables",
    "IntegratorXX.C23_becke_exact"
   ],
   "note": ""
  },
  {
   "property": "C24",
   "status": "proved",
   "theorems": [
    "IntegratorXX.C24_radial_scale"
   ],
   "note": ""
  },
  {
   "property": "C25",
   "status": "partial",
   "theorems": [
    "IntegratorXX.C25_bound_transform_partial",
    "IntegratorXX.C25_bound_transform_sign_error",
    "IntegratorXX.C25_bound_transform_violated"
   ],
   "note": "The code violates the property for lo=-inf with finite up (sign of the weight factor): the negation of the full statement is C25_bound_transform_violated; the partial theorem covers all other combinations and C25_bound_transform_sign_error describes the bad one exactly."
  },
  {
   "property": "C26",
   "status": "proved",
   "theorems": [
    "IntegratorXX.C26_product_indexing"
   ],
   "note": ""
  },
  {
   "property": "C27",
   "status": "proved",
   "theorems": [
    "IntegratorXX.C27_separable"
   ],
   "note": ""
  },
  {
   "property": "C28",
   "status": "proved",
   "theorems": [
    "IntegratorXX.C28_spherical_entries"
   ],
   "note": ""
  },
  {
   "property": "C29",
   "status": "proved",
   "theorems": [
    "IntegratorXX.C29_spherical_separable",
    "IntegratorXX.C29_weight_sum"
   ],
   "note": ""
  },
  {
   "property": "C30",
   "status": "proved",
   "theorems": [
    "IntegratorXX.C30_recenter_step",
    "IntegratorXX.C30_history_invariant",
    "IntegratorXX.C30_recenter_history",
    "IntegratorXX.C30_recenter_history_pruned"
   ],
   "note": ""
  },
  {
   "property": "C31",
   "status": "proved",
   "theorems": [
    "IntegratorXX.C31_sub_slice",
    "IntegratorXX.C31_sub_debug",
    "IntegratorXX.C31_sub_release"
   ],
   "note": ""
  },
  {
   "property": "C32",
   "status": "proved",
   "theorems": [
    "IntegratorXX.C32_debug_check",
    "IntegratorXX.C32_iteration",
    "IntegratorXX.C32_release",
    "IntegratorXX.C32_tiles_cover"
   ],
   "note": ""
  },
  {
   "property": "C33",
   "status": "proved",
   "theorems": [
    "IntegratorXX.C33_finalize_empty",
    "IntegratorXX.C33_bad_partition",
    "IntegratorXX.C33_last_at_npts",
    "IntegratorXX.C33_no_grid"
   ],
   "note": ""
  },
  {
   "property": "C34",
   "status": "proved",
   "theorems": [
    "IntegratorXX.C34_pruned_concat"
   ],
   "note": ""
  },
  {
   "property": "C35",
   "status": "proved",
   "theorems": [
    "IntegratorXX.C35_single_region"
   ],
   "note": ""
  },
  {
   "property": "C36",
   "status": "proved",
   "theorems": [
    "IntegratorXX.C36_same_angular_perm"
   ],
   "note": ""
  },
  {
   "property": "C37",
   "status": "proved",
   "theorems": [
    "IntegratorXX.C37_pruned_integral"
   ],
   "note": ""
  },
  {
   "property": "C38",
   "status": "proved",
   "theorems": [
    "IntegratorXX.C38_robust_tiles"
   ],
   "note": ""
  },
  {
   "property": "C39",
   "status": "proved",
   "theorems": [
    "IntegratorXX.C39_treutler_tiles"
   ],
   "note": ""
  },
  {
   "property": "C40",
   "status": "proved",
   "theorems": [
    "IntegratorXX.C40_robust_sizes",
    "IntegratorXX.C40_treutler_sizes",
    "IntegratorXX.C40_robust_orders",
    "IntegratorXX.C40_treutler_orders",
    "IntegratorXX.C40_other_rejected"
   ],
   "note": ""
  },
  {
   "property": "C41",
   "status": "proved",
   "theorems": [
    "IntegratorXX.C41_robust_monotone",
    "IntegratorXX.C41_not_monotone"
   ],
   "note": ""
  },
  {
   "property": "C42",
   "status": "proved",
   "theorems": [
    "IntegratorXX.C42_scheme_generates",
    "IntegratorXX.C42_debug_small",
    "IntegratorXX.C42_release_tiny",
    "IntegratorXX.C42_release"
   ],
   "note": ""
  },
  {
   "property": "C43",
   "status": "proved",
   "theorems": [
    "IntegratorXX.C43_end_ignored"
   ],
   "note": ""
  },
  {
   "property": "C44",
   "status": "proved",
   "theorems": [
    "IntegratorXX.C44_bad_cast",
    "IntegratorXX.C44_unsupported_radial",
    "IntegratorXX.C44_unpruned_angular_first",
    "IntegratorXX.C44_unpruned_radial",
    "IntegratorXX.C44_region_errors"
   ],
   "note": ""
  },
  {
   "property": "C45",
   "status": "proved",
   "theorems": [
    "IntegratorXX.C45_unpruned_round_trip",
    "IntegratorXX.C45_empty_radial"
   ],
   "note": ""
  },
  {
   "property": "C46",
   "status": "proved",
   "theorems": [
    "IntegratorXX.C46_tables_inverse",
    "IntegratorXX.C46_tables_range",
    "IntegratorXX.C46_tables_increasing"
   ],
   "note": ""
  },
  {
   "property": "C47",
   "status": "proved",
   "theorems": [
    "IntegratorXX.C47_next_least",
    "IntegratorXX.C47_next_monotone"
   ],
   "note": ""
  },
  {
   "property": "C48",
   "status": "proved",
   "theorems": [
    "IntegratorXX.C48_generator_supported",
    "IntegratorXX.C48_generator_sizes",
    "IntegratorXX.C48_ll_5294_unreachable"
   ],
   "note": ""
  },
  {
   "property": "C49",
   "status": "proved",
   "theorems": [
    "IntegratorXX.C49_unsupported_silent",
    "IntegratorXX.C49_unsupported_integral",
    "IntegratorXX.C49_delley_int_overflow"
   ],
   "note": ""
  },
  {
   "property": "C50",
   "status": "proved",
   "theorems": [
    "IntegratorXX.C50_radial_from_string",
    "IntegratorXX.C50_angular_from_string"
   ],
   "note": ""
  },
  {
   "property": "C51",
   "status": "proved",
   "theorems": [
    "IntegratorXX.C51_make_traits_accepts",
    "IntegratorXX.C51_make_traits_rejects",
    "IntegratorXX.C51_make_traits_copy",
    "IntegratorXX.C51_make_traits_class"
   ],
   "note": ""
  },
  {
   "property": "C52",
   "status": "proved",
   "theorems": [
    "IntegratorXX.C52_radial_factory",
    "IntegratorXX.C52_factory_accepts_made"
   ],
   "note": ""
  },
  {
   "property": "C53",
   "status": "proved",
   "theorems": [
    "IntegratorXX.C53_compare",
    "IntegratorXX.C53_compare_real",
    "IntegratorXX.C53_spec_equals",
    "IntegratorXX.C53_copy",
    "IntegratorXX.C53_copy_independent",
    "IntegratorXX.C53_copy_unpruned",
    "IntegratorXX.C53_nan_copy"
   ],
   "note": ""
  },
  {
   "property": "C54",
   "status": "proved",
   "theorems": [
    "IntegratorXX.C54_null_traits",
    "IntegratorXX.C54_spec_has_traits",
    "IntegratorXX.C54_direct_null"
   ],
   "note": ""
  },
  {
   "property": "C55",
   "status": "proved",
   "theorems": [
    "IntegratorXX.C55_batches_permute",
    "IntegratorXX.C55_rule_value"
   ],
   "note": ""
  },
  {
   "property": "C56",
   "status": "proved",
   "theorems": [
    "IntegratorXX.C56_batches_tile"
   ],
   "note": ""
  },
  {
   "property": "C57",
   "status": "proved",
   "theorems": [
    "IntegratorXX.C57_tight_boxes"
   ],
   "note": ""
  },
  {
   "property": "C58",
   "status": "proved",
   "theorems": [
    "IntegratorXX.C58_hangs",
    "IntegratorXX.C58_zero_batch_size",
    "IntegratorXX.C58_terminates_parted",
    "IntegratorXX.C58_terminates",
    "IntegratorXX.C58_terminates_iff",
    "IntegratorXX.C58_empty"
   ],
   "note": ""
  },
  {
   "property": "C59",
   "status": "proved",
   "theorems": [
    "IntegratorXX.C59_partition_box",
    "IntegratorXX.C59_first_partition"
   ],
   "note": ""
  },
  {
   "property": "C60",
   "status": "proved",
   "theorems": [
    "IntegratorXX.C60_at_iteration",
    "IntegratorXX.C60_int_conversion",
    "IntegratorXX.C60_empty_index"
   ],
   "note": ""
  },
  {
   "property": "C61",
   "status": "proved",
   "theorems": [
    "IntegratorXX.C61_recenter_families",
    "IntegratorXX.C61_copy_clone_view",
    "IntegratorXX.C61_moved_from"
   ],
   "note": ""
  },
  {
   "property": "C62",
   "status": "proved",
   "theorems": [
    "IntegratorXX.C62_checked_access",
    "IntegratorXX.C62_copy_move",
    "IntegratorXX.C62_constructor"
   ],
   "note": ""
  },
  {
   "property": "C63",
   "status": "proved",
   "theorems": [
    "IntegratorXX.C63_weights_sum",
    "IntegratorXX.C63_ab552_violation"
   ],
   "note": ""
  },
  {
   "property": "C64",
   "status": "proved",
   "theorems": [
    "IntegratorXX.C64_unit_points"
   ],
   "note": ""
  },
  {
   "property": "C65",
   "status": "proved",
   "theorems": [
    "IntegratorXX.C65_positive",
    "IntegratorXX.C65_negative",
    "IntegratorXX.C65_abs_sum"
   ],
   "note": ""
  },
  {
   "property": "C66",
   "status": "proved",
   "theorems": [
    "IntegratorXX.C66_low_degree"
   ],
   "note": ""
  },
  {
   "property": "C67",
   "status": "proved",
   "theorems": [
    "IntegratorXX.C67_octahedral",
    "IntegratorXX.C67_ahrens_beylkin",
    "IntegratorXX.C67_ahrens_beylkin_general",
    "IntegratorXX.C67_ab552_violation",
    "IntegratorXX.C67_womersley",
    "IntegratorXX.C67_womersley_general"
   ],
   "note": ""
  },
  {
   "property": "C68",
   "status": "proved",
   "theorems": [
    "IntegratorXX.C68_gauss_legendre_converges",
    "IntegratorXX.C68_gauss_legendre_increasing"
   ],
   "note": ""
  },
  {
   "property": "C69",
   "status": "proved",
   "theorems": [
    "IntegratorXX.C69_gauss_lobatto_converges",
    "IntegratorXX.C69_gauss_lobatto_increasing"
   ],
   "note": ""
  },
  {
   "property": "C70",
   "status": "proved",
   "theorems": [
    "IntegratorXX.C70_gauss_legendre_accuracy"
   ],
   "note": ""
  },
  {
   "property": "C71",
   "status": "proved",
   "theorems": [
    "IntegratorXX.C71_gauss_lobatto_accuracy"
   ],
   "note": ""
  },
  {
   "property": "C72",
   "status": "proved",
   "theorems": [
    "IntegratorXX.C72_gaussChebyshev1_double",
    "IntegratorXX.C72_gaussChebyshev2_double",
    "IntegratorXX.C72_gaussChebyshev3_double"
   ],
   "note": ""
  },
  {
   "property": "C73",
   "status": "proved",
   "theorems": [
    "IntegratorXX.C73_uniform_double",
    "IntegratorXX.C73_uniform_double_misses_end"
   ],
   "note": ""
  },
  {
   "property": "C74",
   "status": "proved",
   "theorems": [
    "IntegratorXX.C74_batches_double",
    "IntegratorXX.C74_terminates_double",
    "IntegratorXX.C74_grid_separated",
    "IntegratorXX.C74_hangs_double"
   ],
   "note": ""
  },
  {
   "property": "C75",
   "status": "proved",
   "theorems": [
    "IntegratorXX.C75_becke_double",
    "IntegratorXX.C75_mhl_double",
    "IntegratorXX.C75_mk_double",
    "IntegratorXX.C75_ta_double",
    "IntegratorXX.C75_mk_double_zero"
   ],
   "note": ""
  },
  {
   "property": "C76",
   "status": "proved",
   "theorems": [
    "IntegratorXX.C76_evalPn_double",
    "IntegratorXX.C76_evalPn_derivative_double"
   ],
   "note": ""
  },
  {
   "property": "C77",
   "status": "proved",
   "theorems": [
    "IntegratorXX.C77_gauss_legendre_double",
    "IntegratorXX.C77_one_point_double",
    "IntegratorXX.C77_few_points_double"
   ],
   "note": ""
  },
  {
   "property": "C78",
   "status": "proved",
   "theorems": [
    "IntegratorXX.C78_gauss_lobatto_double",
    "IntegratorXX.C78_two_points_double",
    "IntegratorXX.C78_few_points_double"
   ],
   "note": ""
  },
  {
   "property": "C79",
   "status": "proved",
   "theorems": [
    "IntegratorXX.C79_chebyshev_converges",
    "IntegratorXX.C79_chebyshev_rate"
   ],
   "note": ""
  },
  {
   "property": "C80",
   "status": "proved",
   "theorems": [
    "IntegratorXX.C80_radial_error",
    "IntegratorXX.C80_becke_converges",
    "IntegratorXX.C80_ta_converges",
    "IntegratorXX.C80_mk_exp"
   ],
   "note": ""
  },
  {
   "property": "C81",
   "status": "proved",
   "theorems": [
    "IntegratorXX.C81_sphereInt_is_surface_integral",
    "IntegratorXX.C81_becke_grid_converges",
    "IntegratorXX.C81_ta_grid_converges"
   ],
   "note": ""
  },
  {
   "property": "C82",
   "status": "proved",
   "theorems": [
    "IntegratorXX.C82_pruned_grid_error",
    "IntegratorXX.C82_scheme_error"
   ],
   "note": ""
  },
  {
   "property": "C83",
   "status": "proved",
   "theorems": [
    "IntegratorXX.C83_history",
    "IntegratorXX.C83_moved_object"
   ],
   "note": ""
  },
  {
   "property": "C84",
   "status": "proved",
   "theorems": [
    "IntegratorXX.C84_plus_moves_operand",
    "IntegratorXX.C84_plus_value_semantics",
    "IntegratorXX.C84_neighbours"
   ],
   "note": ""
  },
  {
   "property": "C85",
   "status": "proved",
   "theorems": [
    "IntegratorXX.C85_angular_double"
   ],
   "note": ""
  },
  {
   "property": "C86",
   "status": "proved",
   "theorems": [
    "IntegratorXX.C86_unpruned_double",
    "IntegratorXX.C86_pruned_double"
   ],
   "note": ""
  },
  {
   "property": "C87",
   "status": "proved",
   "theorems": [
    "IntegratorXX.C87_value_error",
    "IntegratorXX.C87_pruned_double_error"
   ],
   "note": ""
  },
  {
   "property": "C88",
   "status": "proved",
   "theorems": [
    "IntegratorXX.C88_recenter_drift",
    "IntegratorXX.C88_recenter_collapse",
    "IntegratorXX.C88_nan_centre",
    "IntegratorXX.C88_infinite_centre"
   ],
   "note": ""
  },
  {
   "property": "C89",
   "status": "proved",
   "theorems": [
    "IntegratorXX.C89_gc2m_double",
    "IntegratorXX.C89_nodes_collide"
   ],
   "note": ""
  },
  {
   "property": "C90",
   "status": "proved",
   "theorems": [
    "IntegratorXX.C90_finite_double",
    "IntegratorXX.C90_upper_infinite_double",
    "IntegratorXX.C90_lower_infinite_double",
    "IntegratorXX.C90_both_infinite_double",
    "IntegratorXX.C90_overflow",
    "IntegratorXX.C90_leaves_interval",
    "IntegratorXX.C90_both_infinite_loss",
    "IntegratorXX.C90_end_nodes"
   ],
   "note": ""
  },
  {
   "property": "C91",
   "status": "proved",
   "theorems": [
    "IntegratorXX.C91_real",
    "IntegratorXX.C91_double",
    "IntegratorXX.C91_angular",
    "IntegratorXX.C91_unpruned",
    "IntegratorXX.C91_pruned",
    "IntegratorXX.C91_sum"
   ],
   "note": ""
  },
  {
   "property": "C92",
   "status": "proved",
   "theorems": [
    "IntegratorXX.C92_angular",
    "IntegratorXX.C92_unpruned",
    "IntegratorXX.C92_pruned",
    "IntegratorXX.C92_batcher",
    "IntegratorXX.C92_batcher_unpruned",
    "IntegratorXX.C92_batcher_pruned"
   ],
   "note": ""
  },
  {
   "property": "C93",
   "status": "proved",
   "theorems": [
    "IntegratorXX.C93_all_points_equal",
    "IntegratorXX.C93_hangs",
    "IntegratorXX.C93_hangs_real",
    "IntegratorXX.C93_hangs_double"
   ],
   "note": ""
  },
  {
   "property": "C94",
   "status": "proved",
   "theorems": [
    "IntegratorXX.C94_gc1",
    "IntegratorXX.C94_gc2",
    "IntegratorXX.C94_gc3",
    "IntegratorXX.C94_trapezoid",
    "IntegratorXX.C94_radial"
   ],
   "note": ""
  },
  {
   "property": "C95",
   "status": "proved",
   "theorems": [
    "IntegratorXX.C95_becke",
    "IntegratorXX.C95_mhl",
    "IntegratorXX.C95_middle"
   ],
   "note": ""
  },
  {
   "property": "C96",
   "status": "proved",
   "theorems": [
    "IntegratorXX.C96_gauss_legendre",
    "IntegratorXX.C96_gauss_lobatto",
    "IntegratorXX.C96_gauss_legendre_double",
    "IntegratorXX.C96_gauss_lobatto_double"
   ],
   "note": ""
  },
  {
   "property": "C97",
   "status": "proved",
   "theorems": [
    "IntegratorXX.C97_terminates_double",
    "IntegratorXX.C97_angular",
    "IntegratorXX.C97_separated_unpruned",
    "IntegratorXX.C97_separated_pruned",
    "IntegratorXX.C97_batcher_unpruned_double",
    "IntegratorXX.C97_batcher_pruned_double",
    "IntegratorXX.C97_recentred_hangs"
   ],
   "note": ""
  },
  {
   "property": "C98",
   "status": "proved",
   "theorems": [
    "IntegratorXX.C98_chebyshev_second_order",
    "IntegratorXX.C98_radial_second_order",
    "IntegratorXX.C98_muraknowles_exponential"
   ],
   "note": ""
  },
  {
   "property": "C99",
   "status": "proved",
   "theorems": [
    "IntegratorXX.C99_batches_determined",
    "IntegratorXX.C99_rebatch",
    "IntegratorXX.C99_pruned_same_batches",
    "IntegratorXX.C99_number_of_batches",
    "IntegratorXX.C99_exact",
    "IntegratorXX.C99_double",
    "IntegratorXX.C99_nan_order_matters"
   ],
   "note": ""
  },
  {
   "property": "C100",
   "status": "proved",
   "theorems": [
    "IntegratorXX.C100_chebyshev1",
    "IntegratorXX.C100_chebyshev2",
    "IntegratorXX.C100_chebyshev3",
    "IntegratorXX.C100_gauss_legendre",
    "IntegratorXX.C100_gauss_lobatto",
    "IntegratorXX.C100_trapezoid",
    "IntegratorXX.C100_not_exact"
   ],
   "note": ""
  },
  {
   "property": "C101",
   "status": "proved",
   "theorems": [
    "IntegratorXX.C101_becke",
    "IntegratorXX.C101_murray_handy_laming",
    "IntegratorXX.C101_muraknowles",
    "IntegratorXX.C101_treutler_ahlrichs"
   ],
   "note": ""
  },
  {
   "property": "C102",
   "status": "proved",
   "theorems": [
    "IntegratorXX.C102_becke",
    "IntegratorXX.C102_murray_handy_laming",
    "IntegratorXX.C102_muraknowles",
    "IntegratorXX.C102_treutler_ahlrichs",
    "IntegratorXX.C102_becke_unpruned",
    "IntegratorXX.C102_murray_handy_laming_unpruned",
    "IntegratorXX.C102_muraknowles_unpruned",
    "IntegratorXX.C102_treutler_ahlrichs_unpruned"
   ],
   "note": ""
  },
  {
   "property": "C103",
   "status": "proved",
   "theorems": [
    "IntegratorXX.C103_radial_from_type",
    "IntegratorXX.C103_angular_from_type",
    "IntegratorXX.C103_not_both",
    "IntegratorXX.C103_radial_names",
    "IntegratorXX.C103_angular_names",
    "IntegratorXX.C103_radial_factory",
    "IntegratorXX.C103_angular_factory",
    "IntegratorXX.C103_no_type"
   ],
   "note": ""
  },
  {
   "property": "C104",
   "status": "proved",
   "theorems": [
    "IntegratorXX.C104_order_sharp",
    "IntegratorXX.C104_womersley6"
   ],
   "note": ""
  },
  {
   "property": "C105",
   "status": "proved",
   "theorems": [
    "IntegratorXX.C105_unpruned_count",
    "IntegratorXX.C105_robust_saves",
    "IntegratorXX.C105_treutler_saves"
   ],
   "note": ""
  },
  {
   "property": "C106",
   "status": "proved",
   "theorems": [
    "IntegratorXX.C106_no_inversion"
   ],
   "note": ""
  },
  {
   "property": "C107",
   "status": "proved",
   "theorems": [
    "IntegratorXX.C107_boxes_apart",
    "IntegratorXX.C107_interiors_disjoint",
    "IntegratorXX.C107_double"
   ],
   "note": ""
  },
  {
   "property": "C108",
   "status": "proved",
   "theorems": [
    "IntegratorXX.C108_robust_cuts",
    "IntegratorXX.C108_treutler_cuts",
    "IntegratorXX.C108_distances"
   ],
   "note": ""
  },
  {
   "property": "C109",
   "status": "proved",
   "theorems": [
    "IntegratorXX.C109_becke",
    "IntegratorXX.C109_mhl",
    "IntegratorXX.C109_mk",
    "IntegratorXX.C109_ta"
   ],
   "note": ""
  },
  {
   "property": "C110",
   "status": "proved",
   "theorems": [
    "IntegratorXX.C110_harmonics",
    "IntegratorXX.C110_trigonometric"
   ],
   "note": ""
  },
  {
   "property": "C111",
   "status": "proved",
   "theorems": [
    "IntegratorXX.C111_gauss_legendre",
    "IntegratorXX.C111_gauss_lobatto",
    "IntegratorXX.C111_gauss_legendre_double",
    "IntegratorXX.C111_gauss_lobatto_double",
    "IntegratorXX.C111_gauss_chebyshev_1",
    "IntegratorXX.C111_gauss_chebyshev_2",
    "IntegratorXX.C111_gauss_chebyshev_3"
   ],
   "note": ""
  },
  {
   "property": "C112",
   "status": "proved",
   "theorems": [
    "IntegratorXX.C112_passes",
    "IntegratorXX.C112_separated"
   ],
   "note": ""
  },
  {
   "property": "C113",
   "status": "proved",
   "theorems": [
    "IntegratorXX.C113_no_holes",
    "IntegratorXX.C113_no_holes_octahedral",
    "IntegratorXX.C113_no_holes_double",
    "IntegratorXX.C113_sharp"
   ],
   "note": ""
  },
  {
   "property": "C114",
   "status": "proved",
   "theorems": [
    "IntegratorXX.C114_unpruned",
    "IntegratorXX.C114_pruned",
    "IntegratorXX.C114_unpruned_schemes",
    "IntegratorXX.C114_pruned_schemes"
   ],
   "note": ""
  },
  {
   "property": "C115",
   "status": "proved",
   "theorems": [
    "IntegratorXX.C115_exponentials",
    "IntegratorXX.C115_functions",
    "IntegratorXX.C115_surface_integral"
   ],
   "note": ""
  },
  {
   "property": "C116",
   "status": "proved",
   "theorems": [
    "IntegratorXX.C116_series",
    "IntegratorXX.C116_shell_potential"
   ],
   "note": ""
  },
  {
   "property": "C117",
   "status": "proved",
   "theorems": [
    "IntegratorXX.C117_lower_bound",
    "IntegratorXX.C117_sizes",
    "IntegratorXX.C117_near_minimal"
   ],
   "note": ""
  },
  {
   "property": "C118",
   "status": "proved",
   "theorems": [
    "IntegratorXX.C118_chebyshev1",
    "IntegratorXX.C118_chebyshev2",
    "IntegratorXX.C118_chebyshev3",
    "IntegratorXX.C118_gauss_legendre",
    "IntegratorXX.C118_gauss_lobatto"
   ],
   "note": ""
  }
 ]
}