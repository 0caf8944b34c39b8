{
 "claims": [
  {
   "property": "C01",
   "status": "proved",
   "theorems": [
    "Pbrt.C01_parse_terminates",
    "Pbrt.C01_tokenize_bound",
    "Pbrt.C01_parse_bound"
   ],
   "note": ""
  },
  {
   "property": "C02",
   "status": "proved",
   "theorems": [
    "Pbrt.C02_release_never_panics",
    "Pbrt.C02_panic_only_on_overflow",
    "Pbrt.C02_no_e_never_panics",
    "Pbrt.C02_parser_never_panics"
   ],
   "note": "Includes both overflow modes; the only panic left in checked mode is characterised exactly."
  },
  {
   "property": "C03",
   "status": "proved",
   "theorems": [
    "Pbrt.C03_crlf"
   ],
   "note": ""
  },
  {
   "property": "C04",
   "status": "proved",
   "theorems": [
    "Pbrt.C04_positions"
   ],
   "note": ""
  },
  {
   "property": "C05",
   "status": "proved",
   "theorems": [
    "Pbrt.C05_separators"
   ],
   "note": ""
  },
  {
   "property": "C06",
   "status": "proved",
   "theorems": [
    "Pbrt.C06_quote_roundtrip",
    "Pbrt.C06_literal"
   ],
   "note": ""
  },
  {
   "property": "C07",
   "status": "proved",
   "theorems": [
    "Pbrt.C07_unterminated"
   ],
   "note": ""
  },
  {
   "property": "C08",
   "status": "proved",
   "theorems": [
    "Pbrt.C08_exact",
    "Pbrt.C08_rejected"
   ],
   "note": ""
  },
  {
   "property": "C09",
   "status": "proved",
   "theorems": [
    "Pbrt.C09_integer_exponent",
    "Pbrt.C09_overflow_panics",
    "Pbrt.C09_overflow_wraps",
    "Pbrt.C09_exponent_cut"
   ],
   "note": ""
  },
  {
   "property": "C10",
   "status": "proved",
   "theorems": [
    "Pbrt.C10_decimal",
    "Pbrt.C10_exponent",
    "Pbrt.C10_second_point",
    "Pbrt.C10_conversion_error",
    "Pbrt.C10_no_digits"
   ],
   "note": ""
  },
  {
   "property": "C11",
   "status": "proved",
   "theorems": [
    "Pbrt.C11_grammar",
    "Pbrt.C11_deterministic",
    "Pbrt.C11_rejects"
   ],
   "note": ""
  },
  {
   "property": "C12",
   "status": "proved",
   "theorems": [
    "Pbrt.C12_lines"
   ],
   "note": ""
  },
  {
   "property": "C13",
   "status": "proved",
   "theorems": [
    "Pbrt.C13_error_positions"
   ],
   "note": ""
  },
  {
   "property": "C14",
   "status": "proved",
   "theorems": [
    "Pbrt.C14_success",
    "Pbrt.C14_no_world"
   ],
   "note": ""
  },
  {
   "property": "C15",
   "status": "proved",
   "theorems": [
    "Pbrt.C15_tail_ignored",
    "Pbrt.C15_lines"
   ],
   "note": ""
  },
  {
   "property": "C16",
   "status": "proved",
   "theorems": [
    "Pbrt.C16_written_tokens",
    "Pbrt.C16_written_scene",
    "Pbrt.C16_complete_refuted"
   ],
   "note": "The expectation in the title is false of the code: refuted by C16_complete_refuted; the other theorems prove what holds."
  },
  {
   "property": "C17",
   "status": "proved",
   "theorems": [
    "Pbrt.C17_round_trip",
    "Pbrt.C17_round_trip_tokens"
   ],
   "note": ""
  },
  {
   "property": "C18",
   "status": "proved",
   "theorems": [
    "Pbrt.C18_params",
    "Pbrt.C18_world_directive",
    "Pbrt.C18_pre_directive"
   ],
   "note": ""
  },
  {
   "property": "C19",
   "status": "proved",
   "theorems": [
    "Pbrt.C19_reader_stops",
    "Pbrt.C19_bad_declaration",
    "Pbrt.C19_swallowed",
    "Pbrt.C19_malformed_refuted"
   ],
   "note": "The expectation in the title is false of the code: refuted by C19_malformed_refuted; the other theorems prove what holds."
  },
  {
   "property": "C20",
   "status": "proved",
   "theorems": [
    "Pbrt.C20_exact",
    "Pbrt.C20_wrong_count"
   ],
   "note": ""
  },
  {
   "property": "C21",
   "status": "proved",
   "theorems": [
    "Pbrt.C21_list",
    "Pbrt.C21_fails",
    "Pbrt.C21_cases",
    "Pbrt.C21_list_of_n"
   ],
   "note": ""
  },
  {
   "property": "C22",
   "status": "proved",
   "theorems": [
    "Pbrt.C22_points",
    "Pbrt.C22_vectors"
   ],
   "note": ""
  },
  {
   "property": "C23",
   "status": "proved",
   "theorems": [
    "Pbrt.C23_spectrum",
    "Pbrt.C23_colour_count"
   ],
   "note": ""
  },
  {
   "property": "C24",
   "status": "proved",
   "theorems": [
    "Pbrt.C24_int_as_float",
    "Pbrt.C24_float_not_int",
    "Pbrt.C24_integer_values"
   ],
   "note": ""
  },
  {
   "property": "C25",
   "status": "proved",
   "theorems": [
    "Pbrt.C25_nothing_invented",
    "Pbrt.C25_text_order"
   ],
   "note": ""
  },
  {
   "property": "C26",
   "status": "proved",
   "theorems": [
    "Pbrt.C26_ends_interchangeable",
    "Pbrt.C26_matching_refuted"
   ],
   "note": "The expectation in the title is false of the code: refuted by C26_matching_refuted; C26_ends_interchangeable proves what holds."
  },
  {
   "property": "C27",
   "status": "proved",
   "theorems": [
    "Pbrt.C27_unknown_pre",
    "Pbrt.C27_unknown_world",
    "Pbrt.C27_accepted",
    "Pbrt.C27_shared"
   ],
   "note": ""
  },
  {
   "property": "C28",
   "status": "proved",
   "theorems": [
    "Pbrt.C28_fixed_size",
    "Pbrt.C28_tokens"
   ],
   "note": ""
  },
  {
   "property": "C29",
   "status": "proved",
   "theorems": [
    "Pbrt.C29_cut",
    "Pbrt.C29_eof"
   ],
   "note": ""
  },
  {
   "property": "C30",
   "status": "proved",
   "theorems": [
    "Pbrt.C30_inverse",
    "Pbrt.C30_inverse_exact"
   ],
   "note": ""
  },
  {
   "property": "C31",
   "status": "proved",
   "theorems": [
    "Pbrt.C31_panics",
    "Pbrt.C31_returns",
    "Pbrt.C31_float_first_panic",
    "Pbrt.C31_float_rounding"
   ],
   "note": "Proved for exact arithmetic; the two float theorems show where rounding and NaN break it."
  },
  {
   "property": "C32",
   "status": "proved",
   "theorems": [
    "Pbrt.C32_values",
    "Pbrt.C32_mul_assoc",
    "Pbrt.C32_one_mul",
    "Pbrt.C32_distrib",
    "Pbrt.C32_add_comm",
    "Pbrt.C32_add_assoc",
    "Pbrt.C32_transpose_mul",
    "Pbrt.C32_transpose_add",
    "Pbrt.C32_transpose_twice",
    "Pbrt.C32_index",
    "Pbrt.C32_checked",
    "Pbrt.C77_ring",
    "Pbrt.C77_i64"
   ],
   "note": ""
  },
  {
   "property": "C33",
   "status": "proved",
   "theorems": [
    "Pbrt.C33_consistent",
    "Pbrt.C33_twice",
    "Pbrt.C33_new",
    "Pbrt.C33_translate"
   ],
   "note": ""
  },
  {
   "property": "C34",
   "status": "proved",
   "theorems": [
    "Pbrt.C34_scale_refuted",
    "Pbrt.C34_blocks",
    "Pbrt.C34_round_trip",
    "Pbrt.C34_scale_vector"
   ],
   "note": "The expectation in the title is false of the code for all non-zero factors (C34_scale_refuted); the other theorems prove what holds."
  },
  {
   "property": "C35",
   "status": "proved",
   "theorems": [
    "Pbrt.C35_value",
    "Pbrt.C35_ignores_rest",
    "Pbrt.C35_translate",
    "Pbrt.C35_linear",
    "Pbrt.C35_product",
    "Pbrt.C35_product_needs_affine"
   ],
   "note": ""
  },
  {
   "property": "C36",
   "status": "proved",
   "theorems": [
    "Pbrt.C36_is_identity",
    "Pbrt.C36_is_identity_exact",
    "Pbrt.C36_has_scale_value",
    "Pbrt.C36_scale",
    "Pbrt.C36_translate",
    "Pbrt.C36_translate_float"
   ],
   "note": ""
  },
  {
   "property": "C37",
   "status": "proved",
   "theorems": [
    "Pbrt.C37_new_smallest",
    "Pbrt.C37_order",
    "Pbrt.C37_order_eq",
    "Pbrt.C37_one_point",
    "Pbrt.C37_nan",
    "Pbrt.C77_ordered",
    "Pbrt.C77_i64",
    "Pbrt.C77_f32",
    "Pbrt.C77_f64"
   ],
   "note": ""
  },
  {
   "property": "C38",
   "status": "proved",
   "theorems": [
    "Pbrt.C38_union_least",
    "Pbrt.C38_union_comm",
    "Pbrt.C38_union_assoc",
    "Pbrt.C38_union_idem",
    "Pbrt.C38_union_laws_eq",
    "Pbrt.C38_union_pt_least",
    "Pbrt.C38_fold",
    "Pbrt.C38_fold_order",
    "Pbrt.C77_ordered",
    "Pbrt.C77_i64",
    "Pbrt.C77_f32",
    "Pbrt.C77_f64"
   ],
   "note": ""
  },
  {
   "property": "C39",
   "status": "proved",
   "theorems": [
    "Pbrt.C39_intersect_exact",
    "Pbrt.C39_disjoint_refuted",
    "Pbrt.C39_gap",
    "Pbrt.C77_ordered",
    "Pbrt.C77_i64",
    "Pbrt.C77_f32",
    "Pbrt.C77_f64"
   ],
   "note": "The empty-intersection expectation is false of the code (C39_disjoint_refuted, C39_gap)."
  },
  {
   "property": "C40",
   "status": "proved",
   "theorems": [
    "Pbrt.C40_overlap_exact",
    "Pbrt.C40_overlap_symm",
    "Pbrt.C40_overlap_of_common",
    "Pbrt.C77_ordered",
    "Pbrt.C77_i64",
    "Pbrt.C77_f32",
    "Pbrt.C77_f64"
   ],
   "note": ""
  },
  {
   "property": "C41",
   "status": "proved",
   "theorems": [
    "Pbrt.C41_everything",
    "Pbrt.C41_absorbing",
    "Pbrt.C41_empty_refuted",
    "Pbrt.C41_types",
    "Pbrt.C77_ordered",
    "Pbrt.C77_extremes",
    "Pbrt.C77_i64",
    "Pbrt.C77_f32",
    "Pbrt.C77_f64"
   ],
   "note": "The empty-box expectation is false of the code (C41_empty_refuted)."
  },
  {
   "property": "C42",
   "status": "proved",
   "theorems": [
    "Pbrt.C42_corner_bits",
    "Pbrt.C42_low_bits",
    "Pbrt.C42_corners_span",
    "Pbrt.C77_ordered",
    "Pbrt.C77_i64",
    "Pbrt.C77_f32",
    "Pbrt.C77_f64"
   ],
   "note": ""
  },
  {
   "property": "C43",
   "status": "proved",
   "theorems": [
    "Pbrt.C43_membership",
    "Pbrt.C43_exclusive_inclusive",
    "Pbrt.C43_apart",
    "Pbrt.C43_tiles",
    "Pbrt.C77_ordered",
    "Pbrt.C77_i64",
    "Pbrt.C77_f32",
    "Pbrt.C77_f64"
   ],
   "note": ""
  },
  {
   "property": "C44",
   "status": "proved",
   "theorems": [
    "Pbrt.C44_expand",
    "Pbrt.C44_expand_mono",
    "Pbrt.C44_expand_mono_box",
    "Pbrt.C44_expand_twice",
    "Pbrt.C44_shrink_inside_out",
    "Pbrt.C44_float_expand",
    "Pbrt.C44_float_expand_mono",
    "Pbrt.C44_float_infinite",
    "Pbrt.C77_f32",
    "Pbrt.C77_f64"
   ],
   "note": "Containment and monotonicity also under IEEE rounding; C44_float_infinite shows the one float exception."
  },
  {
   "property": "C45",
   "status": "proved",
   "theorems": [
    "Pbrt.C45_diagonal",
    "Pbrt.C45_values",
    "Pbrt.C45_nonneg",
    "Pbrt.C45_mono",
    "Pbrt.C45_float_mono",
    "Pbrt.C45_float_nonneg",
    "Pbrt.C45_float_volume_nan",
    "Pbrt.C77_f32",
    "Pbrt.C77_f64"
   ],
   "note": "Non-negativity and growth also under IEEE rounding; C45_float_volume_nan shows the float exception."
  },
  {
   "property": "C46",
   "status": "proved",
   "theorems": [
    "Pbrt.C46_max_dimension_vector",
    "Pbrt.C46_max_dimension_normal",
    "Pbrt.C46_maximum_extent",
    "Pbrt.C46_axis",
    "Pbrt.C46_same_axis",
    "Pbrt.C46_nan_refuted",
    "Pbrt.C77_ordered",
    "Pbrt.C77_i64",
    "Pbrt.C77_f32",
    "Pbrt.C77_f64"
   ],
   "note": ""
  },
  {
   "property": "C47",
   "status": "proved",
   "theorems": [
    "Pbrt.C47_offset_total",
    "Pbrt.C47_offset_range",
    "Pbrt.C47_lerp_offset",
    "Pbrt.C47_offset_lerp",
    "Pbrt.C47_degenerate",
    "Pbrt.C47_integer_offset_refuted",
    "Pbrt.C47_float_offset",
    "Pbrt.C47_float_overflow",
    "Pbrt.C77_f32",
    "Pbrt.C77_f64"
   ],
   "note": "Exact arithmetic plus float range theorem; refutations for i64 and for overflowing floats."
  },
  {
   "property": "C48",
   "status": "proved",
   "theorems": [
    "Pbrt.C48_sphere"
   ],
   "note": ""
  },
  {
   "property": "C49",
   "status": "proved",
   "theorems": [
    "Pbrt.C49_visits",
    "Pbrt.C49_once",
    "Pbrt.C49_fused",
    "Pbrt.C49_origin",
    "Pbrt.C49_lower_corner_refuted",
    "Pbrt.C49_outside_refuted"
   ],
   "note": "The expectation in the title is false of the code; the two refutations and the closed form of the visited points are proved."
  },
  {
   "property": "C50",
   "status": "proved",
   "theorems": [
    "Pbrt.C50_dot_value_vector",
    "Pbrt.C50_dot_symm_vector",
    "Pbrt.C50_dot_add_vector",
    "Pbrt.C50_dot_scale_vector",
    "Pbrt.C50_len_sq_vector",
    "Pbrt.C50_cross_value_vector",
    "Pbrt.C50_cross_antisymm_vector",
    "Pbrt.C50_cross_add_vector",
    "Pbrt.C50_cross_scale_vector",
    "Pbrt.C50_cross_orthogonal_vector",
    "Pbrt.C50_lagrange_vector",
    "Pbrt.C50_len_sq_zero_vector",
    "Pbrt.C50_dot_value_normal",
    "Pbrt.C50_dot_symm_normal",
    "Pbrt.C50_dot_add_normal",
    "Pbrt.C50_dot_scale_normal",
    "Pbrt.C50_len_sq_normal",
    "Pbrt.C50_cross_value_normal",
    "Pbrt.C50_cross_antisymm_normal",
    "Pbrt.C50_cross_add_normal",
    "Pbrt.C50_cross_scale_normal",
    "Pbrt.C50_cross_orthogonal_normal",
    "Pbrt.C50_lagrange_normal",
    "Pbrt.C50_len_sq_zero_normal",
    "Pbrt.C50_dot_checked",
    "Pbrt.C50_cross_checked",
    "Pbrt.C50_wrapping_len_sq",
    "Pbrt.C77_ring",
    "Pbrt.C77_i64"
   ],
   "note": ""
  },
  {
   "property": "C51",
   "status": "proved",
   "theorems": [
    "Pbrt.C51_float_face_forward_vector",
    "Pbrt.C51_float_face_forward_normal",
    "Pbrt.C51_face_forward_vector",
    "Pbrt.C51_face_forward_normal",
    "Pbrt.C77_f32",
    "Pbrt.C77_f64"
   ],
   "note": ""
  },
  {
   "property": "C52",
   "status": "proved",
   "theorems": [
    "Pbrt.C52_div_refuted",
    "Pbrt.C52_div_zero"
   ],
   "note": "The expectation in the title is false of the code; C52_div_refuted says exactly when the result is right."
  },
  {
   "property": "C53",
   "status": "proved",
   "theorems": [
    "Pbrt.C53_index_vector",
    "Pbrt.C53_permute_vector",
    "Pbrt.C53_permute_id_vector",
    "Pbrt.C53_permute_comp_vector",
    "Pbrt.C53_index_normal",
    "Pbrt.C53_permute_normal",
    "Pbrt.C53_permute_id_normal",
    "Pbrt.C53_permute_comp_normal",
    "Pbrt.C53_index_vector2"
   ],
   "note": ""
  },
  {
   "property": "C54",
   "status": "proved",
   "theorems": [
    "Pbrt.C54_sub_add",
    "Pbrt.C54_add_sub",
    "Pbrt.C54_add_assoc",
    "Pbrt.C54_sub_neg",
    "Pbrt.C54_cancel",
    "Pbrt.C54_sub_add_checked",
    "Pbrt.C54_conversions",
    "Pbrt.C77_ring",
    "Pbrt.C77_i64"
   ],
   "note": ""
  },
  {
   "property": "C55",
   "status": "proved",
   "theorems": [
    "Pbrt.C55_frame",
    "Pbrt.C55_orthonormal"
   ],
   "note": ""
  },
  {
   "property": "C56",
   "status": "proved",
   "theorems": [
    "Pbrt.C56_at_zero",
    "Pbrt.C56_at_value",
    "Pbrt.C56_at_affine",
    "Pbrt.C56_at_add",
    "Pbrt.C56_at_one",
    "Pbrt.C56_infinite",
    "Pbrt.C77_ring",
    "Pbrt.C77_extremes",
    "Pbrt.C77_i64"
   ],
   "note": ""
  },
  {
   "property": "C57",
   "status": "proved",
   "theorems": [
    "Pbrt.C57_value",
    "Pbrt.C57_one",
    "Pbrt.C57_zero",
    "Pbrt.C57_twice",
    "Pbrt.C57_many",
    "Pbrt.C57_new",
    "Pbrt.C57_float_one_refuted",
    "Pbrt.C77_ring",
    "Pbrt.C77_i64"
   ],
   "note": "Exact arithmetic; C57_float_one_refuted shows that rounding breaks the s = 1 law."
  },
  {
   "property": "C58",
   "status": "proved",
   "theorems": [
    "Pbrt.C58_float_ends",
    "Pbrt.C58_float_between_refuted",
    "Pbrt.C58_lerp_ends",
    "Pbrt.C58_lerp_between",
    "Pbrt.C58_lerp_mono",
    "Pbrt.C58_lerp_points",
    "Pbrt.C77_f32",
    "Pbrt.C77_f64"
   ],
   "note": "Exact arithmetic; ends also under rounding; betweenness under rounding is refuted by C58_float_between_refuted."
  },
  {
   "property": "C59",
   "status": "proved",
   "theorems": [
    "Pbrt.C59_pmin",
    "Pbrt.C59_pmax",
    "Pbrt.C59_empty",
    "Pbrt.C59_components",
    "Pbrt.C77_ordered",
    "Pbrt.C77_i64",
    "Pbrt.C77_f32",
    "Pbrt.C77_f64"
   ],
   "note": ""
  },
  {
   "property": "C60",
   "status": "proved",
   "theorems": [
    "Pbrt.C60_mul_one",
    "Pbrt.C60_translate",
    "Pbrt.C60_at_zero",
    "Pbrt.C60_dot_symm",
    "Pbrt.C60_dot_symm_normal",
    "Pbrt.C60_len_sq",
    "Pbrt.C60_len_sq_normal",
    "Pbrt.C60_diagonal",
    "Pbrt.C77_f32",
    "Pbrt.C77_f64"
   ],
   "note": "For every IEEE float type (f32 and f64)."
  },
  {
   "property": "C61",
   "status": "proved",
   "theorems": [
    "Pbrt.C61_language",
    "Pbrt.C61_deterministic",
    "Pbrt.C61_rejects"
   ],
   "note": ""
  },
  {
   "property": "C62",
   "status": "proved",
   "theorems": [
    "Pbrt.C62_tokens",
    "Pbrt.C62_layout"
   ],
   "note": ""
  },
  {
   "property": "C63",
   "status": "proved",
   "theorems": [
    "Pbrt.C63_first_error",
    "Pbrt.C63_eof",
    "Pbrt.C63_text"
   ],
   "note": ""
  },
  {
   "property": "C64",
   "status": "proved",
   "theorems": [
    "Pbrt.C64_headers",
    "Pbrt.C64_contents"
   ],
   "note": ""
  },
  {
   "property": "C65",
   "status": "proved",
   "theorems": [
    "Pbrt.C65_vector",
    "Pbrt.C65_normal",
    "Pbrt.C65_point",
    "Pbrt.C65_point2",
    "Pbrt.C65_min_max_vector",
    "Pbrt.C65_min_max_normal",
    "Pbrt.C65_min_max_point",
    "Pbrt.C65_components",
    "Pbrt.C77_ordered",
    "Pbrt.C77_i64",
    "Pbrt.C77_f32",
    "Pbrt.C77_f64"
   ],
   "note": ""
  },
  {
   "property": "C66",
   "status": "proved",
   "theorems": [
    "Pbrt.C66_floor",
    "Pbrt.C66_ceil",
    "Pbrt.C66_order",
    "Pbrt.C66_mirror",
    "Pbrt.C66_points",
    "Pbrt.C77_f32",
    "Pbrt.C77_f64"
   ],
   "note": ""
  },
  {
   "property": "C67",
   "status": "proved",
   "theorems": [
    "Pbrt.C67_norm",
    "Pbrt.C67_norm_normal",
    "Pbrt.C67_zero",
    "Pbrt.C67_laws",
    "Pbrt.C67_normalize",
    "Pbrt.C67_integer",
    "Pbrt.C67_float_nonneg",
    "Pbrt.C67_float_nonneg_normal",
    "Pbrt.C67_float_mono",
    "Pbrt.C67_float_neg",
    "Pbrt.C67_float_range_refuted",
    "Pbrt.C77_f32",
    "Pbrt.C77_f64"
   ],
   "note": "Finite and non-degenerate float lengths are refuted by C67_float_range_refuted (underflow and overflow)."
  },
  {
   "property": "C69",
   "status": "proved",
   "theorems": [
    "Pbrt.C69_dot",
    "Pbrt.C69_dot_normal",
    "Pbrt.C69_len_sq",
    "Pbrt.C69_len",
    "Pbrt.C69_cross",
    "Pbrt.C69_cross_normal",
    "Pbrt.C69_at",
    "Pbrt.C69_lerp",
    "Pbrt.C69_lerp_point",
    "Pbrt.C69_scale_differentials",
    "Pbrt.C69_matrix_mul",
    "Pbrt.C69_transform",
    "Pbrt.C69_volume",
    "Pbrt.C69_surface",
    "Pbrt.C69_diagonal",
    "Pbrt.C69_constants",
    "Pbrt.C77_f32",
    "Pbrt.C77_f64"
   ],
   "note": ""
  },
  {
   "property": "C68",
   "status": "proved",
   "theorems": [
    "Pbrt.C68_release",
    "Pbrt.C68_exact",
    "Pbrt.C68_vector",
    "Pbrt.C68_normal",
    "Pbrt.C68_point",
    "Pbrt.C68_box",
    "Pbrt.C68_iter",
    "Pbrt.C68_matrix",
    "Pbrt.C68_casts",
    "Pbrt.C68_small_vector",
    "Pbrt.C68_small_box"
   ],
   "note": ""
  },
  {
   "property": "C70",
   "status": "proved",
   "theorems": [
    "Pbrt.C70_range",
    "Pbrt.C70_range32",
    "Pbrt.C70_range64",
    "Pbrt.C70_decimal",
    "Pbrt.C70_nearest",
    "Pbrt.C70_monotone",
    "Pbrt.C70_exact",
    "Pbrt.C70_error",
    "Pbrt.C70_exponent",
    "Pbrt.C70_exponent_refuted",
    "Pbrt.C70_zero_refuted",
    "Pbrt.C77_f32",
    "Pbrt.C77_f64"
   ],
   "note": "Exponent literals need not denote the nearest float (C70_exponent_refuted, C70_exponent bounds the error)."
  },
  {
   "property": "C71",
   "status": "proved",
   "theorems": [
    "Pbrt.C71_error",
    "Pbrt.C71_panic",
    "Pbrt.C71_exactly_one",
    "Pbrt.C71_parse"
   ],
   "note": ""
  },
  {
   "property": "C72",
   "status": "proved",
   "theorems": [
    "Pbrt.C72_displayed",
    "Pbrt.C72_error",
    "Pbrt.C72_exactly_one",
    "Pbrt.C72_text",
    "Pbrt.C72_outcomes"
   ],
   "note": ""
  },
  {
   "property": "C73",
   "status": "proved",
   "theorems": [
    "Pbrt.C73_outcomes",
    "Pbrt.C73_monomial_nearest",
    "Pbrt.C73_monomial_quotient",
    "Pbrt.C73_signed_permutation",
    "Pbrt.C73_translation",
    "Pbrt.C73_translation_refuted",
    "Pbrt.C73_singular_refuted",
    "Pbrt.C73_regular_refuted",
    "Pbrt.C73_twice_refuted",
    "Pbrt.C73_overflow_refuted",
    "Pbrt.C77_f32",
    "Pbrt.C77_f64"
   ],
   "note": "The general expectation is refuted by the five _refuted theorems; the other theorems prove the classes where it holds."
  },
  {
   "property": "C74",
   "status": "proved",
   "theorems": [
    "Pbrt.C74_vectors",
    "Pbrt.C74_dot",
    "Pbrt.C74_cross",
    "Pbrt.C74_faceForward",
    "Pbrt.C74_normals",
    "Pbrt.C74_points",
    "Pbrt.C74_ray",
    "Pbrt.C74_ray_backwards",
    "Pbrt.C74_box_new",
    "Pbrt.C74_boxes",
    "Pbrt.C74_tests",
    "Pbrt.C74_measures",
    "Pbrt.C74_expand",
    "Pbrt.C74_sphere_center",
    "Pbrt.C74_matrix_mul",
    "Pbrt.C74_transform",
    "Pbrt.C74_inverse",
    "Pbrt.C74_exchange",
    "Pbrt.C74_transpose",
    "Pbrt.C74_swap_xy",
    "Pbrt.C74_lerp_reverse",
    "Pbrt.C74_permute_refuted",
    "Pbrt.C74_lerp_reverse_refuted",
    "Pbrt.C74_half_open_refuted",
    "Pbrt.C74_sphere_refuted",
    "Pbrt.C74_nan_refuted",
    "Pbrt.C77_f32",
    "Pbrt.C77_f64"
   ],
   "note": "The exceptions are the five _refuted theorems; the other theorems prove what holds."
  },
  {
   "property": "C75",
   "status": "proved",
   "theorems": [
    "Pbrt.C75_frame_f32",
    "Pbrt.C75_frame_f64",
    "Pbrt.C75_exact_f32",
    "Pbrt.C75_exact_f64",
    "Pbrt.C75_short_refuted",
    "Pbrt.C75_long_refuted"
   ],
   "note": "For vectors of about unit length; the expectation for all non-zero vectors is refuted by C75_short_refuted and C75_long_refuted."
  },
  {
   "property": "C76",
   "status": "proved",
   "theorems": [
    "Pbrt.C76_center",
    "Pbrt.C76_point",
    "Pbrt.C76_contains_f32",
    "Pbrt.C76_contains_f64",
    "Pbrt.C76_tight_f32",
    "Pbrt.C76_tight_f64",
    "Pbrt.C76_small_refuted",
    "Pbrt.C76_overflow_refuted",
    "Pbrt.C76_overflow",
    "Pbrt.C76_range_f32",
    "Pbrt.C76_range_f64",
    "Pbrt.C77_f32",
    "Pbrt.C77_f64"
   ],
   "note": "Containment holds up to the stated rounding error; exact containment is refuted by C76_small_refuted, and C76_overflow_refuted shows what an overflowing centre gives."
  },
  {
   "property": "C77",
   "status": "proved",
   "theorems": [
    "Pbrt.C77_i64",
    "Pbrt.C77_f32",
    "Pbrt.C77_f64",
    "Pbrt.C77_ordered",
    "Pbrt.C77_extremes",
    "Pbrt.C77_ring"
   ],
   "note": "The theorems on all number types (LawfulOrder, LawfulExtremes, ExactRing, IEEE) list these theorems too: they show that the types of the program have the laws."
  },
  {
   "property": "C78",
   "status": "proved",
   "theorems": [
    "Pbrt.C78_columns",
    "Pbrt.C78_identity",
    "Pbrt.C78_translate",
    "Pbrt.C78_scale",
    "Pbrt.C78_round_trip",
    "Pbrt.C78_has_scale_f32",
    "Pbrt.C78_has_scale_f64",
    "Pbrt.C78_translate_has_scale",
    "Pbrt.C78_has_scale_refuted",
    "Pbrt.C78_infinite_refuted",
    "Pbrt.C78_scale_zero_refuted",
    "Pbrt.C78_round_trip_refuted",
    "Pbrt.C77_f32",
    "Pbrt.C77_f64"
   ],
   "note": "has_scale on matrices with NaN or infinite entries, infinite vectors, zero factors and exact round trips are refuted expectations (C78_*_refuted)."
  },
  {
   "property": "C79",
   "status": "proved",
   "theorems": [
    "Pbrt.C79_vectors",
    "Pbrt.C79_vectors_scalar",
    "Pbrt.C79_dot",
    "Pbrt.C79_len",
    "Pbrt.C79_cross",
    "Pbrt.C79_faceForward",
    "Pbrt.C79_extremes",
    "Pbrt.C79_normals",
    "Pbrt.C79_normals_scalar",
    "Pbrt.C79_normals_products",
    "Pbrt.C79_normals_extremes",
    "Pbrt.C79_points",
    "Pbrt.C79_points_scalar",
    "Pbrt.C79_lerp",
    "Pbrt.C79_ray",
    "Pbrt.C79_boxes",
    "Pbrt.C79_tests",
    "Pbrt.C79_diagonal",
    "Pbrt.C79_measures",
    "Pbrt.C79_expand",
    "Pbrt.C79_offset",
    "Pbrt.C79_box_lerp",
    "Pbrt.C79_sphere",
    "Pbrt.C79_scale_differentials",
    "Pbrt.C79_coordinate_system",
    "Pbrt.C79_matrix_mul",
    "Pbrt.C79_transpose",
    "Pbrt.C79_translate",
    "Pbrt.C79_transform",
    "Pbrt.C79_underflow_refuted",
    "Pbrt.C79_factor_refuted",
    "Pbrt.C79_inverse_refuted",
    "Pbrt.C79_singular_refuted",
    "Pbrt.C77_f32",
    "Pbrt.C77_f64"
   ],
   "note": "Limits are stated by C79_underflow_refuted, C79_factor_refuted, C79_inverse_refuted and C79_singular_refuted; inverse is outside of the claim."
  },
  {
   "property": "C80",
   "status": "proved",
   "theorems": [
    "Pbrt.C80_inverse_f32",
    "Pbrt.C80_inverse_f64",
    "Pbrt.C80_new_f32",
    "Pbrt.C80_new_f64",
    "Pbrt.C80_rigid_f32",
    "Pbrt.C80_rigid_f64",
    "Pbrt.C77_f32",
    "Pbrt.C77_f64"
   ],
   "note": "What holds in general of C73: the refuted expectations there are about matrices outside of these bounds."
  },
  {
   "property": "C81",
   "status": "proved",
   "theorems": [
    "Pbrt.C81_range_f32",
    "Pbrt.C81_back_and_there_f32",
    "Pbrt.C81_range_f64",
    "Pbrt.C81_back_and_there_f64",
    "Pbrt.C81_rotation_range_f32",
    "Pbrt.C81_rotation_range_f64",
    "Pbrt.C81_overflow_refuted",
    "Pbrt.C81_there_and_back_f32",
    "Pbrt.C81_there_and_back_f64",
    "Pbrt.C81_rotation_f32",
    "Pbrt.C81_rotation_f64",
    "Pbrt.C81_projective_refuted",
    "Pbrt.C77_f32",
    "Pbrt.C77_f64"
   ],
   "note": "C81_projective_refuted shows that affine is needed, C81_overflow_refuted that large vectors can overflow."
  },
  {
   "property": "C82",
   "status": "proved",
   "theorems": [
    "Pbrt.C82_laws",
    "Pbrt.C82_integers",
    "Pbrt.C82_vectors",
    "Pbrt.C82_normals",
    "Pbrt.C82_points",
    "Pbrt.C82_matrices",
    "Pbrt.C82_zero_refuted",
    "Pbrt.C82_nan_refuted",
    "Pbrt.C77_ordered",
    "Pbrt.C77_i64",
    "Pbrt.C77_f32",
    "Pbrt.C77_f64"
   ],
   "note": "C82_zero_refuted and C82_nan_refuted state where == is not substitutive or reflexive."
  },
  {
   "property": "C83",
   "status": "proved",
   "theorems": [
    "Pbrt.C83_offset",
    "Pbrt.C83_degenerate",
    "Pbrt.C83_there_and_back",
    "Pbrt.C83_back_and_there",
    "Pbrt.C83_constants",
    "Pbrt.C83_exact_refuted",
    "Pbrt.C77_f32",
    "Pbrt.C77_f64"
   ],
   "note": "C83_constants discharges FineGrained for both types; C83_exact_refuted shows that the round trips are not exact."
  },
  {
   "property": "C84",
   "status": "proved",
   "theorems": [
    "Pbrt.C84_vectors",
    "Pbrt.C84_normals",
    "Pbrt.C84_points",
    "Pbrt.C84_floor",
    "Pbrt.C84_cross",
    "Pbrt.C84_boxes",
    "Pbrt.C84_tests",
    "Pbrt.C84_corners",
    "Pbrt.C84_measures",
    "Pbrt.C84_rays",
    "Pbrt.C84_exact",
    "Pbrt.C84_lengths",
    "Pbrt.C84_components",
    "Pbrt.C84_longest",
    "Pbrt.C84_matrices",
    "Pbrt.C84_transform",
    "Pbrt.C84_inverse",
    "Pbrt.C84_center",
    "Pbrt.C84_sphere",
    "Pbrt.C84_float",
    "Pbrt.C84_mul_comm",
    "Pbrt.C84_refuted",
    "Pbrt.C77_ring",
    "Pbrt.C77_ordered",
    "Pbrt.C77_i64",
    "Pbrt.C77_f32",
    "Pbrt.C77_f64"
   ],
   "note": "Order of the axes: the operations that sum over components are invariant in exact arithmetic only; C84_refuted lists what depends on the order."
  },
  {
   "property": "C85",
   "status": "proved",
   "theorems": [
    "Pbrt.C85_same",
    "Pbrt.C85_more",
    "Pbrt.C85_scene",
    "Pbrt.C85_blocks",
    "Pbrt.C85_tokens",
    "Pbrt.C85_text",
    "Pbrt.C85_linear",
    "Pbrt.C85_comments",
    "Pbrt.C85_exponents",
    "Pbrt.C85_nested",
    "Pbrt.C85_refuted"
   ],
   "note": "Model/Depth repeats the recursive functions with a limit on open calls; C85_same ties it to the model of the other claims. C85_refuted: no fixed room is enough."
  },
  {
   "property": "C86",
   "status": "proved",
   "theorems": [
    "Pbrt.C86_text",
    "Pbrt.C86_open",
    "Pbrt.C86_tokens",
    "Pbrt.C86_lines",
    "Pbrt.C86_number_refuted"
   ],
   "note": "C86_number_refuted: a continuation that starts with a number or a string can withdraw the report."
  },
  {
   "property": "C87",
   "status": "proved",
   "theorems": [
    "Pbrt.C87_keeps",
    "Pbrt.C87_corner",
    "Pbrt.C87_commutes",
    "Pbrt.C87_points",
    "Pbrt.C87_reflects",
    "Pbrt.C87_changes",
    "Pbrt.C87_rounding",
    "Pbrt.C87_float_shift",
    "Pbrt.C87_float_scale",
    "Pbrt.C87_float_rounding",
    "Pbrt.C87_int",
    "Pbrt.C87_exact",
    "Pbrt.C87_differences",
    "Pbrt.C87_along",
    "Pbrt.C87_expand",
    "Pbrt.C87_differentials",
    "Pbrt.C87_sphere",
    "Pbrt.C87_float_refuted",
    "Pbrt.C87_wrap_refuted"
   ],
   "note": "C87_float_refuted and C87_wrap_refuted: the converse directions fail with rounding, and everything fails with wrapping."
  },
  {
   "property": "C88",
   "status": "proved",
   "theorems": [
    "Pbrt.C88_paths",
    "Pbrt.C88_meaning",
    "Pbrt.C88_tokens",
    "Pbrt.C88_complete",
    "Pbrt.C88_laws",
    "Pbrt.C88_positions",
    "Pbrt.C88_numbers",
    "Pbrt.C88_twice",
    "Pbrt.C88_literals",
    "Pbrt.C88_identical",
    "Pbrt.C88_twice_refuted",
    "Pbrt.C88_identical_refuted"
   ],
   "note": "Reflexivity for all texts is refuted by C88_twice_refuted (a literal that is NaN), identity of equal scenes by C88_identical_refuted; path comparison is modelled for Unix."
  },
  {
   "property": "C89",
   "status": "proved",
   "theorems": [
    "Pbrt.C89_same",
    "Pbrt.C89_characters",
    "Pbrt.C89_tokens",
    "Pbrt.C89_linear",
    "Pbrt.C89_reached"
   ],
   "note": "The counted functions are the text of the model over a state with a counter; C89_same ties them to the model. Every read counts one, however long the token."
  },
  {
   "property": "C90",
   "status": "proved",
   "theorems": [
    "Pbrt.C90_tokens",
    "Pbrt.C90_scene",
    "Pbrt.C90_bounded"
   ],
   "note": "The size counts what the result holds (characters, numbers, truth values); it does not count positions (one per directive and parameter) or memory of the program."
  },
  {
   "property": "C91",
   "status": "proved",
   "theorems": [
    "Pbrt.C91_keeps_lengths",
    "Pbrt.C91_right_angles",
    "Pbrt.C91_upper",
    "Pbrt.C91_upper_reached",
    "Pbrt.C91_no_scale_refuted",
    "Pbrt.C91_rigid",
    "Pbrt.C91_rigid_last",
    "Pbrt.C91_inverse_refuted"
   ],
   "note": "The expectation in the title is false of the code (C91_no_scale_refuted, C91_inverse_refuted); the other theorems prove what holds. Exact arithmetic; C78 says what has_scale decides on floats."
  },
  {
   "property": "C92",
   "status": "proved",
   "theorems": [
    "Pbrt.C92_tokens",
    "Pbrt.C92_parse",
    "Pbrt.C92_accepts",
    "Pbrt.C92_image",
    "Pbrt.C92_message",
    "Pbrt.C92_precision",
    "Pbrt.C92_rounding_refuted"
   ],
   "note": "The last expectation of the statement is false of the code (C92_rounding_refuted). Alike is proved of the f32 and f64 instances of ieeeEnv (correctly rounded literals); that the Rust standard library accepts the same strings for f32 and f64 is an assumption of Alike."
  },
  {
   "property": "C93",
   "status": "proved",
   "theorems": [
    "Pbrt.C93_unique",
    "Pbrt.C93_product",
    "Pbrt.C93_transpose",
    "Pbrt.C93_symmetric",
    "Pbrt.C93_solves",
    "Pbrt.C93_identity",
    "Pbrt.C93_symmetric_refuted",
    "Pbrt.C93_twice_refuted",
    "Pbrt.C93_product_refuted"
   ],
   "note": "The expectation about floats is false of the code (C93_twice_refuted, C93_product_refuted, C93_symmetric_refuted); C73 and C80 bound the errors."
  },
  {
   "property": "C94",
   "status": "proved",
   "theorems": [
    "Pbrt.C94_finite",
    "Pbrt.C94_mono",
    "Pbrt.C94_sign",
    "Pbrt.C94_near",
    "Pbrt.C94_point",
    "Pbrt.C94_box",
    "Pbrt.C94_weight_refuted",
    "Pbrt.C94_outside_refuted"
   ],
   "note": "The expectation about the weight is false of the code (C94_weight_refuted, C94_outside_refuted)."
  },
  {
   "property": "C95",
   "status": "proved",
   "theorems": [
    "Pbrt.C95_unit_f32",
    "Pbrt.C95_unit_f64",
    "Pbrt.C95_normal_f32",
    "Pbrt.C95_normal_f64",
    "Pbrt.C95_short_refuted",
    "Pbrt.C95_long_refuted",
    "Pbrt.C95_exact_refuted"
   ],
   "note": "For vectors that are neither very short nor very long; the expectation for all non-zero vectors and of length exactly one is false of the code (C95_short_refuted, C95_long_refuted, C95_exact_refuted)."
  },
  {
   "property": "C96",
   "status": "proved",
   "theorems": [
    "Pbrt.C96_tokens",
    "Pbrt.C96_text",
    "Pbrt.C96_lexemes",
    "Pbrt.C96_accepts",
    "Pbrt.C96_int",
    "Pbrt.C96_float",
    "Pbrt.C96_str",
    "Pbrt.C96_floats",
    "Pbrt.C96_kind_refuted"
   ],
   "note": "The expectation that every literal may be replaced is false of the code (C96_kind_refuted)."
  },
  {
   "property": "C97",
   "status": "proved",
   "theorems": [
    "Pbrt.C97_tokens",
    "Pbrt.C97_parse",
    "Pbrt.C97_same",
    "Pbrt.C97_ascii",
    "Pbrt.C97_examples",
    "Pbrt.C97_characters_refuted"
   ],
   "note": "The expectation that the tables do not matter at all is false of the code (C97_characters_refuted). Messages are the same if strings are quoted alike, which for non-ASCII text depends on the tables too."
  },
  {
   "property": "C98",
   "status": "proved",
   "theorems": [
    "Pbrt.C98_exact",
    "Pbrt.C98_float",
    "Pbrt.C98_float_same",
    "Pbrt.C98_injective",
    "Pbrt.C98_close",
    "Pbrt.C98_digits32",
    "Pbrt.C98_digits64",
    "Pbrt.C98_digits_refuted",
    "Pbrt.C98_layout",
    "Pbrt.C98_scene",
    "Pbrt.C98_ieee"
   ],
   "note": "For literals inside the range of the finite floats (C98_close, C98_digits32, C98_digits64). The expectation that eight (sixteen) digits are enough is false of the code (C98_digits_refuted). That the library keeps the sign of zero is an assumption (SignedZeros), proved for ieeeEnv; without it floats are read back up to == (C98_float_same)."
  },
  {
   "property": "C99",
   "status": "proved",
   "theorems": [
    "Pbrt.C99_regular",
    "Pbrt.C99_print",
    "Pbrt.C99_printed",
    "Pbrt.C99_positions",
    "Pbrt.C99_print_parse",
    "Pbrt.C99_canonical",
    "Pbrt.C99_image",
    "Pbrt.C99_ieee",
    "Pbrt.C99_ieee_env"
   ],
   "note": "The printer is part of the specification (Spec/Format), the code has none. Results with infinite or NaN floats have no text in this printer; C99_print and C99_image take the texts of floats as a parameter."
  },
  {
   "property": "C100",
   "status": "proved",
   "theorems": [
    "Pbrt.C100_vector",
    "Pbrt.C100_normal",
    "Pbrt.C100_div",
    "Pbrt.C100_point",
    "Pbrt.C100_box",
    "Pbrt.C100_ray",
    "Pbrt.C100_differentials",
    "Pbrt.C100_matrix",
    "Pbrt.C100_ample",
    "Pbrt.C100_large_refuted"
   ],
   "note": "Generic in the limit M; C100_ample instantiates it. C100_large_refuted shows that a limit is needed."
  },
  {
   "property": "C101",
   "status": "proved",
   "theorems": [
    "Pbrt.C101_tokens",
    "Pbrt.C101_parse",
    "Pbrt.C101_same",
    "Pbrt.C101_ascii",
    "Pbrt.C101_bare",
    "Pbrt.C101_white_refuted"
   ],
   "note": "Needs that the tables do not classify # and the quote (Delimiters). The expectation that white space between quotes does not matter is false of the code (C101_white_refuted)."
  },
  {
   "property": "C102",
   "status": "proved",
   "theorems": [
    "Pbrt.C102_i64",
    "Pbrt.C102_f32",
    "Pbrt.C102_f64",
    "Pbrt.C102_casts",
    "Pbrt.C102_vector_sums",
    "Pbrt.C102_vector_scaled",
    "Pbrt.C102_vector_products",
    "Pbrt.C102_vector_order",
    "Pbrt.C102_normal_sums",
    "Pbrt.C102_normal_scaled",
    "Pbrt.C102_normal_products",
    "Pbrt.C102_normal_order",
    "Pbrt.C102_points",
    "Pbrt.C102_points_scaled",
    "Pbrt.C102_boxes",
    "Pbrt.C102_box_tests",
    "Pbrt.C102_extent",
    "Pbrt.C102_measures",
    "Pbrt.C102_ray",
    "Pbrt.C102_differentials",
    "Pbrt.C102_matrices",
    "Pbrt.C102_transform",
    "Pbrt.C102_len",
    "Pbrt.C102_has_scale",
    "Pbrt.C102_limit_refuted"
   ],
   "note": "Generic in WholeArith, which C102_i64, C102_f32 and C102_f64 prove of the types of the program. C102_limit_refuted shows that the limits are needed."
  },
  {
   "property": "C103",
   "status": "proved",
   "theorems": [
    "Pbrt.C103_tokens",
    "Pbrt.C103_text",
    "Pbrt.C103_exchange",
    "Pbrt.C103_exact",
    "Pbrt.C103_same_type_refuted"
   ],
   "note": "C103_same_type_refuted shows that the order of parameters of the same type matters; C103_exact that nothing but the order of different types is forgotten."
  },
  {
   "property": "C104",
   "status": "proved",
   "theorems": [
    "Pbrt.C104_greatest",
    "Pbrt.C104_order",
    "Pbrt.C104_assoc",
    "Pbrt.C104_contained",
    "Pbrt.C104_absorb",
    "Pbrt.C104_monotone",
    "Pbrt.C104_distribute",
    "Pbrt.C104_helly",
    "Pbrt.C104_common",
    "Pbrt.C104_any_order",
    "Pbrt.C104_unions",
    "Pbrt.C104_laws_eq",
    "Pbrt.C104_assoc_refuted",
    "Pbrt.C104_distribute_refuted"
   ],
   "note": "C104_assoc_refuted and C104_distribute_refuted show that overlap is needed; for integers and exact numbers the laws are equations (C104_laws_eq)."
  },
  {
   "property": "C105",
   "status": "proved",
   "theorems": [
    "Pbrt.C105_convex",
    "Pbrt.C105_slab",
    "Pbrt.C105_between",
    "Pbrt.C105_float_monotone",
    "Pbrt.C105_float_between",
    "Pbrt.C105_float_union",
    "Pbrt.C105_infinite_refuted",
    "Pbrt.C105_lerp_refuted"
   ],
   "note": "C105_lerp_refuted and C105_infinite_refuted show where floats fail."
  },
  {
   "property": "C106",
   "status": "proved",
   "theorems": [
    "Pbrt.C106_transpose",
    "Pbrt.C106_normal",
    "Pbrt.C106_normal_only",
    "Pbrt.C106_built",
    "Pbrt.C106_cross",
    "Pbrt.C106_orientation",
    "Pbrt.C106_face_forward",
    "Pbrt.C106_new",
    "Pbrt.C106_vector_refuted",
    "Pbrt.C106_projective_refuted",
    "Pbrt.C106_float_refuted",
    "Pbrt.C106_float_scale"
   ],
   "note": "With floats C106_float_scale bounds what is lost. C106_vector_refuted, C106_projective_refuted and C106_float_refuted show what fails; C106_normal_only that the condition on the 3x3 parts is needed."
  },
  {
   "property": "C107",
   "status": "proved",
   "theorems": [
    "Pbrt.C107_position",
    "Pbrt.C107_names_one",
    "Pbrt.C107_eof",
    "Pbrt.C107_token",
    "Pbrt.C107_place",
    "Pbrt.C107_char",
    "Pbrt.C107_directive",
    "Pbrt.C107_predirective",
    "Pbrt.C107_number_refuted",
    "Pbrt.C107_end_refuted"
   ],
   "note": "Plain (messages of the standard library do not look like a position) is a hypothesis about the environment, met by the sample environments (exEnv_plain, ieeeEnv_plain). C107_number_refuted and C107_end_refuted show messages without a place."
  },
  {
   "property": "C108",
   "status": "proved",
   "theorems": [
    "Pbrt.C108_count",
    "Pbrt.C108_order",
    "Pbrt.C108_nothing",
    "Pbrt.C108_half_open",
    "Pbrt.C108_inside",
    "Pbrt.C108_grid",
    "Pbrt.C108_origin_count",
    "Pbrt.C108_resume",
    "Pbrt.C108_rest",
    "Pbrt.C108_builds"
   ],
   "note": "C108_half_open says that the expectation of C49 fails for every rectangle that is not empty; C108_grid is a rectangle to write instead."
  },
  {
   "property": "C109",
   "status": "proved",
   "theorems": [
    "Pbrt.C109_union",
    "Pbrt.C109_sides",
    "Pbrt.C109_apart",
    "Pbrt.C109_cut",
    "Pbrt.C109_expand",
    "Pbrt.C109_cube",
    "Pbrt.C109_diagonal",
    "Pbrt.C109_area_le",
    "Pbrt.C109_plates_refuted",
    "Pbrt.C109_float_refuted"
   ],
   "note": "Exact arithmetic (whole numbers of moderate size by C102; C69 bounds the errors of floats). C109_plates_refuted and C109_float_refuted show what fails."
  },
  {
   "property": "C110",
   "status": "proved",
   "theorems": [
    "Pbrt.C110_triple_vector",
    "Pbrt.C110_triple_normal",
    "Pbrt.C110_jacobi_vector",
    "Pbrt.C110_jacobi_normal",
    "Pbrt.C110_rotate_vector",
    "Pbrt.C110_rotate_normal",
    "Pbrt.C110_four_vector",
    "Pbrt.C110_four_normal",
    "Pbrt.C110_parallel",
    "Pbrt.C110_cauchy",
    "Pbrt.C110_frame",
    "Pbrt.C110_coordinates",
    "Pbrt.C110_isometry",
    "Pbrt.C110_read_back"
   ],
   "note": "The identities also hold for wrapping i64 (ExactRing); the rest is exact arithmetic. C55 and C75 are about coordinate_system itself."
  },
  {
   "property": "C111",
   "status": "proved",
   "theorems": [
    "Pbrt.C111_new",
    "Pbrt.C111_union",
    "Pbrt.C111_corner",
    "Pbrt.C111_expand",
    "Pbrt.C111_lerp",
    "Pbrt.C111_inside",
    "Pbrt.C111_overlaps",
    "Pbrt.C111_extent",
    "Pbrt.C111_len",
    "Pbrt.C111_unit",
    "Pbrt.C111_sphere",
    "Pbrt.C111_frame",
    "Pbrt.C111_frame_refuted",
    "Pbrt.C111_inverse",
    "Pbrt.C111_offset",
    "Pbrt.C111_offset_refuted",
    "Pbrt.C111_float_exact",
    "Pbrt.C111_float_union"
   ],
   "note": "C111_frame_refuted and C111_offset_refuted show where results jump; rounding of the other operations is bounded in C69, C80, C83."
  },
  {
   "property": "C112",
   "status": "proved",
   "theorems": [
    "Pbrt.C112_string",
    "Pbrt.C112_plain",
    "Pbrt.C112_shown",
    "Pbrt.C112_said",
    "Pbrt.C112_got_any",
    "Pbrt.C112_got",
    "Pbrt.C112_count",
    "Pbrt.C112_end",
    "Pbrt.C112_hidden",
    "Pbrt.C112_readable",
    "Pbrt.C112_parameter_refuted"
   ],
   "note": "Readable (shown strings and floats can be told apart) is proved for strings for every table of printable characters (C112_string) and for an environment that shows floats with all digits (C112_readable). C112_parameter_refuted and C112_hidden: faults inside parameters are not explained."
  },
  {
   "property": "C113",
   "status": "proved",
   "theorems": [
    "Pbrt.C113_tokens",
    "Pbrt.C113_text",
    "Pbrt.C113_integers",
    "Pbrt.C113_integers_eof",
    "Pbrt.C113_floats",
    "Pbrt.C113_integers_text",
    "Pbrt.C113_elsewhere_refuted",
    "Pbrt.C113_blanks_refuted"
   ],
   "note": "C113_elsewhere_refuted and C113_blanks_refuted show where the spelling matters."
  },
  {
   "property": "C114",
   "status": "proved",
   "theorems": [
    "Pbrt.C114_operations",
    "Pbrt.C114_vectors",
    "Pbrt.C114_normals",
    "Pbrt.C114_points",
    "Pbrt.C114_products",
    "Pbrt.C114_products_normal",
    "Pbrt.C114_transform",
    "Pbrt.C114_matrices",
    "Pbrt.C114_inverse",
    "Pbrt.C114_transforms",
    "Pbrt.C114_boxes",
    "Pbrt.C114_offset",
    "Pbrt.C114_rays",
    "Pbrt.C114_sphere",
    "Pbrt.C114_tests",
    "Pbrt.C114_has_nan",
    "Pbrt.C114_min_max",
    "Pbrt.C114_unions",
    "Pbrt.C114_expand",
    "Pbrt.C114_boxes_refuted",
    "Pbrt.C114_frame_refuted",
    "Pbrt.C114_identity_refuted"
   ],
   "note": "C114_boxes_refuted, C114_frame_refuted and C114_identity_refuted show where NaN is lost or spread; C37_nan is the special case of Bounds3::new."
  },
  {
   "property": "C115",
   "status": "proved",
   "theorems": [
    "Pbrt.C115_report",
    "Pbrt.C115_cut",
    "Pbrt.C115_keyword",
    "Pbrt.C115_lines",
    "Pbrt.C115_blame_refuted"
   ],
   "note": "Refines C29_cut and C29_eof. C115_blame_refuted: a correct number is blamed for the missing rest."
  },
  {
   "property": "C116",
   "status": "proved",
   "theorems": [
    "Pbrt.C116_tokens",
    "Pbrt.C116_append",
    "Pbrt.C116_same",
    "Pbrt.C116_keyword",
    "Pbrt.C116_inside",
    "Pbrt.C116_panic_refuted",
    "Pbrt.C116_number_refuted"
   ],
   "note": "C116_panic_refuted and C116_number_refuted: the first part of an accepted text may panic (checked builds) or be rejected. C115 is about cuts between tokens."
  },
  {
   "property": "C117",
   "status": "proved",
   "theorems": [
    "Pbrt.C117_operations",
    "Pbrt.C117_length",
    "Pbrt.C117_unit",
    "Pbrt.C117_diagonal",
    "Pbrt.C117_measures",
    "Pbrt.C117_flat",
    "Pbrt.C117_extent",
    "Pbrt.C117_expand",
    "Pbrt.C117_offset",
    "Pbrt.C117_lerp",
    "Pbrt.C117_sphere",
    "Pbrt.C117_ray",
    "Pbrt.C117_volume_refuted",
    "Pbrt.C117_sphere_refuted",
    "Pbrt.C117_boxes_refuted",
    "Pbrt.C117_ray_refuted"
   ],
   "note": "C114 says when results are NaN. C117_volume_refuted, C117_sphere_refuted, C117_boxes_refuted and C117_ray_refuted show what is lost."
  },
  {
   "property": "C118",
   "status": "proved",
   "theorems": [
    "Pbrt.C118_header",
    "Pbrt.C118_world",
    "Pbrt.C118_types",
    "Pbrt.C118_matrix",
    "Pbrt.C118_refuted"
   ],
   "note": "The expectation that scenes of version 3 are read is false of the code: refuted by C118_refuted; the other theorems say exactly which keywords and types are understood. The lists of the format are in Spec/Version3 (from the published description of the format, not from the repository)."
  },
  {
   "property": "C119",
   "status": "proved",
   "theorems": [
    "Pbrt.C119_ends",
    "Pbrt.C119_blanks",
    "Pbrt.C119_word",
    "Pbrt.C119_tokens",
    "Pbrt.C119_letter",
    "Pbrt.C119_letters",
    "Pbrt.C119_dense",
    "Pbrt.C119_refuted"
   ],
   "note": "The expectation that an exponent may be written with a capital E is false of the code: refuted by C119_refuted; the other theorems prove what holds."
  },
  {
   "property": "C120",
   "status": "proved",
   "theorems": [
    "Pbrt.C120_items",
    "Pbrt.C120_param",
    "Pbrt.C120_exactly_one",
    "Pbrt.C120_empty",
    "Pbrt.C120_refuted"
   ],
   "note": "The expectation that the reason is reported is false of the code: refuted by C120_refuted; the other theorems say exactly which reason is composed."
  },
  {
   "property": "C121",
   "status": "proved",
   "theorems": [
    "Pbrt.C121_scenes",
    "Pbrt.C121_tokens",
    "Pbrt.C121_parts",
    "Pbrt.C121_geometry",
    "Pbrt.C121_matrix",
    "Pbrt.C121_one_line",
    "Pbrt.C121_predirective",
    "Pbrt.C121_directive",
    "Pbrt.C121_messages",
    "Pbrt.C121_library",
    "Pbrt.C121_equality_refuted"
   ],
   "note": "The expectation that == and Debug agree is false of the code: refuted by C121_equality_refuted. The texts of floats are a parameter; C121_library shows that the assumptions can be met."
  },
  {
   "property": "C122",
   "status": "proved",
   "theorems": [
    "Pbrt.C122_formulas",
    "Pbrt.C122_same_formulas",
    "Pbrt.C122_exponents",
    "Pbrt.C122_literal",
    "Pbrt.C122_error",
    "Pbrt.C122_exact",
    "Pbrt.C122_scene",
    "Pbrt.C122_convert_refuted"
   ],
   "note": "The expectation that converting the double precision float gives the single precision one is false of the code: refuted by C122_convert_refuted (C92_rounding_refuted for exponents). C122_scene is for the correctly rounding library ieeeEnv; C122_literal, C122_error and C122_exact are for every library that rounds correctly."
  },
  {
   "property": "C123",
   "status": "proved",
   "theorems": [
    "Pbrt.C123_nearest",
    "Pbrt.C123_exact",
    "Pbrt.C123_monotone",
    "Pbrt.C123_library",
    "Pbrt.C123_refuted"
   ],
   "note": "The expectation that a number of the format is read exactly however it is written is false of the code: refuted by C123_refuted. That powf is exact for exact powers of ten and not negative (PowExact, PowNonneg) is an assumption on the standard library; C123_library shows that it can be met together with correct rounding."
  },
  {
   "property": "C124",
   "status": "proved",
   "theorems": [
    "Pbrt.C124_single",
    "Pbrt.C124_double",
    "Pbrt.C124_exact_refuted"
   ],
   "note": "The expectation that whole entries are printed as whole numbers is false of the code: refuted by C124_exact_refuted. How floats are shown is a parameter (Legible, see C121)."
  },
  {
   "property": "C125",
   "status": "proved",
   "theorems": [
    "Pbrt.C125_reads_back",
    "Pbrt.C125_no_exponents",
    "Pbrt.C125_shortest",
    "Pbrt.C125_ordered",
    "Pbrt.C125_nearest",
    "Pbrt.C125_exponents",
    "Pbrt.C125_scene",
    "Pbrt.C125_legible",
    "Pbrt.C125_readable",
    "Pbrt.C125_digits32",
    "Pbrt.C125_digits64",
    "Pbrt.C125_range32",
    "Pbrt.C125_range64",
    "Pbrt.C125_exponent_refuted",
    "Pbrt.C125_main",
    "Pbrt.C125_main_double"
   ],
   "note": "The text of floats comes from the standard library, not the repository; Spec/FloatText defines it (shortest decimal that reads back, exponents below 1e-4 and from 1e16 on). Refuted for texts with an exponent: C125_exponent_refuted."
  },
  {
   "property": "C126",
   "status": "proved",
   "theorems": [
    "Pbrt.C126_large32",
    "Pbrt.C126_large64",
    "Pbrt.C126_close32",
    "Pbrt.C126_close64",
    "Pbrt.C126_small32",
    "Pbrt.C126_small64",
    "Pbrt.C126_wrapped32",
    "Pbrt.C126_wrapped64",
    "Pbrt.C126_point64",
    "Pbrt.C126_point32",
    "Pbrt.C126_refuted"
   ],
   "note": "The expectation that what is shown is read as something near is false of the code for tiny floats: refuted by C126_refuted. The theorems are for the correctly rounding library ieeeEnv, including correctly rounded powers of ten."
  },
  {
   "property": "C127",
   "status": "proved",
   "theorems": [
    "Pbrt.C127_layout",
    "Pbrt.C127_print_parse",
    "Pbrt.C127_scene32",
    "Pbrt.C127_scene64",
    "Pbrt.C127_again32",
    "Pbrt.C127_again64",
    "Pbrt.C127_refuted",
    "Pbrt.C127_drift_refuted"
   ],
   "note": "The expectation that every scene of finite floats can be written with what is shown of them is false of the code: refuted by C127_refuted; so is the expectation that a second round changes nothing: C127_drift_refuted. C127_layout holds for any float type and library; the bounds are for the correctly rounding library ieeeEnv."
  }
 ]
}
