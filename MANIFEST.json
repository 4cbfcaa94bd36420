{
 "claims": [
  {
   "property": "C01",
   "status": "proved",
   "theorems": [
    "CS.C01_clamp_range_ieee",
    "CS.C01_clamp_inside_ieee",
    "CS.C01_clamp_nan_ieee",
    "CS.C01_clamp_idempotent_ieee",
    "CS.C01_clamp_monotone_ieee",
    "CS.C01_clamprgb_ieee",
    "CS.C01_clamp_real"
   ],
   "note": ""
  },
  {
   "property": "C02",
   "status": "proved",
   "theorems": [
    "CS.C02_quant8_saturates",
    "CS.C02_quant16_saturates",
    "CS.C02_toU8_components",
    "CS.C02_pixel8"
   ],
   "note": ""
  },
  {
   "property": "C03",
   "status": "proved",
   "theorems": [
    "CS.C03_quant8_monotone",
    "CS.C03_quant16_monotone"
   ],
   "note": ""
  },
  {
   "property": "C04",
   "status": "proved",
   "theorems": [
    "CS.C04_u8_roundtrip",
    "CS.C04_u16_roundtrip",
    "CS.C04_f32_f64"
   ],
   "note": ""
  },
  {
   "property": "C05",
   "status": "proved",
   "theorems": [
    "CS.C05_quant8_nearest_ieee",
    "CS.C05_quant16_nearest_ieee",
    "CS.C05_quant8_nearest_real",
    "CS.C05_quant16_nearest_real"
   ],
   "note": ""
  },
  {
   "property": "C06",
   "status": "proved",
   "theorems": [
    "CS.C06_rgb_index",
    "CS.C06_rgb_setIndex",
    "CS.C06_xyz_index",
    "CS.C06_xyz_setIndex"
   ],
   "note": ""
  },
  {
   "property": "C07",
   "status": "proved",
   "theorems": [
    "CS.C07_rgbf_cast_panics",
    "CS.C07_rgbf_cast",
    "CS.C07_rgbu8_cast_panics",
    "CS.C07_rgbu8_cast"
   ],
   "note": ""
  },
  {
   "property": "C08",
   "status": "proved",
   "theorems": [
    "CS.C08_hmax_ieee",
    "CS.C08_normalize_ieee",
    "CS.C08_normalize_real",
    "CS.C08_normalize_negative_counterexample"
   ],
   "note": "Holds for colours whose largest component is positive; the documented claim for all-negative colours is refuted by C08_normalize_negative_counterexample. The property statement carries this condition."
  },
  {
   "property": "C09",
   "status": "proved",
   "theorems": [
    "CS.C09_matches_matrix",
    "CS.C09_laws",
    "CS.C09_transpose_involutive"
   ],
   "note": ""
  },
  {
   "property": "C10",
   "status": "proved",
   "theorems": [
    "CS.C10_matches_mulVec",
    "CS.C10_compose",
    "CS.C10_linear",
    "CS.C10_xyz_rgb_same"
   ],
   "note": ""
  },
  {
   "property": "C11",
   "status": "partial",
   "theorems": [
    "CS.C11_inverse_partial",
    "CS.C11_inverse_affine_iff",
    "CS.C11_inverse_counterexample",
    "CS.C11_inverse_counterexample_shear"
   ],
   "note": "False as stated for the affine branch: the bottom-right entry is divided by the determinant too and the branch test lacks an absolute value (two counterexamples). C11_inverse_partial covers every matrix outside that branch; C11_inverse_affine_iff says exactly when the affine branch is right."
  },
  {
   "property": "C12",
   "status": "partial",
   "theorems": [
    "CS.C12_affine_none_iff",
    "CS.C12_none_iff_partial",
    "CS.C12_singular_some_counterexample",
    "CS.C12_det_one_none_counterexample"
   ],
   "note": "False as stated in the affine branch (counterexamples both ways). C12_none_iff_partial is an exact characterisation outside it, C12_affine_none_iff inside it."
  },
  {
   "property": "C13",
   "status": "partial",
   "theorems": [
    "CS.C13_gj_none_iff",
    "CS.C13_gj_partial",
    "CS.C13_gj_dominant_partial",
    "CS.C13_gj_counterexample_none",
    "CS.C13_gj_counterexample_nan"
   ],
   "note": "False as stated: the pivot search reads the original matrix, so an invertible matrix can give None (counterexample) or NaN (counterexample in binary64). C13_gj_partial covers all matrices whose chosen pivots are non-zero; C13_gj_none_iff says exactly when None is returned as long as nothing is divided by zero."
  },
  {
   "property": "C14",
   "status": "proved",
   "theorems": [
    "CS.C14_xyy_roundtrip",
    "CS.C14_xyz_roundtrip",
    "CS.C14_luminance",
    "CS.C14_formula",
    "CS.C14_xy"
   ],
   "note": ""
  },
  {
   "property": "C15",
   "status": "proved",
   "theorems": [
    "CS.C15_equal_whites",
    "CS.C15_same_white_ieee",
    "CS.C15_equal_whites_real"
   ],
   "note": ""
  },
  {
   "property": "C16",
   "status": "proved",
   "theorems": [
    "CS.C16_cat02_white",
    "CS.C16_bradford_white",
    "CS.C16_vonKries_white"
   ],
   "note": ""
  },
  {
   "property": "C17",
   "status": "proved",
   "theorems": [
    "CS.C17_cat02_transitive",
    "CS.C17_bradford_transitive",
    "CS.C17_cat02_inverse",
    "CS.C17_bradford_inverse"
   ],
   "note": ""
  },
  {
   "property": "C18",
   "status": "proved",
   "theorems": [
    "CS.C18_no_panic_ieee",
    "CS.C18_no_panic_real"
   ],
   "note": ""
  },
  {
   "property": "C19",
   "status": "proved",
   "theorems": [
    "CS.C19_white_and_primaries"
   ],
   "note": ""
  },
  {
   "property": "C20",
   "status": "partial",
   "theorems": [
    "CS.C20_mutually_inverse_iff",
    "CS.C20_generic",
    "CS.C20_mutually_inverse_partial",
    "CS.C20_counterexample"
   ],
   "note": "False as stated for spaces whose XYZ->RGB matrix falls into the affine branch of inverse(); counterexample given. The partial theorem covers all others; C20_mutually_inverse_iff is the exact condition and C20_generic a sufficient one on the arguments."
  },
  {
   "property": "C21",
   "status": "proved",
   "theorems": [
    "CS.C21_xyz_rgb_xyz"
   ],
   "note": ""
  },
  {
   "property": "C22",
   "status": "proved",
   "theorems": [
    "CS.C22_self",
    "CS.C22_compose",
    "CS.C22_there_and_back",
    "CS.C22_white",
    "CS.C22_derived_spaces"
   ],
   "note": ""
  },
  {
   "property": "C23",
   "status": "proved",
   "theorems": [
    "CS.C23_common_prefix",
    "CS.C23_never_panics"
   ],
   "note": ""
  },
  {
   "property": "C24",
   "status": "proved",
   "theorems": [
    "CS.C24_slice_eq"
   ],
   "note": ""
  },
  {
   "property": "C25",
   "status": "partial",
   "theorems": [
    "CS.C25_planes_exact",
    "CS.C25_planes_partial",
    "CS.C25_planes_counterexample"
   ],
   "note": "False as stated: the tail starts at len - len/W. C25_planes_partial and C25_planes_exact describe every element of the actual result."
  },
  {
   "property": "C26",
   "status": "proved",
   "theorems": [
    "CS.C26_decode_encode",
    "CS.C26_encode_decode",
    "CS.C26_seam_counterexample",
    "CS.C26_colour"
   ],
   "note": "The property excludes the seam interval, on which the failure is proved (C26_seam_counterexample)."
  },
  {
   "property": "C27",
   "status": "proved",
   "theorems": [
    "CS.C27_decode_encode",
    "CS.C27_encode_decode",
    "CS.C27_seam_counterexample",
    "CS.C27_shipped"
   ],
   "note": "The property excludes the seam interval, on which the failure is proved."
  },
  {
   "property": "C28",
   "status": "proved",
   "theorems": [
    "CS.C28_decode_encode",
    "CS.C28_seam_counterexample",
    "CS.C28_encode_decode"
   ],
   "note": "The property excludes the seam interval, on which the failure is proved."
  },
  {
   "property": "C29",
   "status": "proved",
   "theorems": [
    "CS.C29_power_roundtrip",
    "CS.C29_shipped",
    "CS.C29_linear",
    "CS.C29_aces"
   ],
   "note": ""
  },
  {
   "property": "C30",
   "status": "proved",
   "theorems": [
    "CS.C30_black_white",
    "CS.C30_strictly_increasing",
    "CS.C30_nearly_increasing",
    "CS.C30_drop_counterexample"
   ],
   "note": ""
  },
  {
   "property": "C31",
   "status": "proved",
   "theorems": [
    "CS.C31_xyz_lab_xyz",
    "CS.C31_lab_xyz_lab"
   ],
   "note": ""
  },
  {
   "property": "C32",
   "status": "proved",
   "theorems": [
    "CS.C32_anchors",
    "CS.C32_lightness"
   ],
   "note": ""
  },
  {
   "property": "C33",
   "status": "proved",
   "theorems": [
    "CS.C33_metric"
   ],
   "note": ""
  },
  {
   "property": "C34",
   "status": "proved",
   "theorems": [
    "CS.C34_symmetric"
   ],
   "note": ""
  },
  {
   "property": "C35",
   "status": "proved",
   "theorems": [
    "CS.C35_well_defined",
    "CS.C35_zero_iff"
   ],
   "note": ""
  },
  {
   "property": "C36",
   "status": "proved",
   "theorems": [
    "CS.C36_range",
    "CS.C36_ieee"
   ],
   "note": ""
  },
  {
   "property": "C37",
   "status": "proved",
   "theorems": [
    "CS.C37_enumerates",
    "CS.C37_panics",
    "CS.C37_real",
    "CS.C37_zero_interval"
   ],
   "note": ""
  },
  {
   "property": "C38",
   "status": "partial",
   "theorems": [
    "CS.C38_exact",
    "CS.C38_uniform_partial",
    "CS.C38_counterexample"
   ],
   "note": "False as stated: the last gap is never examined (counterexample). C38_uniform_partial says what a reported uniform interval guarantees, C38_exact characterises the reported shape."
  },
  {
   "property": "C39",
   "status": "proved",
   "theorems": [
    "CS.C39_constant",
    "CS.C39_from_values"
   ],
   "note": ""
  },
  {
   "property": "C40",
   "status": "proved",
   "theorems": [
    "CS.C40_passes_samples"
   ],
   "note": ""
  },
  {
   "property": "C41",
   "status": "partial",
   "theorems": [
    "CS.C41_lines_partial",
    "CS.C41_counterexample"
   ],
   "note": "False below six samples (counterexample); proved from six samples on, on the whole domain."
  },
  {
   "property": "C42",
   "status": "proved",
   "theorems": [
    "CS.C42_exact",
    "CS.C42_total"
   ],
   "note": ""
  },
  {
   "property": "C43",
   "status": "proved",
   "theorems": [
    "CS.C43_interpolate",
    "CS.C43_extrapolate",
    "CS.C43_align",
    "CS.C43_trim"
   ],
   "note": ""
  },
  {
   "property": "C44",
   "status": "proved",
   "theorems": [
    "CS.C44_resamples",
    "CS.C44_total",
    "CS.C44_keeps_samples",
    "CS.C44_same_grid"
   ],
   "note": ""
  },
  {
   "property": "C45",
   "status": "proved",
   "theorems": [
    "CS.C45_extrapolate",
    "CS.C45_diverges"
   ],
   "note": ""
  },
  {
   "property": "C46",
   "status": "partial",
   "theorems": [
    "CS.C46_align_exact",
    "CS.C46_count",
    "CS.C46_align_partial",
    "CS.C46_counterexample"
   ],
   "note": "False when the spectrum's end is off the requested grid (counterexample). C46_align_partial covers all aligned cases; C46_align_exact and C46_count give the exact samples in every other case."
  },
  {
   "property": "C47",
   "status": "proved",
   "theorems": [
    "CS.C47_trim",
    "CS.C47_idempotent"
   ],
   "note": ""
  },
  {
   "property": "C48",
   "status": "proved",
   "theorems": [
    "CS.C48_linear"
   ],
   "note": ""
  },
  {
   "property": "C49",
   "status": "proved",
   "theorems": [
    "CS.C49_basis",
    "CS.C49_polynomials",
    "CS.C49_sum_one",
    "CS.C49_nodes",
    "CS.C49_e2022"
   ],
   "note": ""
  },
  {
   "property": "C50",
   "status": "proved",
   "theorems": [
    "CS.C50_enumerates",
    "CS.C50_spans",
    "CS.C50_single_nan",
    "CS.C50_e2022_two_nan"
   ],
   "note": ""
  },
  {
   "property": "C51",
   "status": "proved",
   "theorems": [
    "CS.C51_normalised",
    "CS.C51_too_short"
   ],
   "note": ""
  },
  {
   "property": "C52",
   "status": "proved",
   "theorems": [
    "CS.C52_integrates"
   ],
   "note": ""
  },
  {
   "property": "C53",
   "status": "proved",
   "theorems": [
    "CS.C53_conserves"
   ],
   "note": ""
  },
  {
   "property": "C54",
   "status": "partial",
   "theorems": [
    "CS.C54_one_nm_exact",
    "CS.C54_one_nm_iff",
    "CS.C54_five_nm_exact",
    "CS.C54_ten_nm_off_grid",
    "CS.C54_varying_exact",
    "CS.C54_varying",
    "CS.C54_one_nm_counterexample",
    "CS.C54_one_nm_partial",
    "CS.C54_five_nm_partial",
    "CS.C54_ten_nm_partial",
    "CS.C54_varying_partial",
    "CS.C54_counterexample"
   ],
   "note": "False for spectra off the grid (counterexamples for 10 nm and 1 nm). The C54_*_exact theorems give the exact result for every spectrum, on and off the grid."
  },
  {
   "property": "C55",
   "status": "proved",
   "theorems": [
    "CS.C55_linear",
    "CS.C55_illuminant_scale"
   ],
   "note": ""
  },
  {
   "property": "C56",
   "status": "proved",
   "theorems": [
    "CS.C56_scalar",
    "CS.C56_avx",
    "CS.C56_to_xyz",
    "CS.C56_linear"
   ],
   "note": ""
  },
  {
   "property": "C57",
   "status": "proved",
   "theorems": [
    "CS.C57_constant",
    "CS.C57_mul",
    "CS.C57_eq",
    "CS.C57_reflexive"
   ],
   "note": ""
  },
  {
   "property": "C58",
   "status": "proved",
   "theorems": [
    "CS.C58_luminance",
    "CS.C58_chromaticity"
   ],
   "note": ""
  },
  {
   "property": "C59",
   "status": "proved",
   "theorems": [
    "CS.C59_f64",
    "CS.C59_samples",
    "CS.C59_linear",
    "CS.C59_bounds",
    "CS.C59_white"
   ],
   "note": ""
  },
  {
   "property": "C60",
   "status": "proved",
   "theorems": [
    "CS.C60_formula",
    "CS.C60_linear",
    "CS.C60_zero",
    "CS.C60_varying"
   ],
   "note": ""
  },
  {
   "property": "C61",
   "status": "proved",
   "theorems": [
    "CS.C61_sum_generic",
    "CS.C61_sum_real",
    "CS.C61_sum_append_real",
    "CS.C61_sum_perm_real"
   ],
   "note": ""
  },
  {
   "property": "C62",
   "status": "proved",
   "theorems": [
    "CS.C62_scaling",
    "CS.C62_shape_kept",
    "CS.C62_roundtrip",
    "CS.C62_shape_counterexample"
   ],
   "note": "The scaled spectrum's shape is recomputed from the samples; C62_shape_counterexample shows that a shape whose end is off the grid changes."
  },
  {
   "property": "C63",
   "status": "proved",
   "theorems": [
    "CS.C63_normalized_ieee",
    "CS.C63_normalized_chromaticity_real"
   ],
   "note": ""
  },
  {
   "property": "C64",
   "status": "proved",
   "theorems": [
    "CS.C64_lerp_ends_ieee",
    "CS.C64_lerp_real"
   ],
   "note": ""
  },
  {
   "property": "C65",
   "status": "proved",
   "theorems": [
    "CS.C65_near_inverse"
   ],
   "note": ""
  },
  {
   "property": "C66",
   "status": "proved",
   "theorems": [
    "CS.C66_derived_real",
    "CS.C66_no_panic_ieee"
   ],
   "note": ""
  },
  {
   "property": "C67",
   "status": "proved",
   "theorems": [
    "CS.C67_eq_iff",
    "CS.C67_symmetric",
    "CS.C67_reflexive"
   ],
   "note": ""
  },
  {
   "property": "C68",
   "status": "proved",
   "theorems": [
    "CS.C68_quartics"
   ],
   "note": ""
  },
  {
   "property": "C69",
   "status": "proved",
   "theorems": [
    "CS.C69_one_nm_off_grid",
    "CS.C69_five_nm_off_grid",
    "CS.C69_varying_off_grid",
    "CS.C69_ten_nm_off_grid",
    "CS.C69_one_nm",
    "CS.C69_five_nm",
    "CS.C69_varying",
    "CS.C69_ten_nm"
   ],
   "note": ""
  },
  {
   "property": "C70",
   "status": "proved",
   "theorems": [
    "CS.C70_loads_ieee",
    "CS.C70_loads_real"
   ],
   "note": ""
  },
  {
   "property": "C71",
   "status": "proved",
   "theorems": [
    "CS.C71_grey_one_nm",
    "CS.C71_grey_five_nm",
    "CS.C71_grey_ten_nm",
    "CS.C71_grey_varying"
   ],
   "note": ""
  },
  {
   "property": "C72",
   "status": "proved",
   "theorems": [
    "CS.C72_uplift_round_trip"
   ],
   "note": ""
  },
  {
   "property": "C73",
   "status": "proved",
   "theorems": [
    "CS.C73_rgb",
    "CS.C73_rgb_left",
    "CS.C73_xyz",
    "CS.C73_matrix",
    "CS.C73_commutes",
    "CS.C73_is_zero",
    "CS.C73_laws",
    "CS.C73_laws_xyz",
    "CS.C73_equality",
    "CS.C73_bounded"
   ],
   "note": ""
  },
  {
   "property": "C74",
   "status": "proved",
   "theorems": [
    "CS.C74_narrow",
    "CS.C74_monotone"
   ],
   "note": ""
  },
  {
   "property": "C75",
   "status": "proved",
   "theorems": [
    "CS.C75_colours",
    "CS.C75_vspd",
    "CS.C75_matrix_index",
    "CS.C75_matrix_set"
   ],
   "note": ""
  },
  {
   "property": "C76",
   "status": "proved",
   "theorems": [
    "CS.C76_matrix_colour",
    "CS.C76_matrix_matrix"
   ],
   "note": ""
  },
  {
   "property": "C77",
   "status": "proved",
   "theorems": [
    "CS.C77_round_trip_f64",
    "CS.C77_round_trip_f32",
    "CS.C77_rgb_to_rgb_f64",
    "CS.C77_rgb_to_rgb_f32"
   ],
   "note": ""
  },
  {
   "property": "C78",
   "status": "proved",
   "theorems": [
    "CS.C78_cielab",
    "CS.C78_ciede2000",
    "CS.C78_hues_exist",
    "CS.C78_neutral"
   ],
   "note": ""
  },
  {
   "property": "C79",
   "status": "proved",
   "theorems": [
    "CS.C79_daylight",
    "CS.C79_hotter_is_bluer"
   ],
   "note": ""
  },
  {
   "property": "C80",
   "status": "proved",
   "theorems": [
    "CS.C80_sum_xyz",
    "CS.C80_sum_rgb"
   ],
   "note": ""
  },
  {
   "property": "C81",
   "status": "proved",
   "theorems": [
    "CS.C81_scalar",
    "CS.C81_avx",
    "CS.C81_paths_agree",
    "CS.C81_to_xyz_f32"
   ],
   "note": ""
  },
  {
   "property": "C82",
   "status": "proved",
   "theorems": [
    "CS.C82_eight_bit_f32",
    "CS.C82_eight_bit_f64",
    "CS.C82_sixteen_bit_f32",
    "CS.C82_sixteen_bit_f64",
    "CS.C82_bt_sixteen_bit_counterexample",
    "CS.C82_components",
    "CS.C82_power_components"
   ],
   "note": ""
  },
  {
   "property": "C83",
   "status": "proved",
   "theorems": [
    "CS.C83_adobe_counterexample",
    "CS.C83_spaces_f32",
    "CS.C83_spaces_f64",
    "CS.C83_xyz"
   ],
   "note": ""
  },
  {
   "property": "C84",
   "status": "proved",
   "theorems": [
    "CS.C84_smits_f64",
    "CS.C84_end_counterexample",
    "CS.C84_smits_real"
   ],
   "note": ""
  },
  {
   "property": "C85",
   "status": "proved",
   "theorems": [
    "CS.C85_realises_f64",
    "CS.C85_realises_f32",
    "CS.C85_primaries"
   ],
   "note": ""
  },
  {
   "property": "C86",
   "status": "proved",
   "theorems": [
    "CS.C86_smooth",
    "CS.C86_continuous"
   ],
   "note": ""
  },
  {
   "property": "C87",
   "status": "proved",
   "theorems": [
    "CS.C87_powi_loop",
    "CS.C87_sprague",
    "CS.C87_inner",
    "CS.C87_shipped"
   ],
   "note": ""
  },
  {
   "property": "C88",
   "status": "proved",
   "theorems": [
    "CS.C88_range",
    "CS.C88_bound",
    "CS.C88_stable",
    "CS.C88_sharp"
   ],
   "note": ""
  },
  {
   "property": "C89",
   "status": "proved",
   "theorems": [
    "CS.C89_xyz_to_lab",
    "CS.C89_lab_to_xyz",
    "CS.C89_lab_xyz_lab",
    "CS.C89_xyz_lab_xyz"
   ],
   "note": ""
  },
  {
   "property": "C90",
   "status": "proved",
   "theorems": [
    "CS.C90_grid",
    "CS.C90_interpolate",
    "CS.C90_extrapolate",
    "CS.C90_align_follows",
    "CS.C90_align",
    "CS.C90_trim",
    "CS.C90_fractional_grid",
    "CS.C90_fractional_extrapolate",
    "CS.C90_shipped"
   ],
   "note": ""
  },
  {
   "property": "C91",
   "status": "proved",
   "theorems": [
    "CS.C91_to_xyz",
    "CS.C91_shipped"
   ],
   "note": ""
  },
  {
   "property": "C92",
   "status": "proved",
   "theorems": [
    "CS.C92_ten_nm",
    "CS.C92_shipped",
    "CS.C92_patches"
   ],
   "note": ""
  },
  {
   "property": "C93",
   "status": "proved",
   "theorems": [
    "CS.C93_near_1976",
    "CS.C93_equal_1976",
    "CS.C93_finite_2000",
    "CS.C93_equal_2000",
    "CS.C93_symmetric_2000",
    "CS.C93_symmetric_1976"
   ],
   "note": ""
  },
  {
   "property": "C94",
   "status": "proved",
   "theorems": [
    "CS.C94_bradford_near",
    "CS.C94_cat02_near",
    "CS.C94_bradford_white",
    "CS.C94_cat02_white",
    "CS.C94_vonKries_near"
   ],
   "note": ""
  },
  {
   "property": "C95",
   "status": "proved",
   "theorems": [
    "CS.C95_daylight",
    "CS.C95_daylight_valid"
   ],
   "note": ""
  },
  {
   "property": "C96",
   "status": "proved",
   "theorems": [
    "CS.C96_from_xyz",
    "CS.C96_to_xyz",
    "CS.C96_round_trip"
   ],
   "note": ""
  },
  {
   "property": "C97",
   "status": "proved",
   "theorems": [
    "CS.C97_curves",
    "CS.C97_spaces"
   ],
   "note": ""
  },
  {
   "property": "C98",
   "status": "proved",
   "theorems": [
    "CS.C98_uplift_f64",
    "CS.C98_eight_bit"
   ],
   "note": ""
  },
  {
   "property": "C99",
   "status": "proved",
   "theorems": [
    "CS.C99_encode",
    "CS.C99_decode",
    "CS.C99_power",
    "CS.C99_black_white"
   ],
   "note": ""
  },
  {
   "property": "C100",
   "status": "proved",
   "theorems": [
    "CS.C100_entries",
    "CS.C100_residual"
   ],
   "note": ""
  },
  {
   "property": "C101",
   "status": "proved",
   "theorems": [
    "CS.C101_white_and_primaries",
    "CS.C101_matrices_inverse"
   ],
   "note": ""
  },
  {
   "property": "C102",
   "status": "proved",
   "theorems": [
    "CS.C102_codes_in_order",
    "CS.C102_negative_codes",
    "CS.C102_bt_in_order",
    "CS.C102_decode_8bit",
    "CS.C102_decode_16bit",
    "CS.C102_bt_decode_step"
   ],
   "note": ""
  },
  {
   "property": "C103",
   "status": "proved",
   "theorems": [
    "CS.C103_total",
    "CS.C103_nan",
    "CS.C103_ends",
    "CS.C103_between",
    "CS.C103_samples"
   ],
   "note": ""
  },
  {
   "property": "C104",
   "status": "proved",
   "theorems": [
    "CS.C104_nit",
    "CS.C104_shipped"
   ],
   "note": ""
  },
  {
   "property": "C105",
   "status": "proved",
   "theorems": [
    "CS.C105_grey",
    "CS.C105_grey_ten_nm"
   ],
   "note": ""
  },
  {
   "property": "C106",
   "status": "proved",
   "theorems": [
    "CS.C106_ciede2000",
    "CS.C106_grey"
   ],
   "note": ""
  },
  {
   "property": "C107",
   "status": "proved",
   "theorems": [
    "CS.C107_hangs_left",
    "CS.C107_hangs_right",
    "CS.C107_hangs_nonpositive",
    "CS.C107_returns"
   ],
   "note": ""
  },
  {
   "property": "C108",
   "status": "proved",
   "theorems": [
    "CS.C108_fused",
    "CS.C108_unfused",
    "CS.C108_scalar",
    "CS.C108_planes",
    "CS.C108_whole_blocks",
    "CS.C108_back"
   ],
   "note": ""
  },
  {
   "property": "C109",
   "status": "proved",
   "theorems": [
    "CS.C109_grey_f64",
    "CS.C109_grey_f32",
    "CS.C109_detour_f64",
    "CS.C109_detour_f32"
   ],
   "note": ""
  },
  {
   "property": "C110",
   "status": "proved",
   "theorems": [
    "CS.C110_align",
    "CS.C110_to_xyz",
    "CS.C110_nit",
    "CS.C110_returns"
   ],
   "note": ""
  },
  {
   "property": "C111",
   "status": "proved",
   "theorems": [
    "CS.C111_grey_trip",
    "CS.C111_grey_kept",
    "CS.C111_white_black"
   ],
   "note": ""
  },
  {
   "property": "C112",
   "status": "proved",
   "theorems": [
    "CS.C112_srgb16_f64",
    "CS.C112_linear16",
    "CS.C112_dci_f64",
    "CS.C112_xyz16_f64",
    "CS.C112_p3_counterexample",
    "CS.C112_srgb_counterexample"
   ],
   "note": ""
  },
  {
   "property": "C113",
   "status": "proved",
   "theorems": [
    "CS.C113_u8",
    "CS.C113_u16",
    "CS.C113_rgb",
    "CS.C113_xyz",
    "CS.C113_shape",
    "CS.C113_spd",
    "CS.C113_vspd"
   ],
   "note": ""
  },
  {
   "property": "C114",
   "status": "proved",
   "theorems": [
    "CS.C114_u8",
    "CS.C114_u16",
    "CS.C114_rgb",
    "CS.C114_xyz",
    "CS.C114_xyy",
    "CS.C114_shape",
    "CS.C114_nan_counterexample"
   ],
   "note": ""
  },
  {
   "property": "C115",
   "status": "proved",
   "theorems": [
    "CS.C115_adobe_counterexample",
    "CS.C115_srgb_counterexample",
    "CS.C115_near_f32",
    "CS.C115_near_f64",
    "CS.C115_same8_f32",
    "CS.C115_same8_f64",
    "CS.C115_same16_linear",
    "CS.C115_same16_srgbDrv",
    "CS.C115_same_dci"
   ],
   "note": ""
  },
  {
   "property": "C116",
   "status": "proved",
   "theorems": [
    "CS.C116_spd",
    "CS.C116_z_counterexample",
    "CS.C116_avx",
    "CS.C116_avx_shipped",
    "CS.C116_one_nm",
    "CS.C116_five_nm"
   ],
   "note": ""
  },
  {
   "property": "C117",
   "status": "proved",
   "theorems": [
    "CS.C117_spectrum",
    "CS.C117_xyz",
    "CS.C117_f64"
   ],
   "note": ""
  },
  {
   "property": "C118",
   "status": "proved",
   "theorems": [
    "CS.C118_knots",
    "CS.C118_interpolate",
    "CS.C118_powi_loop",
    "CS.C118_last_counterexample"
   ],
   "note": ""
  },
  {
   "property": "C119",
   "status": "proved",
   "theorems": [
    "CS.C119_matrix_rgb",
    "CS.C119_matrix_xyz",
    "CS.C119_rgb_to_xyz",
    "CS.C119_xyz_to_rgb",
    "CS.C119_sum_rgb",
    "CS.C119_sum_xyz",
    "CS.C119_chromaticity",
    "CS.C119_normalized",
    "CS.C119_normalize",
    "CS.C119_spd_scalar",
    "CS.C119_spd_avx",
    "CS.C119_double",
    "CS.C119_printed",
    "CS.C119_spd"
   ],
   "note": ""
  },
  {
   "property": "C120",
   "status": "proved",
   "theorems": [
    "CS.C120_converges",
    "CS.C120_rho",
    "CS.C120_wavelengths",
    "CS.C120_strata",
    "CS.C120_f64",
    "CS.C120_shipped",
    "CS.C120_unnormalised",
    "CS.C120_shipped_f64"
   ],
   "note": ""
  },
  {
   "property": "C121",
   "status": "proved",
   "theorems": [
    "CS.C121_pixelwise",
    "CS.C121_same",
    "CS.C121_images_f32",
    "CS.C121_images_f64"
   ],
   "note": ""
  },
  {
   "property": "C122",
   "status": "proved",
   "theorems": [
    "CS.C122_upper",
    "CS.C122_lower",
    "CS.C122_greys",
    "CS.C122_triangle_counterexample"
   ],
   "note": ""
  },
  {
   "property": "C123",
   "status": "proved",
   "theorems": [
    "CS.C123_stable",
    "CS.C123_separate_1976",
    "CS.C123_range",
    "CS.C123_separate_2000"
   ],
   "note": ""
  },
  {
   "property": "C124",
   "status": "proved",
   "theorems": [
    "CS.C124_components",
    "CS.C124_grey",
    "CS.C124_bits",
    "CS.C124_grey_bits",
    "CS.C124_power",
    "CS.C124_adobe",
    "CS.C124_derived",
    "CS.C124_p3"
   ],
   "note": ""
  },
  {
   "property": "C125",
   "status": "proved",
   "theorems": [
    "CS.C125_close",
    "CS.C125_distinct"
   ],
   "note": ""
  },
  {
   "property": "C126",
   "status": "proved",
   "theorems": [
    "CS.C126_matrix",
    "CS.C126_contained_iff",
    "CS.C126_range",
    "CS.C126_shipped",
    "CS.C126_not_contained",
    "CS.C126_printed_counterexample",
    "CS.C126_order"
   ],
   "note": ""
  },
  {
   "property": "C127",
   "status": "proved",
   "theorems": [
    "CS.C127_wide_trip",
    "CS.C127_eight_bits_counterexample"
   ],
   "note": ""
  }
 ]
}