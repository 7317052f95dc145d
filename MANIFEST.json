{
 "claims": [
  {
   "property": "C01",
   "status": "proved",
   "theorems": [
    "Viqa.C01_voxel_order",
    "Viqa.C01_voxel_order_raw",
    "Viqa.C01_voxel_order_mhd"
   ],
   "note": ""
  },
  {
   "property": "C02",
   "status": "proved",
   "theorems": [
    "Viqa.C02_size_check",
    "Viqa.C02_every_item_used_once",
    "Viqa.C02_trailing_bytes_ignored",
    "Viqa.C02_negative_size"
   ],
   "note": ""
  },
  {
   "property": "C03",
   "status": "proved",
   "theorems": [
    "Viqa.C03_raw_round_trip",
    "Viqa.C03_directory"
   ],
   "note": ""
  },
  {
   "property": "C04",
   "status": "proved",
   "theorems": [
    "Viqa.C04_name_round_trip",
    "Viqa.C04_name_round_trip'",
    "Viqa.C04_missing_parts"
   ],
   "note": ""
  },
  {
   "property": "C05",
   "status": "proved",
   "theorems": [
    "Viqa.C05_bitdepth_table",
    "Viqa.C05_element_type_table"
   ],
   "note": ""
  },
  {
   "property": "C06",
   "status": "proved",
   "theorems": [
    "Viqa.C06_header_by_key",
    "Viqa.C06_order_independent",
    "Viqa.C06_permutation",
    "Viqa.C06_missing_key"
   ],
   "note": ""
  },
  {
   "property": "C07",
   "status": "partial",
   "theorems": [
    "Viqa.C07_final_newline_refuted",
    "Viqa.C07_last_line_dropped_partial",
    "Viqa.C07_irrelevant_last_line_partial"
   ],
   "note": "The code violates the property: C07_final_newline_refuted gives a header whose reading changes. The partial theorems state exactly what is read instead."
  },
  {
   "property": "C08",
   "status": "proved",
   "theorems": [
    "Viqa.C08_reader_by_extension",
    "Viqa.C08_no_extension",
    "Viqa.C08_only_error",
    "Viqa.C08_other_extension"
   ],
   "note": ""
  },
  {
   "property": "C09",
   "status": "proved",
   "theorems": [
    "Viqa.C09_batch",
    "Viqa.C09_missing_range",
    "Viqa.C09_input_type",
    "Viqa.C09_dimensions",
    "Viqa.C09_warning",
    "Viqa.C09_success",
    "Viqa.C09_range_zero"
   ],
   "note": ""
  },
  {
   "property": "C10",
   "status": "proved",
   "theorems": [
    "Viqa.C10_identity",
    "Viqa.C10_normalized_full_image"
   ],
   "note": ""
  },
  {
   "property": "C11",
   "status": "partial",
   "theorems": [
    "Viqa.C11_linear_map_partial",
    "Viqa.C11_range_and_order_partial",
    "Viqa.C11_brightness_invariance_partial",
    "Viqa.C11_constant_image",
    "Viqa.C11_half_overflow",
    "Viqa.C11_half_refuted"
   ],
   "note": "Proved for all floating point images and the three output ranges, except float16 images whose extent, or for the upper limit 255 extent times 255, is 65520 or more (products with 65535 are float32): the products are infinite and there is no result (C11_half_overflow, C11_half_refuted). A constant image has no result either (C11_constant_image)."
  },
  {
   "property": "C12",
   "status": "partial",
   "theorems": [
    "Viqa.C12_range_255_partial",
    "Viqa.C12_range_1_partial",
    "Viqa.C12_range_1_result_partial",
    "Viqa.C12_range_65535_destroys",
    "Viqa.C12_refuted",
    "Viqa.C12_unit_rounded"
   ],
   "note": "Holds for the ranges 255 and 1 (partial theorems). For 65535 the second normalization changes the image (C12_refuted; C12_range_65535_destroys gives the result exactly). In floating point arithmetic: C12_unit_rounded."
  },
  {
   "property": "C13",
   "status": "partial",
   "theorems": [
    "Viqa.C13_actual_formula",
    "Viqa.C13_documented_formula_partial",
    "Viqa.C13_brightest_pixel",
    "Viqa.C13_refuted",
    "Viqa.C13_8bit_unchanged",
    "Viqa.C13_signed_partial",
    "Viqa.C13_signed_wraps",
    "Viqa.C13_signed_refuted"
   ],
   "note": "The documented formula fails for the brightest pixel (C13_refuted); C13_actual_formula gives the exact formula for all inputs, C13_documented_formula_partial and C13_signed_partial the parts that hold. For signed images differences wrap around as well (C13_signed_wraps, C13_signed_refuted)."
  },
  {
   "property": "C14",
   "status": "proved",
   "theorems": [
    "Viqa.C14_data_type",
    "Viqa.C14_output_range",
    "Viqa.C14_input_range",
    "Viqa.C14_result_type"
   ],
   "note": ""
  },
  {
   "property": "C15",
   "status": "proved",
   "theorems": [
    "Viqa.C15_crop_2d",
    "Viqa.C15_crop_3d",
    "Viqa.C15_crop_2d_depth"
   ],
   "note": ""
  },
  {
   "property": "C16",
   "status": "partial",
   "theorems": [
    "Viqa.C16_inside_exact_or_raises_partial",
    "Viqa.C16_clipped",
    "Viqa.C16_full_size_ignores_offset",
    "Viqa.C16_refuted"
   ],
   "note": "Regions inside the image (C16_inside_exact_or_raises_partial). Ranges beyond the border are cut off (C16_clipped), and a region of the size of the image ignores its offset (C16_full_size_ignores_offset)."
  },
  {
   "property": "C17",
   "status": "partial",
   "theorems": [
    "Viqa.C17_accepted_iff",
    "Viqa.C17_refuted",
    "Viqa.C17_colour_never",
    "Viqa.C17_smaller_accepted_partial"
   ],
   "note": "Exact condition in C17_accepted_iff: smaller along every axis or the full extent along every axis. Mixed regions and all colour images are refused (C17_refuted, C17_colour_never)."
  },
  {
   "property": "C18",
   "status": "proved",
   "theorems": [
    "Viqa.C18_pair",
    "Viqa.C18_mismatch",
    "Viqa.C18_accepted",
    "Viqa.C18_lists_raise"
   ],
   "note": ""
  },
  {
   "property": "C19",
   "status": "partial",
   "theorems": [
    "Viqa.C19_values_unchanged_partial",
    "Viqa.C19_refuted"
   ],
   "note": "Volumes with three slices along the last axis are converted as if they were colour images (C19_refuted); all other grey images are unchanged (C19_values_unchanged_partial)."
  },
  {
   "property": "C20",
   "status": "partial",
   "theorems": [
    "Viqa.C20_between",
    "Viqa.C20_gray_partial",
    "Viqa.C20_monotone_and_clipped",
    "Viqa.C20_refuted"
   ],
   "note": "Holds for channels up to 255 (C20_gray_partial); brighter pixels are clipped to 255 (C20_refuted)."
  },
  {
   "property": "C21",
   "status": "partial",
   "theorems": [
    "Viqa.C21_after_calculate",
    "Viqa.C21_histogram_refuted",
    "Viqa.C21_stale_refuted",
    "Viqa.C21_derived_valid_iff",
    "Viqa.C21_valid_partial",
    "Viqa.C21_arith_unset",
    "Viqa.C21_describe_after_calculate"
   ],
   "note": "Statistics are valid right after calculation (C21_after_calculate) but become stale or inconsistent (refuted theorems); C21_derived_valid_iff gives the exact condition."
  },
  {
   "property": "C22",
   "status": "proved",
   "theorems": [
    "Viqa.C22_resize"
   ],
   "note": ""
  },
  {
   "property": "C23",
   "status": "proved",
   "theorems": [
    "Viqa.C23_constructor_fails_iff",
    "Viqa.C23_parameters"
   ],
   "note": ""
  },
  {
   "property": "C24",
   "status": "proved",
   "theorems": [
    "Viqa.C24_agree",
    "Viqa.C24_trichotomy",
    "Viqa.C24_transitive",
    "Viqa.C24_unscored"
   ],
   "note": ""
  },
  {
   "property": "C25",
   "status": "proved",
   "theorems": [
    "Viqa.C25_last_score",
    "Viqa.C25_returned_is_stored"
   ],
   "note": ""
  },
  {
   "property": "C26",
   "status": "partial",
   "theorems": [
    "Viqa.C26_one_export",
    "Viqa.C26_repeatable_partial",
    "Viqa.C26_second_export",
    "Viqa.C26_refuted",
    "Viqa.C26_repeatable_iff",
    "Viqa.C26_file_name"
   ],
   "note": "Exporting replaces missing scores by \"n/a\", so a second export differs (C26_refuted); C26_repeatable_iff gives the exact condition."
  },
  {
   "property": "C27",
   "status": "proved",
   "theorems": [
    "Viqa.C27_weighted_sum",
    "Viqa.C27_length_mismatch",
    "Viqa.C27_linear",
    "Viqa.C27_reordering",
    "Viqa.C27_unscored"
   ],
   "note": ""
  },
  {
   "property": "C28",
   "status": "proved",
   "theorems": [
    "Viqa.C28_nonneg",
    "Viqa.C28_zero_iff",
    "Viqa.C28_symm",
    "Viqa.C28_triangle",
    "Viqa.C28_affine",
    "Viqa.C28_shape_mismatch",
    "Viqa.C28_one_pixel"
   ],
   "note": ""
  },
  {
   "property": "C29",
   "status": "proved",
   "theorems": [
    "Viqa.C29_data_range",
    "Viqa.C29_infinite_iff",
    "Viqa.C29_formula",
    "Viqa.C29_zero_range",
    "Viqa.C29_symm",
    "Viqa.C29_decreasing",
    "Viqa.C29_scale"
   ],
   "note": ""
  },
  {
   "property": "C30",
   "status": "proved",
   "theorems": [
    "Viqa.C30_self",
    "Viqa.C30_self_defined",
    "Viqa.C30_symm"
   ],
   "note": ""
  },
  {
   "property": "C31",
   "status": "proved",
   "theorems": [
    "Viqa.C31_bounded"
   ],
   "note": ""
  },
  {
   "property": "C32",
   "status": "proved",
   "theorems": [
    "Viqa.C32_value_error_iff",
    "Viqa.C32_positions",
    "Viqa.C32_score_exists",
    "Viqa.C32_window_one"
   ],
   "note": ""
  },
  {
   "property": "C33",
   "status": "partial",
   "theorems": [
    "Viqa.C33_actual",
    "Viqa.C33_identical_partial",
    "Viqa.C33_refuted"
   ],
   "note": "UQI passes k_1=0, k_2=0, but the callee reads K1, K2: C33_actual states what is computed, C33_refuted that it differs from the documentation."
  },
  {
   "property": "C34",
   "status": "partial",
   "theorems": [
    "Viqa.C34_slice_partial",
    "Viqa.C34_slice_out_of_range",
    "Viqa.C34_invalid_dim",
    "Viqa.C34_missing_arguments",
    "Viqa.C34_plane_ignores",
    "Viqa.C34_three_slices",
    "Viqa.C34_refuted"
   ],
   "note": "Holds for volumes whose last axis does not have length 3; those are taken for colour images (C34_three_slices, C34_refuted)."
  },
  {
   "property": "C35",
   "status": "partial",
   "theorems": [
    "Viqa.C35_mean_over_slices_partial",
    "Viqa.C35_invalid_dim_partial",
    "Viqa.C35_piq_last_axis",
    "Viqa.C35_last_axis_partial",
    "Viqa.C35_refuted"
   ],
   "note": "Holds for GSM and MAD and for the last axis; the four piq metrics ignore dim (C35_piq_last_axis, C35_refuted)."
  },
  {
   "property": "C36",
   "status": "partial",
   "theorems": [
    "Viqa.C36_identical_iff",
    "Viqa.C36_flat",
    "Viqa.C36_image_or_negative_partial",
    "Viqa.C36_refuted"
   ],
   "note": "An image with itself scores 1 or is not a number; C36_identical_iff is the exact condition, C36_refuted an image that is not flat and has no score."
  },
  {
   "property": "C37",
   "status": "partial",
   "theorems": [
    "Viqa.C37_float_partial",
    "Viqa.C37_unsigned_actual",
    "Viqa.C37_refuted"
   ],
   "note": "Holds for floating point images; unsigned images wrap around (C37_unsigned_actual, C37_refuted for every bit width)."
  },
  {
   "property": "C38",
   "status": "proved",
   "theorems": [
    "Viqa.C38_brightness",
    "Viqa.C38_constant",
    "Viqa.C38_not_trivial"
   ],
   "note": ""
  },
  {
   "property": "C39",
   "status": "proved",
   "theorems": [
    "Viqa.C39_between",
    "Viqa.C39_agree",
    "Viqa.C39_alpha_antitone",
    "Viqa.C39_zero",
    "Viqa.C39_whole"
   ],
   "note": ""
  },
  {
   "property": "C40",
   "status": "partial",
   "theorems": [
    "Viqa.C40_partial",
    "Viqa.C40_index_error",
    "Viqa.C40_misplaced",
    "Viqa.C40_refuted"
   ],
   "note": "Holds for overlap 0.75 and sides divisible by the stride (C40_partial); C40_index_error: IndexError for every other size; C40_misplaced: wrong positions for overlap 0.5."
  },
  {
   "property": "C41",
   "status": "partial",
   "theorems": [
    "Viqa.C41_bounds_iff",
    "Viqa.C41_partial",
    "Viqa.C41_wide",
    "Viqa.C41_refuted",
    "Viqa.C41_minstd_partial"
   ],
   "note": "C41_bounds_iff is the exact condition; every image wider than high by at least the stride reads out of bounds (C41_wide)."
  },
  {
   "property": "C42",
   "status": "partial",
   "theorems": [
    "Viqa.C42_square",
    "Viqa.C42_partial",
    "Viqa.C42_tall",
    "Viqa.C42_refuted"
   ],
   "note": "Holds for square images, with the exact content of the maps (C42_square); images twice as high as wide use uninitialized entries (C42_tall)."
  },
  {
   "property": "C43",
   "status": "partial",
   "theorems": [
    "Viqa.C43_minstd",
    "Viqa.C43_first_partial",
    "Viqa.C43_refuted"
   ],
   "note": "The search bound is absolute, so only blocks near the origin search (C43_minstd, C43_refuted)."
  },
  {
   "property": "C44",
   "status": "partial",
   "theorems": [
    "Viqa.C44_contiguous_partial",
    "Viqa.C44_real_view",
    "Viqa.C44_refuted",
    "Viqa.C44_half_zero"
   ],
   "note": "Holds for contiguous arrays; the real part of a complex array is read wrongly (C44_real_view, C44_refuted)."
  },
  {
   "property": "C45",
   "status": "proved",
   "theorems": [
    "Viqa.C45_accepted_iff",
    "Viqa.C45_stride"
   ],
   "note": ""
  },
  {
   "property": "C46",
   "status": "partial",
   "theorems": [
    "Viqa.C46_interference",
    "Viqa.C46_refuted",
    "Viqa.C46_same_partial",
    "Viqa.C46_sequential_partial"
   ],
   "note": "Module globals are shared: refuted by a schedule; holds for sequential runs and for equal parameters."
  },
  {
   "property": "C47",
   "status": "proved",
   "theorems": [
    "Viqa.C47_blocks",
    "Viqa.C47_order",
    "Viqa.C47_count"
   ],
   "note": ""
  },
  {
   "property": "C48",
   "status": "proved",
   "theorems": [
    "Viqa.C48_table",
    "Viqa.C48_too_large",
    "Viqa.C48_negative"
   ],
   "note": ""
  },
  {
   "property": "C49",
   "status": "partial",
   "theorems": [
    "Viqa.C49_round_trip",
    "Viqa.C49_centre",
    "Viqa.C49_zero_gain",
    "Viqa.C49_even_partial",
    "Viqa.C49_odd",
    "Viqa.C49_odd_removed",
    "Viqa.C49_refuted",
    "Viqa.C49_csf"
   ],
   "note": "Zero gain at the zero frequency and the inverse shifts hold for all sizes; coordinates are right for even sizes only (C49_odd, C49_refuted)."
  },
  {
   "property": "C50",
   "status": "partial",
   "theorems": [
    "Viqa.C50_partial",
    "Viqa.C50_array",
    "Viqa.C50_refuted",
    "Viqa.C50_weights_sum"
   ],
   "note": "Weights given as an array are modified in place (C50_array, C50_refuted)."
  },
  {
   "property": "C51",
   "status": "partial",
   "theorems": [
    "Viqa.C51_convolve",
    "Viqa.C51_shift_partial",
    "Viqa.C51_not_own_pixel",
    "Viqa.C51_refuted",
    "Viqa.C51_errors"
   ],
   "note": "The window ends before the pixel (C51_shift_partial gives the exact offset, C51_not_own_pixel)."
  },
  {
   "property": "C52",
   "status": "proved",
   "theorems": [
    "Viqa.C52_cubic",
    "Viqa.C52_spherical",
    "Viqa.C52_count"
   ],
   "note": ""
  },
  {
   "property": "C53",
   "status": "partial",
   "theorems": [
    "Viqa.C53_check_iff",
    "Viqa.C53_lower_partial",
    "Viqa.C53_refuted",
    "Viqa.C53_negative"
   ],
   "note": "Exact condition of the check in C53_check_iff; regions beyond the upper borders are accepted and give nan (C53_refuted); negative centres mean different pixels for cubes and spheres (C53_negative)."
  },
  {
   "property": "C54",
   "status": "proved",
   "theorems": [
    "Viqa.C54_affine",
    "Viqa.C54_invert",
    "Viqa.C54_local",
    "Viqa.C54_zero",
    "Viqa.C54_value"
   ],
   "note": "Automatic centres: grayscale images for the affine law; inversion and locality for given centres. Exact arithmetic; compare C137."
  },
  {
   "property": "C55",
   "status": "proved",
   "theorems": [
    "Viqa.C55_scale",
    "Viqa.C55_region"
   ],
   "note": "Colour images: scaling law; locality and values for grayscale images and given centres."
  },
  {
   "property": "C56",
   "status": "partial",
   "theorems": [
    "Viqa.C56_partial",
    "Viqa.C56_refuted",
    "Viqa.C56_history"
   ],
   "note": "Holds for calls passing all or none of the regions, and for the stored values after any history (C56_history); a partial set is overridden by the stored one (C56_refuted)."
  },
  {
   "property": "C57",
   "status": "partial",
   "theorems": [
    "Viqa.C57_cnr_refuted",
    "Viqa.C57_snr_refuted",
    "Viqa.C57_partial"
   ],
   "note": "SNR in YUV mode with spherical or whole regions works; CNR with cubic, spherical or automatic regions and SNR with cubic regions or yuv=False always raise."
  },
  {
   "property": "C58",
   "status": "proved",
   "theorems": [
    "Viqa.C58_valid",
    "Viqa.C58_empty"
   ],
   "note": ""
  },
  {
   "property": "C59",
   "status": "partial",
   "theorems": [
    "Viqa.C59_partial",
    "Viqa.C59_refuted"
   ],
   "note": "Disjoint and covering above the minimum (C59_partial); the minimum pixels are in neither (C59_refuted)."
  },
  {
   "property": "C60",
   "status": "partial",
   "theorems": [
    "Viqa.C60_single_partial",
    "Viqa.C60_two_refuted",
    "Viqa.C60_radius_refuted",
    "Viqa.C60_snr_2d_refuted"
   ],
   "note": "Proved for one panel over all event sequences with radii that leave room for a centre (C60_single_partial). Refuted for two panels (C60_two_refuted: module variables are shared), for the largest radius of the slider (C60_radius_refuted) and for SNR of 2D images (C60_snr_2d_refuted)."
  },
  {
   "property": "C61",
   "status": "proved",
   "theorems": [
    "Viqa.C61_created_iff"
   ],
   "note": ""
  },
  {
   "property": "C62",
   "status": "proved",
   "theorems": [
    "Viqa.C62_complete"
   ],
   "note": ""
  },
  {
   "property": "C63",
   "status": "partial",
   "theorems": [
    "Viqa.C63_individual_partial",
    "Viqa.C63_package_partial",
    "Viqa.C63_region_refuted",
    "Viqa.C63_reference_region_refuted",
    "Viqa.C63_shape_refuted"
   ],
   "note": "Cached values are kept although the region or the shape of the reference changes (three refutations); otherwise batch and single results agree, including which batches fail (C63_individual_partial, C63_package_partial)."
  },
  {
   "property": "C64",
   "status": "proved",
   "theorems": [
    "Viqa.C64_loads"
   ],
   "note": ""
  },
  {
   "property": "C65",
   "status": "proved",
   "theorems": [
    "Viqa.C65_rows",
    "Viqa.C65_nothing_calculated"
   ],
   "note": ""
  },
  {
   "property": "C66",
   "status": "partial",
   "theorems": [
    "Viqa.C66_own_entries_partial",
    "Viqa.C66_snr_refuted",
    "Viqa.C66_same_name_refuted",
    "Viqa.C66_colour_refuted"
   ],
   "note": "SNR never works, the same class twice gives one entry, chromatic metrics reject every colour image not 3 pixels wide; otherwise every metric gets its own entries (C66_own_entries_partial)."
  },
  {
   "property": "C67",
   "status": "partial",
   "theorems": [
    "Viqa.C67_shown_iff",
    "Viqa.C67_value_error_partial",
    "Viqa.C67_refuted"
   ],
   "note": "The accepted slices are exactly the valid ones (C67_shown_iff), but the index equal to the length raises IndexError instead of ValueError (C67_refuted)."
  },
  {
   "property": "C68",
   "status": "partial",
   "theorems": [
    "Viqa.C68_slice_partial",
    "Viqa.C68_refused_partial",
    "Viqa.C68_equal_refuted",
    "Viqa.C68_three_slices_refuted",
    "Viqa.C68_layout"
   ],
   "note": "The layout is proved completely (C68_layout). Equal indices for several axes are accepted and volumes of three slices are mixed to one (two refutations)."
  },
  {
   "property": "C69",
   "status": "partial",
   "theorems": [
    "Viqa.C69_c_order_partial",
    "Viqa.C69_f_order_partial",
    "Viqa.C69_layout_refuted",
    "Viqa.C69_double_refuted",
    "Viqa.C69_view_refuted",
    "Viqa.C69_volumes_only"
   ],
   "note": "float64 volumes are not converted (C69_double_refuted); strides are ignored by the native code (C69_layout_refuted, C69_view_refuted). Packed volumes of other types are handed over completely. The native calculation itself is not part of the repository."
  },
  {
   "property": "C70",
   "status": "partial",
   "theorems": [
    "Viqa.C70_crop",
    "Viqa.C70_script",
    "Viqa.C70_script_partial",
    "Viqa.C70_refuted",
    "Viqa.C70_scrambled_refuted",
    "Viqa.C70_factor_one"
   ],
   "note": "The crop function is proved (C70_crop). The script exchanges the first two sizes when loading and naming: proved for equal sizes (C70_script_partial), refuted for all sizes that differ enough (C70_refuted) and for smaller differences by a witness."
  },
  {
   "property": "C71",
   "status": "partial",
   "theorems": [
    "Viqa.C71_size",
    "Viqa.C71_reduced",
    "Viqa.C71_negative_refuted",
    "Viqa.C71_refused"
   ],
   "note": "Proved for all factors greater than one (C71_reduced); negative factors are accepted and reverse the order (C71_negative_refuted)."
  },
  {
   "property": "C72",
   "status": "partial",
   "theorems": [
    "Viqa.C72_transposed_refuted",
    "Viqa.C72_same_iff_partial",
    "Viqa.C72_depth_refuted",
    "Viqa.C72_no_files"
   ],
   "note": "Images are transposed: exact condition for single slices (C72_same_iff_partial); deeper images give files that cannot be loaded (C72_depth_refuted)."
  },
  {
   "property": "C73",
   "status": "partial",
   "theorems": [
    "Viqa.C73_pairs_partial",
    "Viqa.C73_refuted",
    "Viqa.C73_file_partial"
   ],
   "note": "Only the first three characters of modified names are compared: exact for stems of three characters, refuted for all longer stems (C73_refuted)."
  },
  {
   "property": "C74",
   "status": "partial",
   "theorems": [
    "Viqa.C74_round_trip_partial",
    "Viqa.C74_refuted",
    "Viqa.C74_quotes_refuted",
    "Viqa.C74_comma_refuted"
   ],
   "note": "Names without quotes; the sniffed dialect does not undouble quotes, so every file with a quote in a name is read back wrongly (C74_quotes_refuted). Sniffer modelled for the header of pair files only."
  },
  {
   "property": "C75",
   "status": "proved",
   "theorems": [
    "Viqa.C75_one_iff_identical"
   ],
   "note": ""
  },
  {
   "property": "C76",
   "status": "partial",
   "theorems": [
    "Viqa.C76_modes_partial",
    "Viqa.C76_refuted",
    "Viqa.C76_accepted_iff"
   ],
   "note": "Modes edge and symmetric raise RuntimeError (C76_refuted); C76_accepted_iff lists the accepted names."
  },
  {
   "property": "C77",
   "status": "partial",
   "theorems": [
    "Viqa.C77_filter_partial",
    "Viqa.C77_refuted"
   ],
   "note": "win_size changes variance scaling and cropping (C77_refuted); the filter itself does not depend on it (C77_filter_partial)."
  },
  {
   "property": "C78",
   "status": "proved",
   "theorems": [
    "Viqa.C78_weights_required",
    "Viqa.C78_weighted_mean",
    "Viqa.C78_identical",
    "Viqa.C78_wrong_number"
   ],
   "note": ""
  },
  {
   "property": "C79",
   "status": "partial",
   "theorems": [
    "Viqa.C79_colour_partial",
    "Viqa.C79_refuted",
    "Viqa.C79_gsm_mad_need_dim"
   ],
   "note": "VSI, GSM and MAD raise ValueError for every colour image without dim (C79_refuted)."
  },
  {
   "property": "C80",
   "status": "partial",
   "theorems": [
    "Viqa.C80_warning_iff",
    "Viqa.C80_nonzero_partial",
    "Viqa.C80_refuted"
   ],
   "note": "The value 0 is ignored silently (C80_refuted); C80_warning_iff is the exact condition."
  },
  {
   "property": "C81",
   "status": "partial",
   "theorems": [
    "Viqa.C81_refuted",
    "Viqa.C81_turned_partial"
   ],
   "note": "Refuted for mirroring. Proved: turning both images by 180 degrees and inverting both leaves GSM unchanged, for every shape, constant and data range, over exact floating point arithmetic."
  },
  {
   "property": "C82",
   "status": "partial",
   "theorems": [
    "Viqa.C82_directions_partial",
    "Viqa.C82_actual",
    "Viqa.C82_refuted"
   ],
   "note": "26 of 32 kernels; C82_actual states the response of the other six, C82_refuted that three of them violate the claim."
  },
  {
   "property": "C83",
   "status": "proved",
   "theorems": [
    "Viqa.C83_upper_bound"
   ],
   "note": ""
  },
  {
   "property": "C84",
   "status": "partial",
   "theorems": [
    "Viqa.C84_identical_partial",
    "Viqa.C84_small_image",
    "Viqa.C84_refuted",
    "Viqa.C84_whole_partial"
   ],
   "note": "Not a number for accepted images of at most two blocks (C84_small_image); identity otherwise; C84_whole_partial for the whole function including filters, for blocks of four strides."
  },
  {
   "property": "C85",
   "status": "partial",
   "theorems": [
    "Viqa.C85_partial",
    "Viqa.C85_one_threshold",
    "Viqa.C85_two_thresholds",
    "Viqa.C85_refuted",
    "Viqa.C85_zero_threshold",
    "Viqa.C85_documented"
   ],
   "note": "The warning about ignored parameters is unconditional (C85_refuted); everything else holds."
  },
  {
   "property": "C86",
   "status": "partial",
   "theorems": [
    "Viqa.C86_block_size_one",
    "Viqa.C86_refuted",
    "Viqa.C86_partial",
    "Viqa.C86_unbiased"
   ],
   "note": "MAD is zero for every pair of images with block size one (C86_block_size_one)."
  },
  {
   "property": "C87",
   "status": "proved",
   "theorems": [
    "Viqa.C87_mask",
    "Viqa.C87_no_error",
    "Viqa.C87_monotone"
   ],
   "note": ""
  },
  {
   "property": "C88",
   "status": "partial",
   "theorems": [
    "Viqa.C88_minstd",
    "Viqa.C88_getstatistics",
    "Viqa.C88_leak",
    "Viqa.C88_refuted"
   ],
   "note": "One array per minstd call and three per getstatistics call stay alive (C88_leak)."
  },
  {
   "property": "C89",
   "status": "partial",
   "theorems": [
    "Viqa.C89_refuted"
   ],
   "note": "Refuted for every grayscale image with a detected region; there is no region for which the claim holds."
  },
  {
   "property": "C90",
   "status": "partial",
   "theorems": [
    "Viqa.C90_partial",
    "Viqa.C90_refuted",
    "Viqa.C90_refuted_sample"
   ],
   "note": "Interior pixels only (C90_partial)."
  },
  {
   "property": "C91",
   "status": "partial",
   "theorems": [
    "Viqa.C91_partial",
    "Viqa.C91_refuted",
    "Viqa.C91_radius_needed"
   ],
   "note": "Cubic regions only (C91_partial)."
  },
  {
   "property": "C92",
   "status": "partial",
   "theorems": [
    "Viqa.C92_refuted",
    "Viqa.C92_partial"
   ],
   "note": "Refuted for every grey pixel that is not black; C92_partial only shows that the coefficients themselves are right."
  },
  {
   "property": "C93",
   "status": "partial",
   "theorems": [
    "Viqa.C93_refuted",
    "Viqa.C93_partial"
   ],
   "note": "ValueError for every image (C93_refuted); if some centre is passed it is ignored as documented (C93_partial)."
  },
  {
   "property": "C94",
   "status": "proved",
   "theorems": [
    "Viqa.C94_whole",
    "Viqa.C94_succeeds"
   ],
   "note": ""
  },
  {
   "property": "C95",
   "status": "partial",
   "theorems": [
    "Viqa.C95_region_found_partial",
    "Viqa.C95_empty_refuted"
   ],
   "note": "An empty list of regions is accepted and every calculation fails with IndexError (C95_empty_refuted)."
  },
  {
   "property": "C96",
   "status": "partial",
   "theorems": [
    "Viqa.C96_region_2d_partial",
    "Viqa.C96_region_3d_partial",
    "Viqa.C96_normalized_refuted",
    "Viqa.C96_three_columns_refuted"
   ],
   "note": "Without normalisation and for regions that are not three columns wide (C96_region_2d_partial, C96_region_3d_partial)."
  },
  {
   "property": "C97",
   "status": "partial",
   "theorems": [
    "Viqa.C97_readable_partial",
    "Viqa.C97_own_parameters",
    "Viqa.C97_refuted"
   ],
   "note": "Values that take several lines (arrays) make the file ambiguous (C97_refuted); otherwise the text determines all entries."
  },
  {
   "property": "C98",
   "status": "proved",
   "theorems": [
    "Viqa.C98_views"
   ],
   "note": ""
  },
  {
   "property": "C99",
   "status": "partial",
   "theorems": [
    "Viqa.C99_lines_partial",
    "Viqa.C99_refuted"
   ],
   "note": "Non-negative indices only (C99_refuted)."
  },
  {
   "property": "C100",
   "status": "partial",
   "theorems": [
    "Viqa.C100_volume_partial",
    "Viqa.C100_plane_refuted",
    "Viqa.C100_mirrored_refuted",
    "Viqa.C100_diagonal_partial"
   ],
   "note": "Proved for volumes; in 2D the coordinates are exchanged and the view of the signal is mirrored (two refutations); drawing of SNR overlays not modelled."
  },
  {
   "property": "C101",
   "status": "partial",
   "theorems": [
    "Viqa.C101_alike_iff_partial",
    "Viqa.C101_refuted"
   ],
   "note": "Holds exactly for mirror symmetric images (C101_alike_iff_partial, C101_refuted)."
  },
  {
   "property": "C102",
   "status": "partial",
   "theorems": [
    "Viqa.C102_refuted",
    "Viqa.C102_shown_partial",
    "Viqa.C102_plane_partial"
   ],
   "note": "TypeError for all arguments unless the undocumented region_type is passed (C102_refuted); with region_type they are shown for 2D images and volumes (C102_plane_partial, C102_shown_partial)."
  },
  {
   "property": "C105",
   "status": "partial",
   "theorems": [
    "Viqa.C105_optional_refuted",
    "Viqa.C105_existing_refuted",
    "Viqa.C105_written_partial"
   ],
   "note": "The fourth argument is always accessed (C105_optional_refuted); images/ is created only together with the output directory (C105_existing_refuted)."
  },
  {
   "property": "C104",
   "status": "partial",
   "theorems": [
    "Viqa.C104_refuted",
    "Viqa.C104_written_partial"
   ],
   "note": "Refuted for every plain file name (C104_refuted)."
  },
  {
   "property": "C103",
   "status": "partial",
   "theorems": [
    "Viqa.C103_covers_iff_partial",
    "Viqa.C103_integers_partial",
    "Viqa.C103_refuted",
    "Viqa.C103_overflow_refuted"
   ],
   "note": "Exact condition (C103_covers_iff_partial); all volumes with values in [0,1) get the empty range 0 to 0 (C103_refuted)."
  },
  {
   "property": "C106",
   "status": "partial",
   "theorems": [
    "Viqa.C106_refuted",
    "Viqa.C106_stored_partial"
   ],
   "note": "Opening stores the starting values at once (C106_refuted); unchanged only if they were stored before (C106_stored_partial)."
  },
  {
   "property": "C107",
   "status": "partial",
   "theorems": [
    "Viqa.C107_inside_partial",
    "Viqa.C107_radius_refuted",
    "Viqa.C107_start_refuted"
   ],
   "note": "Proved for one panel and radii that leave room (C107_inside_partial); refuted for the largest radius and for starting values."
  },
  {
   "property": "C108",
   "status": "partial",
   "theorems": [
    "Viqa.C108_scored_partial",
    "Viqa.C108_unscored_partial",
    "Viqa.C108_unscored_refuted",
    "Viqa.C108_exported_refuted"
   ],
   "note": "Proved for scored metrics and for ten classes without a score; MS-SSIM, VIFp and VSI print a line instead of warning (C108_unscored_refuted), and every metric raises TypeError after its missing score was exported (C108_exported_refuted). Rounding is a parameter."
  },
  {
   "property": "C109",
   "status": "partial",
   "theorems": [
    "Viqa.C109_names_iff_partial",
    "Viqa.C109_refuted"
   ],
   "note": "Exact condition over all classes; chromatic RMSE, PSNR, FSIM and SNR print another name than they export (C109_refuted)."
  },
  {
   "property": "C110",
   "status": "proved",
   "theorems": [
    "Viqa.C110_distinct",
    "Viqa.C110_extension"
   ],
   "note": ""
  },
  {
   "property": "C111",
   "status": "partial",
   "theorems": [
    "Viqa.C111_empty_directory",
    "Viqa.C111_batch_partial",
    "Viqa.C111_none_refuted",
    "Viqa.C111_before_refuted",
    "Viqa.C111_multiple_partial",
    "Viqa.C111_multiple_refuted"
   ],
   "note": "Named directories proved (C111_batch_partial, C111_multiple_partial). Without directory nothing is saved (C111_none_refuted); before the calculation the results file is emptied (C111_before_refuted); a failing image keeps MultipleMetrics from writing anything (C111_multiple_refuted)."
  },
  {
   "property": "C112",
   "status": "partial",
   "theorems": [
    "Viqa.C112_shown_scored_partial",
    "Viqa.C112_refuted",
    "Viqa.C112_multiple_refuted"
   ],
   "note": "Proved for batches without loading parameters and with compatible neighbours; refuted for identical neighbouring pairs with different regions (C112_refuted) and for MultipleMetrics (C112_multiple_refuted)."
  },
  {
   "property": "C113",
   "status": "partial",
   "theorems": [
    "Viqa.C113_saved_iff_partial",
    "Viqa.C113_refuted",
    "Viqa.C113_export_partial"
   ],
   "note": "export_image always saves what was drawn (C113_export_partial). Visualizations call show before savefig: with backends that close figures an empty figure is saved (C113_refuted); exact condition in C113_saved_iff_partial. The behaviour of pyplot is trusted as modelled."
  },
  {
   "property": "C114",
   "status": "partial",
   "theorems": [
    "Viqa.C114_refuted",
    "Viqa.C114_shown_again_refuted",
    "Viqa.C114_closed_partial",
    "Viqa.C114_visualize_refuted"
   ],
   "note": "A report with n saved images leaves n figures open (C114_refuted) which are displayed by the next visualization (C114_shown_again_refuted)."
  },
  {
   "property": "C115",
   "status": "partial",
   "theorems": [
    "Viqa.C115_volume_partial",
    "Viqa.C115_plane_partial",
    "Viqa.C115_category_refuted",
    "Viqa.C115_colour_refuted",
    "Viqa.C115_dimensions"
   ],
   "note": "Volumes and 2D images as documented; colour images always raise (C115_colour_refuted), the warning is a RuntimeWarning (C115_category_refuted)."
  },
  {
   "property": "C116",
   "status": "partial",
   "theorems": [
    "Viqa.C116_found_iff",
    "Viqa.C116_missing_partial",
    "Viqa.C116_name_refuted",
    "Viqa.C116_interactive_partial"
   ],
   "note": "A missing name in an installed module raises AttributeError (C116_name_refuted); everything else as documented."
  },
  {
   "property": "C117",
   "status": "partial",
   "theorems": [
    "Viqa.C117_refuted",
    "Viqa.C117_shown_partial"
   ],
   "note": "CNR.set_centers always raises ImportError outside of notebooks (C117_refuted), unless the undocumented region_type is passed (C117_shown_partial)."
  },
  {
   "property": "C118",
   "status": "partial",
   "theorems": [
    "Viqa.C118_mean_sum_partial",
    "Viqa.C118_refuted",
    "Viqa.C118_plane_partial"
   ],
   "note": "mean and sum hold; none raises RuntimeError for volumes of more than one slice (C118_refuted)."
  },
  {
   "property": "C119",
   "status": "partial",
   "theorems": [
    "Viqa.C119_dim_message_iff_partial",
    "Viqa.C119_refuted",
    "Viqa.C119_slice_message"
   ],
   "note": "Exact condition in C119_dim_message_iff_partial; five metrics complain about im_slice instead of dim (C119_refuted)."
  },
  {
   "property": "C120",
   "status": "partial",
   "theorems": [
    "Viqa.C120_mirror",
    "Viqa.C120_transpose_partial",
    "Viqa.C120_positive",
    "Viqa.C120_falls",
    "Viqa.C120_low",
    "Viqa.C120_row_frequency",
    "Viqa.C120_refuted",
    "Viqa.C120_wave"
   ],
   "note": "Square images proved; frequencies of both axes are scaled by the number of columns, so the weights of images that are not square are not exchanged with their axes (C120_refuted). Real arithmetic; the fall is proved from lambda*f >= 0.9 on, a frequency of 7.895 by default; the default peak 7.8909 is the rounded place of the maximum."
  },
  {
   "property": "C121",
   "status": "partial",
   "theorems": [
    "Viqa.C121_all_partial",
    "Viqa.C121_first_failure",
    "Viqa.C121_only",
    "Viqa.C121_constant",
    "Viqa.C121_refuted",
    "Viqa.C121_arguments"
   ],
   "note": "Proved if every visible entry holds a volume that can be normalized; the first other entry ends the script (C121_first_failure, C121_refuted). What load_data gives is a parameter of the entry; wildcards in the name of the directory are not covered."
  },
  {
   "property": "C122",
   "status": "partial",
   "theorems": [
    "Viqa.C122_float",
    "Viqa.C122_small_partial",
    "Viqa.C122_32bit",
    "Viqa.C122_64bit",
    "Viqa.C122_refuted"
   ],
   "note": "The number of bins is the largest number of the data type: integer images of 64 bits always fail and mix old and new statistics (C122_64bit, C122_refuted), those of 32 bits need 16 or 32 gigabytes (C122_32bit); other types proved. Only the edges of the histogram are counted."
  },
  {
   "property": "C123",
   "status": "partial",
   "theorems": [
    "Viqa.C123_written_iff",
    "Viqa.C123_returned",
    "Viqa.C123_round_trip",
    "Viqa.C123_path",
    "Viqa.C123_after_calculate",
    "Viqa.C123_refuted"
   ],
   "note": "Writing, naming, reading back and warnings proved; without calculated statistics the file holds the text \"Not set. ...\" instead of numbers and there is no warning (C123_refuted)."
  },
  {
   "property": "C124",
   "status": "partial",
   "theorems": [
    "Viqa.C124_radius",
    "Viqa.C124_volume_partial",
    "Viqa.C124_plane_partial",
    "Viqa.C124_signal_refuted",
    "Viqa.C124_after_full_refuted",
    "Viqa.C124_mirrored_refuted",
    "Viqa.C124_no_type"
   ],
   "note": "Boxes and balls inside of the image are drawn as asked for (C124_volume_partial, C124_plane_partial). A signal array always raises ValueError (C124_signal_refuted); after a full region was saved, boxes and balls saved later raise TypeError (C124_after_full_refuted); in 2D images the overlay is not mirrored but the image is (C124_mirrored_refuted). Missing: colour images, and that pyplot draws what it is given."
  },
  {
   "property": "C125",
   "status": "partial",
   "theorems": [
    "Viqa.C125_radius",
    "Viqa.C125_arguments",
    "Viqa.C125_calculated",
    "Viqa.C125_reopened_partial",
    "Viqa.C125_refuted",
    "Viqa.C125_thresholds_refuted",
    "Viqa.C125_other_region_refuted"
   ],
   "note": "Saved boxes and balls are shown again (C125_reopened_partial). After full or original was saved, opening raises TypeError (C125_refuted); thresholds and iterations start from 0, 0 and 1 the second time (C125_thresholds_refuted); the type full stores the region computed last, also for another metric (C125_other_region_refuted). That a slider with the value None starts from 0 is trusted."
  },
  {
   "property": "C126",
   "status": "partial",
   "theorems": [
    "Viqa.C126_refuted",
    "Viqa.C126_shown_partial"
   ],
   "note": "Starting values are ignored outside of notebooks: a new metric raises ImportError whatever is given (C126_refuted); stored regions and those in vis_kwargs are shown (C126_shown_partial)."
  },
  {
   "property": "C127",
   "status": "proved",
   "theorems": [
    "Viqa.C127_ssim",
    "Viqa.C127_uqi",
    "Viqa.C127_rmse",
    "Viqa.C127_psnr",
    "Viqa.C127_rotated",
    "Viqa.C127_both",
    "Viqa.C127_colour"
   ],
   "note": "Proved for RMSE, PSNR, SSIM, colour SSIM and UQI; compare C81 for GSM, where it fails. Real arithmetic: the order of sums is not observed."
  },
  {
   "property": "C128",
   "status": "proved",
   "theorems": [
    "Viqa.C128_ssim",
    "Viqa.C128_uqi",
    "Viqa.C128_rmse",
    "Viqa.C128_psnr",
    "Viqa.C128_gsm",
    "Viqa.C128_gsm_constant"
   ],
   "note": "SSIM for all parameters for which the border cannot falsify the statistics (BorderHarmless, includes the defaults). C128_gsm_constant shows that the default constant of GSM is made for one unit."
  },
  {
   "property": "C129",
   "status": "partial",
   "theorems": [
    "Viqa.C129_partial",
    "Viqa.C129_refuted",
    "Viqa.C129_unsigned_refuted",
    "Viqa.C129_rounded_partial"
   ],
   "note": "Floating point images with different mean absolute gradients (C129_partial); also as computed in floating point (C129_rounded_partial); refuted for equal ones (C129_refuted) and for unsigned images (C129_unsigned_refuted)."
  },
  {
   "property": "C130",
   "status": "proved",
   "theorems": [
    "Viqa.C130_band",
    "Viqa.C130_brightness",
    "Viqa.C130_brightened",
    "Viqa.C130_symmetric",
    "Viqa.C130_weights",
    "Viqa.C130_refused",
    "Viqa.C130_pixel",
    "Viqa.C130_sees",
    "Viqa.C130_scale"
   ],
   "note": "Real arithmetic, floating point images. C130_pixel and C130_sees show that the responses are not trivial."
  },
  {
   "property": "C131",
   "status": "partial",
   "theorems": [
    "Viqa.C131_gain",
    "Viqa.C131_tuned_partial",
    "Viqa.C131_refuted",
    "Viqa.C131_wave"
   ],
   "note": "Even sizes (C131_tuned_partial) and the bound for all sizes (C131_gain), the response to a wave (C131_wave); refuted for odd sizes (C131_refuted)."
  },
  {
   "property": "C132",
   "status": "proved",
   "theorems": [
    "Viqa.C132_shift"
   ],
   "note": "Real arithmetic; the cyclic shift is what the Fourier transform implies at the border."
  },
  {
   "property": "C133",
   "status": "partial",
   "theorems": [
    "Viqa.C133_luminance_partial",
    "Viqa.C133_defaults",
    "Viqa.C133_csf",
    "Viqa.C133_refuted",
    "Viqa.C133_monitor",
    "Viqa.C133_display"
   ],
   "note": "luminance_function is completed (C133_luminance_partial); csf_function given in part raises KeyError for all images (C133_csf, C133_refuted)."
  },
  {
   "property": "C134",
   "status": "proved",
   "theorems": [
    "Viqa.C134_floats",
    "Viqa.C134_ints",
    "Viqa.C134_same_values",
    "Viqa.C134_too_large"
   ],
   "note": "Negative integers are outside of every data range; they are not refused (C48_negative)."
  },
  {
   "property": "C135",
   "status": "partial",
   "theorems": [
    "Viqa.C135_result",
    "Viqa.C135_half_overflow",
    "Viqa.C135_range_and_order",
    "Viqa.C135_near",
    "Viqa.C135_bright_unit",
    "Viqa.C135_bright_partial",
    "Viqa.C135_refuted",
    "Viqa.C135_integers_refuted",
    "Viqa.C135_half_refuted"
   ],
   "note": "Range, order, distance and the unit range are proved (C135_range_and_order, C135_near, C135_bright_unit). The brightest pixel may become one less than the upper limit (C135_bright_partial says when not): float64 pixels 0 and 1.1 with 255 give 254 (C135_refuted), float32 pixels 0 and 259 with 65535 give 65534 (C135_integers_refuted), float16 pixels 0 and 11 with 255 give 254 (C135_half_refuted). The distance is at most one step, for float16 with 65535 at most 160. Overflow is modelled for float16, underflow is not; exponents of float32 and float64 are unbounded."
  },
  {
   "property": "C136",
   "status": "proved",
   "theorems": [
    "Viqa.C136_integers"
   ],
   "note": "Intermediate values are float64, as numpy chooses for a quotient of integers."
  },
  {
   "property": "C137",
   "status": "partial",
   "theorems": [
    "Viqa.C137_mean",
    "Viqa.C137_flat_partial",
    "Viqa.C137_actual",
    "Viqa.C137_refuted"
   ],
   "note": "Holds if the sum needs at most 53 bits (C137_flat_partial: all 16 bit images). Three pixels of the value 0.1 have an SNR above 2^51 in every order of summation (C137_actual, C137_refuted)."
  },
  {
   "property": "C138",
   "status": "proved",
   "theorems": [
    "Viqa.C138_local",
    "Viqa.C138_identical",
    "Viqa.C138_symmetric"
   ],
   "note": "Exponents 1 (the default). The filter is arbitrary apart from storing float32."
  },
  {
   "property": "C139",
   "status": "partial",
   "theorems": [
    "Viqa.C139_local_partial",
    "Viqa.C139_bounded_partial",
    "Viqa.C139_actual",
    "Viqa.C139_refuted"
   ],
   "note": "Holds if no pixel exceeds the data range, for k_2 = 0.03 (C139_bounded_partial). Two images with pixels 3000 and 3000.25 and the data range 1 have an index above 2000 at a position (C139_actual, C139_refuted)."
  },
  {
   "property": "C140",
   "status": "partial",
   "theorems": [
    "Viqa.C140_rules",
    "Viqa.C140_names_partial",
    "Viqa.C140_exchanged",
    "Viqa.C140_refuted"
   ],
   "note": "The rules are proved for all lengths and positions (C140_rules). correlate_convolve_abs exchanges the names reflect and mirror (C140_exchanged, C140_refuted)."
  },
  {
   "property": "C141",
   "status": "proved",
   "theorems": [
    "Viqa.C141_mean",
    "Viqa.C141_variance",
    "Viqa.C141_snr",
    "Viqa.C141_snr_digits",
    "Viqa.C141_cnr_digits"
   ],
   "note": "General bound for SNR (C141_snr) and bounds with numbers for float64 (C141_snr_digits, C141_cnr_digits)."
  },
  {
   "property": "C142",
   "status": "partial",
   "theorems": [
    "Viqa.C142_returned_partial",
    "Viqa.C142_interrupted",
    "Viqa.C142_multiple",
    "Viqa.C142_refuted"
   ],
   "note": "A call that returns gives the results of a new object whatever was done before (C142_returned_partial). A call that raises leaves a mixture (C142_interrupted, C142_refuted). MultipleMetrics keeps the results of the last call that returned (C142_multiple)."
  },
  {
   "property": "C143",
   "status": "partial",
   "theorems": [
    "Viqa.C143_multiple",
    "Viqa.C143_shared",
    "Viqa.C143_repeated_partial",
    "Viqa.C143_refuted"
   ],
   "note": "Holds for MultipleMetrics (C143_multiple). BatchMetrics returns the same dictionary each time (C143_shared, C143_refuted); only repetitions of the same calculation leave it unchanged (C143_repeated_partial)."
  },
  {
   "property": "C144",
   "status": "partial",
   "theorems": [
    "Viqa.C144_identical",
    "Viqa.C144_symmetric",
    "Viqa.C144_only_identical_partial",
    "Viqa.C144_refuted",
    "Viqa.C144_single_zero_iff",
    "Viqa.C144_double_zero_iff"
   ],
   "note": "Identical images and symmetry hold without conditions (C144_identical, C144_symmetric). Zero only for identical images holds if differing pixels differ by at least 2^-74 (C144_only_identical_partial); smaller differences are lost in float32 (C144_refuted). Exact conditions: float32 images have RMSE 0 exactly if no difference exceeds 2^-75 (C144_single_zero_iff); one float64 pixel exactly if the square of the difference is at most 2^-1075 (C144_double_zero_iff)."
  },
  {
   "property": "C145",
   "status": "proved",
   "theorems": [
    "Viqa.C145_closer",
    "Viqa.C145_ranking"
   ],
   "note": "PSNR needs a data range of at least 2^-400 and a mean squared error of at most 2^200, so that no intermediate result underflows."
  },
  {
   "property": "C146",
   "status": "proved",
   "theorems": [
    "Viqa.C146_rmse",
    "Viqa.C146_digits"
   ],
   "note": "C146_rmse gives the bound for every tree depth, C146_digits the numbers. Differences are 0 or at least 2^-63; overflow is not modelled."
  },
  {
   "property": "C147",
   "status": "proved",
   "theorems": [
    "Viqa.C147_identical",
    "Viqa.C147_sharp"
   ],
   "note": "C147_identical gives the result in every case; C147_sharp shows that the limit on the number of pixels is needed."
  },
  {
   "property": "C148",
   "status": "proved",
   "theorems": [
    "Viqa.C148_upper_bound"
   ],
   "note": "Overflow and underflow are not modelled. The exact arithmetic version is C83."
  },
  {
   "property": "C149",
   "status": "partial",
   "theorems": [
    "Viqa.C149_images",
    "Viqa.C149_pairs_partial",
    "Viqa.C149_refuted"
   ],
   "note": "Holds for the images (C149_images). The file of the pairs is opened relative to the working directory, so the claim holds exactly if the path is absolute or file_dir is the working directory (C149_pairs_partial, C149_refuted)."
  },
  {
   "property": "C150",
   "status": "partial",
   "theorems": [
    "Viqa.C150_psnr_sign",
    "Viqa.C150_psnr_partial",
    "Viqa.C150_psnr_refuted",
    "Viqa.C150_gsm_partial",
    "Viqa.C150_gsm_refuted",
    "Viqa.C150_cnr_sign",
    "Viqa.C150_cnr_refuted",
    "Viqa.C150_snr_partial",
    "Viqa.C150_snr_refuted"
   ],
   "note": "PSNR is negative exactly if the RMSE exceeds the data range, CNR exactly if the region is darker than the background, SNR can be negative for images with negative values. GSM is not negative for similar gradients, but -1.04 for an edge and its inversion: the gradients are signed."
  },
  {
   "property": "C151",
   "status": "partial",
   "theorems": [
    "Viqa.C151_snr_partial",
    "Viqa.C151_snr_refuted",
    "Viqa.C151_cnr_partial",
    "Viqa.C151_cnr_refuted"
   ],
   "note": "Fails if the crop has three pixels in the last direction (taken for a colour image) and for volumes with fewer (C151_snr_refuted, C151_cnr_refuted); proved for all others."
  },
  {
   "property": "C152",
   "status": "proved",
   "theorems": [
    "Viqa.C152_slices",
    "Viqa.C152_between"
   ],
   "note": ""
  },
  {
   "property": "C153",
   "status": "partial",
   "theorems": [
    "Viqa.C153_overflow",
    "Viqa.C153_cnr_overflow",
    "Viqa.C153_refuted",
    "Viqa.C153_snr_partial",
    "Viqa.C153_cnr_partial"
   ],
   "note": "Refuted: np.std stores sums as float16, so the standard deviation of every region whose pixels add to more than about 65520 is infinite, and SNR and CNR are 0 (C153_overflow, C153_cnr_overflow, C153_refuted). C153_snr_partial bounds the error of the finite results with a mean of at least 1 and a variance of at least 1/1024 (before the error factor of the additions). C153_cnr_partial does so for CNR, in comparison with the means."
  },
  {
   "property": "C154",
   "status": "partial",
   "theorems": [
    "Viqa.C154_ssim",
    "Viqa.C154_rmse",
    "Viqa.C154_psnr",
    "Viqa.C154_psnr_identical",
    "Viqa.C154_snr_partial",
    "Viqa.C154_cnr_partial",
    "Viqa.C154_refuted"
   ],
   "note": "Proved for RMSE, PSNR and SSIM. Fails for SNR of a flat region and CNR of a flat background, which are 0 while those of nearly flat ones are arbitrarily large (C154_refuted); proved for all other regions."
  },
  {
   "property": "C155",
   "status": "partial",
   "theorems": [
    "Viqa.C155_round_trip",
    "Viqa.C155_distinct",
    "Viqa.C155_export",
    "Viqa.C155_multiple",
    "Viqa.C155_describe",
    "Viqa.C155_batch",
    "Viqa.C155_pairs_partial",
    "Viqa.C155_pairs_refuted"
   ],
   "note": "Reading back is proved for all texts. Use as pair file fails for names with quotes, since the sniffed dialect has no doubled quotes (C155_pairs_refuted); proved for all other names."
  },
  {
   "property": "C156",
   "status": "partial",
   "theorems": [
    "Viqa.C156_blanks_partial",
    "Viqa.C156_header_refuted"
   ],
   "note": "Proved if the header has a blank after its delimiter or no row has one. Fails otherwise: skipinitialspace is guessed from the header alone, so blanks in rows become part of the names (C156_header_refuted)."
  },
  {
   "property": "C157",
   "status": "partial",
   "theorems": [
    "Viqa.C157_columns_partial",
    "Viqa.C157_delimiter_refuted"
   ],
   "note": "Proved for names of columns without delimiters, quotes and line breaks. Fails for files with semicolons or tabulators if the name of a further column contains a comma: the file is refused (C157_delimiter_refuted)."
  },
  {
   "property": "C158",
   "status": "partial",
   "theorems": [
    "Viqa.C158_median",
    "Viqa.C158_bounds",
    "Viqa.C158_variance",
    "Viqa.C158_mean_median",
    "Viqa.C158_kurtosis",
    "Viqa.C158_order",
    "Viqa.C158_gain",
    "Viqa.C158_inverted",
    "Viqa.C158_defined_partial",
    "Viqa.C158_offset_refuted"
   ],
   "note": "All laws are proved. Skewness and kurtosis exist for integer images that are not constant if the sum of the pixels is below 10^15 (C158_defined_partial), but not for float32 and float16 images whose standard deviation is below 1e-6 or 1e-3 of the mean (C158_offset_refuted). Real arithmetic; where the statistics are stored is C21 and C122."
  },
  {
   "property": "C159",
   "status": "partial",
   "theorems": [
    "Viqa.C159_bin",
    "Viqa.C159_total",
    "Viqa.C159_levels_partial",
    "Viqa.C159_levels_refuted"
   ],
   "note": "Counts and edges are proved for all images. Different integer gray values have different bins if they span less than 255; the two largest of 256 gray values share a bin (C159_levels_refuted). For integer types the histogram is lost (C21)."
  },
  {
   "property": "C160",
   "status": "proved",
   "theorems": [
    "Viqa.C160_local",
    "Viqa.C160_changed",
    "Viqa.C160_uqi"
   ],
   "note": "Filters whose radius fits the window (no window size given, or uniform weights); exponents at least 0. Real arithmetic."
  },
  {
   "property": "C161",
   "status": "partial",
   "theorems": [
    "Viqa.C161_gain",
    "Viqa.C161_brightness",
    "Viqa.C161_rmse",
    "Viqa.C161_psnr",
    "Viqa.C161_gsm",
    "Viqa.C161_ssim_refuted"
   ],
   "note": "RMSE and PSNR: all differences. SSIM: gain and brightness only (other differences: C161_ssim_refuted). GSM: brightness of float images, exact value. Real arithmetic."
  },
  {
   "property": "C162",
   "status": "partial",
   "theorems": [
    "Viqa.C162_loaded_first",
    "Viqa.C162_functions",
    "Viqa.C162_loaded_again_partial",
    "Viqa.C162_normalized_again_refuted",
    "Viqa.C162_crop_first_partial",
    "Viqa.C162_crop_first_refuted"
   ],
   "note": "The first two sentences are proved for all inputs and parameters. Repeating the parameters: proved for 0-255 and for regions starting at 0 (C162_loaded_again_partial); false for 0-65535 (C162_normalized_again_refuted). Cropping before or while loading: proved without normalization, false with it (C162_crop_first_refuted)."
  },
  {
   "property": "C163",
   "status": "partial",
   "theorems": [
    "Viqa.C163_voxels",
    "Viqa.C163_double",
    "Viqa.C163_scaled",
    "Viqa.C163_byte_order",
    "Viqa.C163_compare_refuted",
    "Viqa.C163_normalize_refuted",
    "Viqa.C163_time_refuted"
   ],
   "note": "Voxels, byte order and scaling are proved for all sizes and all types but 64 bit integers (which raw files do not have). False: pairs of different formats (C163_compare_refuted), normalization of 8 bit data (C163_normalize_refuted), time axis (C163_time_refuted)."
  },
  {
   "property": "C164",
   "status": "partial",
   "theorems": [
    "Viqa.C164_plain_partial",
    "Viqa.C164_header_size_partial",
    "Viqa.C164_byte_order_refuted",
    "Viqa.C164_short_header_refuted"
   ],
   "note": "Proved for data in the usual byte order and 8 bit data; a header of at least one item is rejected. False for 16 bit data in the other byte order (C164_byte_order_refuted, for all volumes) and for shorter headers (C164_short_header_refuted)."
  },
  {
   "property": "C165",
   "status": "partial",
   "theorems": [
    "Viqa.C165_same",
    "Viqa.C165_single_quotes_refuted",
    "Viqa.C165_no_blanks_refuted",
    "Viqa.C165_missing"
   ],
   "note": "Proved for the form that the formatter and the release tool write; false for single quotes and without blanks."
  },
  {
   "property": "C166",
   "status": "partial",
   "theorems": [
    "Viqa.C166_contents",
    "Viqa.C166_files_partial",
    "Viqa.C166_default_refuted"
   ],
   "note": "Requirements of one line. False for a group called default (C166_default_refuted)."
  },
  {
   "property": "C167",
   "status": "partial",
   "theorems": [
    "Viqa.C167_partial",
    "Viqa.C167_refuted",
    "Viqa.C167_tie_refuted"
   ],
   "note": "Proved where one kernel is strictly strongest for each image, the strengths differ and the divisor vanishes nowhere. False otherwise: with default parameters a copy of an image with a flat part as close as one likes scores less than 0.6 (C167_refuted); equal strengths let the score jump by more than 1 (C167_tie_refuted). Rational arithmetic."
  },
  {
   "property": "C168",
   "status": "proved",
   "theorems": [
    "Viqa.C168_mean",
    "Viqa.C168_smallest",
    "Viqa.C168_infinite"
   ],
   "note": "Real arithmetic."
  },
  {
   "property": "C169",
   "status": "partial",
   "theorems": [
    "Viqa.C169_appearance",
    "Viqa.C169_detection_partial",
    "Viqa.C169_refuted"
   ],
   "note": "Appearance index: always. Detection index: up to exp(1/beta_2) times the appearance index (about 2190 for the default parameters, C169_detection_partial); beyond it MAD can fall (C169_refuted). Real arithmetic."
  },
  {
   "property": "C170",
   "status": "partial",
   "theorems": [
    "Viqa.C170_partial",
    "Viqa.C170_data_range_refuted",
    "Viqa.C170_unknown_partial",
    "Viqa.C170_misspelled_refuted",
    "Viqa.C170_region_refuted"
   ],
   "note": "Documented keywords are used unless the class gives them itself (C170_partial): data_range raises TypeError for every full-reference metric, as in the examples of six modules (C170_data_range_refuted). Nine classes reject wrong names (C170_unknown_partial); SSIM, UQI, MAD and the Q-measure drop them silently (C170_misspelled_refuted). A radius without centres is replaced by the remembered one (C170_region_refuted). Names only; signatures of piq trusted."
  },
  {
   "property": "C171",
   "status": "partial",
   "theorems": [
    "Viqa.C171_rmse",
    "Viqa.C171_psnr",
    "Viqa.C171_ssim_partial",
    "Viqa.C171_refuted"
   ],
   "note": "RMSE and PSNR: all shapes and gray values. SSIM and UQI are the luminance comparison, 1 for equal gray values (C171_ssim_partial), but for black and white neither the shown score 0.0 nor the printed 1.0 is true (C171_refuted). Real arithmetic; images of another shape raise the shown ValueError (C18)."
  },
  {
   "property": "C172",
   "status": "partial",
   "theorems": [
    "Viqa.C172_keywords_partial",
    "Viqa.C172_results_partial",
    "Viqa.C172_snr_refuted",
    "Viqa.C172_ssim_refuted",
    "Viqa.C172_plane_refuted",
    "Viqa.C172_shapes_refuted"
   ],
   "note": "Without SNR the results have exactly the entries of the chosen metrics (C172_results_partial), and all keywords but one are read for volumes (C172_keywords_partial). As delivered the calculation raises TypeError because SNR is chosen (C172_snr_refuted); use_sample_covariance of SSIM is never read; GSM rejects its dictionary for 2D images; after resizing, the statistics cell raises AttributeError (C172_shapes_refuted). The type returned by skimage is trusted."
  },
  {
   "property": "C173",
   "status": "proved",
   "theorems": [
    "Viqa.C173_all",
    "Viqa.C173_distinct",
    "Viqa.C173_inside",
    "Viqa.C173_package"
   ],
   "note": "Positions are computed exactly, rounding of the fractions is not modelled. The extent of the texts is not modelled."
  },
  {
   "property": "C174",
   "status": "partial",
   "theorems": [
    "Viqa.C174_documented_partial",
    "Viqa.C174_unknown_partial",
    "Viqa.C174_internal_refuted",
    "Viqa.C174_no_pairs_refuted",
    "Viqa.C174_report_partial",
    "Viqa.C174_batch_report_refuted"
   ],
   "note": "calculate: documented keywords are read, others rejected (C174_documented_partial, C174_unknown_partial) except two internal names of MultipleMetrics (C174_internal_refuted) and batches without pairs. report: MultipleMetrics hands the rest to matplotlib (C174_report_partial), BatchMetrics drops dpi, scaling_order and anything else (C174_batch_report_refuted)."
  },
  {
   "property": "C175",
   "status": "proved",
   "theorems": [
    "Viqa.C175_between",
    "Viqa.C175_one_slice"
   ],
   "note": "GSM and MAD are cut along dim, the metrics of piq along the last axis whatever dim is (C35_refuted). Every slice is assumed to have a score. Real arithmetic."
  },
  {
   "property": "C176",
   "status": "proved",
   "theorems": [
    "Viqa.C176_cnr",
    "Viqa.C176_snr"
   ],
   "note": "For a loaded image that is not normalized. The regions full and original and automatic centres use the whole image and are not claimed."
  },
  {
   "property": "C177",
   "status": "proved",
   "theorems": [
    "Viqa.C177_rmse",
    "Viqa.C177_psnr"
   ],
   "note": "Real arithmetic; in floating point the order of summation matters (C146)."
  },
  {
   "property": "C178",
   "status": "partial",
   "theorems": [
    "Viqa.C178_partial",
    "Viqa.C178_full",
    "Viqa.C178_region_refuted",
    "Viqa.C178_parts_refuted"
   ],
   "note": "Metrics with reference and the Q-measure keep nothing (C178_full). CNR and SNR are independent of earlier calls if no call gives loading keywords (C178_partial); a region of interest given once is used by all later calls (C178_region_refuted, C178_parts_refuted with numbers)."
  },
  {
   "property": "C179",
   "status": "partial",
   "theorems": [
    "Viqa.C179_partial",
    "Viqa.C179_dropped_refuted",
    "Viqa.C179_unknown_refuted"
   ],
   "note": "data_range, normalize, roi and, with reference, chromatic are read (C179_partial); batch, name of SNR and chromatic of metrics without reference are accepted and dropped (C179_dropped_refuted), as is every wrong name (C179_unknown_refuted). Only names are modelled."
  },
  {
   "property": "C180",
   "status": "partial",
   "theorems": [
    "Viqa.C180_luminance_partial",
    "Viqa.C180_contrast_partial",
    "Viqa.C180_structure_partial",
    "Viqa.C180_mean_partial",
    "Viqa.C180_order_partial",
    "Viqa.C180_refuted"
   ],
   "note": "Real arithmetic, border handling without fill value. Weights that are not integers are truncated, so 0.5 acts as 0 (C180_refuted), although alpha, beta and gamma are documented as float."
  },
  {
   "property": "C181",
   "status": "proved",
   "theorems": [
    "Viqa.C181_zero",
    "Viqa.C181_weight",
    "Viqa.C181_masking",
    "Viqa.C181_masking_p"
   ],
   "note": "Floating-point images; unsigned differences wrap around (C37). C181_masking needs a positive largest gradient, without one k is negative or there is no score."
  },
  {
   "property": "C182",
   "status": "proved",
   "theorems": [
    "Viqa.C182_rmse",
    "Viqa.C182_psnr"
   ],
   "note": "Exact arithmetic; rounding is C146. An example shows that the bound is reached."
  },
  {
   "property": "C183",
   "status": "partial",
   "theorems": [
    "Viqa.C183_ssim_partial",
    "Viqa.C183_ssim_range_partial",
    "Viqa.C183_psnr",
    "Viqa.C183_gsm_partial",
    "Viqa.C183_ssim_refuted",
    "Viqa.C183_gsm_refuted"
   ],
   "note": "PSNR is proved for all images. SSIM and GSM multiply luminance with a similarity of structure that can be negative, then a greater data range lowers the score."
  },
  {
   "property": "C184",
   "status": "partial",
   "theorems": [
    "Viqa.C184_partial",
    "Viqa.C184_refuted",
    "Viqa.C184_unsigned_partial"
   ],
   "note": "Exact arithmetic. Missing: integer output ranges (refuted), signed integer images."
  },
  {
   "property": "C185",
   "status": "partial",
   "theorems": [
    "Viqa.C185_rmse_partial",
    "Viqa.C185_psnr_partial",
    "Viqa.C185_rmse_numbers",
    "Viqa.C185_psnr_numbers",
    "Viqa.C185_snr_partial",
    "Viqa.C185_snr_numbers",
    "Viqa.C185_cnr_partial",
    "Viqa.C185_cnr_refuted",
    "Viqa.C185_cnr_numbers",
    "Viqa.C185_ssim_refuted",
    "Viqa.C185_ssim_first_refuted",
    "Viqa.C185_ssim_numbers",
    "Viqa.C185_ssim_raises_refuted",
    "Viqa.C185_gradient",
    "Viqa.C185_gsm_partial",
    "Viqa.C185_gsm_numbers",
    "Viqa.C185_gsm_refuted"
   ],
   "note": "Proved for RMSE, PSNR and SNR, and for the reference of GSM. SSIM takes nan for 1, GSM leaves it out, CNR does not look at the signal when the background is uniform. Missing: the other metrics."
  },
  {
   "property": "C186",
   "status": "partial",
   "theorems": [
    "Viqa.C186_partial",
    "Viqa.C186_only",
    "Viqa.C186_same_name_refuted",
    "Viqa.C186_stale_refuted"
   ],
   "note": "Missing: folders that exist and names that occur in both directories (refuted)."
  },
  {
   "property": "C187",
   "status": "partial",
   "theorems": [
    "Viqa.C187_partial",
    "Viqa.C187_refuted"
   ],
   "note": "Missing: uniform images and images with nan (refuted)."
  },
  {
   "property": "C188",
   "status": "partial",
   "theorems": [
    "Viqa.C188_rmse",
    "Viqa.C188_psnr",
    "Viqa.C188_uncorrelated",
    "Viqa.C188_gain",
    "Viqa.C188_ssim_refuted"
   ],
   "note": "Exact arithmetic. Proved for RMSE and PSNR; SSIM is refuted."
  },
  {
   "property": "C189",
   "status": "partial",
   "theorems": [
    "Viqa.C189_snr_partial",
    "Viqa.C189_gain_partial",
    "Viqa.C189_snr_refuted",
    "Viqa.C189_cnr_partial",
    "Viqa.C189_cnr_gain_partial"
   ],
   "note": "Exact arithmetic. Missing: averages with a flat region (refuted, the score is 0 there), colour images, automatic regions."
  },
  {
   "property": "C190",
   "status": "proved",
   "theorems": [
    "Viqa.C190_snr_noise",
    "Viqa.C190_snr_brightness",
    "Viqa.C190_cnr_noise",
    "Viqa.C190_cnr_contrast",
    "Viqa.C190_snr_added"
   ],
   "note": "Exact arithmetic, gray scale images, given centres; rounding is C141."
  },
  {
   "property": "C191",
   "status": "partial",
   "theorems": [
    "Viqa.C191_partial",
    "Viqa.C191_unsigned_partial",
    "Viqa.C191_lost",
    "Viqa.C191_refuted"
   ],
   "note": "Exact arithmetic. Missing: integer images with overflow (refuted), signed and float16 images."
  },
  {
   "property": "C192",
   "status": "partial",
   "theorems": [
    "Viqa.C192_values",
    "Viqa.C192_print_partial",
    "Viqa.C192_prints",
    "Viqa.C192_agree_partial",
    "Viqa.C192_refuted",
    "Viqa.C192_half_refuted",
    "Viqa.C192_negative"
   ],
   "note": "Missing: half a unit exactly and agreement next to ties (refuted), scores with more than 15 digits before and after the point."
  },
  {
   "property": "C193",
   "status": "proved",
   "theorems": [
    "Viqa.C193_psnr"
   ],
   "note": "Overflow is not modelled; the ranges of the quantifier exclude it. Smaller differences: C144."
  },
  {
   "property": "C194",
   "status": "partial",
   "theorems": [
    "Viqa.C194_local_partial",
    "Viqa.C194_mean_partial",
    "Viqa.C194_actual",
    "Viqa.C194_exact",
    "Viqa.C194_refuted"
   ],
   "note": "Missing: positions at which one window is nearly uniform and the other is not (refuted), pixels larger than the data range (C139)."
  },
  {
   "property": "C195",
   "status": "partial",
   "theorems": [
    "Viqa.C195_snr_finite",
    "Viqa.C195_cnr_finite",
    "Viqa.C195_rmse_finite",
    "Viqa.C195_psnr_finite",
    "Viqa.C195_rmse_partial",
    "Viqa.C195_psnr_partial",
    "Viqa.C195_identical_refuted",
    "Viqa.C195_snr_partial",
    "Viqa.C195_cnr_partial",
    "Viqa.C195_cnr_refuted",
    "Viqa.C195_ssim_partial",
    "Viqa.C195_ssim_refuted",
    "Viqa.C195_normalize_refuted",
    "Viqa.C195_normalize_partial",
    "Viqa.C195_normalized_refuted"
   ],
   "note": "Missing: SSIM, normalization, CNR with a uniform background and RMSE of identical images (refuted). The filters of SSIM on infinite values are abstracted to InfiniteSums."
  },
  {
   "property": "C196",
   "status": "partial",
   "theorems": [
    "Viqa.C196_batch_partial",
    "Viqa.C196_calculated_partial",
    "Viqa.C196_multiple_partial",
    "Viqa.C196_others_partial",
    "Viqa.C196_refuted"
   ],
   "note": "Missing: the file that is open while its content cannot be made (refuted for the results file before a calculation)."
  },
  {
   "property": "C197",
   "status": "partial",
   "theorems": [
    "Viqa.C197_raw_partial",
    "Viqa.C197_pairs_partial",
    "Viqa.C197_export_partial",
    "Viqa.C197_mhd_partial",
    "Viqa.C197_mhd_refuted",
    "Viqa.C197_many_refuted"
   ],
   "note": "Missing: the header of mhd volumes (refuted)."
  },
  {
   "property": "C198",
   "status": "partial",
   "theorems": [
    "Viqa.C198_rmse_partial",
    "Viqa.C198_psnr_partial",
    "Viqa.C198_exact_partial",
    "Viqa.C198_order_refuted",
    "Viqa.C198_type_refuted"
   ],
   "note": "Missing: 16 bit volumes with more than 2^21 pixels and 16 bit values in float32 (both refuted)."
  },
  {
   "property": "C199",
   "status": "partial",
   "theorems": [
    "Viqa.C199_partial",
    "Viqa.C199_actual",
    "Viqa.C199_refuted"
   ],
   "note": "Missing: similar images that are not identical (refuted)."
  },
  {
   "property": "C200",
   "status": "partial",
   "theorems": [
    "Viqa.C200_lists_partial",
    "Viqa.C200_false_member",
    "Viqa.C200_index",
    "Viqa.C200_lists_refuted",
    "Viqa.C200_hash_refuted",
    "Viqa.C200_sorted",
    "Viqa.C200_sorted_unset",
    "Viqa.C200_max"
   ],
   "note": "Missing: metrics with equal or missing scores in list methods; sets and dictionary keys (both refuted)."
  },
  {
   "property": "C201",
   "status": "proved",
   "theorems": [
    "Viqa.C201_pixel",
    "Viqa.C201_score",
    "Viqa.C201_choice"
   ],
   "note": ""
  },
  {
   "property": "C202",
   "status": "partial",
   "theorems": [
    "Viqa.C202_local_partial",
    "Viqa.C202_bounded_partial",
    "Viqa.C202_identical",
    "Viqa.C202_actual",
    "Viqa.C202_refuted",
    "Viqa.C202_volume",
    "Viqa.C202_volume_refuted"
   ],
   "note": "Missing: windows with little contrast compared to the gray values (refuted: two 11 bit images and two 8 bit volumes with a UQI of -3.4e38)."
  },
  {
   "property": "C203",
   "status": "partial",
   "theorems": [
    "Viqa.C203_local_partial",
    "Viqa.C203_mean_partial",
    "Viqa.C203_refuted"
   ],
   "note": "Missing: windows with little contrast compared to the gray values (refuted)."
  },
  {
   "property": "C204",
   "status": "partial",
   "theorems": [
    "Viqa.C204_exact_partial",
    "Viqa.C204_mean",
    "Viqa.C204_snr_partial",
    "Viqa.C204_cnr_partial",
    "Viqa.C204_close",
    "Viqa.C204_refuted"
   ],
   "note": "Missing: regions whose number of pixels is not a power of two, or with more pixels (refuted for five pixels; all orders agree up to 2^-27)."
  },
  {
   "property": "C205",
   "status": "partial",
   "theorems": [
    "Viqa.C205_rmse",
    "Viqa.C205_ranking_partial",
    "Viqa.C205_same_range_partial",
    "Viqa.C205_psnr_ssim_partial",
    "Viqa.C205_refuted"
   ],
   "note": "Exact arithmetic. Missing: images whose scores differ by less than the shifts of the darkest and brightest gray values (refuted)."
  },
  {
   "property": "C206",
   "status": "partial",
   "theorems": [
    "Viqa.C206_formula",
    "Viqa.C206_dark_partial",
    "Viqa.C206_lower",
    "Viqa.C206_elsewhere",
    "Viqa.C206_refuted"
   ],
   "note": "Exact arithmetic, gray scale images. Missing: images whose darkest gray value is not 0 (refuted)."
  },
  {
   "property": "C207",
   "status": "partial",
   "theorems": [
    "Viqa.C207_bound",
    "Viqa.C207_gray_partial",
    "Viqa.C207_psnr",
    "Viqa.C207_same_gray",
    "Viqa.C207_clipped",
    "Viqa.C207_refuted"
   ],
   "note": "Proved: the bounds, and equality for images without colour and channels up to 255. False: RMSE 0 only for equal images (C207_refuted, C207_same_gray, C207_clipped)."
  },
  {
   "property": "C208",
   "status": "partial",
   "theorems": [
    "Viqa.C208_border_partial",
    "Viqa.C208_refuted"
   ],
   "note": "Proved unless win_size is given together with Gaussian weights and is smaller than the Gaussian window. False there: C208_refuted."
  },
  {
   "property": "C209",
   "status": "proved",
   "theorems": [
    "Viqa.C209_rmse",
    "Viqa.C209_psnr",
    "Viqa.C209_ssim"
   ],
   "note": ""
  },
  {
   "property": "C210",
   "status": "partial",
   "theorems": [
    "Viqa.C210_snr_partial",
    "Viqa.C210_cnr_partial",
    "Viqa.C210_rotated_partial",
    "Viqa.C210_cubic_refuted",
    "Viqa.C210_border_refuted",
    "Viqa.C210_narrow_refuted"
   ],
   "note": "Spheres: all turns. Cubes: transpositions, and flips with the centre at n - x. False for cubes flipped with their centre pixel, for regions beyond the border and for three columns."
  },
  {
   "property": "C211",
   "status": "partial",
   "theorems": [
    "Viqa.C211_rmse",
    "Viqa.C211_psnr",
    "Viqa.C211_cnr",
    "Viqa.C211_ssim_partial",
    "Viqa.C211_ssim_value",
    "Viqa.C211_ssim_refuted",
    "Viqa.C211_gsm_partial",
    "Viqa.C211_gsm_refuted"
   ],
   "note": "RMSE, PSNR and CNR: proved. SSIM: proved for equally bright windows or without luminance, false otherwise. GSM: false."
  },
  {
   "property": "C212",
   "status": "partial",
   "theorems": [
    "Viqa.C212_statistics",
    "Viqa.C212_offset",
    "Viqa.C212_extrema_partial",
    "Viqa.C212_median_partial",
    "Viqa.C212_refuted"
   ],
   "note": "Mean and standard deviation hold as stated; minimum, maximum and median only with the factor sqrt(n), which is attained (C212_refuted)."
  },
  {
   "property": "C213",
   "status": "partial",
   "theorems": [
    "Viqa.C213_rmse",
    "Viqa.C213_psnr",
    "Viqa.C213_ssim_refuted"
   ],
   "note": "RMSE and PSNR hold for chains of any length; false for SSIM, which is not a distance (C213_ssim_refuted)."
  },
  {
   "property": "C214",
   "status": "partial",
   "theorems": [
    "Viqa.C214_radius",
    "Viqa.C214_centre_partial",
    "Viqa.C214_snr_partial",
    "Viqa.C214_cnr_partial",
    "Viqa.C214_shape",
    "Viqa.C214_refuted",
    "Viqa.C214_cubic_refuted"
   ],
   "note": "np.argmax takes the first of several equal maxima, so objects (or pixels) of the same depth are chosen by their place in memory: the mirror image of an image with two objects of the same size has another SNR. So have cubes, which extend one pixel further to the left than to the right. The radius and the region types full and original do not depend on the orientation."
  },
  {
   "property": "C215",
   "status": "partial",
   "theorems": [
    "Viqa.C215_object",
    "Viqa.C215_percentiles",
    "Viqa.C215_iterations_partial",
    "Viqa.C215_iterations_refuted"
   ],
   "note": "More iterations shrink the region of an object near the border of the image, down to nothing (radius 0, with which SNR and CNR raise), because the erosion treats pixels beyond the border as background. The other two parts hold without restriction."
  },
  {
   "property": "C216",
   "status": "partial",
   "theorems": [
    "Viqa.C216_zero_refuted",
    "Viqa.C216_negative_refuted",
    "Viqa.C216_partial",
    "Viqa.C216_refuted"
   ],
   "note": "CNR with auto_center can compare a region with itself and return 0 without a warning; with iterations=0 it always does, whenever it returns a number."
  },
  {
   "property": "C217",
   "status": "partial",
   "theorems": [
    "Viqa.C217_false_partial",
    "Viqa.C217_true_partial",
    "Viqa.C217_dim_refuted",
    "Viqa.C217_slice_refuted",
    "Viqa.C217_plane_refuted"
   ],
   "note": "Code that passes experimental=False to all calls fails for 2D images and slices. With experimental=True dim must be given, but its value is neither used nor checked."
  },
  {
   "property": "C218",
   "status": "proved",
   "theorems": [
    "Viqa.C218_binary",
    "Viqa.C218_found",
    "Viqa.C218_cnr",
    "Viqa.C218_snr",
    "Viqa.C218_curve"
   ],
   "note": "Exact arithmetic: interpolated percentiles are not rounded. Saturation and quantization do not keep the order (an example shows that nothing is found after saturation)."
  },
  {
   "property": "C219",
   "status": "partial",
   "theorems": [
    "Viqa.C219_at_most",
    "Viqa.C219_exact_partial",
    "Viqa.C219_saturated_refuted"
   ],
   "note": "auto_center cannot be used for images in which the brightest material is uniform (or saturated) and fills more than a tenth of the image: the message is 'Image must be binary.', which names an internal image. Exact arithmetic."
  },
  {
   "property": "C220",
   "status": "partial",
   "theorems": [
    "Viqa.C220_even_partial",
    "Viqa.C220_one_partial",
    "Viqa.C220_corner_refuted",
    "Viqa.C220_exact_refuted"
   ],
   "note": "win_size=-3 compares only the last two pixels of every axis. The behaviour of uniform_filter of SciPy for sizes up to one and of crop of scikit-image for negative widths is an assumption about these libraries (recalled, their sources were not at hand). Exact arithmetic."
  }
 ]
}