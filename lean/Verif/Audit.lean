import Verif.Props.Arrangement
import Verif.Props.AutoContrast
import Verif.Props.AutoTurn
import Verif.Props.Average
import Verif.Props.AverageNoise
import Verif.Props.Batch
import Verif.Props.BatchHistory
import Verif.Props.BatchPackage
import Verif.Props.BitDepth
import Verif.Props.BorderRule
import Verif.Props.Borders
import Verif.Props.Build
import Verif.Props.CallKeywords
import Verif.Props.Chain
import Verif.Props.ColourRmse
import Verif.Props.ConstructorKeywords
import Verif.Props.CopyImages
import Verif.Props.CropNoise
import Verif.Props.Csf
import Verif.Props.DataRange
import Verif.Props.Dispatch
import Verif.Props.DispatchMore
import Verif.Props.Display
import Verif.Props.Distance
import Verif.Props.DistanceRounded
import Verif.Props.DistanceSlices
import Verif.Props.DistanceUnderflow
import Verif.Props.Distortion
import Verif.Props.DocExamples
import Verif.Props.Experimental
import Verif.Props.Export
import Verif.Props.FailedReport
import Verif.Props.FewPixels
import Verif.Props.FigureText
import Verif.Props.Figures
import Verif.Props.Filters
import Verif.Props.FinitePixels
import Verif.Props.Gabor
import Verif.Props.GrayOrder
import Verif.Props.Growth
import Verif.Props.Gsm
import Verif.Props.GsmAccuracy
import Verif.Props.GsmParameters
import Verif.Props.GsmRounded
import Verif.Props.GsmStability
import Verif.Props.GsmSymmetry
import Verif.Props.GsmSymmetryRounded
import Verif.Props.GsmTurned
import Verif.Props.ImageArray
import Verif.Props.Images
import Verif.Props.Imports
import Verif.Props.Infinite
import Verif.Props.IntegerOrder
import Verif.Props.Inverted
import Verif.Props.Keywords
import Verif.Props.Loading
import Verif.Props.LoadingMore
import Verif.Props.Locality
import Verif.Props.Mad
import Verif.Props.MadFull
import Verif.Props.MadMonotone
import Verif.Props.MatScript
import Verif.Props.Metric
import Verif.Props.MetricList
import Verif.Props.MhdHeader
import Verif.Props.NegativeWindow
import Verif.Props.Nifti
import Verif.Props.Noise
import Verif.Props.NoiseAccuracy
import Verif.Props.NoiseHalf
import Verif.Props.NoiseHalfCnr
import Verif.Props.NoiseLaws
import Verif.Props.NoiseMore
import Verif.Props.NoiseOrder
import Verif.Props.NoiseRounded
import Verif.Props.NoiseSession
import Verif.Props.Normalize
import Verif.Props.NormalizeNan
import Verif.Props.NormalizeRounded
import Verif.Props.NormalizeSigned
import Verif.Props.NormalizedNoise
import Verif.Props.NormalizedRanking
import Verif.Props.NormalizedSnr
import Verif.Props.NotANumber
import Verif.Props.NotANumberGsm
import Verif.Props.Notebook
import Verif.Props.OpenFiles
import Verif.Props.Orientation
import Verif.Props.PairColumns
import Verif.Props.PairFile
import Verif.Props.Paths
import Verif.Props.PixelStatistics
import Verif.Props.Printing
import Verif.Props.PsnrAccuracy
import Verif.Props.QMeasure
import Verif.Props.Ranges
import Verif.Props.Refusals
import Verif.Props.RegionLocal
import Verif.Props.RegionScores
import Verif.Props.RegionTurn
import Verif.Props.Regions
import Verif.Props.Report
import Verif.Props.ResultFile
import Verif.Props.Scripts
import Verif.Props.SliceMean
import Verif.Props.SlicesPsnr
import Verif.Props.SnrPanel
import Verif.Props.Ssim
import Verif.Props.SsimAccuracy
import Verif.Props.SsimBlind
import Verif.Props.SsimRounded
import Verif.Props.SsimWeights
import Verif.Props.Stability
import Verif.Props.StatModule
import Verif.Props.Statistics
import Verif.Props.StatisticsRmse
import Verif.Props.ThresholdShare
import Verif.Props.Unit
import Verif.Props.Uqi
import Verif.Props.UqiAccuracy
import Verif.Props.UqiRounded
import Verif.Props.Waves
import Verif.Props.Widget
import Verif.Props.Workflow

/-! Axioms of every property theorem (generated list). -/

#print axioms Viqa.C01_voxel_order
#print axioms Viqa.C01_voxel_order_raw
#print axioms Viqa.C01_voxel_order_mhd
#print axioms Viqa.C02_size_check
#print axioms Viqa.C02_every_item_used_once
#print axioms Viqa.C02_trailing_bytes_ignored
#print axioms Viqa.C02_negative_size
#print axioms Viqa.C03_raw_round_trip
#print axioms Viqa.C03_directory
#print axioms Viqa.C04_name_round_trip
#print axioms Viqa.C04_name_round_trip'
#print axioms Viqa.C04_missing_parts
#print axioms Viqa.C05_bitdepth_table
#print axioms Viqa.C05_element_type_table
#print axioms Viqa.C06_header_by_key
#print axioms Viqa.C06_order_independent
#print axioms Viqa.C06_permutation
#print axioms Viqa.C06_missing_key
#print axioms Viqa.C07_final_newline_refuted
#print axioms Viqa.C07_last_line_dropped_partial
#print axioms Viqa.C07_irrelevant_last_line_partial
#print axioms Viqa.C08_reader_by_extension
#print axioms Viqa.C08_no_extension
#print axioms Viqa.C08_only_error
#print axioms Viqa.C08_other_extension
#print axioms Viqa.C09_batch
#print axioms Viqa.C09_missing_range
#print axioms Viqa.C09_input_type
#print axioms Viqa.C09_dimensions
#print axioms Viqa.C09_warning
#print axioms Viqa.C09_success
#print axioms Viqa.C09_range_zero
#print axioms Viqa.C10_identity
#print axioms Viqa.C10_normalized_full_image
#print axioms Viqa.C11_linear_map_partial
#print axioms Viqa.C11_range_and_order_partial
#print axioms Viqa.C11_brightness_invariance_partial
#print axioms Viqa.C11_constant_image
#print axioms Viqa.C11_half_overflow
#print axioms Viqa.C11_half_refuted
#print axioms Viqa.C12_range_255_partial
#print axioms Viqa.C12_range_1_partial
#print axioms Viqa.C12_range_1_result_partial
#print axioms Viqa.C12_range_65535_destroys
#print axioms Viqa.C12_refuted
#print axioms Viqa.C12_unit_rounded
#print axioms Viqa.C13_actual_formula
#print axioms Viqa.C13_documented_formula_partial
#print axioms Viqa.C13_brightest_pixel
#print axioms Viqa.C13_refuted
#print axioms Viqa.C13_8bit_unchanged
#print axioms Viqa.C13_signed_partial
#print axioms Viqa.C13_signed_wraps
#print axioms Viqa.C13_signed_refuted
#print axioms Viqa.C14_data_type
#print axioms Viqa.C14_output_range
#print axioms Viqa.C14_input_range
#print axioms Viqa.C14_result_type
#print axioms Viqa.C15_crop_2d
#print axioms Viqa.C15_crop_3d
#print axioms Viqa.C15_crop_2d_depth
#print axioms Viqa.C16_inside_exact_or_raises_partial
#print axioms Viqa.C16_clipped
#print axioms Viqa.C16_full_size_ignores_offset
#print axioms Viqa.C16_refuted
#print axioms Viqa.C17_accepted_iff
#print axioms Viqa.C17_refuted
#print axioms Viqa.C17_colour_never
#print axioms Viqa.C17_smaller_accepted_partial
#print axioms Viqa.C18_pair
#print axioms Viqa.C18_mismatch
#print axioms Viqa.C18_accepted
#print axioms Viqa.C18_lists_raise
#print axioms Viqa.C19_values_unchanged_partial
#print axioms Viqa.C19_refuted
#print axioms Viqa.C20_between
#print axioms Viqa.C20_gray_partial
#print axioms Viqa.C20_monotone_and_clipped
#print axioms Viqa.C20_refuted
#print axioms Viqa.C21_after_calculate
#print axioms Viqa.C21_histogram_refuted
#print axioms Viqa.C21_stale_refuted
#print axioms Viqa.C21_derived_valid_iff
#print axioms Viqa.C21_valid_partial
#print axioms Viqa.C21_arith_unset
#print axioms Viqa.C21_describe_after_calculate
#print axioms Viqa.C22_resize
#print axioms Viqa.C23_constructor_fails_iff
#print axioms Viqa.C23_parameters
#print axioms Viqa.C24_agree
#print axioms Viqa.C24_trichotomy
#print axioms Viqa.C24_transitive
#print axioms Viqa.C24_unscored
#print axioms Viqa.C25_last_score
#print axioms Viqa.C25_returned_is_stored
#print axioms Viqa.C26_one_export
#print axioms Viqa.C26_repeatable_partial
#print axioms Viqa.C26_second_export
#print axioms Viqa.C26_refuted
#print axioms Viqa.C26_repeatable_iff
#print axioms Viqa.C26_file_name
#print axioms Viqa.C27_weighted_sum
#print axioms Viqa.C27_length_mismatch
#print axioms Viqa.C27_linear
#print axioms Viqa.C27_reordering
#print axioms Viqa.C27_unscored
#print axioms Viqa.C28_nonneg
#print axioms Viqa.C28_zero_iff
#print axioms Viqa.C28_symm
#print axioms Viqa.C28_triangle
#print axioms Viqa.C28_affine
#print axioms Viqa.C28_shape_mismatch
#print axioms Viqa.C28_one_pixel
#print axioms Viqa.C29_data_range
#print axioms Viqa.C29_infinite_iff
#print axioms Viqa.C29_formula
#print axioms Viqa.C29_zero_range
#print axioms Viqa.C29_symm
#print axioms Viqa.C29_decreasing
#print axioms Viqa.C29_scale
#print axioms Viqa.C30_self
#print axioms Viqa.C30_self_defined
#print axioms Viqa.C30_symm
#print axioms Viqa.C31_bounded
#print axioms Viqa.C32_value_error_iff
#print axioms Viqa.C32_positions
#print axioms Viqa.C32_score_exists
#print axioms Viqa.C32_window_one
#print axioms Viqa.C33_actual
#print axioms Viqa.C33_identical_partial
#print axioms Viqa.C33_refuted
#print axioms Viqa.C34_slice_partial
#print axioms Viqa.C34_slice_out_of_range
#print axioms Viqa.C34_invalid_dim
#print axioms Viqa.C34_missing_arguments
#print axioms Viqa.C34_plane_ignores
#print axioms Viqa.C34_three_slices
#print axioms Viqa.C34_refuted
#print axioms Viqa.C35_mean_over_slices_partial
#print axioms Viqa.C35_invalid_dim_partial
#print axioms Viqa.C35_piq_last_axis
#print axioms Viqa.C35_last_axis_partial
#print axioms Viqa.C35_refuted
#print axioms Viqa.C36_identical_iff
#print axioms Viqa.C36_flat
#print axioms Viqa.C36_image_or_negative_partial
#print axioms Viqa.C36_refuted
#print axioms Viqa.C37_float_partial
#print axioms Viqa.C37_unsigned_actual
#print axioms Viqa.C37_refuted
#print axioms Viqa.C38_brightness
#print axioms Viqa.C38_constant
#print axioms Viqa.C38_not_trivial
#print axioms Viqa.C39_between
#print axioms Viqa.C39_agree
#print axioms Viqa.C39_alpha_antitone
#print axioms Viqa.C39_zero
#print axioms Viqa.C39_whole
#print axioms Viqa.C40_partial
#print axioms Viqa.C40_index_error
#print axioms Viqa.C40_misplaced
#print axioms Viqa.C40_refuted
#print axioms Viqa.C41_bounds_iff
#print axioms Viqa.C41_partial
#print axioms Viqa.C41_wide
#print axioms Viqa.C41_refuted
#print axioms Viqa.C41_minstd_partial
#print axioms Viqa.C42_square
#print axioms Viqa.C42_partial
#print axioms Viqa.C42_tall
#print axioms Viqa.C42_refuted
#print axioms Viqa.C43_minstd
#print axioms Viqa.C43_first_partial
#print axioms Viqa.C43_refuted
#print axioms Viqa.C44_contiguous_partial
#print axioms Viqa.C44_real_view
#print axioms Viqa.C44_refuted
#print axioms Viqa.C44_half_zero
#print axioms Viqa.C45_accepted_iff
#print axioms Viqa.C45_stride
#print axioms Viqa.C46_interference
#print axioms Viqa.C46_refuted
#print axioms Viqa.C46_same_partial
#print axioms Viqa.C46_sequential_partial
#print axioms Viqa.C47_blocks
#print axioms Viqa.C47_order
#print axioms Viqa.C47_count
#print axioms Viqa.C48_table
#print axioms Viqa.C48_too_large
#print axioms Viqa.C48_negative
#print axioms Viqa.C49_round_trip
#print axioms Viqa.C49_centre
#print axioms Viqa.C49_zero_gain
#print axioms Viqa.C49_even_partial
#print axioms Viqa.C49_odd
#print axioms Viqa.C49_odd_removed
#print axioms Viqa.C49_refuted
#print axioms Viqa.C49_csf
#print axioms Viqa.C50_partial
#print axioms Viqa.C50_array
#print axioms Viqa.C50_refuted
#print axioms Viqa.C50_weights_sum
#print axioms Viqa.C51_convolve
#print axioms Viqa.C51_shift_partial
#print axioms Viqa.C51_not_own_pixel
#print axioms Viqa.C51_refuted
#print axioms Viqa.C51_errors
#print axioms Viqa.C52_cubic
#print axioms Viqa.C52_spherical
#print axioms Viqa.C52_count
#print axioms Viqa.C53_check_iff
#print axioms Viqa.C53_lower_partial
#print axioms Viqa.C53_refuted
#print axioms Viqa.C53_negative
#print axioms Viqa.C54_affine
#print axioms Viqa.C54_invert
#print axioms Viqa.C54_local
#print axioms Viqa.C54_zero
#print axioms Viqa.C54_value
#print axioms Viqa.C55_scale
#print axioms Viqa.C55_region
#print axioms Viqa.C56_partial
#print axioms Viqa.C56_refuted
#print axioms Viqa.C56_history
#print axioms Viqa.C57_cnr_refuted
#print axioms Viqa.C57_snr_refuted
#print axioms Viqa.C57_partial
#print axioms Viqa.C58_valid
#print axioms Viqa.C58_empty
#print axioms Viqa.C59_partial
#print axioms Viqa.C59_refuted
#print axioms Viqa.C60_single_partial
#print axioms Viqa.C60_two_refuted
#print axioms Viqa.C60_radius_refuted
#print axioms Viqa.C60_snr_2d_refuted
#print axioms Viqa.C61_created_iff
#print axioms Viqa.C62_complete
#print axioms Viqa.C63_individual_partial
#print axioms Viqa.C63_package_partial
#print axioms Viqa.C63_region_refuted
#print axioms Viqa.C63_reference_region_refuted
#print axioms Viqa.C63_shape_refuted
#print axioms Viqa.C64_loads
#print axioms Viqa.C65_rows
#print axioms Viqa.C65_nothing_calculated
#print axioms Viqa.C66_own_entries_partial
#print axioms Viqa.C66_snr_refuted
#print axioms Viqa.C66_same_name_refuted
#print axioms Viqa.C66_colour_refuted
#print axioms Viqa.C67_shown_iff
#print axioms Viqa.C67_value_error_partial
#print axioms Viqa.C67_refuted
#print axioms Viqa.C68_slice_partial
#print axioms Viqa.C68_refused_partial
#print axioms Viqa.C68_equal_refuted
#print axioms Viqa.C68_three_slices_refuted
#print axioms Viqa.C68_layout
#print axioms Viqa.C69_c_order_partial
#print axioms Viqa.C69_f_order_partial
#print axioms Viqa.C69_layout_refuted
#print axioms Viqa.C69_double_refuted
#print axioms Viqa.C69_view_refuted
#print axioms Viqa.C69_volumes_only
#print axioms Viqa.C70_crop
#print axioms Viqa.C70_script
#print axioms Viqa.C70_script_partial
#print axioms Viqa.C70_refuted
#print axioms Viqa.C70_scrambled_refuted
#print axioms Viqa.C70_factor_one
#print axioms Viqa.C71_size
#print axioms Viqa.C71_reduced
#print axioms Viqa.C71_negative_refuted
#print axioms Viqa.C71_refused
#print axioms Viqa.C72_transposed_refuted
#print axioms Viqa.C72_same_iff_partial
#print axioms Viqa.C72_depth_refuted
#print axioms Viqa.C72_no_files
#print axioms Viqa.C73_pairs_partial
#print axioms Viqa.C73_refuted
#print axioms Viqa.C73_file_partial
#print axioms Viqa.C74_round_trip_partial
#print axioms Viqa.C74_refuted
#print axioms Viqa.C74_quotes_refuted
#print axioms Viqa.C74_comma_refuted
#print axioms Viqa.C75_one_iff_identical
#print axioms Viqa.C76_modes_partial
#print axioms Viqa.C76_refuted
#print axioms Viqa.C76_accepted_iff
#print axioms Viqa.C77_filter_partial
#print axioms Viqa.C77_refuted
#print axioms Viqa.C78_weights_required
#print axioms Viqa.C78_weighted_mean
#print axioms Viqa.C78_identical
#print axioms Viqa.C78_wrong_number
#print axioms Viqa.C79_colour_partial
#print axioms Viqa.C79_refuted
#print axioms Viqa.C79_gsm_mad_need_dim
#print axioms Viqa.C80_warning_iff
#print axioms Viqa.C80_nonzero_partial
#print axioms Viqa.C80_refuted
#print axioms Viqa.C81_refuted
#print axioms Viqa.C81_turned_partial
#print axioms Viqa.C82_directions_partial
#print axioms Viqa.C82_actual
#print axioms Viqa.C82_refuted
#print axioms Viqa.C83_upper_bound
#print axioms Viqa.C84_identical_partial
#print axioms Viqa.C84_small_image
#print axioms Viqa.C84_refuted
#print axioms Viqa.C84_whole_partial
#print axioms Viqa.C85_partial
#print axioms Viqa.C85_one_threshold
#print axioms Viqa.C85_two_thresholds
#print axioms Viqa.C85_refuted
#print axioms Viqa.C85_zero_threshold
#print axioms Viqa.C85_documented
#print axioms Viqa.C86_block_size_one
#print axioms Viqa.C86_refuted
#print axioms Viqa.C86_partial
#print axioms Viqa.C86_unbiased
#print axioms Viqa.C87_mask
#print axioms Viqa.C87_no_error
#print axioms Viqa.C87_monotone
#print axioms Viqa.C88_minstd
#print axioms Viqa.C88_getstatistics
#print axioms Viqa.C88_leak
#print axioms Viqa.C88_refuted
#print axioms Viqa.C89_refuted
#print axioms Viqa.C90_partial
#print axioms Viqa.C90_refuted
#print axioms Viqa.C90_refuted_sample
#print axioms Viqa.C91_partial
#print axioms Viqa.C91_refuted
#print axioms Viqa.C91_radius_needed
#print axioms Viqa.C92_refuted
#print axioms Viqa.C92_partial
#print axioms Viqa.C93_refuted
#print axioms Viqa.C93_partial
#print axioms Viqa.C94_whole
#print axioms Viqa.C94_succeeds
#print axioms Viqa.C95_region_found_partial
#print axioms Viqa.C95_empty_refuted
#print axioms Viqa.C96_region_2d_partial
#print axioms Viqa.C96_region_3d_partial
#print axioms Viqa.C96_normalized_refuted
#print axioms Viqa.C96_three_columns_refuted
#print axioms Viqa.C97_readable_partial
#print axioms Viqa.C97_own_parameters
#print axioms Viqa.C97_refuted
#print axioms Viqa.C98_views
#print axioms Viqa.C99_lines_partial
#print axioms Viqa.C99_refuted
#print axioms Viqa.C100_volume_partial
#print axioms Viqa.C100_plane_refuted
#print axioms Viqa.C100_mirrored_refuted
#print axioms Viqa.C100_diagonal_partial
#print axioms Viqa.C101_alike_iff_partial
#print axioms Viqa.C101_refuted
#print axioms Viqa.C102_refuted
#print axioms Viqa.C102_shown_partial
#print axioms Viqa.C102_plane_partial
#print axioms Viqa.C103_covers_iff_partial
#print axioms Viqa.C103_integers_partial
#print axioms Viqa.C103_refuted
#print axioms Viqa.C103_overflow_refuted
#print axioms Viqa.C104_refuted
#print axioms Viqa.C104_written_partial
#print axioms Viqa.C105_optional_refuted
#print axioms Viqa.C105_existing_refuted
#print axioms Viqa.C105_written_partial
#print axioms Viqa.C106_refuted
#print axioms Viqa.C106_stored_partial
#print axioms Viqa.C107_inside_partial
#print axioms Viqa.C107_radius_refuted
#print axioms Viqa.C107_start_refuted
#print axioms Viqa.C108_scored_partial
#print axioms Viqa.C108_unscored_partial
#print axioms Viqa.C108_unscored_refuted
#print axioms Viqa.C108_exported_refuted
#print axioms Viqa.C109_names_iff_partial
#print axioms Viqa.C109_refuted
#print axioms Viqa.C110_distinct
#print axioms Viqa.C110_extension
#print axioms Viqa.C111_empty_directory
#print axioms Viqa.C111_batch_partial
#print axioms Viqa.C111_none_refuted
#print axioms Viqa.C111_before_refuted
#print axioms Viqa.C111_multiple_partial
#print axioms Viqa.C111_multiple_refuted
#print axioms Viqa.C112_shown_scored_partial
#print axioms Viqa.C112_refuted
#print axioms Viqa.C112_multiple_refuted
#print axioms Viqa.C113_saved_iff_partial
#print axioms Viqa.C113_refuted
#print axioms Viqa.C113_export_partial
#print axioms Viqa.C114_refuted
#print axioms Viqa.C114_shown_again_refuted
#print axioms Viqa.C114_closed_partial
#print axioms Viqa.C114_visualize_refuted
#print axioms Viqa.C115_volume_partial
#print axioms Viqa.C115_plane_partial
#print axioms Viqa.C115_category_refuted
#print axioms Viqa.C115_colour_refuted
#print axioms Viqa.C115_dimensions
#print axioms Viqa.C116_found_iff
#print axioms Viqa.C116_missing_partial
#print axioms Viqa.C116_name_refuted
#print axioms Viqa.C116_interactive_partial
#print axioms Viqa.C117_refuted
#print axioms Viqa.C117_shown_partial
#print axioms Viqa.C118_mean_sum_partial
#print axioms Viqa.C118_refuted
#print axioms Viqa.C118_plane_partial
#print axioms Viqa.C119_dim_message_iff_partial
#print axioms Viqa.C119_refuted
#print axioms Viqa.C119_slice_message
#print axioms Viqa.C120_mirror
#print axioms Viqa.C120_transpose_partial
#print axioms Viqa.C120_positive
#print axioms Viqa.C120_falls
#print axioms Viqa.C120_low
#print axioms Viqa.C120_row_frequency
#print axioms Viqa.C120_refuted
#print axioms Viqa.C120_wave
#print axioms Viqa.C121_all_partial
#print axioms Viqa.C121_first_failure
#print axioms Viqa.C121_only
#print axioms Viqa.C121_constant
#print axioms Viqa.C121_refuted
#print axioms Viqa.C121_arguments
#print axioms Viqa.C122_float
#print axioms Viqa.C122_small_partial
#print axioms Viqa.C122_32bit
#print axioms Viqa.C122_64bit
#print axioms Viqa.C122_refuted
#print axioms Viqa.C123_written_iff
#print axioms Viqa.C123_returned
#print axioms Viqa.C123_round_trip
#print axioms Viqa.C123_path
#print axioms Viqa.C123_after_calculate
#print axioms Viqa.C123_refuted
#print axioms Viqa.C124_radius
#print axioms Viqa.C124_volume_partial
#print axioms Viqa.C124_plane_partial
#print axioms Viqa.C124_signal_refuted
#print axioms Viqa.C124_after_full_refuted
#print axioms Viqa.C124_mirrored_refuted
#print axioms Viqa.C124_no_type
#print axioms Viqa.C125_radius
#print axioms Viqa.C125_arguments
#print axioms Viqa.C125_calculated
#print axioms Viqa.C125_reopened_partial
#print axioms Viqa.C125_refuted
#print axioms Viqa.C125_thresholds_refuted
#print axioms Viqa.C125_other_region_refuted
#print axioms Viqa.C126_refuted
#print axioms Viqa.C126_shown_partial
#print axioms Viqa.C127_ssim
#print axioms Viqa.C127_uqi
#print axioms Viqa.C127_rmse
#print axioms Viqa.C127_psnr
#print axioms Viqa.C127_rotated
#print axioms Viqa.C127_both
#print axioms Viqa.C127_colour
#print axioms Viqa.C128_ssim
#print axioms Viqa.C128_uqi
#print axioms Viqa.C128_rmse
#print axioms Viqa.C128_psnr
#print axioms Viqa.C128_gsm
#print axioms Viqa.C128_gsm_constant
#print axioms Viqa.C129_partial
#print axioms Viqa.C129_refuted
#print axioms Viqa.C129_unsigned_refuted
#print axioms Viqa.C129_rounded_partial
#print axioms Viqa.C130_band
#print axioms Viqa.C130_brightness
#print axioms Viqa.C130_brightened
#print axioms Viqa.C130_symmetric
#print axioms Viqa.C130_weights
#print axioms Viqa.C130_refused
#print axioms Viqa.C130_pixel
#print axioms Viqa.C130_sees
#print axioms Viqa.C130_scale
#print axioms Viqa.C131_gain
#print axioms Viqa.C131_tuned_partial
#print axioms Viqa.C131_refuted
#print axioms Viqa.C131_wave
#print axioms Viqa.C132_shift
#print axioms Viqa.C133_luminance_partial
#print axioms Viqa.C133_defaults
#print axioms Viqa.C133_csf
#print axioms Viqa.C133_refuted
#print axioms Viqa.C133_monitor
#print axioms Viqa.C133_display
#print axioms Viqa.C134_floats
#print axioms Viqa.C134_ints
#print axioms Viqa.C134_same_values
#print axioms Viqa.C134_too_large
#print axioms Viqa.C135_result
#print axioms Viqa.C135_half_overflow
#print axioms Viqa.C135_range_and_order
#print axioms Viqa.C135_near
#print axioms Viqa.C135_bright_unit
#print axioms Viqa.C135_bright_partial
#print axioms Viqa.C135_refuted
#print axioms Viqa.C135_integers_refuted
#print axioms Viqa.C135_half_refuted
#print axioms Viqa.C136_integers
#print axioms Viqa.C137_mean
#print axioms Viqa.C137_flat_partial
#print axioms Viqa.C137_actual
#print axioms Viqa.C137_refuted
#print axioms Viqa.C138_local
#print axioms Viqa.C138_identical
#print axioms Viqa.C138_symmetric
#print axioms Viqa.C139_local_partial
#print axioms Viqa.C139_bounded_partial
#print axioms Viqa.C139_actual
#print axioms Viqa.C139_refuted
#print axioms Viqa.C140_rules
#print axioms Viqa.C140_names_partial
#print axioms Viqa.C140_exchanged
#print axioms Viqa.C140_refuted
#print axioms Viqa.C141_mean
#print axioms Viqa.C141_variance
#print axioms Viqa.C141_snr
#print axioms Viqa.C141_snr_digits
#print axioms Viqa.C141_cnr_digits
#print axioms Viqa.C142_returned_partial
#print axioms Viqa.C142_interrupted
#print axioms Viqa.C142_multiple
#print axioms Viqa.C142_refuted
#print axioms Viqa.C143_multiple
#print axioms Viqa.C143_shared
#print axioms Viqa.C143_repeated_partial
#print axioms Viqa.C143_refuted
#print axioms Viqa.C144_identical
#print axioms Viqa.C144_symmetric
#print axioms Viqa.C144_only_identical_partial
#print axioms Viqa.C144_refuted
#print axioms Viqa.C144_single_zero_iff
#print axioms Viqa.C144_double_zero_iff
#print axioms Viqa.C145_closer
#print axioms Viqa.C145_ranking
#print axioms Viqa.C146_rmse
#print axioms Viqa.C146_digits
#print axioms Viqa.C147_identical
#print axioms Viqa.C147_sharp
#print axioms Viqa.C148_upper_bound
#print axioms Viqa.C149_images
#print axioms Viqa.C149_pairs_partial
#print axioms Viqa.C149_refuted
#print axioms Viqa.C150_psnr_sign
#print axioms Viqa.C150_psnr_partial
#print axioms Viqa.C150_psnr_refuted
#print axioms Viqa.C150_gsm_partial
#print axioms Viqa.C150_gsm_refuted
#print axioms Viqa.C150_cnr_sign
#print axioms Viqa.C150_cnr_refuted
#print axioms Viqa.C150_snr_partial
#print axioms Viqa.C150_snr_refuted
#print axioms Viqa.C151_snr_partial
#print axioms Viqa.C151_snr_refuted
#print axioms Viqa.C151_cnr_partial
#print axioms Viqa.C151_cnr_refuted
#print axioms Viqa.C152_slices
#print axioms Viqa.C152_between
#print axioms Viqa.C153_overflow
#print axioms Viqa.C153_cnr_overflow
#print axioms Viqa.C153_refuted
#print axioms Viqa.C153_snr_partial
#print axioms Viqa.C153_cnr_partial
#print axioms Viqa.C154_ssim
#print axioms Viqa.C154_rmse
#print axioms Viqa.C154_psnr
#print axioms Viqa.C154_psnr_identical
#print axioms Viqa.C154_snr_partial
#print axioms Viqa.C154_cnr_partial
#print axioms Viqa.C154_refuted
#print axioms Viqa.C155_round_trip
#print axioms Viqa.C155_distinct
#print axioms Viqa.C155_export
#print axioms Viqa.C155_multiple
#print axioms Viqa.C155_describe
#print axioms Viqa.C155_batch
#print axioms Viqa.C155_pairs_partial
#print axioms Viqa.C155_pairs_refuted
#print axioms Viqa.C156_blanks_partial
#print axioms Viqa.C156_header_refuted
#print axioms Viqa.C157_columns_partial
#print axioms Viqa.C157_delimiter_refuted
#print axioms Viqa.C158_median
#print axioms Viqa.C158_bounds
#print axioms Viqa.C158_variance
#print axioms Viqa.C158_mean_median
#print axioms Viqa.C158_kurtosis
#print axioms Viqa.C158_order
#print axioms Viqa.C158_gain
#print axioms Viqa.C158_inverted
#print axioms Viqa.C158_defined_partial
#print axioms Viqa.C158_offset_refuted
#print axioms Viqa.C159_bin
#print axioms Viqa.C159_total
#print axioms Viqa.C159_levels_partial
#print axioms Viqa.C159_levels_refuted
#print axioms Viqa.C160_local
#print axioms Viqa.C160_changed
#print axioms Viqa.C160_uqi
#print axioms Viqa.C161_gain
#print axioms Viqa.C161_brightness
#print axioms Viqa.C161_rmse
#print axioms Viqa.C161_psnr
#print axioms Viqa.C161_gsm
#print axioms Viqa.C161_ssim_refuted
#print axioms Viqa.C162_loaded_first
#print axioms Viqa.C162_functions
#print axioms Viqa.C162_loaded_again_partial
#print axioms Viqa.C162_normalized_again_refuted
#print axioms Viqa.C162_crop_first_partial
#print axioms Viqa.C162_crop_first_refuted
#print axioms Viqa.C163_voxels
#print axioms Viqa.C163_double
#print axioms Viqa.C163_scaled
#print axioms Viqa.C163_byte_order
#print axioms Viqa.C163_compare_refuted
#print axioms Viqa.C163_normalize_refuted
#print axioms Viqa.C163_time_refuted
#print axioms Viqa.C164_plain_partial
#print axioms Viqa.C164_header_size_partial
#print axioms Viqa.C164_byte_order_refuted
#print axioms Viqa.C164_short_header_refuted
#print axioms Viqa.C165_same
#print axioms Viqa.C165_single_quotes_refuted
#print axioms Viqa.C165_no_blanks_refuted
#print axioms Viqa.C165_missing
#print axioms Viqa.C166_contents
#print axioms Viqa.C166_files_partial
#print axioms Viqa.C166_default_refuted
#print axioms Viqa.C167_partial
#print axioms Viqa.C167_refuted
#print axioms Viqa.C167_tie_refuted
#print axioms Viqa.C168_mean
#print axioms Viqa.C168_smallest
#print axioms Viqa.C168_infinite
#print axioms Viqa.C169_appearance
#print axioms Viqa.C169_detection_partial
#print axioms Viqa.C169_refuted
#print axioms Viqa.C170_partial
#print axioms Viqa.C170_data_range_refuted
#print axioms Viqa.C170_unknown_partial
#print axioms Viqa.C170_misspelled_refuted
#print axioms Viqa.C170_region_refuted
#print axioms Viqa.C171_rmse
#print axioms Viqa.C171_psnr
#print axioms Viqa.C171_ssim_partial
#print axioms Viqa.C171_refuted
#print axioms Viqa.C172_keywords_partial
#print axioms Viqa.C172_results_partial
#print axioms Viqa.C172_snr_refuted
#print axioms Viqa.C172_ssim_refuted
#print axioms Viqa.C172_plane_refuted
#print axioms Viqa.C172_shapes_refuted
#print axioms Viqa.C173_all
#print axioms Viqa.C173_distinct
#print axioms Viqa.C173_inside
#print axioms Viqa.C173_package
#print axioms Viqa.C174_documented_partial
#print axioms Viqa.C174_unknown_partial
#print axioms Viqa.C174_internal_refuted
#print axioms Viqa.C174_no_pairs_refuted
#print axioms Viqa.C174_report_partial
#print axioms Viqa.C174_batch_report_refuted
#print axioms Viqa.C175_between
#print axioms Viqa.C175_one_slice
#print axioms Viqa.C176_cnr
#print axioms Viqa.C176_snr
#print axioms Viqa.C177_rmse
#print axioms Viqa.C177_psnr
#print axioms Viqa.C178_partial
#print axioms Viqa.C178_full
#print axioms Viqa.C178_region_refuted
#print axioms Viqa.C178_parts_refuted
#print axioms Viqa.C179_partial
#print axioms Viqa.C179_dropped_refuted
#print axioms Viqa.C179_unknown_refuted
#print axioms Viqa.C180_luminance_partial
#print axioms Viqa.C180_contrast_partial
#print axioms Viqa.C180_structure_partial
#print axioms Viqa.C180_mean_partial
#print axioms Viqa.C180_order_partial
#print axioms Viqa.C180_refuted
#print axioms Viqa.C181_zero
#print axioms Viqa.C181_weight
#print axioms Viqa.C181_masking
#print axioms Viqa.C181_masking_p
#print axioms Viqa.C182_rmse
#print axioms Viqa.C182_psnr
#print axioms Viqa.C183_ssim_partial
#print axioms Viqa.C183_ssim_range_partial
#print axioms Viqa.C183_psnr
#print axioms Viqa.C183_gsm_partial
#print axioms Viqa.C183_ssim_refuted
#print axioms Viqa.C183_gsm_refuted
#print axioms Viqa.C184_partial
#print axioms Viqa.C184_refuted
#print axioms Viqa.C184_unsigned_partial
#print axioms Viqa.C185_rmse_partial
#print axioms Viqa.C185_psnr_partial
#print axioms Viqa.C185_rmse_numbers
#print axioms Viqa.C185_psnr_numbers
#print axioms Viqa.C185_snr_partial
#print axioms Viqa.C185_snr_numbers
#print axioms Viqa.C185_cnr_partial
#print axioms Viqa.C185_cnr_refuted
#print axioms Viqa.C185_cnr_numbers
#print axioms Viqa.C185_ssim_refuted
#print axioms Viqa.C185_ssim_first_refuted
#print axioms Viqa.C185_ssim_numbers
#print axioms Viqa.C185_ssim_raises_refuted
#print axioms Viqa.C185_gradient
#print axioms Viqa.C185_gsm_partial
#print axioms Viqa.C185_gsm_numbers
#print axioms Viqa.C185_gsm_refuted
#print axioms Viqa.C186_partial
#print axioms Viqa.C186_only
#print axioms Viqa.C186_same_name_refuted
#print axioms Viqa.C186_stale_refuted
#print axioms Viqa.C187_partial
#print axioms Viqa.C187_refuted
#print axioms Viqa.C188_rmse
#print axioms Viqa.C188_psnr
#print axioms Viqa.C188_uncorrelated
#print axioms Viqa.C188_gain
#print axioms Viqa.C188_ssim_refuted
#print axioms Viqa.C189_snr_partial
#print axioms Viqa.C189_gain_partial
#print axioms Viqa.C189_snr_refuted
#print axioms Viqa.C189_cnr_partial
#print axioms Viqa.C189_cnr_gain_partial
#print axioms Viqa.C190_snr_noise
#print axioms Viqa.C190_snr_brightness
#print axioms Viqa.C190_cnr_noise
#print axioms Viqa.C190_cnr_contrast
#print axioms Viqa.C190_snr_added
#print axioms Viqa.C191_partial
#print axioms Viqa.C191_unsigned_partial
#print axioms Viqa.C191_lost
#print axioms Viqa.C191_refuted
#print axioms Viqa.C192_values
#print axioms Viqa.C192_print_partial
#print axioms Viqa.C192_prints
#print axioms Viqa.C192_agree_partial
#print axioms Viqa.C192_refuted
#print axioms Viqa.C192_half_refuted
#print axioms Viqa.C192_negative
#print axioms Viqa.C193_psnr
#print axioms Viqa.C194_local_partial
#print axioms Viqa.C194_mean_partial
#print axioms Viqa.C194_actual
#print axioms Viqa.C194_exact
#print axioms Viqa.C194_refuted
#print axioms Viqa.C195_snr_finite
#print axioms Viqa.C195_cnr_finite
#print axioms Viqa.C195_rmse_finite
#print axioms Viqa.C195_psnr_finite
#print axioms Viqa.C195_rmse_partial
#print axioms Viqa.C195_psnr_partial
#print axioms Viqa.C195_identical_refuted
#print axioms Viqa.C195_snr_partial
#print axioms Viqa.C195_cnr_partial
#print axioms Viqa.C195_cnr_refuted
#print axioms Viqa.C195_ssim_partial
#print axioms Viqa.C195_ssim_refuted
#print axioms Viqa.C195_normalize_refuted
#print axioms Viqa.C195_normalize_partial
#print axioms Viqa.C195_normalized_refuted
#print axioms Viqa.C196_batch_partial
#print axioms Viqa.C196_calculated_partial
#print axioms Viqa.C196_multiple_partial
#print axioms Viqa.C196_others_partial
#print axioms Viqa.C196_refuted
#print axioms Viqa.C197_raw_partial
#print axioms Viqa.C197_pairs_partial
#print axioms Viqa.C197_export_partial
#print axioms Viqa.C197_mhd_partial
#print axioms Viqa.C197_mhd_refuted
#print axioms Viqa.C197_many_refuted
#print axioms Viqa.C198_rmse_partial
#print axioms Viqa.C198_psnr_partial
#print axioms Viqa.C198_exact_partial
#print axioms Viqa.C198_order_refuted
#print axioms Viqa.C198_type_refuted
#print axioms Viqa.C199_partial
#print axioms Viqa.C199_actual
#print axioms Viqa.C199_refuted
#print axioms Viqa.C200_lists_partial
#print axioms Viqa.C200_false_member
#print axioms Viqa.C200_index
#print axioms Viqa.C200_lists_refuted
#print axioms Viqa.C200_hash_refuted
#print axioms Viqa.C200_sorted
#print axioms Viqa.C200_sorted_unset
#print axioms Viqa.C200_max
#print axioms Viqa.C201_pixel
#print axioms Viqa.C201_score
#print axioms Viqa.C201_choice
#print axioms Viqa.C202_local_partial
#print axioms Viqa.C202_bounded_partial
#print axioms Viqa.C202_identical
#print axioms Viqa.C202_actual
#print axioms Viqa.C202_refuted
#print axioms Viqa.C202_volume
#print axioms Viqa.C202_volume_refuted
#print axioms Viqa.C203_local_partial
#print axioms Viqa.C203_mean_partial
#print axioms Viqa.C203_refuted
#print axioms Viqa.C204_exact_partial
#print axioms Viqa.C204_mean
#print axioms Viqa.C204_snr_partial
#print axioms Viqa.C204_cnr_partial
#print axioms Viqa.C204_close
#print axioms Viqa.C204_refuted
#print axioms Viqa.C205_rmse
#print axioms Viqa.C205_ranking_partial
#print axioms Viqa.C205_same_range_partial
#print axioms Viqa.C205_psnr_ssim_partial
#print axioms Viqa.C205_refuted
#print axioms Viqa.C206_formula
#print axioms Viqa.C206_dark_partial
#print axioms Viqa.C206_lower
#print axioms Viqa.C206_elsewhere
#print axioms Viqa.C206_refuted
#print axioms Viqa.C207_bound
#print axioms Viqa.C207_gray_partial
#print axioms Viqa.C207_psnr
#print axioms Viqa.C207_same_gray
#print axioms Viqa.C207_clipped
#print axioms Viqa.C207_refuted
#print axioms Viqa.C208_border_partial
#print axioms Viqa.C208_refuted
#print axioms Viqa.C209_rmse
#print axioms Viqa.C209_psnr
#print axioms Viqa.C209_ssim
#print axioms Viqa.C210_snr_partial
#print axioms Viqa.C210_cnr_partial
#print axioms Viqa.C210_rotated_partial
#print axioms Viqa.C210_cubic_refuted
#print axioms Viqa.C210_border_refuted
#print axioms Viqa.C210_narrow_refuted
#print axioms Viqa.C211_rmse
#print axioms Viqa.C211_psnr
#print axioms Viqa.C211_cnr
#print axioms Viqa.C211_ssim_partial
#print axioms Viqa.C211_ssim_value
#print axioms Viqa.C211_ssim_refuted
#print axioms Viqa.C211_gsm_partial
#print axioms Viqa.C211_gsm_refuted
#print axioms Viqa.C212_statistics
#print axioms Viqa.C212_offset
#print axioms Viqa.C212_extrema_partial
#print axioms Viqa.C212_median_partial
#print axioms Viqa.C212_refuted
#print axioms Viqa.C213_rmse
#print axioms Viqa.C213_psnr
#print axioms Viqa.C213_ssim_refuted
#print axioms Viqa.C214_radius
#print axioms Viqa.C214_centre_partial
#print axioms Viqa.C214_snr_partial
#print axioms Viqa.C214_cnr_partial
#print axioms Viqa.C214_shape
#print axioms Viqa.C214_refuted
#print axioms Viqa.C214_cubic_refuted
#print axioms Viqa.C215_object
#print axioms Viqa.C215_percentiles
#print axioms Viqa.C215_iterations_partial
#print axioms Viqa.C215_iterations_refuted
#print axioms Viqa.C216_zero_refuted
#print axioms Viqa.C216_negative_refuted
#print axioms Viqa.C216_partial
#print axioms Viqa.C216_refuted
#print axioms Viqa.C217_false_partial
#print axioms Viqa.C217_true_partial
#print axioms Viqa.C217_dim_refuted
#print axioms Viqa.C217_slice_refuted
#print axioms Viqa.C217_plane_refuted
#print axioms Viqa.C218_binary
#print axioms Viqa.C218_found
#print axioms Viqa.C218_cnr
#print axioms Viqa.C218_snr
#print axioms Viqa.C218_curve
#print axioms Viqa.C219_at_most
#print axioms Viqa.C219_exact_partial
#print axioms Viqa.C219_saturated_refuted
#print axioms Viqa.C220_even_partial
#print axioms Viqa.C220_one_partial
#print axioms Viqa.C220_corner_refuted
#print axioms Viqa.C220_exact_refuted
