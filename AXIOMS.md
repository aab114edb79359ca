# Axioms of the property theorems

Output of `#print axioms` for every theorem named in `MANIFEST.json`, grouped.

## propext

* c54_refused
* c54_empty_negation
* c58_type_negation
* c60_empty_negation
* c60_float_negation
* c81_file_name_partial
* c81_blank_name_negation

## Quot.sound, propext

* c54_round_trip
* c54_load_dump
* c56_listed
* c56_lookup
* c56_out_of_range
* c58_known
* c64_length_negation
* c82_default_names
* c82_given_names
* c116_default_name
* c116_default_name_negation
* c117_list_negation

## Classical.choice, Quot.sound, propext

* c01_fill_lands_in_cell
* c02_rejected_fill_unchanged
* c02_fill_error_kind
* c03_fill_history
* c03_fill_history_perm
* c03_fill_history_total
* c04_fill_never_counts
* c04_raw_events_negation
* c04_file_loops_count
* c05_add
* c05_add_accepted_axes
* c05_add_accepted_iff
* c06_combine
* c06_combine_perm
* c07_add_symmetric_negation
* c07_add_symmetric_partial
* c07_add_asymmetric
* c08_add_coordinates_negation
* c08_add_coordinates_partial
* c09_scale
* c09_scale_scale
* c09_scale_self
* c10_project
* c10_project_unknown
* c11_nd_project_negation
* c11_nd_project_last_two_raises
* c11_nd_project_partial
* c11_nd_project_general
* c12_surface_negation
* c12_surface_partial
* c12_surface_general
* c13_rebin
* c14_rebin_rebin
* c14_rebin_self
* c15_rejected_rebin_negation
* c15_rejected_rebin_partial
* c15_exactly
* c16_shrink_cells
* c16_shrink_edges
* c16_width_kept
* c17_shrink_any_partial
* c17_unaligned_negation
* c18_shrink_moves_axis_negation
* c18_shrink_axis_partial
* c18_shift_at_most_half_partial
* c19_nested_partial
* c19_idempotent_partial
* c19_idempotent_negation
* c20_shrink_accepted_iff
* c20_rejected_shrink_unchanged
* c21_cut
* c21_cut_rejected
* c21_cut_scale
* c22_roi
* c22_efficiency_range
* c23_shape_invariant_partial
* c23_new
* c23_failed_rebin_negation
* c23_reversed_bounds_negation
* c24_bin_centre_inverse
* c25_upper_edge
* c25_upper_edge_negation
* c25_bin_valid_partial
* c26_boundaries_centres
* c26_fill_at_centre
* c27_shift_by_bin
* c27_rejects
* c28_opposite
* c28_zero
* c28_same_direction
* c29_shift
* c29_every_slice
* c30_scale
* c30_factor
* c30_factor_history
* c30_every_slice
* c31_shift_out_of_range
* c31_scale_out_of_range
* c31_finite_negation
* c31_shift_finite_partial
* c31_scale_finite_partial
* c31_shift_exactly
* c31_scale_exactly
* c32_smear_cells
* c32_conserved_partial
* c32_last_bin_empty
* c32_last_bin_lost
* c32_conserved_negation
* c32_unknown_parameter
* c33_light_yield
* c33_resolution
* c33_acceptance
* c34_counts
* c34_total
* c34_radial_raises
* c35_nonneg
* c35_zero_iff
* c36_sum
* c36_sum_partial
* c36_up_negation
* c36_extended_negation
* c37_permutation
* c37_append
* c38_ranking
* c39_penalty
* c39_extended_negation
* c40_unchanged_partial
* c40_changed
* c40_unchanged_negation
* c41_shapes
* c42_every_combination
* c43_grid_partial
* c43_repeated_negation
* c43_exactly
* c43_repeated_zero
* c44_best_fit
* c44_new_search
* c44_penalty_terms
* c45_find_minimum
* c45_agrees_with_numpy
* c46_exactly
* c46_inside
* c46_outside_partial
* c46_negative_negation
* c47_linear
* c47_lookup
* c47_stable
* c48_values_partial
* c48_symmetric_partial
* c48_count_negation
* c48_prior_negation
* c48_exactly
* c48_count
* c49_limit_partial
* c49_sigma_negation
* c49_per_bin_negation
* c49_per_bin_error_negation
* c49_array_negation
* c49_per_bin
* c49_per_bin_partial
* c50_monotone
* c51_floats_partial
* c51_arrays
* c51_length
* c51_empty_negation
* c52_half_life_activity
* c52_eff_mass_half_life
* c52_activity_counts
* c52_half_life_counts
* c52_eff_mass_counts
* c52_directions
* c52_activity_is_rate
* c52_eff_mass_relation
* c52_rejects
* c53_mass
* c53_scaling
* c53_rejects
* c53_new_partial
* c53_zero_negation
* c55_constructor_built
* c55_spectral_round_trip_partial
* c55_global_round_trip_partial
* c55_global_only_partial
* c55_order
* c55_order_negation
* c55_penalty_negation
* c55_no_spectral_negation
* c55_ambiguous_negation
* c55_no_dimension_negation
* c56_index
* c56_by_index
* c56_shape
* c57_lookup
* c57_kept_apart_partial
* c57_plain_parameters
* c57_plain_spectra
* c57_collision_negation
* c57_source_renamed
* c57_add_twice
* c57_type
* c57_add_par
* c57_add_global
* c58_dimension
* c58_dimensions
* c58_type_partial
* c59_round_trip_partial
* c59_empty_style_negation
* c59_empty_fit_negation
* c59_other_spectrum_negation
* c59_not_rate_negation
* c60_round_trip_partial
* c60_unsupported
* c60_colon_negation
* c60_comma_negation
* c60_semicolon_negation
* c61_name
* c61_last_value
* c61_distinct_partial
* c61_whole_negation
* c61_other_part_negation
* c61_resolution_negation
* c61_several_partial
* c61_dimensions_negation
* c61_substring_negation
* c61_slash_negation
* c61_rejects
* c62_result_partial
* c62_contents_partial
* c62_zero_negation
* c62_names_negation
* c62_texts_negation
* c62_bins_negation
* c63_sum_partial
* c63_order_partial
* c63_supplied_negation
* c63_unshrunk
* c63_empty_negation
* c63_append_partial
* c63_shared_negation
* c64_ordered
* c64_accepted_iff
* c64_idempotent
* c64_type_error
* c64_length_partial
* c65_sum
* c65_without_sigma
* c65_errors
* c65_evaluation
* c65_too_many
* c66_ntuple
* c66_ntuple_new
* c66_ntuple_append
* c66_bipo_ntuple_partial
* c66_bipo_last_negation
* c66_root_mc
* c66_root_ev
* c66_failed_append_negation
* c67_ntuple_selection
* c67_ntuple_monotone
* c67_zero_radius_negation
* c67_root_selection_mc
* c67_root_selection_reco
* c67_direct_extractors
* c68_factory_partial
* c68_zradial3_negation
* c69_linear_partial
* c69_one_dimensional_partial
* c69_logarithmic_partial
* c69_shape_negation
* c69_fraction_ignored_negation
* c69_fraction_value_negation
* c69_neither_partial
* c70_reset_name
* c70_default_name_negation
* c71_tolerance_partial
* c71_tolerance_negation
* c72_interpolation
* c73_settings
* c73_accepted
* c73_gaussian
* c73_poisson
* c73_positive
* c73_different
* c73_resolution_negation
* c74_restriction
* c74_zero_iff
* c75_reuse
* c75_reset_partial
* c75_reset_negation
* c76_exactly
* c76_raw_stats_per_bin
* c76_raw_stats_one_bin_negation
* c76_penalty_at_partial
* c76_close_negation
* c76_raw_stats_negation
* c77_success_partial
* c77_order
* c77_results
* c77_stale_negation
* c77_logscale_negation
* c78_range
* c78_prior_partial
* c78_zero_negation
* c79_logscale_partial
* c79_low_negation
* c80_best_fit
* c80_penalty_term
* c80_full_stats
* c80_limit_stat_negation
* c81_spectral_name
* c81_global_name_partial
* c81_global_name_negation
* c82_files_partial
* c82_blank_negation
* c83_values
* c83_root_values_agree
* c84_external_ntuple
* c84_invalid_ntuple
* c84_invalid_root
* c84_external_root_negation
* c84_no_particle_negation
* c84_radial3_reco_negation
* c85_derived
* c85_given
* c85_refused
* c85_remembered
* c85_label_inside_negation
* c86_other_groups
* c86_second_spectrum
* c86_failed_save_negation
* c87_round_trip_partial
* c87_no_spectral_negation
* c87_unnamed_negation
* c87_axes_negation
* c88_round_trip_partial
* c88_single_results_negation
* c89_round_trip_partial
* c89_array_skipped_negation
* c89_accepted
* c90_old_files
* c90_refused
* c91_expected_partial
* c91_signal_negation
* c92_untouched_partial
* c92_floating_partial
* c92_parameters_partial
* c92_bins_negation
* c93_best_fit_partial
* c93_grid_partial
* c93_again_partial
* c93_returns_partial
* c93_returned_partial
* c93_zero_negation
* c93_numbers_partial
* c94_accepted_partial
* c94_floating_negation
* c94_refused
* c94_exceptions
* c94_dimension_negation
* c94_no_background_negation
* c95_value_partial
* c95_projection_negation
* c95_untouched
* c96_stale_negation
* c96_set_roi
* c96_shrunk
* c96_refused
* c96_unshrunk
* c96_signal_negation
* c96_floating_negation
* c96_make_fixed_partial
* c96_floating
* c96_shrink_all
* c96_floating_axes
* c96_remove_signal
* c97_checked
* c97_signal_partial
* c97_signal_negation
* c97_fit
* c98_shift
* c98_scale
* c98_separable_shift
* c98_separable_scale
* c99_ready_partial
* c99_incomplete
* c99_raises
* c99_region
* c99_unaligned_negation
* c99_shrink_negation
* c100_limit_partial
* c100_crossing_partial
* c100_statistics_partial
* c100_objects_partial
* c100_init
* c100_fit_partial
* c101_axis
* c101_plot_projection
* c101_unknown
* c102_spectral_plot_partial
* c102_refused
* c102_background_negation
* c102_limit_negation
* c102_root_negation
* c103_root_projection
* c104_root_surface_partial
* c104_root_surface_transposed
* c104_root_surface_negation
* c105_surface_mesh
* c105_surface_quads_partial
* c105_surface_quads_negation
* c106_raw_stats
* c106_slice_negation
* c106_penalty_terms_partial
* c106_penalty_terms_negation
* c106_projection_negation
* c107_raw_stats_partial
* c107_stats_partial
* c107_lookup_partial
* c107_last_value_negation
* c107_three_negation
* c108_one_partial
* c108_two_partial
* c108_two_negation
* c108_single_bin_negation
* c108_before_fit
* c109_fit_partial
* c109_fit_negation
* c109_limit_stats_partial
* c109_limit_stats_negation
* c109_best_fit
* c109_sigma
* c109_sigma_negation
* c109_no_sigma_negation
* c110_linear_partial
* c110_linear_negation
* c110_log_partial
* c110_log_negation
* c110_deviation_negation
* c111_rebin
* c111_refused
* c112_shrink
* c112_refused
* c113_shift_bins
* c113_shift
* c113_shift_saved
* c113_shift_negation
* c113_scale
* c113_scale_saved
* c113_refused
* c114_weight
* c114_weight_energy
* c114_weight_cells
* c114_random
* c114_random_radial_negation
* c114_refused
* c115_input_kept
* c115_distinct
* c115_distinct_shrink
* c115_distinct_scale
* c115_no_extension_negation
* c115_dotted_directory_negation
* c115_bare_name_negation
* c116_combined
* c116_order
* c116_bipo_last_negation
* c116_refused
* c116_unlabelled_negation
* c117_ntuple
* c117_refused
* c117_root_negation
* c117_list
* c118_combine
* c118_order
* c118_refused
* c118_inputs_kept
* c118_overwrites_negation
* c119_smear
* c119_project
* c119_shift_by_bin_partial
* c119_shift_partial
* c119_scale_axis_partial
* c119_negative_negation
* c120_smear
* c120_shift_by_bin
* c120_shift_negation
* c121_rebin
* c121_shrink_partial
* c121_projection
* c121_rebin_new
* c121_project_new
* c121_shrink_negation
* c122_scale_shrink
* c122_scale_rebin
* c122_add_shrink
* c122_add_rebin
* c122_shrink_rebin
* c123_limit_found
* c123_no_limit
* c123_given_name_negation
* c123_spectra_negation
* c124_bounds_partial
* c124_fitted_partial
* c124_never_ends_negation
* c124_direction_negation
* c124_two_axes_negation
* c124_second_call_negation
* c125_fill_partial
* c125_refused
* c125_from_zero
* c125_index_negation
* c126_exact
* c126_order
* c126_sum
* c127_shrink
* c128_centre
* c128_get_bin
* c128_centres
* c128_boundaries
* c128_fill_centre
* c129_scale
* c129_order
* c129_same
* c129_back_partial
* c129_back_negation
* c130_merge
* c130_conditions_needed
* c130_rebin
* c130_project
* c130_single_bin
* c131_exposure
* c131_likelihood
* c131_spectra
* c132_convex
* c132_above
* c132_limit
* c132_finer
* c132_fit
* c133_closure_partial
* c133_rates_partial
* c133_one_sided_partial
* c133_one_sided_negation
* c134_contents_partial
* c134_tighter_partial
* c134_more_values_partial
* c135_project
* c135_nd_project
* c135_surface
* c135_counts
* c135_rebin
* c135_sum
* c135_add
* c135_add_comm
* c135_add_more
* c135_efficiency
* c136_evaluate_partial
* c136_fit_partial
* c136_names_negation
* c137_best_partial
* c137_ready_partial
* c137_contents_partial
* c137_fit_partial
* c137_fixed_partial
* c138_rebin
* c138_shrink_edges
* c138_smear
* c138_smear_left_out
* c138_shift_by_bin
* c138_add
* c139_shift_partial
* c139_accepted
* c139_multiples
* c139_refused_negation
* c140_cells_partial
* c140_conserved_partial
* c140_raises_negation
* c140_last_bin_negation
* c141_values
* c141_contents_partial
* c141_separate_partial
* c141_shared_negation
* c141_wrong_bin_negation
* c142_counts_partial
* c142_activity_negation
* c142_half_life_negation
* c142_light_yield_partial
* c142_light_yield_negation
* c142_penalty_partial
* c142_penalty_negation
* c143_same_partial
* c143_likelihood_negation
* c143_chi_squared_negation
* c143_empty_negation
* c144_region_partial
* c144_recovers_partial
* c145_counts
* c145_half_life
* c145_mass
* c145_refused_partial
* c145_mass_negation
* c145_half_life_negation
* c145_per_bin
* c146_map
* c146_turn_on
* c146_turn_on_negation
* c146_push_pull
* c146_save_negation
* c147_floating_partial
* c147_counting_partial
* c147_excluded_partial
* c148_chi_squared
* c148_penalty
* c148_best
* c149_accuracy
* c149_agreement
* c149_best
* c149_bins
* c149_sign_negation
* c150_expected_partial
* c150_history_partial
* c150_same_as_convolving_partial
* c150_file_partial
* c150_missing_partial
* c150_zero_negation
* c150_bare_name_negation
* c150_slash_negation
* c150_set_dir_negation
* c151_data_partial
* c151_contents_partial
* c151_finds_partial
* c151_no_fixed_negation
* c151_zero_prior_negation
* c152_limit_partial
* c152_expected_partial
* c153_fit_partial
* c153_counting_partial
* c153_floating_partial
* c154_exposure_partial
* c154_efficiency_counting_partial
* c154_efficiency_floating_partial
* c155_found
* c155_none
* c155_first_partial
* c155_results_negation
* c155_message_negation
* c155_sigma_negation
* c156_best_partial
* c156_recovers_partial
* c157_neighbour_partial
* c157_which
* c157_nearest_negation
* c157_above
* c157_below_negation
* c157_log_negation
* c158_whole
* c158_point_by_point
* c159_limit_partial
* c160_between_partial
* c160_stronger_negation
* c161_all_fit_partial
* c161_all_better_partial
* c161_fit_partial
* c161_better_partial
* c161_limit_partial
* c161_all_partial
* c162_fit_partial
* c162_counting_partial
* c162_floating_partial
* c162_cut_fit_partial
* c162_cut_counting_partial
* c162_cut_floating_partial
* c163_floating_fit_partial
* c163_floating_limit_partial
* c163_fixed_fit_partial
* c163_fixed_limit_partial
* c163_fixed_counting_partial
* c163_signal_counting_partial
* c163_signal_floating_partial
* c163_signal_negation
* c164_state
* c164_levels
* c164_sequence_partial
* c165_lists_partial
* c165_expected_partial
* c166_fit_partial
* c166_limit_partial
* c166_counting_partial
* c166_combined
* c167_fit_partial
* c167_counting_partial
* c167_floating_partial
* c167_rebinned_fit_partial
* c167_rebinned_counting_partial
* c167_rebinned_floating_partial
* c168_observed
* c168_background
* c168_events_partial
* c168_backgrounds_partial
* c168_signals_partial
* c168_floating_negation
* c169_partial
* c169_negation
* c170_fit_partial
* c170_limit_partial
* c170_counting_partial
* c170_extended_partial
* c170_extended_counting_partial
* c170_extended_negation
* c171_merged_partial
* c171_single_partial
* c171_fit_partial
* c171_observed_negation
* c172_limit_partial
* c172_floating_negation
* c173_background_partial
* c173_signal_partial
* c173_exposure_partial
* c173_floating_negation
* c173_exposure_floating_partial
* c174_reached_partial
* c174_floating_partial
* c174_study_partial
* c175_looser_partial
* c175_fixing_partial
