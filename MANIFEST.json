{
 "claims": [
  {
   "property": "C01",
   "status": "proved",
   "theorems": [
    "Verif.c01_fill_lands_in_cell"
   ],
   "note": "For every well formed spectrum and every in-range point: only the cell of the point changes, by the weight."
  },
  {
   "property": "C02",
   "status": "proved",
   "theorems": [
    "Verif.c02_rejected_fill_unchanged",
    "Verif.c02_fill_error_kind"
   ],
   "note": "Rejection leaves the state as it was; the kind of exception is characterised."
  },
  {
   "property": "C03",
   "status": "proved",
   "theorems": [
    "Verif.c03_fill_history",
    "Verif.c03_fill_history_perm",
    "Verif.c03_fill_history_total"
   ],
   "note": "Every history of fills, by induction, including permutation invariance and the total."
  },
  {
   "property": "C04",
   "status": "partial",
   "theorems": [
    "Verif.c04_fill_never_counts",
    "Verif.c04_raw_events_negation",
    "Verif.c04_file_loops_count"
   ],
   "note": "The code violates it: fill does not touch the raw event counter (negation with witness). c04_fill_never_counts gives the exact behaviour."
  },
  {
   "property": "C05",
   "status": "proved",
   "theorems": [
    "Verif.c05_add",
    "Verif.c05_add_accepted_axes",
    "Verif.c05_add_accepted_iff"
   ],
   "note": "Acceptance characterised and contents, decays and raw events added."
  },
  {
   "property": "C06",
   "status": "proved",
   "theorems": [
    "Verif.c06_combine",
    "Verif.c06_combine_perm"
   ],
   "note": "For every order of the further spectra."
  },
  {
   "property": "C07",
   "status": "partial",
   "theorems": [
    "Verif.c07_add_symmetric_negation",
    "Verif.c07_add_symmetric_partial",
    "Verif.c07_add_asymmetric"
   ],
   "note": "Negation: acceptance of add is not symmetric (the relative tolerance is taken from the argument). Partial: symmetric for edges of equal magnitude. c07_add_asymmetric says exactly where it fails: only for an edge that differs by more than the receiver's tolerance and at most the argument's."
  },
  {
   "property": "C08",
   "status": "partial",
   "theorems": [
    "Verif.c08_add_coordinates_negation",
    "Verif.c08_add_coordinates_partial"
   ],
   "note": "Negation: add matches axes by name but adds arrays by position. Partial: same order of axes."
  },
  {
   "property": "C09",
   "status": "proved",
   "theorems": [
    "Verif.c09_scale",
    "Verif.c09_scale_scale",
    "Verif.c09_scale_self"
   ],
   "note": "Scale, composition of scales, error when the decay count is zero."
  },
  {
   "property": "C10",
   "status": "proved",
   "theorems": [
    "Verif.c10_project",
    "Verif.c10_project_unknown"
   ],
   "note": "Every dimension of every well formed spectrum; unknown dimension raises."
  },
  {
   "property": "C11",
   "status": "partial",
   "theorems": [
    "Verif.c11_nd_project_negation",
    "Verif.c11_nd_project_last_two_raises",
    "Verif.c11_nd_project_partial",
    "Verif.c11_nd_project_general"
   ],
   "note": "Negation: nd_project sums the wrong axes. Also: leaving out the last two axes always raises. Partial: at most one axis is summed. c11_nd_project_general says exactly which axes are summed for any axes left out, and when it raises."
  },
  {
   "property": "C12",
   "status": "partial",
   "theorems": [
    "Verif.c12_surface_negation",
    "Verif.c12_surface_partial",
    "Verif.c12_surface_general"
   ],
   "note": "Negation: 4-d witness. Partial: spectra of at most three dimensions. c12_surface_general says exactly which axes are summed in any number of dimensions, and when it raises."
  },
  {
   "property": "C13",
   "status": "proved",
   "theorems": [
    "Verif.c13_rebin"
   ],
   "note": "All bin counts, all dimensions."
  },
  {
   "property": "C14",
   "status": "proved",
   "theorems": [
    "Verif.c14_rebin_rebin",
    "Verif.c14_rebin_self"
   ],
   "note": "Composition of rebins."
  },
  {
   "property": "C15",
   "status": "partial",
   "theorems": [
    "Verif.c15_rejected_rebin_negation",
    "Verif.c15_rejected_rebin_partial",
    "Verif.c15_exactly"
   ],
   "note": "Negation: a rejected rebin leaves changed bin counts behind. Partial: data, decays, events and regions never change. c15_exactly: the spectrum is unchanged if and only if every entry before the first refused one equals the bin count already there."
  },
  {
   "property": "C16",
   "status": "proved",
   "theorems": [
    "Verif.c16_shrink_cells",
    "Verif.c16_shrink_edges",
    "Verif.c16_width_kept"
   ],
   "note": "Cells for every axis; edges for axes whose lower edge is a multiple of the bin width."
  },
  {
   "property": "C17",
   "status": "partial",
   "theorems": [
    "Verif.c17_shrink_any_partial",
    "Verif.c17_unaligned_negation"
   ],
   "note": "Partial: axes whose lower edge is a multiple of the bin width. Negation for other axes: nearly half a bin of the requested range is lost."
  },
  {
   "property": "C18",
   "status": "partial",
   "theorems": [
    "Verif.c18_shrink_moves_axis_negation",
    "Verif.c18_shrink_axis_partial",
    "Verif.c18_shift_at_most_half_partial"
   ],
   "note": "Negation: a shrink without arguments moves the axis 1..5 (two bins) to 2..6. Partial: aligned axes; on any axis the move is at most half a bin."
  },
  {
   "property": "C19",
   "status": "partial",
   "theorems": [
    "Verif.c19_nested_partial",
    "Verif.c19_idempotent_partial",
    "Verif.c19_idempotent_negation"
   ],
   "note": "Partial: aligned axes. Negation: an identical second shrink raises on an axis that is not aligned."
  },
  {
   "property": "C20",
   "status": "proved",
   "theorems": [
    "Verif.c20_shrink_accepted_iff",
    "Verif.c20_rejected_shrink_unchanged"
   ],
   "note": "Acceptance characterised exactly; rejected shrinks leave the state as it was."
  },
  {
   "property": "C21",
   "status": "proved",
   "theorems": [
    "Verif.c21_cut",
    "Verif.c21_cut_rejected",
    "Verif.c21_cut_scale"
   ],
   "note": "Ratio kept, commutes with scaling, fails for total zero."
  },
  {
   "property": "C22",
   "status": "proved",
   "theorems": [
    "Verif.c22_roi",
    "Verif.c22_efficiency_range"
   ],
   "note": "Recorded edges and efficiency; range of the efficiency for non-negative contents."
  },
  {
   "property": "C23",
   "status": "partial",
   "theorems": [
    "Verif.c23_shape_invariant_partial",
    "Verif.c23_new",
    "Verif.c23_failed_rebin_negation",
    "Verif.c23_reversed_bounds_negation"
   ],
   "note": "Invariant by induction over histories of sensible calls (partial). Negations: one refused rebin; one accepted shrink with reversed bounds."
  },
  {
   "property": "C24",
   "status": "proved",
   "theorems": [
    "Verif.c24_bin_centre_inverse"
   ],
   "note": "get_bin and get_bin_centre."
  },
  {
   "property": "C25",
   "status": "partial",
   "theorems": [
    "Verif.c25_upper_edge",
    "Verif.c25_upper_edge_negation",
    "Verif.c25_bin_valid_partial"
   ],
   "note": "Negation: the upper edge is mapped to a bin that does not exist. Partial: below the upper edge."
  },
  {
   "property": "C26",
   "status": "proved",
   "theorems": [
    "Verif.c26_boundaries_centres",
    "Verif.c26_fill_at_centre"
   ],
   "note": "Boundaries, centres and fill agree."
  },
  {
   "property": "C27",
   "status": "proved",
   "theorems": [
    "Verif.c27_shift_by_bin",
    "Verif.c27_rejects"
   ],
   "note": ""
  },
  {
   "property": "C28",
   "status": "proved",
   "theorems": [
    "Verif.c28_opposite",
    "Verif.c28_zero",
    "Verif.c28_same_direction"
   ],
   "note": ""
  },
  {
   "property": "C29",
   "status": "proved",
   "theorems": [
    "Verif.c29_shift",
    "Verif.c29_every_slice"
   ],
   "note": "c29_every_slice: when every slice has contents, the interpolation is positive and bins are not tiny, exactly the slices from inside the range stay filled. C98 says what single cells hold."
  },
  {
   "property": "C30",
   "status": "proved",
   "theorems": [
    "Verif.c30_scale",
    "Verif.c30_factor",
    "Verif.c30_factor_history",
    "Verif.c30_every_slice"
   ],
   "note": "c30_every_slice: when every slice has contents, the interpolation is positive and bins are not tiny, exactly the slices from inside the range stay filled. C98 says what single cells hold."
  },
  {
   "property": "C31",
   "status": "partial",
   "theorems": [
    "Verif.c31_shift_out_of_range",
    "Verif.c31_scale_out_of_range",
    "Verif.c31_finite_negation",
    "Verif.c31_shift_finite_partial",
    "Verif.c31_scale_finite_partial",
    "Verif.c31_shift_exactly",
    "Verif.c31_scale_exactly"
   ],
   "note": "c31_shift_exactly and c31_scale_exactly say exactly when finite contents are lost: when every bin centre is moved from outside the range. Every shift by at least the length of the axis does that, silently (c31_shift_out_of_range, c31_scale_out_of_range, c31_finite_negation). Supposed for the converse: slices with contents, a positive interpolation and bins of at least 2e-6."
  },
  {
   "property": "C32",
   "status": "partial",
   "theorems": [
    "Verif.c32_smear_cells",
    "Verif.c32_conserved_partial",
    "Verif.c32_last_bin_empty",
    "Verif.c32_last_bin_lost",
    "Verif.c32_conserved_negation",
    "Verif.c32_unknown_parameter"
   ],
   "note": "In exact arithmetic; with floats see C140, where the last bin may take part. Conservation fails for the contents of the last bin when the window there is narrow (c32_conserved_negation, c32_last_bin_lost); on aligned axes the last bin never receives anything (c32_last_bin_empty). The cell-by-cell behaviour is proved exactly on aligned axes, conservation on all axes under the stated condition."
  },
  {
   "property": "C33",
   "status": "proved",
   "theorems": [
    "Verif.c33_light_yield",
    "Verif.c33_resolution",
    "Verif.c33_acceptance"
   ],
   "note": ""
  },
  {
   "property": "C34",
   "status": "proved",
   "theorems": [
    "Verif.c34_counts",
    "Verif.c34_total",
    "Verif.c34_radial_raises"
   ],
   "note": "The random smearing of the radius class raises TypeError on every non-empty spectrum (c34_radial_raises)."
  },
  {
   "property": "C35",
   "status": "proved",
   "theorems": [
    "Verif.c35_nonneg",
    "Verif.c35_zero_iff"
   ],
   "note": ""
  },
  {
   "property": "C36",
   "status": "partial",
   "theorems": [
    "Verif.c36_sum",
    "Verif.c36_sum_partial",
    "Verif.c36_up_negation",
    "Verif.c36_extended_negation"
   ],
   "note": "Fails for the one-sided statistic when a bin has an excess (ValueError, c36_up_negation) and for the extended likelihood below the threshold (c36_extended_negation)."
  },
  {
   "property": "C37",
   "status": "proved",
   "theorems": [
    "Verif.c37_permutation",
    "Verif.c37_append"
   ],
   "note": ""
  },
  {
   "property": "C38",
   "status": "proved",
   "theorems": [
    "Verif.c38_ranking"
   ],
   "note": ""
  },
  {
   "property": "C39",
   "status": "partial",
   "theorems": [
    "Verif.c39_penalty",
    "Verif.c39_extended_negation"
   ],
   "note": "The extended log likelihood is on the scale of half the chi-squared (C38) but its penalty is not halved (c39_extended_negation)."
  },
  {
   "property": "C40",
   "status": "partial",
   "theorems": [
    "Verif.c40_unchanged_partial",
    "Verif.c40_changed",
    "Verif.c40_unchanged_negation"
   ],
   "note": "Pearson, Neyman and the Baker-Cousins likelihood overwrite values below 1e-34 in the caller's array."
  },
  {
   "property": "C41",
   "status": "proved",
   "theorems": [
    "Verif.c41_shapes"
   ],
   "note": ""
  },
  {
   "property": "C42",
   "status": "proved",
   "theorems": [
    "Verif.c42_every_combination"
   ],
   "note": "Every combination once, in row-major order, with its indices."
  },
  {
   "property": "C43",
   "status": "partial",
   "theorems": [
    "Verif.c43_grid_partial",
    "Verif.c43_repeated_negation",
    "Verif.c43_exactly",
    "Verif.c43_repeated_zero"
   ],
   "note": "Partial: values of each parameter distinct. Negation: with a repeated value a grid point keeps 0. c43_exactly covers every grid, also with repeated values: the first occurrence of each combination holds the function value, all other points keep what they held before."
  },
  {
   "property": "C44",
   "status": "proved",
   "theorems": [
    "Verif.c44_best_fit",
    "Verif.c44_new_search",
    "Verif.c44_penalty_terms"
   ],
   "note": "Global minimum, first among equals, returned pair and stored best-fit values and penalty terms; with and without numpy's minimum."
  },
  {
   "property": "C45",
   "status": "proved",
   "theorems": [
    "Verif.c45_find_minimum",
    "Verif.c45_agrees_with_numpy"
   ],
   "note": "Arrays of any number of dimensions; agreement with numpy's argmin."
  },
  {
   "property": "C46",
   "status": "partial",
   "theorems": [
    "Verif.c46_exactly",
    "Verif.c46_inside",
    "Verif.c46_outside_partial",
    "Verif.c46_negative_negation"
   ],
   "note": "Partial: non-negative indices. Negation: negative indices wrap around and are accepted. c46_exactly covers every integer tuple with one index per parameter: accepted if and only if each is at least minus the axis length and below it, and then read from the end when negative."
  },
  {
   "property": "C47",
   "status": "proved",
   "theorems": [
    "Verif.c47_linear",
    "Verif.c47_lookup",
    "Verif.c47_stable"
   ],
   "note": "Values, both lookups as inverses, and stability under repeated calls."
  },
  {
   "property": "C48",
   "status": "partial",
   "theorems": [
    "Verif.c48_values_partial",
    "Verif.c48_symmetric_partial",
    "Verif.c48_count_negation",
    "Verif.c48_prior_negation",
    "Verif.c48_exactly",
    "Verif.c48_count"
   ],
   "note": "Partial: share of the range below the prior not half-way between two bin counts, with at least two values on each side; in particular odd bin counts on symmetric ranges. Negations: even bin count on a symmetric range; prior at the lower end. c48_exactly and c48_count say for every bin count and prior which values there are and exactly when the number of values is the bin count."
  },
  {
   "property": "C49",
   "status": "partial",
   "theorems": [
    "Verif.c49_limit_partial",
    "Verif.c49_sigma_negation",
    "Verif.c49_per_bin_negation",
    "Verif.c49_per_bin_error_negation",
    "Verif.c49_array_negation",
    "Verif.c49_per_bin",
    "Verif.c49_per_bin_partial"
   ],
   "note": "Partial: statistics that are plain numbers, all fit parameters with a sigma. For per-bin statistics c49_per_bin says exactly where the search begins (the place of the smallest number of all bins and scalings, counted in bins); it begins at the right scaling when that is the first bin of the first scaling (c49_per_bin_partial). Negations: per-bin statistics give a wrong limit or a ValueError; a parameter without sigma raises TypeError; an array of statistics without signal raises ValueError."
  },
  {
   "property": "C50",
   "status": "proved",
   "theorems": [
    "Verif.c50_monotone"
   ],
   "note": "Every fitter, also per bin."
  },
  {
   "property": "C51",
   "status": "partial",
   "theorems": [
    "Verif.c51_floats_partial",
    "Verif.c51_arrays",
    "Verif.c51_length",
    "Verif.c51_empty_negation"
   ],
   "note": "Arrays of floats and of arrays. Negation: no scalings at all raises IndexError."
  },
  {
   "property": "C52",
   "status": "proved",
   "theorems": [
    "Verif.c52_half_life_activity",
    "Verif.c52_eff_mass_half_life",
    "Verif.c52_activity_counts",
    "Verif.c52_half_life_counts",
    "Verif.c52_eff_mass_counts",
    "Verif.c52_directions",
    "Verif.c52_activity_is_rate",
    "Verif.c52_eff_mass_relation",
    "Verif.c52_rejects"
   ],
   "note": "All ten conversions in both directions, their monotonicity, the physical meaning of activity and half-life, and the rejected arguments."
  },
  {
   "property": "C53",
   "status": "partial",
   "theorems": [
    "Verif.c53_mass",
    "Verif.c53_scaling",
    "Verif.c53_rejects",
    "Verif.c53_new_partial",
    "Verif.c53_zero_negation"
   ],
   "note": "Mass balance, scaling laws and rejected arguments of get_n_atoms. Partial for the constructor: arguments other than zero. Negation: loading 0 and radius 0 are silently replaced by the defaults."
  },
  {
   "property": "C54",
   "status": "partial",
   "theorems": [
    "Verif.c54_round_trip",
    "Verif.c54_load_dump",
    "Verif.c54_refused",
    "Verif.c54_empty_negation"
   ],
   "note": "Proved for every non-empty configuration, in both directions. Negation for the empty configuration: load refuses what dump writes."
  },
  {
   "property": "C55",
   "status": "partial",
   "theorems": [
    "Verif.c55_constructor_built",
    "Verif.c55_spectral_round_trip_partial",
    "Verif.c55_global_round_trip_partial",
    "Verif.c55_global_only_partial",
    "Verif.c55_order",
    "Verif.c55_order_negation",
    "Verif.c55_penalty_negation",
    "Verif.c55_no_spectral_negation",
    "Verif.c55_ambiguous_negation",
    "Verif.c55_no_dimension_negation"
   ],
   "note": "Round trip of all settings, classes and types proved for every configuration of the form a file can have. Negations: penalty term replaced by best fit (parameter.py:633); interleaved dimensions reordered; no spectral parameters -> load raises KeyError; dim_resolution_ly with dim an ending of 'resolution' -> IndexError; global parameter without dimension -> TypeError."
  },
  {
   "property": "C56",
   "status": "proved",
   "theorems": [
    "Verif.c56_listed",
    "Verif.c56_lookup",
    "Verif.c56_index",
    "Verif.c56_by_index",
    "Verif.c56_out_of_range",
    "Verif.c56_shape"
   ],
   "note": ""
  },
  {
   "property": "C57",
   "status": "partial",
   "theorems": [
    "Verif.c57_lookup",
    "Verif.c57_kept_apart_partial",
    "Verif.c57_plain_parameters",
    "Verif.c57_plain_spectra",
    "Verif.c57_collision_negation",
    "Verif.c57_source_renamed",
    "Verif.c57_add_twice",
    "Verif.c57_type",
    "Verif.c57_add_par",
    "Verif.c57_add_global"
   ],
   "note": "Proved when joined names do not coincide (two sufficient conditions proved); exact lookup result proved without any hypothesis. Negation: colliding names lose a parameter."
  },
  {
   "property": "C58",
   "status": "partial",
   "theorems": [
    "Verif.c58_dimension",
    "Verif.c58_dimensions",
    "Verif.c58_type_partial",
    "Verif.c58_known",
    "Verif.c58_type_negation"
   ],
   "note": "Proved when every name has an underscore; negation for names without."
  },
  {
   "property": "C59",
   "status": "partial",
   "theorems": [
    "Verif.c59_round_trip_partial",
    "Verif.c59_empty_style_negation",
    "Verif.c59_empty_fit_negation",
    "Verif.c59_other_spectrum_negation",
    "Verif.c59_not_rate_negation"
   ],
   "note": "Round trip proved for every spectrum whose style is not empty and whose fit configuration, if any, is a non-empty one of rate parameters for that spectrum. False otherwise: empty style, empty fit configuration, fit configuration for another spectrum, parameters other than rates (negations proved)."
  },
  {
   "property": "C60",
   "status": "partial",
   "theorems": [
    "Verif.c60_round_trip_partial",
    "Verif.c60_unsupported",
    "Verif.c60_empty_negation",
    "Verif.c60_colon_negation",
    "Verif.c60_comma_negation",
    "Verif.c60_semicolon_negation",
    "Verif.c60_float_negation"
   ],
   "note": "Round trip proved for non-empty dictionaries without separators and with floats that survive their text. False for empty dictionaries, separators and long floats (negations proved)."
  },
  {
   "property": "C61",
   "status": "partial",
   "theorems": [
    "Verif.c61_name",
    "Verif.c61_last_value",
    "Verif.c61_distinct_partial",
    "Verif.c61_whole_negation",
    "Verif.c61_other_part_negation",
    "Verif.c61_resolution_negation",
    "Verif.c61_several_partial",
    "Verif.c61_dimensions_negation",
    "Verif.c61_substring_negation",
    "Verif.c61_slash_negation",
    "Verif.c61_rejects"
   ],
   "note": "Name, directory, change of value and several parameters of one dimension proved for all file names, directories and values, with the text of a float as parameter. Different values give different names only for texts with a point that are not cut; false for whole numbers written without a point, for parts that end like a tag, across the light-yield limit, for two dimensions with parameters of one kind, for a dimension that only occurs inside the directory and for base directories without a slash (negations proved)."
  },
  {
   "property": "C62",
   "status": "partial",
   "theorems": [
    "Verif.c62_result_partial",
    "Verif.c62_contents_partial",
    "Verif.c62_zero_negation",
    "Verif.c62_names_negation",
    "Verif.c62_texts_negation",
    "Verif.c62_bins_negation"
   ],
   "note": "Proved for every fit and every sequence of evaluations with nonzero rates: results, and observed and expected contents, are those of the fresh fit. Supposed: spectra on the axes of the data, background names and texts of values different. Negations: after a zero rate, with equal background names, with equal texts, with finer bins than the data."
  },
  {
   "property": "C63",
   "status": "partial",
   "theorems": [
    "Verif.c63_sum_partial",
    "Verif.c63_order_partial",
    "Verif.c63_supplied_negation",
    "Verif.c63_unshrunk",
    "Verif.c63_empty_negation",
    "Verif.c63_append_partial",
    "Verif.c63_shared_negation"
   ],
   "note": "Sum, order and appending proved over an object store, for supplied spectra with configurations of their own. The caller's spectra are changed through shared configurations, spectra sharing one configuration give wrong cells, and an empty dictionary raises NameError (negations proved)."
  },
  {
   "property": "C64",
   "status": "partial",
   "theorems": [
    "Verif.c64_ordered",
    "Verif.c64_accepted_iff",
    "Verif.c64_idempotent",
    "Verif.c64_type_error",
    "Verif.c64_length_partial",
    "Verif.c64_length_negation"
   ],
   "note": "Ordering, acceptance, idempotence and wrong types proved for all dictionaries. A wrong length raises AttributeError or KeyError unless a region with that dimension was already set (negation proved)."
  },
  {
   "property": "C65",
   "status": "proved",
   "theorems": [
    "Verif.c65_sum",
    "Verif.c65_without_sigma",
    "Verif.c65_errors",
    "Verif.c65_evaluation",
    "Verif.c65_too_many"
   ],
   "note": "Proved by induction over the parameters, for all statistics, values and states."
  },
  {
   "property": "C66",
   "status": "partial",
   "theorems": [
    "Verif.c66_ntuple",
    "Verif.c66_ntuple_new",
    "Verif.c66_ntuple_append",
    "Verif.c66_bipo_ntuple_partial",
    "Verif.c66_bipo_last_negation",
    "Verif.c66_root_mc",
    "Verif.c66_root_ev",
    "Verif.c66_failed_append_negation"
   ],
   "note": "Exact for ntuples, root files and the coincidence cut; the last coincidence candidate of an ntuple is lost (negation), and a failing append has already changed the decay count (negation). Root files: entries with a simulated particle, one triggered event for external backgrounds."
  },
  {
   "property": "C67",
   "status": "partial",
   "theorems": [
    "Verif.c67_ntuple_selection",
    "Verif.c67_ntuple_monotone",
    "Verif.c67_zero_radius_negation",
    "Verif.c67_root_selection_mc",
    "Verif.c67_root_selection_reco",
    "Verif.c67_direct_extractors"
   ],
   "note": "Exact selection for non-zero radii; a radius of zero switches the cut off (negation)."
  },
  {
   "property": "C68",
   "status": "partial",
   "theorems": [
    "Verif.c68_factory_partial",
    "Verif.c68_zradial3_negation"
   ],
   "note": "All documented dimensions but zradial3, which can never be created (negation)."
  },
  {
   "property": "C69",
   "status": "partial",
   "theorems": [
    "Verif.c69_linear_partial",
    "Verif.c69_one_dimensional_partial",
    "Verif.c69_logarithmic_partial",
    "Verif.c69_shape_negation",
    "Verif.c69_fraction_ignored_negation",
    "Verif.c69_fraction_value_negation",
    "Verif.c69_neither_partial"
   ],
   "note": "Linear errors (plain, log, log10) proved entry by entry in row-major order, and with the shape for one-dimensional arrays. False in general: the result is flat, a fraction is ignored while the default linear error is on, and the fractional error is off by the value (negations proved)."
  },
  {
   "property": "C70",
   "status": "partial",
   "theorems": [
    "Verif.c70_reset_name",
    "Verif.c70_default_name_negation"
   ],
   "note": "Proved for searches given a name. Negation: without a name the first reset raises TypeError."
  },
  {
   "property": "C71",
   "status": "partial",
   "theorems": [
    "Verif.c71_tolerance_partial",
    "Verif.c71_tolerance_negation"
   ],
   "note": "Negation: with 6000 bins on 0..6000 the bound 6000.05 is accepted and the configuration gets 6001 bins. Partial: overshoot below 1% of a bin."
  },
  {
   "property": "C72",
   "status": "proved",
   "theorems": [
    "Verif.c72_interpolation"
   ],
   "note": ""
  },
  {
   "property": "C73",
   "status": "partial",
   "theorems": [
    "Verif.c73_settings",
    "Verif.c73_accepted",
    "Verif.c73_gaussian",
    "Verif.c73_poisson",
    "Verif.c73_positive",
    "Verif.c73_different",
    "Verif.c73_resolution_negation"
   ],
   "note": "EnergySmearRes with its default Poisson smearing ignores the configured resolution in its weights (c73_resolution_negation); everything else in the statement is proved."
  },
  {
   "property": "C74",
   "status": "proved",
   "theorems": [
    "Verif.c74_restriction",
    "Verif.c74_zero_iff"
   ],
   "note": ""
  },
  {
   "property": "C75",
   "status": "partial",
   "theorems": [
    "Verif.c75_reuse",
    "Verif.c75_reset_partial",
    "Verif.c75_reset_negation"
   ],
   "note": "Reuse without reset is proved; partial after a reset for searches per spectrum bin. Negation: otherwise every minimise after a reset raises."
  },
  {
   "property": "C76",
   "status": "partial",
   "theorems": [
    "Verif.c76_exactly",
    "Verif.c76_raw_stats_per_bin",
    "Verif.c76_raw_stats_one_bin_negation",
    "Verif.c76_penalty_at_partial",
    "Verif.c76_close_negation",
    "Verif.c76_raw_stats_negation"
   ],
   "note": "Partial: values further apart than numpy's tolerance. Negations: close values are confused; the raw statistic by value always raises for searches with one number per grid point, or with one number per bin and a single bin. c76_exactly: every value within tolerance of the grid is looked up as the first grid value within tolerance; c76_raw_stats_per_bin: what the raw statistic is for several bins."
  },
  {
   "property": "C77",
   "status": "partial",
   "theorems": [
    "Verif.c77_success_partial",
    "Verif.c77_order",
    "Verif.c77_results",
    "Verif.c77_stale_negation",
    "Verif.c77_logscale_negation"
   ],
   "note": "Proved for calls that succeed, and that their order is irrelevant. Negations: a call that raises half-way leaves new bounds with the old values; logscale, base and sigma=None raise TypeError."
  },
  {
   "property": "C78",
   "status": "partial",
   "theorems": [
    "Verif.c78_range",
    "Verif.c78_prior_partial",
    "Verif.c78_zero_negation"
   ],
   "note": "Partial: prior other than zero; a value agrees with the prior if it differs by no more than a relative 0.5e-12 (exact). Negation: a prior of zero is always reported."
  },
  {
   "property": "C79",
   "status": "partial",
   "theorems": [
    "Verif.c79_logscale_partial",
    "Verif.c79_low_negation"
   ],
   "note": "Partial: low > 0. Negation: for low <= 0 the values start at 1/high, above the range if high < 1."
  },
  {
   "property": "C80",
   "status": "partial",
   "theorems": [
    "Verif.c80_best_fit",
    "Verif.c80_penalty_term",
    "Verif.c80_full_stats",
    "Verif.c80_limit_stat_negation"
   ],
   "note": "Proved for best fits, penalty terms and full statistics. Negation: get_limit_stat always raises AttributeError."
  },
  {
   "property": "C81",
   "status": "partial",
   "theorems": [
    "Verif.c81_spectral_name",
    "Verif.c81_global_name_partial",
    "Verif.c81_global_name_negation",
    "Verif.c81_file_name_partial",
    "Verif.c81_blank_name_negation"
   ],
   "note": "Negation: GlobalFitConfig.load overwrites its name argument in the loop over parameters; load_from_file never uses the file name."
  },
  {
   "property": "C82",
   "status": "partial",
   "theorems": [
    "Verif.c82_files_partial",
    "Verif.c82_default_names",
    "Verif.c82_given_names",
    "Verif.c82_blank_negation"
   ],
   "note": "Negation: two blank names give the same file, the global part is lost."
  },
  {
   "property": "C83",
   "status": "proved",
   "theorems": [
    "Verif.c83_values",
    "Verif.c83_root_values_agree"
   ],
   "note": "Ntuple values exact; root values shown equal to ntuple values."
  },
  {
   "property": "C84",
   "status": "partial",
   "theorems": [
    "Verif.c84_external_ntuple",
    "Verif.c84_invalid_ntuple",
    "Verif.c84_invalid_root",
    "Verif.c84_external_root_negation",
    "Verif.c84_no_particle_negation",
    "Verif.c84_radial3_reco_negation"
   ],
   "note": "Holds for ntuples; fails for root files (negations)."
  },
  {
   "property": "C85",
   "status": "partial",
   "theorems": [
    "Verif.c85_derived",
    "Verif.c85_given",
    "Verif.c85_refused",
    "Verif.c85_remembered",
    "Verif.c85_label_inside_negation"
   ],
   "note": "Derived, given and refused names proved. False when a label occurs in the background itself (negation proved)."
  },
  {
   "property": "C86",
   "status": "partial",
   "theorems": [
    "Verif.c86_other_groups",
    "Verif.c86_second_spectrum",
    "Verif.c86_failed_save_negation"
   ],
   "note": "Appending, refusing and overwriting proved. False for failing saves, which destroy the file (negation proved)."
  },
  {
   "property": "C87",
   "status": "partial",
   "theorems": [
    "Verif.c87_round_trip_partial",
    "Verif.c87_no_spectral_negation",
    "Verif.c87_unnamed_negation",
    "Verif.c87_axes_negation"
   ],
   "note": "Round trip proved for named searches whose fit configuration is in file order and has a spectral parameter. False without a name, without spectral parameters and for interleaved dimensions (negations proved)."
  },
  {
   "property": "C88",
   "status": "partial",
   "theorems": [
    "Verif.c88_round_trip_partial",
    "Verif.c88_single_results_negation"
   ],
   "note": "Round trip proved, by induction over the scalings, with or without spectral parameters. False for the per-bin flag and name of the single fit results (negation proved)."
  },
  {
   "property": "C89",
   "status": "partial",
   "theorems": [
    "Verif.c89_round_trip_partial",
    "Verif.c89_array_skipped_negation",
    "Verif.c89_accepted"
   ],
   "note": "Round trip proved; exact conditions for acceptance proved. False where the target's attribute is not an array (negation proved)."
  },
  {
   "property": "C90",
   "status": "proved",
   "theorems": [
    "Verif.c90_old_files",
    "Verif.c90_refused"
   ],
   "note": "Proved for every order of the attributes by induction over the attribute loop."
  },
  {
   "property": "C91",
   "status": "partial",
   "theorems": [
    "Verif.c91_expected_partial",
    "Verif.c91_signal_negation"
   ],
   "note": "Proved for every fit and history (suppositions of C62). Negation: with two global parameters the signal gets only the last one."
  },
  {
   "property": "C92",
   "status": "partial",
   "theorems": [
    "Verif.c92_untouched_partial",
    "Verif.c92_floating_partial",
    "Verif.c92_parameters_partial",
    "Verif.c92_bins_negation"
   ],
   "note": "Proved for every fit and history (suppositions of C62). Negation: spectra with finer bins than the data get other axes."
  },
  {
   "property": "C93",
   "status": "partial",
   "theorems": [
    "Verif.c93_best_fit_partial",
    "Verif.c93_grid_partial",
    "Verif.c93_again_partial",
    "Verif.c93_returns_partial",
    "Verif.c93_returned_partial",
    "Verif.c93_zero_negation",
    "Verif.c93_numbers_partial"
   ],
   "note": "Proved under the suppositions of C62 (spectra on the axes of the data, nonzero rates, different background names and texts). Negation: with a zero among the values of a rate the search raises although every value can be evaluated."
  },
  {
   "property": "C94",
   "status": "partial",
   "theorems": [
    "Verif.c94_accepted_partial",
    "Verif.c94_floating_negation",
    "Verif.c94_refused",
    "Verif.c94_exceptions",
    "Verif.c94_dimension_negation",
    "Verif.c94_no_background_negation"
   ],
   "note": "Partial: a global parameter without dimension makes the first fit raise a TypeError although the fit then counts as checked; an empty list of floating backgrounds passes the checks and then raises AttributeError; floating backgrounds are never compared with the region."
  },
  {
   "property": "C95",
   "status": "partial",
   "theorems": [
    "Verif.c95_value_partial",
    "Verif.c95_projection_negation",
    "Verif.c95_untouched"
   ],
   "note": "Partial: as C11, at most one axis is projected out. Negation: with a region that leaves out the last two axes of the data the checks are passed and fit() then raises."
  },
  {
   "property": "C96",
   "status": "partial",
   "theorems": [
    "Verif.c96_stale_negation",
    "Verif.c96_set_roi",
    "Verif.c96_shrunk",
    "Verif.c96_refused",
    "Verif.c96_unshrunk",
    "Verif.c96_signal_negation",
    "Verif.c96_floating_negation",
    "Verif.c96_make_fixed_partial",
    "Verif.c96_floating",
    "Verif.c96_shrink_all",
    "Verif.c96_floating_axes",
    "Verif.c96_remove_signal"
   ],
   "note": "Partial: set_signal(shrink=False) accepts any range; a refused set_floating_backgrounds leaves parameters in the configuration; replacing the region leaves the old region's parameters with the spectra."
  },
  {
   "property": "C97",
   "status": "partial",
   "theorems": [
    "Verif.c97_checked",
    "Verif.c97_signal_partial",
    "Verif.c97_signal_negation",
    "Verif.c97_fit"
   ],
   "note": "Partial: a signal set with shrink=False is not checked and the fit still counts as checked."
  },
  {
   "property": "C98",
   "status": "proved",
   "theorems": [
    "Verif.c98_shift",
    "Verif.c98_scale",
    "Verif.c98_separable_shift",
    "Verif.c98_separable_scale"
   ],
   "note": "Proved for every spectrum and every shift and scale factor, with the interpolation as a parameter: each bin holds the sum over the source bins of the share of the trapezium areas; and separable spectra stay separable."
  },
  {
   "property": "C99",
   "status": "partial",
   "theorems": [
    "Verif.c99_ready_partial",
    "Verif.c99_incomplete",
    "Verif.c99_raises",
    "Verif.c99_region",
    "Verif.c99_unaligned_negation",
    "Verif.c99_shrink_negation"
   ],
   "note": "Proved for spectra whose axes start at a multiple of their bin width (c99_ready_partial, c99_incomplete). For other axes the second shrinking raises ValueError (c99_unaligned_negation). The shrink=False argument has no effect (c99_shrink_negation). What constructors raise (c99_raises) and that a fit with minimiser matches its region (c99_region) hold for all arguments."
  },
  {
   "property": "C100",
   "status": "partial",
   "theorems": [
    "Verif.c100_limit_partial",
    "Verif.c100_crossing_partial",
    "Verif.c100_statistics_partial",
    "Verif.c100_objects_partial",
    "Verif.c100_init",
    "Verif.c100_fit_partial"
   ],
   "note": "Partial: with floating backgrounds every evaluation of the grid must succeed. With global parameters the decays must be positive and interpolation of multiplied contents must be multiplied interpolation. Scalings not close to zero are supposed not to be rounded to zero."
  },
  {
   "property": "C101",
   "status": "proved",
   "theorems": [
    "Verif.c101_axis",
    "Verif.c101_plot_projection",
    "Verif.c101_unknown"
   ],
   "note": ""
  },
  {
   "property": "C102",
   "status": "partial",
   "theorems": [
    "Verif.c102_spectral_plot_partial",
    "Verif.c102_refused",
    "Verif.c102_background_negation",
    "Verif.c102_limit_negation",
    "Verif.c102_root_negation"
   ],
   "note": "c102_spectral_plot_partial needs every type \"background\" to be the very string object of the code (it is compared with `is`) and the limit to have the same axis; c102_background_negation and c102_limit_negation show that both are needed. The ROOT function of the same name never returns a plot (c102_root_negation)."
  },
  {
   "property": "C103",
   "status": "proved",
   "theorems": [
    "Verif.c103_root_projection"
   ],
   "note": ""
  },
  {
   "property": "C104",
   "status": "partial",
   "theorems": [
    "Verif.c104_root_surface_partial",
    "Verif.c104_root_surface_transposed",
    "Verif.c104_root_surface_negation"
   ],
   "note": "c104_root_surface_partial: dimensions in the order of the configuration. In the other order the histogram is transposed (c104_root_surface_transposed, c104_root_surface_negation)."
  },
  {
   "property": "C105",
   "status": "partial",
   "theorems": [
    "Verif.c105_surface_mesh",
    "Verif.c105_surface_quads_partial",
    "Verif.c105_surface_quads_negation"
   ],
   "note": "The points, labels and colours handed to matplotlib are right (c105_surface_mesh), but the rectangles go from bin centre to bin centre and the last bins are missing (c105_surface_quads_partial, c105_surface_quads_negation)."
  },
  {
   "property": "C106",
   "status": "partial",
   "theorems": [
    "Verif.c106_raw_stats",
    "Verif.c106_slice_negation",
    "Verif.c106_penalty_terms_partial",
    "Verif.c106_penalty_terms_negation",
    "Verif.c106_projection_negation"
   ],
   "note": "c106_raw_stats holds in full. Parts of the grid always raise AttributeError (c106_slice_negation), penalty terms by parameter are right for one parameter only (c106_penalty_terms_partial, c106_penalty_terms_negation), projections always raise NameError (c106_projection_negation)."
  },
  {
   "property": "C107",
   "status": "partial",
   "theorems": [
    "Verif.c107_raw_stats_partial",
    "Verif.c107_stats_partial",
    "Verif.c107_lookup_partial",
    "Verif.c107_last_value_negation",
    "Verif.c107_three_negation"
   ],
   "note": "Proved for fits with two parameters, both orders (c107_raw_stats_partial, c107_stats_partial), and for looking up all values but the last (c107_lookup_partial). The last value is looked up in the overflow (c107_last_value_negation); with three or more parameters the plots always raise (c107_three_negation)."
  },
  {
   "property": "C108",
   "status": "partial",
   "theorems": [
    "Verif.c108_one_partial",
    "Verif.c108_two_partial",
    "Verif.c108_two_negation",
    "Verif.c108_single_bin_negation",
    "Verif.c108_before_fit"
   ],
   "note": "c108_one_partial (one dimension, at least two bins), c108_two_partial (two dimensions, the second one horizontal). With the first dimension horizontal the histogram is transposed (c108_two_negation); a single bin raises (c108_single_bin_negation)."
  },
  {
   "property": "C109",
   "status": "partial",
   "theorems": [
    "Verif.c109_fit_partial",
    "Verif.c109_fit_negation",
    "Verif.c109_limit_stats_partial",
    "Verif.c109_limit_stats_negation",
    "Verif.c109_best_fit",
    "Verif.c109_sigma",
    "Verif.c109_sigma_negation",
    "Verif.c109_no_sigma_negation"
   ],
   "note": "c109_best_fit and c109_sigma hold in full for the points drawn; statistics for one parameter or one number per scaling only (c109_fit_partial, c109_limit_stats_partial, c109_fit_negation, c109_limit_stats_negation). plot_sigma_best_fit_vs_scale overwrites the stored best fits (c109_sigma_negation, c109_no_sigma_negation)."
  },
  {
   "property": "C110",
   "status": "partial",
   "theorems": [
    "Verif.c110_linear_partial",
    "Verif.c110_linear_negation",
    "Verif.c110_log_partial",
    "Verif.c110_log_negation",
    "Verif.c110_deviation_negation"
   ],
   "note": "Number and order of the boundaries are right on the linear scale (c110_linear_partial) and for logarithmic ranges above one (c110_log_partial); the lower half of the values is not enclosed (c110_linear_negation), logarithmic ranges from one or below give nan (c110_log_negation), and an even number of bins gives one boundary too few on the deviation scale (c110_deviation_negation)."
  },
  {
   "property": "C111",
   "status": "proved",
   "theorems": [
    "Verif.c111_rebin",
    "Verif.c111_refused"
   ],
   "note": ""
  },
  {
   "property": "C112",
   "status": "proved",
   "theorems": [
    "Verif.c112_shrink",
    "Verif.c112_refused"
   ],
   "note": ""
  },
  {
   "property": "C113",
   "status": "partial",
   "theorems": [
    "Verif.c113_shift_bins",
    "Verif.c113_shift",
    "Verif.c113_shift_saved",
    "Verif.c113_shift_negation",
    "Verif.c113_scale",
    "Verif.c113_scale_saved",
    "Verif.c113_refused"
   ],
   "note": "Whole bins (c113_shift_bins), other shifts (c113_shift, c113_shift_saved), factors (c113_scale, c113_scale_saved) and refusals hold. A shift beyond the axis that is not a whole number of bins saves nan (c113_shift_negation)."
  },
  {
   "property": "C114",
   "status": "partial",
   "theorems": [
    "Verif.c114_weight",
    "Verif.c114_weight_energy",
    "Verif.c114_weight_cells",
    "Verif.c114_random",
    "Verif.c114_random_radial_negation",
    "Verif.c114_refused"
   ],
   "note": "The method weight holds for both scripts (c114_weight, c114_weight_energy, c114_weight_cells), random smearing for a single energy axis (c114_random). dump_smeared.py cannot smear a radius with the method random (c114_random_radial_negation)."
  },
  {
   "property": "C115",
   "status": "partial",
   "theorems": [
    "Verif.c115_input_kept",
    "Verif.c115_distinct",
    "Verif.c115_distinct_shrink",
    "Verif.c115_distinct_scale",
    "Verif.c115_no_extension_negation",
    "Verif.c115_dotted_directory_negation",
    "Verif.c115_bare_name_negation"
   ],
   "note": "c115_input_kept holds in full. Results are kept apart for inputs with an extension (c115_distinct, c115_distinct_shrink, c115_distinct_scale), but not without one (c115_no_extension_negation) or with a dot in the directory only (c115_dotted_directory_negation); bare file names are saved in the root directory (c115_bare_name_negation)."
  },
  {
   "property": "C116",
   "status": "partial",
   "theorems": [
    "Verif.c116_combined",
    "Verif.c116_order",
    "Verif.c116_bipo_last_negation",
    "Verif.c116_refused",
    "Verif.c116_unlabelled_negation",
    "Verif.c116_default_name",
    "Verif.c116_default_name_negation"
   ],
   "note": "c116_combined, c116_order and c116_refused hold. The coincidence cut drops the last entry of each file (c116_bipo_last_negation), a name without mc, mix or reco ruins the output file (c116_unlabelled_negation), and the default name loses its last character without a slash at the end (c116_default_name_negation)."
  },
  {
   "property": "C117",
   "status": "partial",
   "theorems": [
    "Verif.c117_ntuple",
    "Verif.c117_refused",
    "Verif.c117_root_negation",
    "Verif.c117_list_negation",
    "Verif.c117_list"
   ],
   "note": "c117_ntuple, c117_refused and c117_list hold for ntuples. dump_spectra_root.py never saves (c117_root_negation); a text file with one path per line is refused or read as half lives (c117_list_negation)."
  },
  {
   "property": "C118",
   "status": "partial",
   "theorems": [
    "Verif.c118_combine",
    "Verif.c118_order",
    "Verif.c118_refused",
    "Verif.c118_inputs_kept",
    "Verif.c118_overwrites_negation"
   ],
   "note": "c118_combine, c118_order, c118_refused and c118_inputs_kept hold; an input named combined.hdf5 is replaced (c118_overwrites_negation)."
  },
  {
   "property": "C119",
   "status": "partial",
   "theorems": [
    "Verif.c119_smear",
    "Verif.c119_project",
    "Verif.c119_shift_by_bin_partial",
    "Verif.c119_shift_partial",
    "Verif.c119_scale_axis_partial",
    "Verif.c119_negative_negation"
   ],
   "note": "c119_smear and c119_project hold for every number of decays but zero. Shifts and axis scalings need the sign of the decays to be kept and an interpolation that follows multiplied contents (c119_shift_by_bin_partial, c119_shift_partial, c119_scale_axis_partial); negative contents are lost in a shift (c119_negative_negation)."
  },
  {
   "property": "C120",
   "status": "partial",
   "theorems": [
    "Verif.c120_smear",
    "Verif.c120_shift_by_bin",
    "Verif.c120_shift_negation"
   ],
   "note": "c120_smear and c120_shift_by_bin hold. Shifts by other distances are not additive since each spectrum is brought back to its own total (c120_shift_negation)."
  },
  {
   "property": "C121",
   "status": "partial",
   "theorems": [
    "Verif.c121_rebin",
    "Verif.c121_shrink_partial",
    "Verif.c121_projection",
    "Verif.c121_rebin_new",
    "Verif.c121_project_new",
    "Verif.c121_shrink_negation"
   ],
   "note": "c121_rebin, c121_rebin_new, c121_projection and c121_project_new hold for all valid axes; c121_shrink_partial needs aligned axes, without them the shrunk axis is moved (c121_shrink_negation)."
  },
  {
   "property": "C122",
   "status": "proved",
   "theorems": [
    "Verif.c122_scale_shrink",
    "Verif.c122_scale_rebin",
    "Verif.c122_add_shrink",
    "Verif.c122_add_rebin",
    "Verif.c122_shrink_rebin"
   ],
   "note": "c122_shrink_rebin is stated for axes aligned after rebinning and bounds at new bin edges, where C16 says shrinking is exact; the other orders hold without conditions on alignment."
  },
  {
   "property": "C123",
   "status": "partial",
   "theorems": [
    "Verif.c123_limit_found",
    "Verif.c123_no_limit",
    "Verif.c123_given_name_negation",
    "Verif.c123_spectra_negation"
   ],
   "note": "c123_limit_found and c123_no_limit hold without stored spectra. When no limit is found the given file name is ignored (c123_given_name_negation). With store_spectra get_limit never returns a limit: store.dump has no keyword group_name (c123_spectra_negation). store_fits is not modelled here."
  },
  {
   "property": "C124",
   "status": "partial",
   "theorems": [
    "Verif.c124_bounds_partial",
    "Verif.c124_fitted_partial",
    "Verif.c124_never_ends_negation",
    "Verif.c124_direction_negation",
    "Verif.c124_two_axes_negation",
    "Verif.c124_second_call_negation"
   ],
   "note": "c124_fitted_partial and c124_bounds_partial hold for spectra with one axis. The bounds go the other way than the script says (c124_direction_negation). With two axes of several bins it raises ValueError (c124_two_axes_negation). It never gets to a limit: Fit has no get_fit_results (c124_never_ends_negation). The default lists survive a call, so a second one fits what the first left behind (c124_second_call_negation)."
  },
  {
   "property": "C125",
   "status": "partial",
   "theorems": [
    "Verif.c125_fill_partial",
    "Verif.c125_refused",
    "Verif.c125_from_zero",
    "Verif.c125_index_negation"
   ],
   "note": "c125_fill_partial: all but the last sentence. Which points in range are refused with IndexError is said exactly by c125_refused; none on axes that start at zero (c125_from_zero); the float just below 6000 on an axis from -6000 to 6000 is one (c125_index_negation)."
  },
  {
   "property": "C126",
   "status": "proved",
   "theorems": [
    "Verif.c126_exact",
    "Verif.c126_order",
    "Verif.c126_sum"
   ],
   "note": "Within rounding errors of a bin edge C125 says what happens."
  },
  {
   "property": "C127",
   "status": "proved",
   "theorems": [
    "Verif.c127_shrink"
   ],
   "note": "The tolerance check of the bounds (numpy.allclose) is taken as exact. Axes that do not start at a whole number of widths: C16, C17."
  },
  {
   "property": "C128",
   "status": "proved",
   "theorems": [
    "Verif.c128_centre",
    "Verif.c128_get_bin",
    "Verif.c128_centres",
    "Verif.c128_boundaries",
    "Verif.c128_fill_centre"
   ],
   "note": "Near an edge get_bin may be off by one bin; C125 bounds the same error for fill."
  },
  {
   "property": "C129",
   "status": "partial",
   "theorems": [
    "Verif.c129_scale",
    "Verif.c129_order",
    "Verif.c129_same",
    "Verif.c129_back_partial",
    "Verif.c129_back_negation"
   ],
   "note": "There and back holds up to 5 times the machine precision (c129_back_partial), not exactly: 49 decays scaled to 1 and back (c129_back_negation)."
  },
  {
   "property": "C130",
   "status": "proved",
   "theorems": [
    "Verif.c130_merge",
    "Verif.c130_conditions_needed",
    "Verif.c130_rebin",
    "Verif.c130_project",
    "Verif.c130_single_bin"
   ],
   "note": "c130_conditions_needed shows that the conditions cannot be dropped."
  },
  {
   "property": "C131",
   "status": "proved",
   "theorems": [
    "Verif.c131_exposure",
    "Verif.c131_likelihood",
    "Verif.c131_spectra"
   ],
   "note": "Floats are exact numbers here."
  },
  {
   "property": "C132",
   "status": "proved",
   "theorems": [
    "Verif.c132_convex",
    "Verif.c132_above",
    "Verif.c132_limit",
    "Verif.c132_finer",
    "Verif.c132_fit"
   ],
   "note": "Supposes, beside what C130 supposes of the contents, that the tested scalings are converted exactly (those close to zero are zero). c132_fit is for fits without parameters; with floating backgrounds the profile over a grid need not be convex."
  },
  {
   "property": "C133",
   "status": "partial",
   "theorems": [
    "Verif.c133_closure_partial",
    "Verif.c133_rates_partial",
    "Verif.c133_one_sided_partial",
    "Verif.c133_one_sided_negation"
   ],
   "note": "Partial: the suppositions of C62 (rates not zero), contents at or above the zero threshold. With the one-sided statistic the truth is not always found (c133_one_sided_negation): the fit reports the first combination with the priors that expects nowhere more than observed (c133_one_sided_partial). That the fit returns is proved for fits of rates, supposed (C93) with global parameters."
  },
  {
   "property": "C134",
   "status": "partial",
   "theorems": [
    "Verif.c134_contents_partial",
    "Verif.c134_tighter_partial",
    "Verif.c134_more_values_partial"
   ],
   "note": "Partial: the suppositions of C62 (rates not zero, evaluations succeed)."
  },
  {
   "property": "C135",
   "status": "proved",
   "theorems": [
    "Verif.c135_project",
    "Verif.c135_nd_project",
    "Verif.c135_surface",
    "Verif.c135_counts",
    "Verif.c135_rebin",
    "Verif.c135_sum",
    "Verif.c135_add",
    "Verif.c135_add_comm",
    "Verif.c135_add_more",
    "Verif.c135_efficiency"
   ],
   "note": "No overflow, underflow or nan. The efficiency supposes bounds at bin edges as in C127."
  },
  {
   "property": "C136",
   "status": "partial",
   "theorems": [
    "Verif.c136_evaluate_partial",
    "Verif.c136_fit_partial",
    "Verif.c136_names_negation"
   ],
   "note": "Fails for two backgrounds with the same background name: both are given the spectrum of the first (c136_names_negation). Otherwise under the suppositions of C62. Sums are exact here: with rounding the order can matter within the bounds of C135."
  },
  {
   "property": "C137",
   "status": "partial",
   "theorems": [
    "Verif.c137_best_partial",
    "Verif.c137_ready_partial",
    "Verif.c137_contents_partial",
    "Verif.c137_fit_partial",
    "Verif.c137_fixed_partial"
   ],
   "note": "Under the suppositions of C62 (different background names, same axes as the data, rates not zero) and C99 (axes start at a multiple of their bin width). The formula for the contents is for fits without global parameters; with them C91 applies to the fit of c137_ready_partial. At most one axis is projected out (C11)."
  },
  {
   "property": "C138",
   "status": "proved",
   "theorems": [
    "Verif.c138_rebin",
    "Verif.c138_shrink_edges",
    "Verif.c138_smear",
    "Verif.c138_smear_left_out",
    "Verif.c138_shift_by_bin",
    "Verif.c138_add"
   ],
   "note": "nd_project leaving out at most one axis (C11), surface on at most three axes (C12); cuts on axes that start at a multiple of their bin width (C17) with at least one bin left; smearing along an axis left out under the suppositions of C32; spectra that are added have the same parameter names."
  },
  {
   "property": "C139",
   "status": "partial",
   "theorems": [
    "Verif.c139_shift_partial",
    "Verif.c139_accepted",
    "Verif.c139_multiples",
    "Verif.c139_refused_negation"
   ],
   "note": "No overflow, underflow or nan; numpy.isclose taken as exact. The code violates the last sentence: the float nearest to a multiple of the width can lie just below the multiple of the rounded width, and its remainder is then almost a whole bin (0.3 % 0.1 on ten bins from 0 to 1), see c139_refused_negation; c139_accepted says which shifts up are accepted, c139_multiples that exact multiples of the rounded width are, up and down."
  },
  {
   "property": "C140",
   "status": "partial",
   "theorems": [
    "Verif.c140_cells_partial",
    "Verif.c140_conserved_partial",
    "Verif.c140_raises_negation",
    "Verif.c140_last_bin_negation"
   ],
   "note": "No overflow, underflow or nan. The code violates the claim: on an axis whose lower edge is half a bin off a whole number of bins (five bins from 3 to 9), numpy.arange can yield one point too many, which lies beyond the axis, and smearing raises (c140_raises_negation). On axes whose lower edge is a whole number of bins it is proved (c140_cells_partial, c140_conserved_partial; conservation under the condition of C32 at the last bin). There the additional point of numpy.arange makes the difference whether the last bin takes part: unlike with exact numbers (c32_last_bin_empty) it may (c140_last_bin_negation)."
  },
  {
   "property": "C141",
   "status": "partial",
   "theorems": [
    "Verif.c141_values",
    "Verif.c141_contents_partial",
    "Verif.c141_separate_partial",
    "Verif.c141_shared_negation",
    "Verif.c141_wrong_bin_negation"
   ],
   "note": "The code violates the claim: a shifted, scaled or smeared spectrum, and spectra constructed with the same configuration object, share the configuration. Cutting or rebinning one changes the axes of all of them, while their histograms stay as they are: the other spectrum then has axes that do not fit its histogram, cannot be added to a copy of itself (c141_shared_negation) and counts further events in the wrong bins (c141_wrong_bin_negation). Proved: the contents, the name, the decays and the number of events are independent (c141_contents_partial), and spectra with different configurations, such as those from different files, are entirely independent (c141_separate_partial). Results with contents that are not finite are left out; `_style` and `_fit_config`, which are only replaced, are not part of the model."
  },
  {
   "property": "C142",
   "status": "partial",
   "theorems": [
    "Verif.c142_counts_partial",
    "Verif.c142_activity_negation",
    "Verif.c142_half_life_negation",
    "Verif.c142_light_yield_partial",
    "Verif.c142_light_yield_negation",
    "Verif.c142_penalty_partial",
    "Verif.c142_penalty_negation"
   ],
   "note": "The code violates the claim, being python 2: a quotient of two integers is rounded down. For whole counts and a whole livetime the activity is the integer part of the quotient (c142_activity_negation), the half-life is too long unless the livetime divides the counts, and if the counts are fewer than the years there is a division by zero (c142_half_life_negation). A new smearing object has the integer 200 as light yield (c142_light_yield_negation). The penalty terms of BakerCousinsLL, Neyman, Pearson and ExtendedLL round the number of sigmas down (c142_penalty_negation). Proved: with one float in the right place, and always for the two Baker-Cousins chi-squared penalties, the values are right (\u2026_partial)."
  },
  {
   "property": "C143",
   "status": "partial",
   "theorems": [
    "Verif.c143_same_partial",
    "Verif.c143_likelihood_negation",
    "Verif.c143_chi_squared_negation",
    "Verif.c143_empty_negation"
   ],
   "note": "The code violates the claim: for two arrays of integers Pearson and Neyman round the value of every bin down (c143_chi_squared_negation) and BakerCousinsLL is not finite as soon as one bin has fewer events than expected, but some (c143_likelihood_negation). Proved for BakerCousinsChi, BakerCousinsChiUp and ExtendedLL always, for Pearson and BakerCousinsLL if the expected, for Neyman if the observed array holds floats (c143_same_partial). Overflow of 64-bit integers is not modelled; changes of the caller's arrays (C40) are modelled only for floats."
  },
  {
   "property": "C144",
   "status": "partial",
   "theorems": [
    "Verif.c144_region_partial",
    "Verif.c144_recovers_partial"
   ],
   "note": "Proved from the arguments of the constructor to the reported best fit, for data that are the sum in the region (c144_region_partial) or in their whole range (c144_recovers_partial). Partial for the suppositions of C62 (texts of values without underscore, different background names), C99 (bounds on bin edges) and C11 (at most one axis outside the region). There are no global parameters, and the grid search has the values the rates have (in the code the same objects)."
  },
  {
   "property": "C145",
   "status": "partial",
   "theorems": [
    "Verif.c145_counts",
    "Verif.c145_half_life",
    "Verif.c145_mass",
    "Verif.c145_refused_partial",
    "Verif.c145_mass_negation",
    "Verif.c145_half_life_negation",
    "Verif.c145_per_bin"
   ],
   "note": "Proved for the three graphs of ROOT and the plot of matplotlib against counts. Violated by the other two plots of matplotlib: because `converter is None and half_life or effective_mass` binds the wrong way the plot against mass is refused also with a converter (c145_mass_negation), and the plot against half-life calls append on an array (c145_half_life_negation)."
  },
  {
   "property": "C146",
   "status": "partial",
   "theorems": [
    "Verif.c146_map",
    "Verif.c146_turn_on",
    "Verif.c146_turn_on_negation",
    "Verif.c146_push_pull",
    "Verif.c146_save_negation"
   ],
   "note": "Proved for the three maps. Violated twice: turn_on silently subtracts nothing for counts that have no chi-squared without floating (c146_turn_on_negation), and saving the plot of the penalty is a NameError (c146_save_negation)."
  },
  {
   "property": "C147",
   "status": "partial",
   "theorems": [
    "Verif.c147_floating_partial",
    "Verif.c147_counting_partial",
    "Verif.c147_excluded_partial"
   ],
   "note": "From the arguments of both constructors to the limit, for fits without floating backgrounds and for grid searches over one rate for each floating background. Partial: the suppositions of C99 and C62 (cut at bin edges, spectra of their own), at most one axis is projected out (C11), no global parameters; values of rates are not rounded; exclusion between the tested scalings needs scalings that are not rounded, zero as the only one close to zero, and no floating backgrounds."
  },
  {
   "property": "C148",
   "status": "proved",
   "theorems": [
    "Verif.c148_chi_squared",
    "Verif.c148_penalty",
    "Verif.c148_best"
   ],
   "note": "Every operation is followed by a rounding; no overflow or underflow, x**2 is the rounded product of x with itself."
  },
  {
   "property": "C149",
   "status": "partial",
   "theorems": [
    "Verif.c149_accuracy",
    "Verif.c149_agreement",
    "Verif.c149_best",
    "Verif.c149_bins",
    "Verif.c149_sign_negation"
   ],
   "note": "Violated: where data and expectation nearly agree, the computed Baker-Cousins statistics are negative (python's floats, one bin with 1.5 expected and 1.5 + 2^-51 observed). Proved: the error bounds, exact zeros on agreement, per-bin values, choices. As in C148 without overflow and underflow; per-bin values of BakerCousinsChiUp are the subject of C36."
  },
  {
   "property": "C150",
   "status": "partial",
   "theorems": [
    "Verif.c150_expected_partial",
    "Verif.c150_history_partial",
    "Verif.c150_same_as_convolving_partial",
    "Verif.c150_file_partial",
    "Verif.c150_missing_partial",
    "Verif.c150_zero_negation",
    "Verif.c150_bare_name_negation",
    "Verif.c150_slash_negation",
    "Verif.c150_set_dir_negation"
   ],
   "note": "Violated: after a zero rate the next evaluation at the same values raises ZeroDivisionError; for a spectrum loaded by a bare file name the files are looked for under the root directory; a base directory without a slash at its end is glued to the name of the dimension; set_pre_made_dir has no effect. Proved without these, for different background names, one rate per background, and (files) parameters of one dimension and different kinds; the remaining failures of the file names are those of C61."
  },
  {
   "property": "C151",
   "status": "partial",
   "theorems": [
    "Verif.c151_data_partial",
    "Verif.c151_contents_partial",
    "Verif.c151_finds_partial",
    "Verif.c151_no_fixed_negation",
    "Verif.c151_zero_prior_negation"
   ],
   "note": "Violated: without fixed background the study raises AttributeError; if the prior of the first rate is zero, every evaluation after the study raises ZeroDivisionError. Proved without these, under the suppositions of C62 and C99, with at most one axis projected out."
  },
  {
   "property": "C152",
   "status": "partial",
   "theorems": [
    "Verif.c152_limit_partial",
    "Verif.c152_expected_partial"
   ],
   "note": "Under the suppositions of C147 (C62 and C99, at most one axis projected out, values of the rates not rounded); no fit between study and limit."
  },
  {
   "property": "C153",
   "status": "partial",
   "theorems": [
    "Verif.c153_fit_partial",
    "Verif.c153_counting_partial",
    "Verif.c153_floating_partial"
   ],
   "note": "Under the suppositions of C62, C99 and C137/C147 (one rate for every background, at most one axis projected out, values of the rates not rounded). A signal given to fit() is taken as it is, so it is not among the scaled spectra there."
  },
  {
   "property": "C154",
   "status": "partial",
   "theorems": [
    "Verif.c154_exposure_partial",
    "Verif.c154_efficiency_counting_partial",
    "Verif.c154_efficiency_floating_partial"
   ],
   "note": "Under the suppositions of C99 and C147 (at most one axis projected out; scalings and rates not rounded). For the exposure: no floating backgrounds, and contents that count at the tested scalings and at 0 before and after (C131)."
  },
  {
   "property": "C155",
   "status": "partial",
   "theorems": [
    "Verif.c155_found",
    "Verif.c155_none",
    "Verif.c155_first_partial",
    "Verif.c155_results_negation",
    "Verif.c155_message_negation",
    "Verif.c155_sigma_negation"
   ],
   "note": "For parameters with a sigma, true when the lowest statistic is that of the first scaling (c155_first_partial). Otherwise the results shown are those of a smaller scaling (c155_results_negation; c155_found and c155_none say which), and the message gives a number of decays in place of the threshold (c155_message_negation). With a parameter without sigma there is no summary and no limit but a TypeError (c155_sigma_negation). A prior of None, which cannot be formatted either, is not considered."
  },
  {
   "property": "C156",
   "status": "partial",
   "theorems": [
    "Verif.c156_best_partial",
    "Verif.c156_recovers_partial"
   ],
   "note": "Under the suppositions of C62 and C99: the spectra have the axes of the data, different background names and one rate each, texts of different values are different, no rate is zero, values are not rounded. At most one axis is projected out (C11). That of several global parameters only the last is applied to the signal is what the code does (c91_signal_negation), and is stated so."
  },
  {
   "property": "C157",
   "status": "partial",
   "theorems": [
    "Verif.c157_neighbour_partial",
    "Verif.c157_which",
    "Verif.c157_nearest_negation",
    "Verif.c157_above",
    "Verif.c157_below_negation",
    "Verif.c157_log_negation"
   ],
   "note": "Holds within the ranges of equally spaced parameters, where the nearer or the farther neighbour may be taken (c157_which, c157_nearest_negation), and values above the range are refused. Values below the range are answered from the upper end, and for values that are not equally spaced, such as logarithmic ones, the value taken can be far away (negations). With python 2 integers the division would be a floor division; all numbers are reals here."
  },
  {
   "property": "C158",
   "status": "proved",
   "theorems": [
    "Verif.c158_whole",
    "Verif.c158_point_by_point"
   ],
   "note": "For grids whose arrays have the shapes of a newly made one; after reset_grids without statistics per bin they do not (C75)."
  },
  {
   "property": "C159",
   "status": "partial",
   "theorems": [
    "Verif.c159_limit_partial"
   ],
   "note": "The suppositions of C99 and C62 (cut at bin edges, spectra of their own, texts of different values are different); at most one axis is projected out (C11); the values of the grid are not rounded; with global parameters interpolations follow contents multiplied by a positive number (as interpolating splines do), and the decays of the signal and the scalings are positive, as supposed for C100."
  },
  {
   "property": "C160",
   "status": "partial",
   "theorems": [
    "Verif.c160_between_partial",
    "Verif.c160_stronger_negation"
   ],
   "note": "c160_between_partial has the suppositions of C147, and the tested values are not rounded; every bin is above the threshold below which the statistics replace contents, as for C132. c160_stronger_negation is a grid with steps so coarse that a stronger signal is allowed at a value of the grid although the limit is not."
  },
  {
   "property": "C161",
   "status": "partial",
   "theorems": [
    "Verif.c161_all_fit_partial",
    "Verif.c161_all_better_partial",
    "Verif.c161_fit_partial",
    "Verif.c161_better_partial",
    "Verif.c161_limit_partial",
    "Verif.c161_all_partial"
   ],
   "note": "Under the suppositions of C62 and C99, with at most one axis projected out, values of the rates not rounded. For limits the penalty matters because the code compares statistic plus penalty with the statistic alone of the best fit without signal (C147)."
  },
  {
   "property": "C162",
   "status": "partial",
   "theorems": [
    "Verif.c162_fit_partial",
    "Verif.c162_counting_partial",
    "Verif.c162_floating_partial",
    "Verif.c162_cut_fit_partial",
    "Verif.c162_cut_counting_partial",
    "Verif.c162_cut_floating_partial"
   ],
   "note": "Under the suppositions of C62 and C99, with at most one axis projected out and values of the rates not rounded. For the cut before, the bounds are bin edges of aligned axes and the dimensions cut are among those of the region; off the edges shrink itself keeps other bins (C19)."
  },
  {
   "property": "C163",
   "status": "partial",
   "theorems": [
    "Verif.c163_floating_fit_partial",
    "Verif.c163_floating_limit_partial",
    "Verif.c163_fixed_fit_partial",
    "Verif.c163_fixed_limit_partial",
    "Verif.c163_fixed_counting_partial",
    "Verif.c163_signal_counting_partial",
    "Verif.c163_signal_floating_partial",
    "Verif.c163_signal_negation"
   ],
   "note": "Under the suppositions of C62 and C99, with at most one axis projected out, values of the rates not rounded, and another floating background beside the one that is left out. With floating backgrounds, a signal that holds nothing in the region has no limit when the penalty of the best fit does not exceed the threshold; otherwise the smallest tested scaling is reported as limit (c163_signal_floating_partial, and c163_signal_negation for a case), because get_limit compares statistic plus penalty with the statistic alone (C147)."
  },
  {
   "property": "C164",
   "status": "partial",
   "theorems": [
    "Verif.c164_state",
    "Verif.c164_levels",
    "Verif.c164_sequence_partial"
   ],
   "note": "State and order of the limits for every fit, state and threshold (c164_state, c164_levels). That limits at thresholds taken one after another, with other calls between, are those of one call on a new object holds under the suppositions of C100 (c164_sequence_partial)."
  },
  {
   "property": "C165",
   "status": "partial",
   "theorems": [
    "Verif.c165_lists_partial",
    "Verif.c165_expected_partial"
   ],
   "note": "c165_lists_partial: for fits without floating backgrounds, under the suppositions of C147: at most one axis projected out, scalings that are not rounded, predictions for which the statistic is defined, and in each list a scaling that is not excluded. c165_expected_partial: under the suppositions of C152 (data that hold nothing in the region, expected background at or above the zero threshold, not the extended likelihood), with 0 in both lists."
  },
  {
   "property": "C166",
   "status": "partial",
   "theorems": [
    "Verif.c166_fit_partial",
    "Verif.c166_limit_partial",
    "Verif.c166_counting_partial",
    "Verif.c166_combined"
   ],
   "note": "Under the suppositions of C62 and C99 for both collections, with at most one axis projected out and values of the rates not rounded. c166_combined holds for every list of spectra that scale and add accept. Arithmetic is exact (the effect of rounding when scaling and adding is bounded in C129 and C135)."
  },
  {
   "property": "C167",
   "status": "partial",
   "theorems": [
    "Verif.c167_fit_partial",
    "Verif.c167_counting_partial",
    "Verif.c167_floating_partial",
    "Verif.c167_rebinned_fit_partial",
    "Verif.c167_rebinned_counting_partial",
    "Verif.c167_rebinned_floating_partial"
   ],
   "note": "Under the suppositions of C62 and C99, with at most one axis projected out and values of the rates not rounded; the bounds of the region are edges of bins in both binnings. Arithmetic is exact."
  },
  {
   "property": "C168",
   "status": "partial",
   "theorems": [
    "Verif.c168_observed",
    "Verif.c168_background",
    "Verif.c168_events_partial",
    "Verif.c168_backgrounds_partial",
    "Verif.c168_signals_partial",
    "Verif.c168_floating_negation"
   ],
   "note": "The comparison of statistics is proved for all observations and expectations (for the one-sided statistic, and for more background, where contents count). Limits under the suppositions of C147: at most one axis projected out, scalings that are not rounded; for more signal zero must be one of the scalings and the threshold not negative. With floating backgrounds the first part is false; the negation is a program whose limit falls from 10 to 4 when there are more events in a bin without signal."
  },
  {
   "property": "C169",
   "status": "partial",
   "theorems": [
    "Verif.c169_partial",
    "Verif.c169_negation"
   ],
   "note": "Proved under the suppositions of C147 (at most one axis projected out, values of rates and scalings not rounded); the contents at the best rates must count for the statistic. The negation is a program with penalty 1 whose limit is 4 with floating and 10 with fixed backgrounds."
  },
  {
   "property": "C170",
   "status": "partial",
   "theorems": [
    "Verif.c170_fit_partial",
    "Verif.c170_limit_partial",
    "Verif.c170_counting_partial",
    "Verif.c170_extended_partial",
    "Verif.c170_extended_counting_partial",
    "Verif.c170_extended_negation"
   ],
   "note": "Proved under the suppositions of C147 (at most one axis projected out, values of rates and scalings not rounded), with and without floating backgrounds. The extended likelihood: without sigmas, events observed none or not below the zero threshold, expectations not below it, a signal that is not negative. The negation is a program whose limit is 4 with the one likelihood and 0 with the other."
  },
  {
   "property": "C171",
   "status": "partial",
   "theorems": [
    "Verif.c171_merged_partial",
    "Verif.c171_single_partial",
    "Verif.c171_fit_partial",
    "Verif.c171_observed_negation"
   ],
   "note": "Limits: proved for fixed backgrounds under the suppositions of C168, all six statistics, for arbitrary groups of bins and for single_bin. Fits: proved with floating backgrounds under the suppositions of C137, where contents count in every bin for all rates of the grid. The negation is a program whose limit is 4 with single_bin and 10 bin by bin."
  },
  {
   "property": "C172",
   "status": "partial",
   "theorems": [
    "Verif.c172_limit_partial",
    "Verif.c172_floating_negation"
   ],
   "note": "Proved for fixed backgrounds under the suppositions of C168 on the constructors (at most one axis projected out, scalings not rounded), for arbitrary contents and all six statistics. The negation is the program of C168 with two floating backgrounds."
  },
  {
   "property": "C173",
   "status": "partial",
   "theorems": [
    "Verif.c173_background_partial",
    "Verif.c173_signal_partial",
    "Verif.c173_exposure_partial",
    "Verif.c173_floating_negation",
    "Verif.c173_exposure_floating_partial"
   ],
   "note": "Proved for fixed backgrounds under the suppositions of C168 on the constructors; the background is at or above the zero threshold in every bin and the signal is not negative. With floating backgrounds the statement about signal is false (c173_floating_negation): one more bin with signal makes the limit disappear. The statement about exposure holds with floating backgrounds too (c173_exposure_floating_partial), under the suppositions of C152."
  },
  {
   "property": "C174",
   "status": "partial",
   "theorems": [
    "Verif.c174_reached_partial",
    "Verif.c174_floating_partial",
    "Verif.c174_study_partial"
   ],
   "note": "Proved for fixed backgrounds under the suppositions of C168 on the constructors, for floating ones under those of C147, and after the sensitivity study under those of C152; the tested scalings are not rounded, and zero is the only one close to zero."
  },
  {
   "property": "C175",
   "status": "partial",
   "theorems": [
    "Verif.c175_looser_partial",
    "Verif.c175_fixing_partial"
   ],
   "note": "Proved under the suppositions of C152 for both programs (data that hold nothing in the region, expected background at or above the zero threshold, not the extended likelihood, no fit between study and limit). For a background fixed at its prior another one must float."
  }
 ]
}