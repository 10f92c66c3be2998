{
 "claims": [
  {
   "property": "C01",
   "status": "proved",
   "theorems": [
    "Rascal.C01_filter_wavelengths",
    "Rascal.C01_wavelength_mem"
   ],
   "note": ""
  },
  {
   "property": "C02",
   "status": "proved",
   "theorems": [
    "Rascal.C02_filter_separation"
   ],
   "note": ""
  },
  {
   "property": "C03",
   "status": "partial",
   "theorems": [
    "Rascal.C03_refuted",
    "Rascal.C03_degenerate_partial"
   ],
   "note": "Refuted: filter_separation drops a lone line for every positive threshold and raises IndexError on an empty list; the partial theorem gives the exact behaviour."
  },
  {
   "property": "C04",
   "status": "proved",
   "theorems": [
    "Rascal.C04_mask",
    "Rascal.C04_error"
   ],
   "note": ""
  },
  {
   "property": "C05",
   "status": "proved",
   "theorems": [
    "Rascal.C05_load_exact"
   ],
   "note": ""
  },
  {
   "property": "C06",
   "status": "proved",
   "theorems": [
    "Rascal.C06_brightest"
   ],
   "note": ""
  },
  {
   "property": "C07",
   "status": "partial",
   "theorems": [
    "Rascal.C07_brightest_partial",
    "Rascal.C07_refuted",
    "Rascal.C07_min_distance_partial"
   ],
   "note": "Refuted with brightest_n_lines (lines are re-ordered by brightness before neighbours are compared); proved without it. With it, C07_brightest_partial: an isolated line is always returned, and each returned line is at least min_distance from some other one (but not from all)."
  },
  {
   "property": "C08",
   "status": "proved",
   "theorems": [
    "Rascal.C08_aligned"
   ],
   "note": ""
  },
  {
   "property": "C09",
   "status": "proved",
   "theorems": [
    "Rascal.C09_air_limits",
    "Rascal.C09_air_complete"
   ],
   "note": ""
  },
  {
   "property": "C10",
   "status": "proved",
   "theorems": [
    "Rascal.C10_vacuum_to_air",
    "Rascal.C10_list"
   ],
   "note": ""
  },
  {
   "property": "C11",
   "status": "proved",
   "theorems": [
    "Rascal.C11_air_to_vacuum"
   ],
   "note": ""
  },
  {
   "property": "C12",
   "status": "proved",
   "theorems": [
    "Rascal.C12_round_trip",
    "Rascal.C12_not_exact"
   ],
   "note": ""
  },
  {
   "property": "C13",
   "status": "proved",
   "theorems": [
    "Rascal.C13_index_ge_one",
    "Rascal.C13_pressure",
    "Rascal.C13_no_air"
   ],
   "note": ""
  },
  {
   "property": "C14",
   "status": "partial",
   "theorems": [
    "Rascal.C14_refuted",
    "Rascal.C14_kelvin_partial",
    "Rascal.C14_defined_partial",
    "Rascal.C14_humidity_partial"
   ],
   "note": "Refuted: the conversions pass Celsius to a formula for Kelvin; the value falls from 0 to 20 Celsius. Partial: NIST formula in Kelvin, well-definedness and bounds over the Celsius range used, proportionality to humidity."
  },
  {
   "property": "C15",
   "status": "proved",
   "theorems": [
    "Rascal.C15_dark",
    "Rascal.C15_positions",
    "Rascal.C15_errors",
    "Rascal.C15_inside"
   ],
   "note": ""
  },
  {
   "property": "C16",
   "status": "partial",
   "theorems": [
    "Rascal.C16_refuted",
    "Rascal.C16_unique_partial"
   ],
   "note": "Refuted: only neighbours in the list are compared. Proved when the fitted positions come in increasing order."
  },
  {
   "property": "C17",
   "status": "partial",
   "theorems": [
    "Rascal.C17_window",
    "Rascal.C17_refuted",
    "Rascal.C17_centre_partial",
    "Rascal.C17_normalised"
   ],
   "note": "`C17_normalised` says what the fit is given, infinite and nan samples included."
  },
  {
   "property": "C18",
   "status": "partial",
   "theorems": [
    "Rascal.C18_refuted",
    "Rascal.C18_independent_partial"
   ],
   "note": "Refuted: windows are normalised in place, so overlapping windows interfere. Proved for peaks at least 2*window_width+1 apart."
  },
  {
   "property": "C19",
   "status": "proved",
   "theorems": [
    "Rascal.C19_polynomial",
    "Rascal.C19_residuals"
   ],
   "note": ""
  },
  {
   "property": "C20",
   "status": "proved",
   "theorems": [
    "Rascal.C20_derivative"
   ],
   "note": ""
  },
  {
   "property": "C21",
   "status": "proved",
   "theorems": [
    "Rascal.C21_denormalisation",
    "Rascal.C21_error"
   ],
   "note": ""
  },
  {
   "property": "C22",
   "status": "proved",
   "theorems": [
    "Rascal.C22_optimal",
    "Rascal.C22_exact_recovery"
   ],
   "note": ""
  },
  {
   "property": "C23",
   "status": "partial",
   "theorems": [
    "Rascal.C23_refuted",
    "Rascal.C23_start_partial"
   ],
   "note": "Refuted: a non-constant x0 is used un-normalised; the partial theorem gives the case that works."
  },
  {
   "property": "C24",
   "status": "proved",
   "theorems": [
    "Rascal.C24_points",
    "Rascal.C24_points_failure"
   ],
   "note": ""
  },
  {
   "property": "C25",
   "status": "proved",
   "theorems": [
    "Rascal.C25_slope_grid"
   ],
   "note": ""
  },
  {
   "property": "C26",
   "status": "proved",
   "theorems": [
    "Rascal.C26_brute_force",
    "Rascal.C26_lines_through_points"
   ],
   "note": ""
  },
  {
   "property": "C27",
   "status": "proved",
   "theorems": [
    "Rascal.C27_add",
    "Rascal.C27_history",
    "Rascal.C27_error_unchanged"
   ],
   "note": ""
  },
  {
   "property": "C28",
   "status": "proved",
   "theorems": [
    "Rascal.C28_bin_counts"
   ],
   "note": ""
  },
  {
   "property": "C29",
   "status": "proved",
   "theorems": [
    "Rascal.C29_lines_ranked"
   ],
   "note": ""
  },
  {
   "property": "C30",
   "status": "proved",
   "theorems": [
    "Rascal.C30_half_bin"
   ],
   "note": ""
  },
  {
   "property": "C31",
   "status": "proved",
   "theorems": [
    "Rascal.C31_constraints",
    "Rascal.C31_history"
   ],
   "note": ""
  },
  {
   "property": "C32",
   "status": "partial",
   "theorems": [
    "Rascal.C32_refuted",
    "Rascal.C32_npy_partial",
    "Rascal.C32_json_partial"
   ],
   "note": "Refuted: the name given to save is not always the name load finds / the format loses content; proved for npy and json with a well-formed extensionless name."
  },
  {
   "property": "C33",
   "status": "partial",
   "theorems": [
    "Rascal.C33_refuted",
    "Rascal.C33_npy_partial",
    "Rascal.C33_json_add_partial"
   ],
   "note": "Refuted for json (lists instead of arrays); proved for npy and for the json operations that do work."
  },
  {
   "property": "C34",
   "status": "proved",
   "theorems": [
    "Rascal.C34_save",
    "Rascal.C34_save_joined",
    "Rascal.C34_save_frame"
   ],
   "note": ""
  },
  {
   "property": "C35",
   "status": "proved",
   "theorems": [
    "Rascal.C35_load_errors",
    "Rascal.C35_only_reads"
   ],
   "note": ""
  },
  {
   "property": "C36",
   "status": "proved",
   "theorems": [
    "Rascal.C36_set_limit",
    "Rascal.C36_ordered"
   ],
   "note": ""
  },
  {
   "property": "C37",
   "status": "proved",
   "theorems": [
    "Rascal.C37_filter",
    "Rascal.C37_strict"
   ],
   "note": ""
  },
  {
   "property": "C38",
   "status": "partial",
   "theorems": [
    "Rascal.C38_refuted",
    "Rascal.C38_high_degree_partial",
    "Rascal.C38_linear_partial"
   ],
   "note": "Refuted for a linear model (the inverse of degree-one models is computed wrongly); proved for higher degree relative to the inverter contract."
  },
  {
   "property": "C39",
   "status": "partial",
   "theorems": [
    "Rascal.C39_refuted",
    "Rascal.C39_high_degree_partial",
    "Rascal.C39_linear_stale_partial"
   ],
   "note": "Refuted: set_model keeps a stale model in the linear case; proved for the other case."
  },
  {
   "property": "C40",
   "status": "proved",
   "theorems": [
    "Rascal.C40_history"
   ],
   "note": ""
  },
  {
   "property": "C41",
   "status": "partial",
   "theorems": [
    "Rascal.C41_refuted",
    "Rascal.C41_remove_partial",
    "Rascal.C41_repeat_partial",
    "Rascal.C41_count_partial",
    "Rascal.C41_apart_partial",
    "Rascal.C41_calls_partial"
   ],
   "note": "C41_apart_partial: one call is right if the lines are at least twice the tolerance apart, in any order. C41_count_partial: n calls are enough if fewer than 2^n lines are in range; for lines in order of wavelength only then."
  },
  {
   "property": "C42",
   "status": "proved",
   "theorems": [
    "Rascal.C42_add_user"
   ],
   "note": ""
  },
  {
   "property": "C43",
   "status": "partial",
   "theorems": [
    "Rascal.C43_refuted",
    "Rascal.C43_add_failure_partial",
    "Rascal.C43_single_partial"
   ],
   "note": "Refuted: elements loaded before the failing one stay in the atlas. Exact effect of failure proved; single-element requests are all-or-nothing."
  },
  {
   "property": "C44",
   "status": "proved",
   "theorems": [
    "Rascal.C44_add",
    "Rascal.C44_no_elements"
   ],
   "note": ""
  },
  {
   "property": "C45",
   "status": "proved",
   "theorems": [
    "Rascal.C45_settings_persist"
   ],
   "note": ""
  },
  {
   "property": "C46",
   "status": "proved",
   "theorems": [
    "Rascal.C46_session_thresholds",
    "Rascal.C46_thresholds",
    "Rascal.C46_invalid_rejected"
   ],
   "note": ""
  },
  {
   "property": "C47",
   "status": "partial",
   "theorems": [
    "Rascal.C47_session_intercepts",
    "Rascal.C47_intercepts",
    "Rascal.C47_slopes_partial",
    "Rascal.C47_refuted"
   ],
   "note": "intercepts proved in full; slopes refuted: a pixel_list given later leaves the slope bounds of the old range; proved: they match after set_hough_properties until the pixel list is replaced"
  },
  {
   "property": "C48",
   "status": "partial",
   "theorems": [
    "Rascal.C48_refuted",
    "Rascal.C48_pixels_partial"
   ],
   "note": "refuted: num_pix alone keeps the pixel list of the constructor; proved: constructor with a spectrum, explicit pixel_list"
  },
  {
   "property": "C49",
   "status": "partial",
   "theorems": [
    "Rascal.C49_max_slope",
    "Rascal.C49_min_slope_partial",
    "Rascal.C49_refuted"
   ],
   "note": "upper bound proved; lower bound refuted for the default tolerances; proved: it holds exactly if range_tolerance <= 2 * linearity_tolerance"
  },
  {
   "property": "C50",
   "status": "partial",
   "theorems": [
    "Rascal.C50_session_library",
    "Rascal.C50_one_library",
    "Rascal.C50_refuted",
    "Rascal.C50_choice_partial"
   ],
   "note": "at most one library active and named correctly: proved; last choice wins: refuted (use_plotly is forgotten by set_calibrator_properties), exact effect of each call proved"
  },
  {
   "property": "C51",
   "status": "proved",
   "theorems": [
    "Rascal.C51_session_known",
    "Rascal.C51_known_pairs",
    "Rascal.C51_history"
   ],
   "note": ""
  },
  {
   "property": "C52",
   "status": "proved",
   "theorems": [
    "Rascal.C52_known_pairs_used"
   ],
   "note": ""
  },
  {
   "property": "C53",
   "status": "proved",
   "theorems": [
    "Rascal.C53_all_pairs",
    "Rascal.C53_polygon",
    "Rascal.C53_calibrator"
   ],
   "note": ""
  },
  {
   "property": "C54",
   "status": "proved",
   "theorems": [
    "Rascal.C54_linear_candidates"
   ],
   "note": ""
  },
  {
   "property": "C55",
   "status": "partial",
   "theorems": [
    "Rascal.C55_refuted",
    "Rascal.C55_most_common_partial"
   ],
   "note": "C158 gives the consequence for fit when top_n_candidate is large."
  },
  {
   "property": "C56",
   "status": "proved",
   "theorems": [
    "Rascal.C56_filter_close",
    "Rascal.C56_fit_spacing"
   ],
   "note": ""
  },
  {
   "property": "C57",
   "status": "proved",
   "theorems": [
    "Rascal.C57_matching",
    "Rascal.C57_assertion_never_fires",
    "Rascal.C57_candidate_pairs"
   ],
   "note": ""
  },
  {
   "property": "C58",
   "status": "partial",
   "theorems": [
    "Rascal.C58_refuted",
    "Rascal.C58_single_peak",
    "Rascal.C58_sampling_partial"
   ],
   "note": "false as documented: a peak on an interior bin edge can look up an empty bin (C58_refuted, peaks 0, 5, 10), and a single distinct peak always does (C58_single_peak); proved: the exact condition for positive probabilities summing to one"
  },
  {
   "property": "C59",
   "status": "proved",
   "theorems": [
    "Rascal.C59_distinct_samples",
    "Rascal.C59_every_sample_possible"
   ],
   "note": ""
  },
  {
   "property": "C60",
   "status": "proved",
   "theorems": [
    "Rascal.C60_fit_constraints",
    "Rascal.C60_accepted_constraints"
   ],
   "note": ""
  },
  {
   "property": "C61",
   "status": "proved",
   "theorems": [
    "Rascal.C61_best_wins"
   ],
   "note": ""
  },
  {
   "property": "C62",
   "status": "proved",
   "theorems": [
    "Rascal.C62_report",
    "Rascal.C62_reachable"
   ],
   "note": ""
  },
  {
   "property": "C63",
   "status": "partial",
   "theorems": [
    "Rascal.C63_no_internal_assertion_partial",
    "Rascal.C63_refuted"
   ],
   "note": "refuted: matches of an earlier fit make the assertions fire when nothing is accepted; proved: this is the only way"
  },
  {
   "property": "C64",
   "status": "partial",
   "theorems": [
    "Rascal.C64_passes_partial",
    "Rascal.C64_never_returns",
    "Rascal.C64_refuted"
   ],
   "note": "C157 gives the general situation in which the loop never ends."
  },
  {
   "property": "C65",
   "status": "partial",
   "theorems": [
    "Rascal.C65_baseline_bounds_cost_partial",
    "Rascal.C65_refuted"
   ],
   "note": "refuted: with no accepted trial fit raises although a baseline is given; proved: a returned solution costs at most the sum of the baseline's errors"
  },
  {
   "property": "C66",
   "status": "partial",
   "theorems": [
    "Rascal.C66_failed_fit_partial",
    "Rascal.C66_refuted"
   ],
   "note": "refuted: fit_coeff is overwritten first; proved: what a failing fit leaves alone"
  },
  {
   "property": "C67",
   "status": "partial",
   "theorems": [
    "Rascal.C67_legval",
    "Rascal.C67_chebval",
    "Rascal.C67_power_partial",
    "Rascal.C67_quadratic_partial",
    "Rascal.C67_gradient_partial",
    "Rascal.C67_gradient_quadratic_partial",
    "Rascal.C67_refuted",
    "Rascal.C67_gradient_refuted",
    "Rascal.C67_fit_refuted",
    "Rascal.C67_fit_partial"
   ],
   "note": "refuted from degree 2 on (values, gradient, and a fit of exact data that reports residuals of 5); proved: numpy series evaluation, agreement up to degree 1 and for poly, the exact error at degree 2"
  },
  {
   "property": "C68",
   "status": "partial",
   "theorems": [
    "Rascal.C68_weight_partial",
    "Rascal.C68_refuted"
   ],
   "note": "refuted: the density is looked up at (intercept, gradient) while its axes are (gradient, intercept); proved: the formula actually used"
  },
  {
   "property": "C69",
   "status": "partial",
   "theorems": [
    "Rascal.C69_refuted",
    "Rascal.C69_poly_candidates_partial"
   ],
   "note": "false as documented: atlas lines and predicted wavelengths are subtracted as arrays (C69_refuted); proved: exactly what is returned, and ValueError for different numbers of peaks and lines"
  },
  {
   "property": "C70",
   "status": "proved",
   "theorems": [
    "Rascal.C70_matched_peaks"
   ],
   "note": ""
  },
  {
   "property": "C71",
   "status": "partial",
   "theorems": [
    "Rascal.C71_ambiguous_partial",
    "Rascal.C71_ambiguous_raises_partial",
    "Rascal.C71_refuted"
   ],
   "note": "refuted: trying the alternatives raises; proved: what happens for every ambiguous input"
  },
  {
   "property": "C72",
   "status": "partial",
   "theorems": [
    "Rascal.C72_never_returns",
    "Rascal.C72_stored_partial",
    "Rascal.C72_refuted"
   ],
   "note": "refuted: without refine and robust_refit no call returns a report; proved: what is stored"
  },
  {
   "property": "C73",
   "status": "partial",
   "theorems": [
    "Rascal.C73_atlas_utilisation_partial",
    "Rascal.C73_refuted"
   ],
   "note": "refuted: one line can be matched to several peaks; proved when no line is shared"
  },
  {
   "property": "C74",
   "status": "partial",
   "theorems": [
    "Rascal.C74_robust_partial",
    "Rascal.C74_plain_partial",
    "Rascal.C74_refuted"
   ],
   "note": "refuted: refine-only reports quantities of other coefficients; proved: the exact quantities reported"
  },
  {
   "property": "C75",
   "status": "proved",
   "theorems": [
    "Rascal.C75_add",
    "Rascal.C75_remove",
    "Rascal.C75_history",
    "Rascal.C75_reachable"
   ],
   "note": ""
  },
  {
   "property": "C76",
   "status": "partial",
   "theorems": [
    "Rascal.C76_descending_partial",
    "Rascal.C76_ascending_front_partial",
    "Rascal.C76_refuted",
    "Rascal.C76_order_refuted"
   ],
   "note": "refuted: 15 added to 10, 20 goes to the front, and 5 cannot be added; proved: descending lists stay descending, in an ascending list every pair goes to the front"
  },
  {
   "property": "C77",
   "status": "partial",
   "theorems": [
    "Rascal.C77_manual_refit_partial",
    "Rascal.C77_rejected",
    "Rascal.C77_refuted"
   ],
   "note": "refuted: before any fit the coefficients and pairs are stored and then AttributeError is raised; proved once a fit has set the basis, and rejection of bad arguments in every state"
  },
  {
   "property": "C78",
   "status": "partial",
   "theorems": [
    "Rascal.C78_fit_refuted",
    "Rascal.C78_regenerated_partial",
    "Rascal.C78_refuted"
   ],
   "note": "refuted: remove_atlas_lines_range and clear_atlas leave the search space as it was; proved: set_atlas and set_hough_properties rebuild it from the current atlas; a fit after clear_atlas matches removed lines"
  },
  {
   "property": "C79",
   "status": "proved",
   "theorems": [
    "Rascal.C79_objective",
    "Rascal.C79_nonneg"
   ],
   "note": ""
  },
  {
   "property": "C80",
   "status": "proved",
   "theorems": [
    "Rascal.C80_raw_pixel"
   ],
   "note": ""
  },
  {
   "property": "C81",
   "status": "proved",
   "theorems": [
    "Rascal.C81_covers_peaks"
   ],
   "note": ""
  },
  {
   "property": "C82",
   "status": "proved",
   "theorems": [
    "Rascal.C82_lines",
    "Rascal.C82_files"
   ],
   "note": ""
  },
  {
   "property": "C83",
   "status": "partial",
   "theorems": [
    "Rascal.C83_refuted",
    "Rascal.C83_only_negatives_partial",
    "Rascal.C83_nonnegative_partial",
    "Rascal.C83_constructor_copy_partial"
   ],
   "note": "Refuted: with log_spectrum negative counts are overwritten in place in the calibrator's spectrum or in the array passed by the caller, even if the call then raises. Partial: nothing else is ever changed, and nothing at all for non-negative spectra."
  },
  {
   "property": "C84",
   "status": "partial",
   "theorems": [
    "Rascal.C84_matplotlib_partial",
    "Rascal.C84_blind_partial",
    "Rascal.C84_zero_partial",
    "Rascal.C84_after_fit_partial",
    "Rascal.C84_plotly_partial",
    "Rascal.C84_refuted"
   ],
   "note": "Refuted: with matplotlib the offset is computed from the matched line to the nearest line of the atlas, hence zero after every fit whatever the coefficients. Partial: what both libraries show, exactly; plotly shows the residuals of the solution."
  },
  {
   "property": "C85",
   "status": "partial",
   "theorems": [
    "Rascal.C85_merge_partial",
    "Rascal.C85_refuted"
   ],
   "note": "false as documented: np.sort sorts inside each row (C85_refuted); proved: each row is the sorted triple of a candidate and every candidate is there"
  },
  {
   "property": "C86",
   "status": "proved",
   "theorems": [
    "Rascal.C86_linelist"
   ],
   "note": ""
  },
  {
   "property": "C87",
   "status": "partial",
   "theorems": [
    "Rascal.C87_refuted",
    "Rascal.C87_empty_partial"
   ],
   "note": "Refuted: an empty selection with a positive minimum distance raises IndexError; the partial theorem gives the exact outcome for all empty selections."
  },
  {
   "property": "C88",
   "status": "proved",
   "theorems": [
    "Rascal.C88_new"
   ],
   "note": "The constructor always passes brightest_n_lines = 1000 (its default), see C154."
  },
  {
   "property": "C89",
   "status": "partial",
   "theorems": [
    "Rascal.C89_refuted",
    "Rascal.C89_numbers_partial",
    "Rascal.C89_far_peak"
   ],
   "note": "C89_far_peak: a first peak beyond the end by the window width or more raises ValueError for either kind of spectrum."
  },
  {
   "property": "C90",
   "status": "partial",
   "theorems": [
    "Rascal.C90_refuted",
    "Rascal.C90_rejected_partial"
   ],
   "note": "refuted: values checked earlier, and all unchecked ones, are stored before the failing assertion; proved: what a rejected call leaves alone"
  },
  {
   "property": "C91",
   "status": "partial",
   "theorems": [
    "Rascal.C91_settings_kept_partial",
    "Rascal.C91_refuted"
   ],
   "note": "refuted: sample_size and minimum_matches change; proved: nothing else does"
  },
  {
   "property": "C92",
   "status": "partial",
   "theorems": [
    "Rascal.C92_some_trial_partial",
    "Rascal.C92_refuted"
   ],
   "note": "refuted: sample_size above the number of candidate pairs; proved: exact condition"
  },
  {
   "property": "C93",
   "status": "partial",
   "theorems": [
    "Rascal.C93_hough_lines_partial",
    "Rascal.C93_refuted"
   ],
   "note": "refuted: an existing transform is not redone; proved: matches lie along the transform held, which is current if none was held before"
  },
  {
   "property": "C94",
   "status": "proved",
   "theorems": [
    "Rascal.C94_no_constant_fit"
   ],
   "note": ""
  },
  {
   "property": "C95",
   "status": "partial",
   "theorems": [
    "Rascal.C95_atlas_utilisation_partial",
    "Rascal.C95_refuted"
   ],
   "note": "refuted: infinite after clear_atlas; proved while the search space only has lines of the current atlas"
  },
  {
   "property": "C96",
   "status": "partial",
   "theorems": [
    "Rascal.C96_pairs_partial",
    "Rascal.C96_failed_match_partial",
    "Rascal.C96_refuted"
   ],
   "note": "refuted: matched_atlas becomes None and get_pix_wave_pairs raises; proved: what a failed call leaves alone C96_pairs_partial: after a call that raised nothing has changed, or there are no pairs, or there are new pairs beside the old solution."
  },
  {
   "property": "C98",
   "status": "partial",
   "theorems": [
    "Rascal.C98_refine_without_effect_partial",
    "Rascal.C98_refuted"
   ],
   "note": "refuted: with robust_refit=True a successful refinement changes nothing; proved as such"
  },
  {
   "property": "C99",
   "status": "partial",
   "theorems": [
    "Rascal.C99_sample_size",
    "Rascal.C99_determined_partial",
    "Rascal.C99_refuted"
   ],
   "note": "refuted: a quadratic baseline with fit_deg=1 is fitted to samples of two points; proved for degree at most fit_deg with random sampling, and the exact sample size"
  },
  {
   "property": "C97",
   "status": "partial",
   "theorems": [
    "Rascal.C97_stored_pixel_partial",
    "Rascal.C97_refuted"
   ],
   "note": "refuted: with integer peaks 15.5 is stored as 15; proved: exact unless the peaks are integers, then cut off by less than 1"
  },
  {
   "property": "C100",
   "status": "proved",
   "theorems": [
    "Rascal.C100_solution_kept"
   ],
   "note": ""
  },
  {
   "property": "C101",
   "status": "proved",
   "theorems": [
    "Rascal.C101_settings_kept",
    "Rascal.C101_peaks_forever"
   ],
   "note": ""
  },
  {
   "property": "C102",
   "status": "partial",
   "theorems": [
    "Rascal.C102_float_refused_partial",
    "Rascal.C102_numpy_partial",
    "Rascal.C102_refuted"
   ],
   "note": "refuted: after every successful fit a Python float raises TypeError; proved: numpy floats can be added exactly if some matched peak is smaller"
  },
  {
   "property": "C103",
   "status": "proved",
   "theorems": [
    "Rascal.C103_refit_after_fit"
   ],
   "note": ""
  },
  {
   "property": "C104",
   "status": "partial",
   "theorems": [
    "Rascal.C104_residual_partial",
    "Rascal.C104_rms_partial",
    "Rascal.C104_refuted"
   ],
   "note": "refuted with least-squares lines and six peaks: two residuals beyond the tolerance are returned as +5; proved: exact if all are within the tolerance, mean square never overstated"
  },
  {
   "property": "C105",
   "status": "partial",
   "theorems": [
    "Rascal.C105_effects_partial",
    "Rascal.C105_formats_refuted",
    "Rascal.C105_extension_refuted",
    "Rascal.C105_json_refuted"
   ],
   "note": "iframe is documented for every method but matplotlib ignores it; the extension is always appended (arc.png becomes arc.png.png); return_jsonstring does not suppress the display."
  },
  {
   "property": "C106",
   "status": "partial",
   "theorems": [
    "Rascal.C106_returns_partial",
    "Rascal.C106_refuted"
   ],
   "note": "A Python list raises AttributeError; with no spectrum and no pixel list the call raises, with plotly it always raises when the spectrum is missing."
  },
  {
   "property": "C107",
   "status": "proved",
   "theorems": [
    "Rascal.C107_plot_after_fit"
   ],
   "note": ""
  },
  {
   "property": "C108",
   "status": "partial",
   "theorems": [
    "Rascal.C108_arc_partial",
    "Rascal.C108_gaussian_partial",
    "Rascal.C108_refuted",
    "Rascal.C108_repeated_refuted"
   ],
   "note": "The intensities are assigned in list order to ascending grid positions: with brightest_n_lines the list is in order of brightness and intensities end up at the wrong wavelengths; an element named twice is added twice."
  },
  {
   "property": "C109",
   "status": "partial",
   "theorems": [
    "Rascal.C109_line_outside",
    "Rascal.C109_only_line_outside",
    "Rascal.C109_returns_partial",
    "Rascal.C109_string_partial",
    "Rascal.C109_refuted"
   ],
   "note": "C109_line_outside and C109_only_line_outside describe lines that the conversion to air moves off the grid: with two or more lines of the element ValueError is raised, a lone line leaves the spectrum at zero."
  },
  {
   "property": "C110",
   "status": "partial",
   "theorems": [
    "Rascal.C110_markers_partial",
    "Rascal.C110_refuted"
   ],
   "note": "With brightest_n_lines the separation filter sees the lines in order of brightness; a lone line with positive min_distance is not marked."
  },
  {
   "property": "C111",
   "status": "partial",
   "theorems": [
    "Rascal.C111_deterministic_partial",
    "Rascal.C111_every_combination_partial",
    "Rascal.C111_current_numpy_partial",
    "Rascal.C111_refuted",
    "Rascal.C111_never_returns_refuted"
   ],
   "note": "refuted: x[[sample]] is two-dimensional with current numpy, so TypeError (ValueError with known pairs); with older numpy one rejected combination is tried for ever; proved: deterministic, and a call that returns had every combination within the bounds"
  },
  {
   "property": "C112",
   "status": "partial",
   "theorems": [
    "Rascal.C112_more_tries_partial",
    "Rascal.C112_refuted"
   ],
   "note": "refuted: the early break only leaves the inner loop, and a cheaper solution with fewer matches replaces a complete one; proved: the cost never increases with more tries"
  },
  {
   "property": "C113",
   "status": "partial",
   "theorems": [
    "Rascal.C113_perfect_sample_partial",
    "Rascal.C113_refuted"
   ],
   "note": "refuted: where the interpolated density is negative the cost is negative and wins; proved for densities that are never negative"
  },
  {
   "property": "C114",
   "status": "partial",
   "theorems": [
    "Rascal.C114_trial_admissible_partial",
    "Rascal.C114_refuted"
   ],
   "note": "refuted: the bounds are checked for the trial polynomial only, the robust fit that is returned may leave them; proved for the trial"
  },
  {
   "property": "C115",
   "status": "partial",
   "theorems": [
    "Rascal.C115_matches_are_candidates_partial",
    "Rascal.C115_refuted"
   ],
   "note": "refuted: the final robust fit leaves the known pairs out; proved: what the final fit is made of"
  },
  {
   "property": "C116",
   "status": "proved",
   "theorems": [
    "Rascal.C116_interleaved"
   ],
   "note": ""
  },
  {
   "property": "C117",
   "status": "partial",
   "theorems": [
    "Rascal.C117_minimum_matches_partial",
    "Rascal.C117_in_force_partial",
    "Rascal.C117_refuted"
   ],
   "note": "False: fit stores the lowered minimum_matches; after a fit with two lines a later fit with four lines returns three matches although four were required."
  },
  {
   "property": "C118",
   "status": "partial",
   "theorems": [
    "Rascal.C118_markers_partial",
    "Rascal.C118_disjoint_partial",
    "Rascal.C118_refuted"
   ],
   "note": "False: np.sort in _merge_candidates sorts every row (pixel, wavelength, weight); with weights of at most 1 all candidate markers are drawn at abscissa <= 1 with the pixel as ordinate."
  },
  {
   "property": "C119",
   "status": "partial",
   "theorems": [
    "Rascal.C119_region_partial",
    "Rascal.C119_refuted"
   ],
   "note": "False: a line up to candidate_tolerance outside the drawn region is still paired."
  },
  {
   "property": "C120",
   "status": "partial",
   "theorems": [
    "Rascal.C120_best_pairs_partial",
    "Rascal.C120_refuted"
   ],
   "note": "C160 gives the dependence of the search itself on top_n_candidate."
  },
  {
   "property": "C121",
   "status": "proved",
   "theorems": [
    "Rascal.C121_solution",
    "Rascal.C121_draws",
    "Rascal.C121_window"
   ],
   "note": ""
  },
  {
   "property": "C122",
   "status": "partial",
   "theorems": [
    "Rascal.C122_grid_partial",
    "Rascal.C122_any_slope_partial",
    "Rascal.C122_peak_partial",
    "Rascal.C122_refuted"
   ],
   "note": "False: the Hough lines are bin centres, so with few bins a combination on an admissible line can be further than candidate_tolerance from every line."
  },
  {
   "property": "C123",
   "status": "partial",
   "theorems": [
    "Rascal.C123_peak_order_partial",
    "Rascal.C123_refuted"
   ],
   "note": "False with linear=False: _get_candidate_points_poly subtracts the atlas lines from the predicted wavelengths element by element, so the order decides which peak is compared with which line."
  },
  {
   "property": "C124",
   "status": "partial",
   "theorems": [
    "Rascal.C124_refuted",
    "Rascal.C124_selection_partial",
    "Rascal.C124_brightest_partial",
    "Rascal.C124_distance"
   ],
   "note": "False with min_distance: a fainter line that is let in removes its bright neighbour."
  },
  {
   "property": "C125",
   "status": "partial",
   "theorems": [
    "Rascal.C125_refuted",
    "Rascal.C125_pieces_partial"
   ],
   "note": "False with min_distance: lines close to each other on both sides of the cut are dropped only from the whole."
  },
  {
   "property": "C126",
   "status": "proved",
   "theorems": [
    "Rascal.C126_load",
    "Rascal.C126_thresholds",
    "Rascal.C126_add"
   ],
   "note": ""
  },
  {
   "property": "C127",
   "status": "partial",
   "theorems": [
    "Rascal.C127_refuted",
    "Rascal.C127_exact_partial"
   ],
   "note": "False: names are compared exactly; 'ar' selects nothing, with min_distance the call raises IndexError."
  },
  {
   "property": "C128",
   "status": "partial",
   "theorems": [
    "Rascal.C128_refuted",
    "Rascal.C128_faint_partial"
   ],
   "note": "False for lines with exactly the same wavelength: filter_wavelengths keeps the first of them before intensities are looked at."
  },
  {
   "property": "C129",
   "status": "partial",
   "theorems": [
    "Rascal.C129_refuted",
    "Rascal.C129_limits_partial"
   ],
   "note": "False: add_user_atlas replaces the limits of the atlas by the extremes of the user's lines."
  },
  {
   "property": "C130",
   "status": "partial",
   "theorems": [
    "Rascal.C130_order_partial",
    "Rascal.C130_refuted"
   ],
   "note": "False when set_calibrator_properties gives a pixel list: the slope bounds of set_hough_properties are those of the pixel list at the time of that call."
  },
  {
   "property": "C131",
   "status": "partial",
   "theorems": [
    "Rascal.C131_repeat_partial",
    "Rascal.C131_refuted",
    "Rascal.C131_remove_partial"
   ],
   "note": "False for remove_atlas_lines_range: it skips the line after each one it removes, so a second call may remove more. C131_remove_partial: it can be repeated without effect exactly if no two neighbouring lines are in range."
  },
  {
   "property": "C132",
   "status": "partial",
   "theorems": [
    "Rascal.C132_repeat_partial",
    "Rascal.C132_settles_partial",
    "Rascal.C132_refuted"
   ],
   "note": "False as stated: fit stores the sample size it has reduced, so with sample_size above the number of candidate peaks the first call fails and the identical second call succeeds."
  },
  {
   "property": "C133",
   "status": "partial",
   "theorems": [
    "Rascal.C133_line_order_partial",
    "Rascal.C133_refuted",
    "Rascal.C133_remove_partial"
   ],
   "note": "False for fit: the candidates of a peak are ranked by increasing wavelength but looked up in atlas order (C55), so swapping two lines changes the solution although no weights tie. Proved for all configuration calls and Hough transforms except remove_atlas_lines_range; for that C133_remove_partial: n calls leave the same lines if fewer than 2^n are in range."
  },
  {
   "property": "C134",
   "status": "partial",
   "theorems": [
    "Rascal.C134_dropped_partial",
    "Rascal.C134_ignored_partial",
    "Rascal.C134_weights_only_partial",
    "Rascal.C134_refuted"
   ],
   "note": "False: load_hough_transform stores the transform in self.ht, but fit reads self.hough_lines, which only do_hough_transform sets, and makes its own transform (overwriting the loaded one) when there is none."
  },
  {
   "property": "C135",
   "status": "partial",
   "theorems": [
    "Rascal.C135_shared_partial",
    "Rascal.C135_refuted"
   ],
   "note": "False for to_disk=False: Calibrator.save_hough_transform drops the value that HoughTransform.save returns. Proved for everything else."
  },
  {
   "property": "C136",
   "status": "partial",
   "theorems": [
    "Rascal.C136_load_partial",
    "Rascal.C136_save_partial",
    "Rascal.C136_refuted",
    "Rascal.C136_save_refuted"
   ],
   "note": "False: a file saved before any transform holds None, and loading it raises AttributeError after the points were overwritten; npy+json saved before a transform writes the npy file and then raises. Proved for disks whose files hold whole transforms, and for single file types."
  },
  {
   "property": "C137",
   "status": "partial",
   "theorems": [
    "Rascal.C137_linear_partial",
    "Rascal.C137_polynomial_partial",
    "Rascal.C137_refuted"
   ],
   "note": "False: the width is multiplied by 1.1775 where it should be divided, so the weight at the edge is about 0.7. Proved: exact rows and weights of both searches, strict decrease, bounds 3/5 and 3/4 at the edge, shifts within range_tolerance."
  },
  {
   "property": "C138",
   "status": "partial",
   "theorems": [
    "Rascal.C138_history_partial",
    "Rascal.C138_calibration_partial",
    "Rascal.C138_refuted",
    "Rascal.C138_empty_refuted"
   ],
   "note": "The claim is false as stated: the Hough density is read with slope and intercept exchanged (C68), so with hough_weight other than 0 the winning trial depends on the zero point (C138_refuted), and a transform without any line in range gets bins of the unit square whatever the zero point (C138_empty_refuted). Proved with hough_weight 0, a non-empty transform and samples that determine the polynomial (no brute force, degree of the baseline at most fit_deg); not covered: packaged line lists (in Angstrom) and transforms from files."
  },
  {
   "property": "C139",
   "status": "partial",
   "theorems": [
    "Rascal.C139_history_partial",
    "Rascal.C139_calibration_partial",
    "Rascal.C139_refuted"
   ],
   "note": "The claim is false as stated: numpy widens a degenerate histogram range by 0.5 in whatever unit, so with num_slopes=1 a fit that succeeds in Angstrom fails in micrometre (C139_refuted). Proved when the points of the transform have two slopes and two intercepts, for any hough_weight with a baseline, and for hough_weight 0 without one (the search then starts from the absolute cost 1e50). The Gaussian weights of the code contain an absolute constant, so the theorem asks that they are off or independent of the unit."
  },
  {
   "property": "C140",
   "status": "proved",
   "theorems": [
    "Rascal.C140_density",
    "Rascal.C140_nonfinite",
    "Rascal.C140_zero"
   ],
   "note": ""
  },
  {
   "property": "C141",
   "status": "partial",
   "theorems": [
    "Rascal.C141_refuted",
    "Rascal.C141_gain_partial",
    "Rascal.C141_single"
   ],
   "note": ""
  },
  {
   "property": "C142",
   "status": "proved",
   "theorems": [
    "Rascal.C142_local"
   ],
   "note": ""
  },
  {
   "property": "C143",
   "status": "partial",
   "theorems": [
    "Rascal.C143_refuted",
    "Rascal.C143_moved_partial"
   ],
   "note": ""
  },
  {
   "property": "C144",
   "status": "partial",
   "theorems": [
    "Rascal.C144_given",
    "Rascal.C144_repeat_partial",
    "Rascal.C144_settles_partial",
    "Rascal.C144_refuted"
   ],
   "note": ""
  },
  {
   "property": "C145",
   "status": "proved",
   "theorems": [
    "Rascal.C145_given",
    "Rascal.C145_repeat",
    "Rascal.C145_after_match"
   ],
   "note": ""
  },
  {
   "property": "C146",
   "status": "proved",
   "theorems": [
    "Rascal.C146_undo"
   ],
   "note": ""
  },
  {
   "property": "C147",
   "status": "partial",
   "theorems": [
    "Rascal.C147_put_back_partial",
    "Rascal.C147_refuted"
   ],
   "note": ""
  },
  {
   "property": "C148",
   "status": "proved",
   "theorems": [
    "Rascal.C148_outcomes"
   ],
   "note": ""
  },
  {
   "property": "C149",
   "status": "proved",
   "theorems": [
    "Rascal.C149_max_tries"
   ],
   "note": ""
  },
  {
   "property": "C150",
   "status": "proved",
   "theorems": [
    "Rascal.C150_relaxed"
   ],
   "note": ""
  },
  {
   "property": "C151",
   "status": "partial",
   "theorems": [
    "Rascal.C151_as_written_partial",
    "Rascal.C151_cut_partial",
    "Rascal.C151_decimal_partial",
    "Rascal.C151_refuted",
    "Rascal.C151_exponent_partial"
   ],
   "note": ""
  },
  {
   "property": "C152",
   "status": "proved",
   "theorems": [
    "Rascal.C152_single_row",
    "Rascal.C152_one_column",
    "Rascal.C152_two_columns"
   ],
   "note": "C152_one_column and C152_two_columns: files with one column raise TypeError (one row) or IndexError, files without intensities IndexError."
  },
  {
   "property": "C153",
   "status": "proved",
   "theorems": [
    "Rascal.C153_other_elements"
   ],
   "note": ""
  },
  {
   "property": "C154",
   "status": "partial",
   "theorems": [
    "Rascal.C154_at_most_partial",
    "Rascal.C154_complete_partial",
    "Rascal.C154_add_atlas_partial",
    "Rascal.C154_refuted"
   ],
   "note": ""
  },
  {
   "property": "C155",
   "status": "proved",
   "theorems": [
    "Rascal.C155_listing"
   ],
   "note": ""
  },
  {
   "property": "C156",
   "status": "partial",
   "theorems": [
    "Rascal.C156_recoverable_partial",
    "Rascal.C156_refuted"
   ],
   "note": ""
  },
  {
   "property": "C157",
   "status": "proved",
   "theorems": [
    "Rascal.C157_unambiguous"
   ],
   "note": ""
  },
  {
   "property": "C158",
   "status": "partial",
   "theorems": [
    "Rascal.C158_first_entries_partial",
    "Rascal.C158_best_line_partial",
    "Rascal.C158_refuted"
   ],
   "note": ""
  },
  {
   "property": "C159",
   "status": "partial",
   "theorems": [
    "Rascal.C159_instrument_partial",
    "Rascal.C159_refuted"
   ],
   "note": ""
  },
  {
   "property": "C160",
   "status": "partial",
   "theorems": [
    "Rascal.C160_top_n_partial",
    "Rascal.C160_refuted"
   ],
   "note": ""
  },
  {
   "property": "C161",
   "status": "partial",
   "theorems": [
    "Rascal.C161_tolerance_partial",
    "Rascal.C161_refuted"
   ],
   "note": ""
  },
  {
   "property": "C162",
   "status": "proved",
   "theorems": [
    "Rascal.C162_known_order"
   ],
   "note": ""
  },
  {
   "property": "C163",
   "status": "proved",
   "theorems": [
    "Rascal.C163_range",
    "Rascal.C163_complete"
   ],
   "note": ""
  },
  {
   "property": "C164",
   "status": "partial",
   "theorems": [
    "Rascal.C164_humidity_partial",
    "Rascal.C164_temperature_partial",
    "Rascal.C164_small_partial",
    "Rascal.C164_refuted"
   ],
   "note": "refuted: the saturation pressure is evaluated at the Celsius temperature, the effect of humidity at 20 C is less than a tenth of the right one; proved: the directions of the effects of humidity and, in dry air, of temperature"
  },
  {
   "property": "C165",
   "status": "partial",
   "theorems": [
    "Rascal.C165_candidate_partial",
    "Rascal.C165_range_partial",
    "Rascal.C165_unconstrained_partial",
    "Rascal.C165_refuted"
   ],
   "note": "refuted for the wavelength limits: moving max_wavelength up loses every pair of a small calibrator; proved for both tolerances and for the unconstrained search space"
  },
  {
   "property": "C166",
   "status": "partial",
   "theorems": [
    "Rascal.C166_perfect_partial",
    "Rascal.C166_refuted"
   ],
   "note": "refuted: a solution that is right at four peaks is replaced by one that misses a peak by 60, because the two costs are on different scales; proved for a supplied solution without errors"
  },
  {
   "property": "C167",
   "status": "partial",
   "theorems": [
    "Rascal.C167_warnings_partial",
    "Rascal.C167_default_partial",
    "Rascal.C167_refuted"
   ],
   "note": "refuted: unacceptable fits are returned, with a warning only; proved: the warnings are logged exactly then, and the rms warning cannot occur unless fit_tolerance is below ransac_tolerance"
  },
  {
   "property": "C168",
   "status": "partial",
   "theorems": [
    "Rascal.C168_matches_partial",
    "Rascal.C168_refuted"
   ],
   "note": "refuted: sample_size is raised to fit_deg + 1 without a warning; proved: minimum_matches changes exactly if one of its warnings is logged"
  },
  {
   "property": "C169",
   "status": "proved",
   "theorems": [
    "Rascal.C169_sources",
    "Rascal.C169_catalogue"
   ],
   "note": ""
  },
  {
   "property": "C170",
   "status": "proved",
   "theorems": [
    "Rascal.C170_ends",
    "Rascal.C170_almost_surely",
    "Rascal.C170_speed"
   ],
   "note": ""
  },
  {
   "property": "C171",
   "status": "proved",
   "theorems": [
    "Rascal.C171_chance",
    "Rascal.C171_limit"
   ],
   "note": ""
  },
  {
   "property": "C172",
   "status": "partial",
   "theorems": [
    "Rascal.C172_matches_partial",
    "Rascal.C172_refuted"
   ],
   "note": "Refuted; the partial theorem adds the hypothesis that no line is a candidate of two different peaks, and bounds the number of unmatched candidate peaks."
  },
  {
   "property": "C173",
   "status": "partial",
   "theorems": [
    "Rascal.C173_start_partial",
    "Rascal.C173_refuted"
   ],
   "note": "Refuted; the partial theorem compares with the start of the minimiser instead of the input."
  },
  {
   "property": "C174",
   "status": "partial",
   "theorems": [
    "Rascal.C174_by_hand_partial",
    "Rascal.C174_refuted"
   ],
   "note": "Refuted; the partial theorem uses the opposite value of vacuum."
  },
  {
   "property": "C175",
   "status": "partial",
   "theorems": [
    "Rascal.C175_lines_twice_partial",
    "Rascal.C175_never_matches_partial",
    "Rascal.C175_add_twice_partial",
    "Rascal.C175_refuted"
   ],
   "note": "Refuted; the partial theorems describe what happens instead: the lines are doubled and match_peaks never returns pairs."
  },
  {
   "property": "C176",
   "status": "partial",
   "theorems": [
    "Rascal.C176_found_partial",
    "Rascal.C176_chance_partial",
    "Rascal.C176_refuted"
   ],
   "note": "Refuted; the partial theorems need that no line is a candidate of two peaks."
  },
  {
   "property": "C177",
   "status": "partial",
   "theorems": [
    "Rascal.C177_same_pairs",
    "Rascal.C177_fit_partial",
    "Rascal.C177_far_lines_partial",
    "Rascal.C177_refuted"
   ],
   "note": "Refuted; the partial theorems need atlases with at least sample_size and minimum_matches lines."
  },
  {
   "property": "C178",
   "status": "proved",
   "theorems": [
    "Rascal.C178_restored",
    "Rascal.C178_separated"
   ],
   "note": ""
  },
  {
   "property": "C179",
   "status": "partial",
   "theorems": [
    "Rascal.C179_kept_partial",
    "Rascal.C179_refit_partial",
    "Rascal.C179_refuted",
    "Rascal.C179_matching_partial",
    "Rascal.C179_match_after_partial"
   ],
   "note": "C179_matching_partial and C179_match_after_partial: the same with calls of match_peaks among the edits, which find the true lines and drop pairs added by hand."
  },
  {
   "property": "C180",
   "status": "partial",
   "theorems": [
    "Rascal.C180_linear_partial",
    "Rascal.C180_high_degree_partial",
    "Rascal.C180_match_partial",
    "Rascal.C180_refuted"
   ],
   "note": "Refuted for degree at least 2; the partial theorems cover linear models, and the reversed order for higher degrees."
  },
  {
   "property": "C181",
   "status": "partial",
   "theorems": [
    "Rascal.C181_fit_partial",
    "Rascal.C181_match_partial",
    "Rascal.C181_refined_partial",
    "Rascal.C181_refit_partial",
    "Rascal.C181_refuted"
   ],
   "note": "Refuted for fit with fit_coeff; the partial theorems say which degree is returned. `C181_refined_partial`: with robust_refit=False fit_deg has no influence on the number of coefficients."
  },
  {
   "property": "C182",
   "status": "partial",
   "theorems": [
    "Rascal.C182_lookup_partial",
    "Rascal.C182_marker_partial",
    "Rascal.C182_wrapped_partial",
    "Rascal.C182_drawn_partial",
    "Rascal.C182_plotly_partial",
    "Rascal.C182_default_partial",
    "Rascal.C182_refuted",
    "Rascal.C182_marker_refuted"
   ],
   "note": "Refuted; the partial theorems give the exact conditions for matplotlib and for plotly, and the pixel each marker is read from."
  },
  {
   "property": "C183",
   "status": "proved",
   "theorems": [
    "Rascal.C183_pipeline"
   ],
   "note": ""
  },
  {
   "property": "C184",
   "status": "proved",
   "theorems": [
    "Rascal.C184_inputs",
    "Rascal.C184_history"
   ],
   "note": ""
  },
  {
   "property": "C185",
   "status": "partial",
   "theorems": [
    "Rascal.C185_runs",
    "Rascal.C185_arc_partial",
    "Rascal.C185_refuted",
    "Rascal.C185_gaussian_partial"
   ],
   "note": "The claim is refuted for unsorted files; the partial theorems need increasing rounded wavelengths. The number of points of np.arange is the exact one; the plotting calls of the script are not modelled."
  },
  {
   "property": "C186",
   "status": "partial",
   "theorems": [
    "Rascal.C186_reproducible_partial",
    "Rascal.C186_replay_partial",
    "Rascal.C186_others",
    "Rascal.C186_refused",
    "Rascal.C186_refuted"
   ],
   "note": "C186_others: calls on other calibrators leave a calibrator as it is."
  },
  {
   "property": "C187",
   "status": "partial",
   "theorems": [
    "Rascal.C187_once",
    "Rascal.C187_handlers_partial",
    "Rascal.C187_level_partial",
    "Rascal.C187_unknown",
    "Rascal.C187_refuted",
    "Rascal.C187_new_refuted"
   ],
   "note": "Level names are specified by a table, in any capitalisation; `C187_handlers_partial` covers loggers that the user has given handlers."
  },
  {
   "property": "C188",
   "status": "partial",
   "theorems": [
    "Rascal.C188_inputs",
    "Rascal.C188_settings",
    "Rascal.C188_given_partial",
    "Rascal.C188_refuted"
   ],
   "note": "Refuted before the first fit only."
  },
  {
   "property": "C189",
   "status": "partial",
   "theorems": [
    "Rascal.C189_shared_partial",
    "Rascal.C189_crossing_partial",
    "Rascal.C189_refuted"
   ],
   "note": "Refuted: candidates of one peak only."
  },
  {
   "property": "C190",
   "status": "partial",
   "theorems": [
    "Rascal.C190_failed_match_partial",
    "Rascal.C190_failed_refit_partial",
    "Rascal.C190_untouched_partial",
    "Rascal.C190_peaks_partial",
    "Rascal.C190_by_value_partial",
    "Rascal.C190_edited_partial",
    "Rascal.C190_earlier_partial",
    "Rascal.C190_shared",
    "Rascal.C190_refuted"
   ],
   "note": "C190_failed_refit_partial: the same for a manual_refit that raises AttributeError before the first fit."
  },
  {
   "property": "C191",
   "status": "partial",
   "theorems": [
    "Rascal.C191_direction_partial",
    "Rascal.C191_decreasing_partial",
    "Rascal.C191_refuted",
    "Rascal.C191_quadratic_partial"
   ],
   "note": "Refuted: only increasing solutions pass the monotonicity check. `C191_quadratic_partial` covers degrees 1 and 2 for matches that span 7.5 pixels; the other theorems are for degree 1."
  },
  {
   "property": "C192",
   "status": "partial",
   "theorems": [
    "Rascal.C192_linear_partial",
    "Rascal.C192_poly_partial",
    "Rascal.C192_refresh_partial",
    "Rascal.C192_refuted"
   ],
   "note": "Refuted: the pairs are not made again when the atlas changes. C78 is about removed lines."
  },
  {
   "property": "C193",
   "status": "partial",
   "theorems": [
    "Rascal.C193_monotone_partial",
    "Rascal.C193_refuted"
   ],
   "note": "Refuted: ambiguous peaks raise (C71)."
  },
  {
   "property": "C194",
   "status": "partial",
   "theorems": [
    "Rascal.C194_matches_partial",
    "Rascal.C194_first_pixel_partial",
    "Rascal.C194_refuted"
   ],
   "note": "Refuted: intercepts are meant at pixel 0 whatever pixel_list is. The theorems are for degree 1."
  },
  {
   "property": "C195",
   "status": "proved",
   "theorems": [
    "Rascal.C195_explicit_transform"
   ],
   "note": ""
  },
  {
   "property": "C196",
   "status": "partial",
   "theorems": [
    "Rascal.C196_least_squares_partial",
    "Rascal.C196_refuted"
   ],
   "note": "Refuted: with f_scale 1 in units of std(y) the loss is quadratic for every error that is smaller than the spread of the wavelengths."
  },
  {
   "property": "C197",
   "status": "proved",
   "theorems": [
    "Rascal.C197_noise",
    "Rascal.C197_everywhere"
   ],
   "note": ""
  },
  {
   "property": "C198",
   "status": "proved",
   "theorems": [
    "Rascal.C198_fit",
    "Rascal.C198_match",
    "Rascal.C198_manual",
    "Rascal.C198_robust_polyfit"
   ],
   "note": "A wrong match counts as an error; the theorems do not say that the matches are right."
  },
  {
   "property": "C199",
   "status": "partial",
   "theorems": [
    "Rascal.C199_sum_partial",
    "Rascal.C199_worst_partial",
    "Rascal.C199_degree_partial",
    "Rascal.C199_refuted"
   ],
   "note": "The claim for all pairs is false; the parts are the cases in which it holds. The least squares contract for robust_polyfit is C196/C197."
  },
  {
   "property": "C200",
   "status": "proved",
   "theorems": [
    "Rascal.C200_same_pairs",
    "Rascal.C200_fit",
    "Rascal.C200_far_peaks",
    "Rascal.C200_calibration"
   ],
   "note": "With minimum_peak_utilisation above 0 spurious peaks count, as documented."
  },
  {
   "property": "C201",
   "status": "partial",
   "theorems": [
    "Rascal.C201_even_partial",
    "Rascal.C201_fit_partial",
    "Rascal.C201_refuted"
   ],
   "note": "In exact arithmetic; rounding of the bin edges can move a peak that lies exactly on an edge."
  },
  {
   "property": "C202",
   "status": "partial",
   "theorems": [
    "Rascal.C202_history_partial",
    "Rascal.C202_calibration_partial",
    "Rascal.C202_lines_partial",
    "Rascal.C202_leastSquares_partial",
    "Rascal.C202_refuted",
    "Rascal.C202_monotone_refuted"
   ],
   "note": "The default pixel list is in unit steps whatever the peaks, so the session starts with the pixels given explicitly."
  },
  {
   "property": "C203",
   "status": "partial",
   "theorems": [
    "Rascal.C203_unweighted_partial",
    "Rascal.C203_rank_partial",
    "Rascal.C203_blind",
    "Rascal.C203_refuted"
   ],
   "note": "With `linear` the pairs array is of integer type only if the peaks are integers too, as those of scipy's find_peaks."
  },
  {
   "property": "C204",
   "status": "partial",
   "theorems": [
    "Rascal.C204_near_partial",
    "Rascal.C204_kept_partial",
    "Rascal.C204_refuted"
   ],
   "note": ""
  },
  {
   "property": "C205",
   "status": "partial",
   "theorems": [
    "Rascal.C205_returns_partial",
    "Rascal.C205_apart_partial",
    "Rascal.C205_min_distance_partial",
    "Rascal.C205_refined_partial",
    "Rascal.C205_refined_list",
    "Rascal.C205_stored",
    "Rascal.C205_refuted"
   ],
   "note": "Calls with refine=True or robust_refit=False are not covered by the equivalence."
  },
  {
   "property": "C206",
   "status": "partial",
   "theorems": [
    "Rascal.C206_matches_partial",
    "Rascal.C206_refuted"
   ],
   "note": "Matching one line to two peaks, filter_close, a positive hough_weight and repeated passes are excluded; the first is refuted."
  },
  {
   "property": "C207",
   "status": "partial",
   "theorems": [
    "Rascal.C207_direction_partial",
    "Rascal.C207_order_partial",
    "Rascal.C207_refuted"
   ],
   "note": "Refuted for degree 3; proved for degrees 1 and 2."
  },
  {
   "property": "C208",
   "status": "partial",
   "theorems": [
    "Rascal.C208_bound_partial",
    "Rascal.C208_never",
    "Rascal.C208_refuted"
   ],
   "note": "The natural expectation, that a fit matching every peak also passes with all peaks required, is refuted."
  },
  {
   "property": "C209",
   "status": "partial",
   "theorems": [
    "Rascal.C209_manual",
    "Rascal.C209_line_partial",
    "Rascal.C209_robust_polyfit",
    "Rascal.C209_refuted"
   ],
   "note": "Proved for degree 1 (fit, robust_polyfit, manual_refit), refuted for degree 2."
  },
  {
   "property": "C210",
   "status": "partial",
   "theorems": [
    "Rascal.C210_order_partial",
    "Rascal.C210_same_samples_partial",
    "Rascal.C210_refuted"
   ],
   "note": "Refuted in general; proved for samples that are not rejected after their cost was compared, and for searches that evaluate the same samples."
  },
  {
   "property": "C211",
   "status": "partial",
   "theorems": [
    "Rascal.C211_single_partial",
    "Rascal.C211_several_partial",
    "Rascal.C211_each",
    "Rascal.C211_refuted"
   ],
   "note": "Refuted: lists of several thresholds raise AssertionError. The partial theorems give the effect of every list."
  },
  {
   "property": "C212",
   "status": "partial",
   "theorems": [
    "Rascal.C212_plain_partial",
    "Rascal.C212_robust_partial",
    "Rascal.C212_whole_partial",
    "Rascal.C212_flat_partial",
    "Rascal.C212_stuck_partial",
    "Rascal.C212_refuted"
   ],
   "note": "false for refine=True, robust_refit=False; C212_refuted, C212_plain_partial, C212_robust_partial, C212_whole_partial, C212_flat_partial, C212_stuck_partial"
  },
  {
   "property": "C213",
   "status": "proved",
   "theorems": [
    "Rascal.C213_final",
    "Rascal.C213_one_outcome",
    "Rascal.C213_waiting",
    "Rascal.C213_seeded",
    "Rascal.C213_any_two"
   ],
   "note": ""
  },
  {
   "property": "C214",
   "status": "partial",
   "theorems": [
    "Rascal.C214_bases",
    "Rascal.C214_other_matches_partial",
    "Rascal.C214_right_partial",
    "Rascal.C214_match_peaks_partial",
    "Rascal.C214_pixel_zero_partial",
    "Rascal.C214_refuted"
   ],
   "note": "C214_bases: the contract on the kernels holds for numpy's evaluation in all three bases; C214_match_peaks_partial: the same rule for the matches of match_peaks."
  },
  {
   "property": "C215",
   "status": "partial",
   "theorems": [
    "Rascal.C215_ranges",
    "Rascal.C215_thresholds",
    "Rascal.C215_refuted",
    "Rascal.C215_distance_again_partial",
    "Rascal.C215_growing_distance",
    "Rascal.C215_growing_keeps_more"
   ],
   "note": ""
  },
  {
   "property": "C216",
   "status": "partial",
   "theorems": [
    "Rascal.C216_refuted",
    "Rascal.C216_finer_partial",
    "Rascal.C216_wider",
    "Rascal.C216_wider_slopes_lose",
    "Rascal.C216_order"
   ],
   "note": ""
  },
  {
   "property": "C217",
   "status": "proved",
   "theorems": [
    "Rascal.C217_filter",
    "Rascal.C217_load",
    "Rascal.C217_atlas"
   ],
   "note": ""
  },
  {
   "property": "C218",
   "status": "partial",
   "theorems": [
    "Rascal.C218_air_is_converted",
    "Rascal.C218_distance_partial",
    "Rascal.C218_refuted"
   ],
   "note": ""
  },
  {
   "property": "C219",
   "status": "partial",
   "theorems": [
    "Rascal.C219_apart_partial",
    "Rascal.C219_one_element_partial",
    "Rascal.C219_two_partial",
    "Rascal.C219_order_partial",
    "Rascal.C219_kept",
    "Rascal.C219_refuted",
    "Rascal.C219_repeat_partial",
    "Rascal.C219_repeat_order_partial"
   ],
   "note": "C219_apart_partial: with lines at least twice every tolerance apart exactly the lines outside all ranges stay, also if ranges meet. C219_repeat_partial: a sequence of calls made as often as there are lines leaves just the lines outside all ranges. C219_repeat_order_partial: so the order of the calls does not matter then."
  },
  {
   "property": "C220",
   "status": "proved",
   "theorems": [
    "Rascal.C220_add_appends",
    "Rascal.C220_user_appends",
    "Rascal.C220_order"
   ],
   "note": ""
  },
  {
   "property": "C221",
   "status": "partial",
   "theorems": [
    "Rascal.C221_add_partial",
    "Rascal.C221_limits_partial",
    "Rascal.C221_last_limits",
    "Rascal.C221_refuted"
   ],
   "note": "refuted: add_user_atlas replaces the limits that a later add uses; proved: for calls of add alone, for calls that are given their limits, and which limits are left"
  }
 ]
}