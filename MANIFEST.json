{
 "claims": [
  {
   "property": "C01",
   "status": "proved",
   "theorems": [
    "Metcalcpy.Props.C01_keeps_exactly_common_cases",
    "Metcalcpy.Props.C01_empty_value_list",
    "Metcalcpy.Props.C01_unknown_variable",
    "Metcalcpy.Props.C01_variables_plain",
    "Metcalcpy.Props.C01_case_key_exists",
    "Metcalcpy.Props.C01_ungroup",
    "Metcalcpy.Props.C01_variables"
   ],
   "note": "Exact characterisation of the kept rows for every frame, plus the degenerate and error cases."
  },
  {
   "property": "C02",
   "status": "proved",
   "theorems": [
    "Metcalcpy.Props.C02_subsequence",
    "Metcalcpy.Props.C02_idempotent",
    "Metcalcpy.Props.C02_key_determines_independent"
   ],
   "note": "Idempotence with the independent value in the key needs that the key determines it; shown for values without blanks."
  },
  {
   "property": "C03",
   "status": "proved",
   "theorems": [
    "Metcalcpy.Props.C03_value_order",
    "Metcalcpy.Props.C03_variable_order",
    "Metcalcpy.Props.C03_row_order"
   ],
   "note": ""
  },
  {
   "property": "C04",
   "status": "proved",
   "theorems": [
    "Metcalcpy.Props.C04_keeps_exactly_listed_cases",
    "Metcalcpy.Props.C04_no_valid_time"
   ],
   "note": ""
  },
  {
   "property": "C05",
   "status": "partial",
   "theorems": [
    "Metcalcpy.Props.C05_repeat_partial",
    "Metcalcpy.Props.C05_repeat_counterexample",
    "Metcalcpy.Props.C05_repeat_fails"
   ],
   "note": "False of the code: the first call adds the key column to the caller's frame and every further call on it raises ValueError. Partial: repeating on the returned frame works."
  },
  {
   "property": "C06",
   "status": "proved",
   "theorems": [
    "Metcalcpy.Props.C06_round_half_up_nearest",
    "Metcalcpy.Props.C06_rounding_unique",
    "Metcalcpy.Props.C06_round_half_up_error",
    "Metcalcpy.Props.C06_round_half_up_mono",
    "Metcalcpy.Props.C06_round_half_up_idem",
    "Metcalcpy.Props.C06_round_half_up_tie"
   ],
   "note": ""
  },
  {
   "property": "C07",
   "status": "proved",
   "theorems": [
    "Metcalcpy.Props.C07_unknown_column",
    "Metcalcpy.Props.C07_column_sum",
    "Metcalcpy.Props.C07_total",
    "Metcalcpy.Props.C07_sum_sound"
   ],
   "note": ""
  },
  {
   "property": "C08",
   "status": "proved",
   "theorems": [
    "Metcalcpy.Props.C08_scores_of_column_sums",
    "Metcalcpy.Props.C08_row_permutation",
    "Metcalcpy.Props.C08_merge_two_rows"
   ],
   "note": ""
  },
  {
   "property": "C09",
   "status": "proved",
   "theorems": [
    "Metcalcpy.Props.C09_unit_interval",
    "Metcalcpy.Props.C09_fbias_nonneg"
   ],
   "note": ""
  },
  {
   "property": "C10",
   "status": "proved",
   "theorems": [
    "Metcalcpy.Props.C10_ratio_scores",
    "Metcalcpy.Props.C10_skill_scores",
    "Metcalcpy.Props.C10_composed_scores",
    "Metcalcpy.Props.C10_lodds"
   ],
   "note": ""
  },
  {
   "property": "C11",
   "status": "proved",
   "theorems": [
    "Metcalcpy.Props.C11_hk_is_difference",
    "Metcalcpy.Props.C11_skill_bounds",
    "Metcalcpy.Props.C11_perfect_forecast"
   ],
   "note": ""
  },
  {
   "property": "C12",
   "status": "proved",
   "theorems": [
    "Metcalcpy.Props.C12_podn_pofd",
    "Metcalcpy.Props.C12_csi_identity",
    "Metcalcpy.Props.C12_orss_odds",
    "Metcalcpy.Props.C12_margins",
    "Metcalcpy.Props.C12_margins_add_up"
   ],
   "note": ""
  },
  {
   "property": "C13",
   "status": "proved",
   "theorems": [
    "Metcalcpy.Props.C13_curve_is_relative_value",
    "Metcalcpy.Props.C13_value_at_most_max",
    "Metcalcpy.Props.C13_maximum_attained",
    "Metcalcpy.Props.C13_no_result"
   ],
   "note": ""
  },
  {
   "property": "C14",
   "status": "proved",
   "theorems": [
    "Metcalcpy.Props.C14_auc_concordance",
    "Metcalcpy.Props.C14_auc_range"
   ],
   "note": "ROC area is the rounded concordance probability of the pooled bins; hence in [0,1], 1 for perfect separation, 0 for reversed separation. Needs at least one event and one non-event."
  },
  {
   "property": "C15",
   "status": "proved",
   "theorems": [
    "Metcalcpy.Props.C15_means",
    "Metcalcpy.Props.C15_me_mse",
    "Metcalcpy.Props.C15_bcmse",
    "Metcalcpy.Props.C15_single_row"
   ],
   "note": "BCMSE holds up to the rounding of the intermediate ME and MSE, with an explicit bound."
  },
  {
   "property": "C16",
   "status": "partial",
   "theorems": [
    "Metcalcpy.Props.C16_mse_nonneg_partial",
    "Metcalcpy.Props.C16_bcmse_counterexample",
    "Metcalcpy.Props.C16_raises_exactly_partial"
   ],
   "note": "False for BCMSE/BCRMSE: rounding of ME and MSE before subtraction can make BCMSE negative and BCRMSE raises ValueError. MSE/RMSE part and the exact identity are proved. Exactly when BCMSE is negative (and BCRMSE raises) is proved."
  },
  {
   "property": "C17",
   "status": "proved",
   "theorems": [
    "Metcalcpy.Props.C17_pr_corr",
    "Metcalcpy.Props.C17_anom_corr",
    "Metcalcpy.Props.C17_anom_corr_raw"
   ],
   "note": ""
  },
  {
   "property": "C18",
   "status": "partial",
   "theorems": [
    "Metcalcpy.Props.C18_weighted_means_partial",
    "Metcalcpy.Props.C18_two_stage_partial",
    "Metcalcpy.Props.C18_no_rows",
    "Metcalcpy.Props.C18_sal1l2_counterexample",
    "Metcalcpy.Props.C18_sal1l2_actual",
    "Metcalcpy.Props.C18_sal1l2_two_stage_counterexample"
   ],
   "note": "Proved for SL1L2, VL1L2, VAL1L2 and GRAD (missing values included). For SAL1L2, proved for every group: the means are right but stored under other column names, so a second stage always fails."
  },
  {
   "property": "C19",
   "status": "partial",
   "theorems": [
    "Metcalcpy.Props.C19_ctc_total_partial",
    "Metcalcpy.Props.C19_ctc_counterexample",
    "Metcalcpy.Props.C19_first_column_counterexample"
   ],
   "note": "False for every group: each count becomes the sum of the first column of the frame (proved for all inputs); only the total is right."
  },
  {
   "property": "C20",
   "status": "partial",
   "theorems": [
    "Metcalcpy.Props.C20_fbs_f_rate_partial",
    "Metcalcpy.Props.C20_fss_partial",
    "Metcalcpy.Props.C20_o_rate_counterexample",
    "Metcalcpy.Props.C20_o_rate_actual",
    "Metcalcpy.Props.C20_fss_counterexample",
    "Metcalcpy.Props.C20_fss_actual"
   ],
   "note": "FBS and F_RATE are total-weighted. FSS is proved exactly: the reference values of perfect rows are missing from the denominator, so it holds when no row has a perfect FSS. O_RATE is not weighted (exact value proved)."
  },
  {
   "property": "C21",
   "status": "partial",
   "theorems": [
    "Metcalcpy.Props.C21_roots_partial",
    "Metcalcpy.Props.C21_means_partial",
    "Metcalcpy.Props.C21_spread_plus_oerr_actual",
    "Metcalcpy.Props.C21_spread_plus_oerr_counterexample"
   ],
   "note": "Holds for every ECNT root and mean except SPREAD_PLUS_OERR, whose actual value and a counterexample are proved."
  },
  {
   "property": "C22",
   "status": "proved",
   "theorems": [
    "Metcalcpy.Props.C22_afss_ufss",
    "Metcalcpy.Props.C22_fss_le_one"
   ],
   "note": ""
  },
  {
   "property": "C23",
   "status": "proved",
   "theorems": [
    "Metcalcpy.Props.C23_convert",
    "Metcalcpy.Props.C23_length",
    "Metcalcpy.Props.C23_unique"
   ],
   "note": ""
  },
  {
   "property": "C24",
   "status": "proved",
   "theorems": [
    "Metcalcpy.Props.C24_indices"
   ],
   "note": "For a positive range."
  },
  {
   "property": "C25",
   "status": "proved",
   "theorems": [
    "Metcalcpy.Props.C25_order",
    "Metcalcpy.Props.C25_exactly_the_combinations",
    "Metcalcpy.Props.C25_count",
    "Metcalcpy.Props.C25_no_duplicates"
   ],
   "note": ""
  },
  {
   "property": "C26",
   "status": "proved",
   "theorems": [
    "Metcalcpy.Props.C26_list",
    "Metcalcpy.Props.C26_dict",
    "Metcalcpy.Props.C26_empty_inner_list",
    "Metcalcpy.Props.C26_index"
   ],
   "note": ""
  },
  {
   "property": "C27",
   "status": "proved",
   "theorems": [
    "Metcalcpy.Props.C27_indices",
    "Metcalcpy.Props.C27_consecutive",
    "Metcalcpy.Props.C27_resamples"
   ],
   "note": ""
  },
  {
   "property": "C28",
   "status": "partial",
   "theorems": [
    "Metcalcpy.Props.C28_serial",
    "Metcalcpy.Props.C28_threads_partial",
    "Metcalcpy.Props.C28_threads_actual",
    "Metcalcpy.Props.C28_threads_counterexample"
   ],
   "note": "Serial case proved in full; with several threads every job runs ceil(num_iterations/num_threads) replicates, so the count is exact only if the number of threads divides it."
  },
  {
   "property": "C29",
   "status": "proved",
   "theorems": [
    "Metcalcpy.Props.C29_schedule_independent",
    "Metcalcpy.Props.C29_can_finish"
   ],
   "note": "Labelled transition model of the worker pool; every schedule, number of workers and worker generator state."
  },
  {
   "property": "C30",
   "status": "proved",
   "theorems": [
    "Metcalcpy.Props.C30_ordered",
    "Metcalcpy.Props.C30_value_inside"
   ],
   "note": "Division is not an operation of the class."
  },
  {
   "property": "C31",
   "status": "partial",
   "theorems": [
    "Metcalcpy.Props.C31_percentile_interval",
    "Metcalcpy.Props.C31_only_available",
    "Metcalcpy.Props.C31_no_bounds",
    "Metcalcpy.Props.C31_pivotal",
    "Metcalcpy.Props.C31_all_missing"
   ],
   "note": "Everything claimed holds unless all replicates are missing while the statistic is not: then an IndexError escapes (C31_all_missing)."
  },
  {
   "property": "C32",
   "status": "partial",
   "theorems": [
    "Metcalcpy.Props.C32_limits_partial",
    "Metcalcpy.Props.C32_counterexample"
   ],
   "note": "Holds for the percentile method; the pivotal method multiplies a dictionary and always fails."
  },
  {
   "property": "C33",
   "status": "proved",
   "theorems": [
    "Metcalcpy.Props.C33_refused",
    "Metcalcpy.Props.C33_elementwise",
    "Metcalcpy.Props.C33_positions"
   ],
   "note": ""
  },
  {
   "property": "C34",
   "status": "proved",
   "theorems": [
    "Metcalcpy.Props.C34_sign",
    "Metcalcpy.Props.C34_magnitude"
   ],
   "note": "Relative to the listed perfect scores; ODDS, LODDS, NBR_ODDS and VL1L2_BIAS, whose listed perfect score is doubtful, are left out of the specification."
  },
  {
   "property": "C35",
   "status": "partial",
   "theorems": [
    "Metcalcpy.Props.C35_outcome_partial",
    "Metcalcpy.Props.C35_boundary",
    "Metcalcpy.Props.C35_zero_variance",
    "Metcalcpy.Props.C35_counterexample"
   ],
   "note": "False on the boundary p = alpha (UnboundLocalError) and for a constant difference (ZeroDivisionError); proved for every other admissible input, for any t-distribution."
  },
  {
   "property": "C36",
   "status": "partial",
   "theorems": [
    "Metcalcpy.Props.C36_exit_iff_partial",
    "Metcalcpy.Props.C36_no_value_error",
    "Metcalcpy.Props.C36_counterexample"
   ],
   "note": "alpha = 0 is silently replaced by 0.05 instead of being rejected; everything else proved."
  },
  {
   "property": "C37",
   "status": "proved",
   "theorems": [
    "Metcalcpy.Props.C37_mean",
    "Metcalcpy.Props.C37_mean_degenerate",
    "Metcalcpy.Props.C37_sum",
    "Metcalcpy.Props.C37_median",
    "Metcalcpy.Props.C37_zero_division"
   ],
   "note": "Holds whenever the function returns; a series that is constant up to its last value raises ZeroDivisionError (C37_zero_division)."
  },
  {
   "property": "C38",
   "status": "proved",
   "theorems": [
    "Metcalcpy.Props.C38_sorted",
    "Metcalcpy.Props.C38_empty"
   ],
   "note": "For non-empty frames of numeric thresholds, with stability; an empty frame raises (C38_empty). Python's float() is a parameter."
  },
  {
   "property": "C39",
   "status": "partial",
   "theorems": [
    "Metcalcpy.Props.C39_range_partial",
    "Metcalcpy.Props.C39_default_partial",
    "Metcalcpy.Props.C39_counterexample",
    "Metcalcpy.Props.C39_exactly_partial"
   ],
   "note": "False: the check only tests that spreads are non-zero, so a negative spread is accepted and the index leaves the range; proved for positive spreads and means. No index is above 1.5; when an index is non-negative is proved exactly."
  },
  {
   "property": "C40",
   "status": "partial",
   "theorems": [
    "Metcalcpy.Props.C40_never_unsorted",
    "Metcalcpy.Props.C40_interpolation_partial",
    "Metcalcpy.Props.C40_counterexample"
   ],
   "note": "The unsorted check can never fire (proved for all inputs); interpolation proved for increasing knots."
  },
  {
   "property": "C41",
   "status": "partial",
   "theorems": [
    "Metcalcpy.Props.C41_only_last_call_matters",
    "Metcalcpy.Props.C41_contingency_partial",
    "Metcalcpy.Props.C41_ordinary_partial",
    "Metcalcpy.Props.C41_eclv_partial",
    "Metcalcpy.Props.C41_roc_auc_strict",
    "Metcalcpy.Props.C41_values",
    "Metcalcpy.Props.C41_anomaly_partial",
    "Metcalcpy.Props.C41_counterexample"
   ],
   "note": "Statistics restore the filter except for early returns and the ROC area, which leave it strict; the values themselves do not depend on it except for the two anomaly correlations."
  },
  {
   "property": "C42",
   "status": "partial",
   "theorems": [
    "Metcalcpy.Props.C42_between_partial",
    "Metcalcpy.Props.C42_convex_partial",
    "Metcalcpy.Props.C42_outside",
    "Metcalcpy.Props.C42_top_interval",
    "Metcalcpy.Props.C42_exact_hit",
    "Metcalcpy.Props.C42_single_layer",
    "Metcalcpy.Props.C42_levels_independent",
    "Metcalcpy.Props.C42_counterexample"
   ],
   "note": "Linear interpolation is proved strictly between layers below the top interval; false in the top interval, at exact hits and with a single layer."
  },
  {
   "property": "C43",
   "status": "partial",
   "theorems": [
    "Metcalcpy.Props.C43_rejects_iff",
    "Metcalcpy.Props.C43_band_partial",
    "Metcalcpy.Props.C43_ignores_limits",
    "Metcalcpy.Props.C43_counterexample",
    "Metcalcpy.Props.C43_zonal"
   ],
   "note": "The band limits are ignored (always 60 to 90); proved for that band."
  },
  {
   "property": "C44",
   "status": "partial",
   "theorems": [
    "Metcalcpy.Props.C44_count_partial",
    "Metcalcpy.Props.C44_area_partial",
    "Metcalcpy.Props.C44_empty_part",
    "Metcalcpy.Props.C44_counterexample",
    "Metcalcpy.Props.C44_text_area"
   ],
   "note": "False for simple forecasts by number and for groups without matched or unmatched objects by area."
  },
  {
   "property": "C45",
   "status": "partial",
   "theorems": [
    "Metcalcpy.Props.C45_rows",
    "Metcalcpy.Props.C45_one_statistic_partial",
    "Metcalcpy.Props.C45_counterexample",
    "Metcalcpy.Props.C45_unplain_counterexample",
    "Metcalcpy.Props.C45_group_row_empty"
   ],
   "note": "False for several statistics: the first statistic's row holds the last statistic, the other rows stay empty (C45_rows, for all inputs). Proved for one statistic and plain values."
  },
  {
   "property": "C46",
   "status": "partial",
   "theorems": [
    "Metcalcpy.Props.C46_distinct_partial",
    "Metcalcpy.Props.C46_only_the_set_matters",
    "Metcalcpy.Props.C46_statistic_ignores_draws",
    "Metcalcpy.Props.C46_counterexample",
    "Metcalcpy.Props.C46_exactly_partial"
   ],
   "note": "False: a repeated case counts once. Proved for resamples without repetition. It holds exactly when every case drawn more than once has no rows."
  },
  {
   "property": "C47",
   "status": "partial",
   "theorems": [
    "Metcalcpy.Props.C47_levels_partial",
    "Metcalcpy.Props.C47_monotone",
    "Metcalcpy.Props.C47_antisymmetric_partial",
    "Metcalcpy.Props.C47_swap_partial",
    "Metcalcpy.Props.C47_result_partial",
    "Metcalcpy.Props.C47_counterexample",
    "Metcalcpy.Props.C47_swap_counterexample",
    "Metcalcpy.Props.C47_critical_values_partial",
    "Metcalcpy.Props.C47_interval",
    "Metcalcpy.Props.C47_direction",
    "Metcalcpy.Props.C47_rounding"
   ],
   "note": "False as stated: a score whose 99.9% value is exactly -100 gets no level, and for ME/BIAS exchanging the models keeps the sign when the means have equal magnitude. Levels, monotonicity and antisymmetry are proved for all other scores and for the whole function."
  },
  {
   "property": "C48",
   "status": "proved",
   "theorems": [
    "Metcalcpy.Props.C48_result",
    "Metcalcpy.Props.C48_bounds",
    "Metcalcpy.Props.C48_ignores_missing",
    "Metcalcpy.Props.C48_p_values",
    "Metcalcpy.Props.C48_median"
   ],
   "note": "Run counts and group sizes equal those of the specification, for all lists."
  },
  {
   "property": "C49",
   "status": "proved",
   "theorems": [
    "Metcalcpy.Props.C49_default_lag",
    "Metcalcpy.Props.C49_correlation",
    "Metcalcpy.Props.C49_covariance",
    "Metcalcpy.Props.C49_constant",
    "Metcalcpy.Props.C49_missing_counterexample"
   ],
   "note": "Bounds for complete series as stated; with missing values the bound fails (counterexample)."
  },
  {
   "property": "C50",
   "status": "proved",
   "theorems": [
    "Metcalcpy.Props.C50_pairs",
    "Metcalcpy.Props.C50_unpaired",
    "Metcalcpy.Props.C50_edges"
   ],
   "note": "Complete pairs are kept in order; the edge cases follow the code."
  },
  {
   "property": "C51",
   "status": "partial",
   "theorems": [
    "Metcalcpy.Props.C51_recognised_partial",
    "Metcalcpy.Props.C51_point_iff",
    "Metcalcpy.Props.C51_unknown_operation",
    "Metcalcpy.Props.C51_operation_counterexample",
    "Metcalcpy.Props.C51_exactly_partial"
   ],
   "note": "False for two-element derived series: the stored operation is the second series name. Exact extent proved: right exactly for two names with a known operation and for other numbers of entries ending in the word DIFF."
  },
  {
   "property": "C52",
   "status": "partial",
   "theorems": [
    "Metcalcpy.Props.C52_refused_iff",
    "Metcalcpy.Props.C52_derived_iff",
    "Metcalcpy.Props.C52_never_refused",
    "Metcalcpy.Props.C52_allowed_one_group",
    "Metcalcpy.Props.C52_two_groups_counterexample",
    "Metcalcpy.Props.C52_scorecard_counterexample",
    "Metcalcpy.Props.C52_scorecard_partial"
   ],
   "note": "The equivalence is proved for the check and for the aggregation; the number of values allowed is wrong for two groups (sum instead of product), and the scorecard does not check the second component."
  },
  {
   "property": "C53",
   "status": "proved",
   "theorems": [
    "Metcalcpy.Props.C53_exclusive",
    "Metcalcpy.Props.C53_float_form",
    "Metcalcpy.Props.C53_integer_form"
   ],
   "note": ""
  },
  {
   "property": "C54",
   "status": "partial",
   "theorems": [
    "Metcalcpy.Props.C54_result",
    "Metcalcpy.Props.C54_last_variable_partial",
    "Metcalcpy.Props.C54_counterexample"
   ],
   "note": "False: only the last series variable is enforced. The exact result is proved for every number of variables."
  },
  {
   "property": "C55",
   "status": "partial",
   "theorems": [
    "Metcalcpy.Props.C55_brier_raises",
    "Metcalcpy.Props.C55_parts_partial",
    "Metcalcpy.Props.C55_unequal_columns"
   ],
   "note": "False as stated: Brier score, Brier skill score and resolution raise AttributeError for every well-formed non-empty table. Base rate, uncertainty and reliability are proved to be numbers in their ranges."
  },
  {
   "property": "C56",
   "status": "proved",
   "theorems": [
    "Metcalcpy.Props.C56_speed",
    "Metcalcpy.Props.C56_components",
    "Metcalcpy.Props.C56_injective"
   ],
   "note": "Over the real numbers."
  },
  {
   "property": "C57",
   "status": "partial",
   "theorems": [
    "Metcalcpy.Props.C57_one_dot_partial",
    "Metcalcpy.Props.C57_all_dots",
    "Metcalcpy.Props.C57_counterexample",
    "Metcalcpy.Props.C57_exactly_when_partial"
   ],
   "note": "False as stated: every dot of the name is replaced. It holds exactly for names without a dot before the last one."
  },
  {
   "property": "C58",
   "status": "proved",
   "theorems": [
    "Metcalcpy.Props.C58_ordered",
    "Metcalcpy.Props.C58_chronological",
    "Metcalcpy.Props.C58_default",
    "Metcalcpy.Props.C58_parsed_valid",
    "Metcalcpy.Props.C58_parses_iso",
    "Metcalcpy.Props.C58_parses_unpadded"
   ],
   "note": "For every pair of arguments and every current date."
  },
  {
   "property": "C59",
   "status": "partial",
   "theorems": [
    "Metcalcpy.Props.C59_base_rate_partial",
    "Metcalcpy.Props.C59_base_rate_counterexample"
   ],
   "note": "False of the code: the constructor resets the option whenever it is 0 or 1."
  },
  {
   "property": "C60",
   "status": "proved",
   "theorems": [
    "Metcalcpy.Props.C60_hss_ec",
    "Metcalcpy.Props.C60_bounds"
   ],
   "note": ""
  },
  {
   "property": "C61",
   "status": "partial",
   "theorems": [
    "Metcalcpy.Props.C61_ctc_eclv_counterexample"
   ],
   "note": "False of the code: the result is always None because round_half_up is applied to an array."
  },
  {
   "property": "C62",
   "status": "partial",
   "theorems": [
    "Metcalcpy.Props.C62_eclv_total_partial",
    "Metcalcpy.Props.C62_pct_eclv_counterexample",
    "Metcalcpy.Props.C62_pct_counts_partial"
   ],
   "note": "False with the pinned NumPy, which has no np.float."
  },
  {
   "property": "C63",
   "status": "partial",
   "theorems": [
    "Metcalcpy.Props.C63_estdev_partial",
    "Metcalcpy.Props.C63_estdev_counterexample",
    "Metcalcpy.Props.C63_estdev_single_pair",
    "Metcalcpy.Props.C63_aggregated_counterexample"
   ],
   "note": "False in aggregation runs: ME and MSE are computed without the aggregation flag. The exact value is proved: missing if s < e^2, else the root of n(s - e^2)/(n-1), with e and s the sums of the errors and their squares."
  },
  {
   "property": "C64",
   "status": "partial",
   "theorems": [
    "Metcalcpy.Props.C64_fe_partial",
    "Metcalcpy.Props.C64_fe_counterexample",
    "Metcalcpy.Props.C64_aggregated_counterexample",
    "Metcalcpy.Props.C64_equal_totals_partial",
    "Metcalcpy.Props.C64_exactly_partial",
    "Metcalcpy.Props.C64_proportional_partial"
   ],
   "note": "False in aggregation runs: the statistic has no weighting entry; the exact value is the fractional error of the unweighted means of the lines. Exact extent proved; in particular right when all lines have the same total, or the observations are the same multiple of the forecasts in all lines."
  },
  {
   "property": "C65",
   "status": "partial",
   "theorems": [
    "Metcalcpy.Props.C65_si_partial",
    "Metcalcpy.Props.C65_si_counterexample",
    "Metcalcpy.Props.C65_zero_counterexample"
   ],
   "note": "False exactly when the rounded mean observation is zero: then always a ZeroDivisionError."
  },
  {
   "property": "C66",
   "status": "partial",
   "theorems": [
    "Metcalcpy.Props.C66_rps_partial",
    "Metcalcpy.Props.C66_complement",
    "Metcalcpy.Props.C66_rpss_counterexample",
    "Metcalcpy.Props.C66_rpss_actual"
   ],
   "note": "Means hold always; RPSS is proved exactly: the reference values of perfect rows are missing from the denominator, so it holds when no row is perfect."
  },
  {
   "property": "C67",
   "status": "proved",
   "theorems": [
    "Metcalcpy.Props.C67_conditional_means"
   ],
   "note": ""
  },
  {
   "property": "C68",
   "status": "partial",
   "theorems": [
    "Metcalcpy.Props.C68_msve_partial",
    "Metcalcpy.Props.C68_speeds_partial",
    "Metcalcpy.Props.C68_variance_partial",
    "Metcalcpy.Props.C68_speed_err_partial",
    "Metcalcpy.Props.C68_fspd_counterexample",
    "Metcalcpy.Props.C68_mean_vectors_partial",
    "Metcalcpy.Props.C68_speed_actual",
    "Metcalcpy.Props.C68_speed_of_point",
    "Metcalcpy.Props.C68_speed_of_point_actual"
   ],
   "note": "VL1L2_FSPD and VL1L2_OSPD are not weighted (exact value proved for all groups); the other statistics are pooled."
  },
  {
   "property": "C69",
   "status": "proved",
   "theorems": [
    "Metcalcpy.Props.C69_val1l2_anom_corr",
    "Metcalcpy.Props.C69_vcnt_anom_corr",
    "Metcalcpy.Props.C69_vcnt_uncntr"
   ],
   "note": ""
  },
  {
   "property": "C70",
   "status": "partial",
   "theorems": [
    "Metcalcpy.Props.C70_direction_range_partial",
    "Metcalcpy.Props.C70_direction_actual",
    "Metcalcpy.Props.C70_degrees_counterexample",
    "Metcalcpy.Props.C70_exactly_partial"
   ],
   "note": "The range holds; the number is an angle in radians (wrapped at 360), shown by a counterexample. It is the direction in degrees exactly for u = 0 and v > 0."
  },
  {
   "property": "C71",
   "status": "partial",
   "theorems": [
    "Metcalcpy.Props.C71_dir_err_partial",
    "Metcalcpy.Props.C71_large_group_counterexample",
    "Metcalcpy.Props.C71_missing_exactly_partial"
   ],
   "note": "A reported error is the right angle. Proved exactly when nothing is reported: the observed length is that of the sum of the vectors, so large groups report nothing."
  },
  {
   "property": "C72",
   "status": "proved",
   "theorems": [
    "Metcalcpy.Props.C72_grad"
   ],
   "note": ""
  },
  {
   "property": "C73",
   "status": "proved",
   "theorems": [
    "Metcalcpy.Props.C73_significance"
   ],
   "note": ""
  },
  {
   "property": "C74",
   "status": "proved",
   "theorems": [
    "Metcalcpy.Props.C74_brier_decomposition"
   ],
   "note": ""
  },
  {
   "property": "C75",
   "status": "partial",
   "theorems": [
    "Metcalcpy.Props.C75_agree_partial",
    "Metcalcpy.Props.C75_zero_variance",
    "Metcalcpy.Props.C75_zero_p",
    "Metcalcpy.Props.C75_counterexample"
   ],
   "note": "False: a p-value of exactly 0 suppresses all outcomes; agreement proved otherwise."
  },
  {
   "property": "C76",
   "status": "partial",
   "theorems": [
    "Metcalcpy.Props.C76_slope_partial",
    "Metcalcpy.Props.C76_counterexample",
    "Metcalcpy.Props.C76_exactly_when_partial"
   ],
   "note": "False: a term of the formula misses a square. Proved exactly when the coefficient is the slope (three special sums)."
  },
  {
   "property": "C77",
   "status": "partial",
   "theorems": [
    "Metcalcpy.Props.C77_points_partial",
    "Metcalcpy.Props.C77_order_counterexample",
    "Metcalcpy.Props.C77_order_actual"
   ],
   "note": "One point per threshold with the pooled rates proved; the order is that of the texts for every frame, so \">=10\" precedes \">=2\"."
  },
  {
   "property": "C78",
   "status": "partial",
   "theorems": [
    "Metcalcpy.Props.C78_text_partial",
    "Metcalcpy.Props.C78_counterexample",
    "Metcalcpy.Props.C78_mixed_counterexample"
   ],
   "note": "False for \"<=\" (read as \"<\" and a text beginning with \"=\") and for mixtures (ValueError); proved for the other operators."
  },
  {
   "property": "C79",
   "status": "partial",
   "theorems": [
    "Metcalcpy.Props.C79_count_partial",
    "Metcalcpy.Props.C79_count_deviations",
    "Metcalcpy.Props.C79_area_partial",
    "Metcalcpy.Props.C79_area_deviations",
    "Metcalcpy.Props.C79_counterexample"
   ],
   "note": "Six of the statistics compute something else; what they compute is proved."
  },
  {
   "property": "C80",
   "status": "partial",
   "theorems": [
    "Metcalcpy.Props.C80_count_partial",
    "Metcalcpy.Props.C80_count_deviations",
    "Metcalcpy.Props.C80_area_partial",
    "Metcalcpy.Props.C80_area_deviations",
    "Metcalcpy.Props.C80_counterexample"
   ],
   "note": "CSI and PODY by number and FAR by area are wrong; what they compute is proved."
  },
  {
   "property": "C81",
   "status": "partial",
   "theorems": [
    "Metcalcpy.Props.C81_dimension_partial",
    "Metcalcpy.Props.C81_volume_missing",
    "Metcalcpy.Props.C81_counterexample"
   ],
   "note": "Volume statistics are always missing."
  },
  {
   "property": "C82",
   "status": "proved",
   "theorems": [
    "Metcalcpy.Props.C82_selects",
    "Metcalcpy.Props.C82_listing_order"
   ],
   "note": "For every directory listing."
  },
  {
   "property": "C83",
   "status": "partial",
   "theorems": [
    "Metcalcpy.Props.C83_numeric_series_empty",
    "Metcalcpy.Props.C83_counterexample",
    "Metcalcpy.Props.C83_text_partial"
   ],
   "note": "False: with numeric cells nothing is kept (proved for all frames). Proved for text cells."
  },
  {
   "property": "C84",
   "status": "partial",
   "theorems": [
    "Metcalcpy.Props.C84_result",
    "Metcalcpy.Props.C84_second_axis_wins",
    "Metcalcpy.Props.C84_counterexample",
    "Metcalcpy.Props.C84_same_series_partial",
    "Metcalcpy.Props.C84_run",
    "Metcalcpy.Props.C84_run_counterexample"
   ],
   "note": "False for a variable used on both axes: the values of the first axis are dropped from the final equalization (proved for all definitions). C84_result says exactly which rows are kept. C84_same_series_partial: if both axes have the same series, the result is the equalized data of both axes put together."
  },
  {
   "property": "C85",
   "status": "partial",
   "theorems": [
    "Metcalcpy.Props.C85_one_row_per_time_partial",
    "Metcalcpy.Props.C85_total_preserved_partial",
    "Metcalcpy.Props.C85_group_means"
   ],
   "note": "Proved for one aggregated value with complete (valid, lead) combinations; the other cases fail in the code (C86, C87)."
  },
  {
   "property": "C86",
   "status": "partial",
   "theorems": [
    "Metcalcpy.Props.C86_missing_lead_raises",
    "Metcalcpy.Props.C86_missing_lead_counterexample",
    "Metcalcpy.Props.C86_missing_lead_ctc_counterexample"
   ],
   "note": "False: proved that the aggregation raises in every such case (line types that divide by total); contingency tables get a row without valid time."
  },
  {
   "property": "C87",
   "status": "partial",
   "theorems": [
    "Metcalcpy.Props.C87_survivors_partial",
    "Metcalcpy.Props.C87_two_values_counterexample",
    "Metcalcpy.Props.C87_two_variables_counterexample"
   ],
   "note": "False: new rows share the label 0 and rows are removed by label. Proved exactly which values survive: for values of one variable that share no part, all of them unless the first row (label 0) belongs to one of them, and then this one and the values listed after it. Counterexamples for two values and two variables."
  },
  {
   "property": "C88",
   "status": "partial",
   "theorems": [
    "Metcalcpy.Props.C88_pooled_scores_partial",
    "Metcalcpy.Props.C88_perfect_line_counterexample",
    "Metcalcpy.Props.C88_scores_actual",
    "Metcalcpy.Props.C88_exactly_when_partial"
   ],
   "note": "Proved for groups without perfect lines; with them the exact value is proved (their reference values are missing), and that the skill score is right exactly when no line is perfect."
  },
  {
   "property": "C89",
   "status": "partial",
   "theorems": [
    "Metcalcpy.Props.C89_scores_of_first_row",
    "Metcalcpy.Props.C89_rpss_counterexample"
   ],
   "note": "False: proved that RMSE, CRPSS and RPSS stay those of the first row of every group."
  },
  {
   "property": "C90",
   "status": "partial",
   "theorems": [
    "Metcalcpy.Props.C90_any_variables_partial",
    "Metcalcpy.Props.C90_multiplicity_partial",
    "Metcalcpy.Props.C90_one_variable_partial",
    "Metcalcpy.Props.C90_two_variables_counterexample",
    "Metcalcpy.Props.C90_not_requested",
    "Metcalcpy.Props.C90_two_axes_partial"
   ],
   "note": "False with several series variables (rows repeated, unrequested rows kept). Proved for one series variable; for any number of them the exact result and how many times each row is returned."
  },
  {
   "property": "C91",
   "status": "partial",
   "theorems": [
    "Metcalcpy.Props.C91_one_axis_partial",
    "Metcalcpy.Props.C91_two_axes_counterexample",
    "Metcalcpy.Props.C91_two_variables_counterexample",
    "Metcalcpy.Props.C91_two_axes_partial"
   ],
   "note": "Proved for one axis with one series variable. False for two axes (the cases of the second axis are not checked against the first: what is kept is stated exactly) and for two series variables."
  },
  {
   "property": "C92",
   "status": "proved",
   "theorems": [
    "Metcalcpy.Props.C92_eds",
    "Metcalcpy.Props.C92_seds",
    "Metcalcpy.Props.C92_bounds",
    "Metcalcpy.Props.C92_reference_values"
   ],
   "note": ""
  },
  {
   "property": "C93",
   "status": "partial",
   "theorems": [
    "Metcalcpy.Props.C93_edi_partial",
    "Metcalcpy.Props.C93_sedi_partial",
    "Metcalcpy.Props.C93_bounds",
    "Metcalcpy.Props.C93_sign",
    "Metcalcpy.Props.C93_rare_event_counterexample",
    "Metcalcpy.Props.C93_edi_exactly_partial",
    "Metcalcpy.Props.C93_sedi_exactly_partial"
   ],
   "note": "The code rounds the hit rate to 7 digits first, so very rare hits give a missing score; the theorems describe the indices of the rounded hit rate. For which counts the indices are present is proved exactly."
  },
  {
   "property": "C94",
   "status": "proved",
   "theorems": [
    "Metcalcpy.Props.C94_bagss",
    "Metcalcpy.Props.C94_bagss_missing"
   ],
   "note": "Lambert W is a parameter with its defining equation as hypothesis."
  },
  {
   "property": "C95",
   "status": "proved",
   "theorems": [
    "Metcalcpy.Props.C95_stdev",
    "Metcalcpy.Props.C95_bias",
    "Metcalcpy.Props.C95_mae",
    "Metcalcpy.Props.C95_msess"
   ],
   "note": ""
  },
  {
   "property": "C96",
   "status": "proved",
   "theorems": [
    "Metcalcpy.Props.C96_rms",
    "Metcalcpy.Props.C96_anom_corr_raw"
   ],
   "note": ""
  },
  {
   "property": "C97",
   "status": "proved",
   "theorems": [
    "Metcalcpy.Props.C97_skill",
    "Metcalcpy.Props.C97_no_skill",
    "Metcalcpy.Props.C97_counts",
    "Metcalcpy.Props.C97_bias_ratio"
   ],
   "note": "For every table of complete ECNT rows; the bias ratio divides the two already rounded mean errors."
  },
  {
   "property": "C98",
   "status": "proved",
   "theorems": [
    "Metcalcpy.Props.C98_report",
    "Metcalcpy.Props.C98_equivalence",
    "Metcalcpy.Props.C98_difference",
    "Metcalcpy.Props.C98_nested"
   ],
   "note": "For any symmetric increasing distribution function with an inverse in place of the t-distribution; the equivalences hold up to the rounding of the reported numbers."
  },
  {
   "property": "C99",
   "status": "proved",
   "theorems": [
    "Metcalcpy.Props.C99_rows",
    "Metcalcpy.Props.C99_completes"
   ],
   "note": "For num_iterations = 1, no \";\" lists among the independent values and a line type other than PCT."
  },
  {
   "property": "C100",
   "status": "proved",
   "theorems": [
    "Metcalcpy.Props.C100_conservation"
   ],
   "note": "Plain rows of the table (the first product-many rows)."
  },
  {
   "property": "C101",
   "status": "partial",
   "theorems": [
    "Metcalcpy.Props.C101_first_variable_only",
    "Metcalcpy.Props.C101_counterexample"
   ],
   "note": "False: the table depends only on the rows of the first forecast variable; counterexample run."
  },
  {
   "property": "C102",
   "status": "partial",
   "theorems": [
    "Metcalcpy.Props.C102_named_series_partial",
    "Metcalcpy.Props.C102_two_variables_counterexample",
    "Metcalcpy.Props.C102_shared_value_counterexample",
    "Metcalcpy.Props.C102_difference_significance"
   ],
   "note": "Proved for two series that differ in one variable (or in the statistic only), fields without common values and components that are no group names. False when the series differ in two variables or fields share values: counterexample runs."
  },
  {
   "property": "C103",
   "status": "partial",
   "theorems": [
    "Metcalcpy.Props.C103_curve_present_iff",
    "Metcalcpy.Props.C103_counterexample"
   ],
   "note": "Exact condition for the curve to have rows; false for two series that share a group: counterexample run."
  },
  {
   "property": "C104",
   "status": "partial",
   "theorems": [
    "Metcalcpy.Props.C104_val1l2_partial",
    "Metcalcpy.Props.C104_vcnt_actual",
    "Metcalcpy.Props.C104_vcnt_counterexample"
   ],
   "note": "Proved for VAL1L2 (the square root is taken exactly). False for VCNT, which centres by mean speeds: what it computes is proved, with a counterexample."
  },
  {
   "property": "C105",
   "status": "partial",
   "theorems": [
    "Metcalcpy.Props.C105_same_cases_partial",
    "Metcalcpy.Props.C105_lengths",
    "Metcalcpy.Props.C105_counterexample"
   ],
   "note": "Proved for series with the same cases (any order, repetitions allowed) and the operations DIFF, DIFF_SIG, RATIO, SS, SINGLE; different numbers of rows are refused. False otherwise: as many different cases are paired silently."
  },
  {
   "property": "C106",
   "status": "partial",
   "theorems": [
    "Metcalcpy.Props.C106_plain_partial",
    "Metcalcpy.Props.C106_alpha_ignored",
    "Metcalcpy.Props.C106_counterexample",
    "Metcalcpy.Props.C106_right_partial"
   ],
   "note": "False: alpha is not passed on for plain series, 0.05 is always used. Everything else is proved, and that the limits are right exactly when those for the requested alpha are those for 0.05; derived curves do use alpha (C105)."
  },
  {
   "property": "C107",
   "status": "partial",
   "theorems": [
    "Metcalcpy.Props.C107_rows_partial",
    "Metcalcpy.Props.C107_unknown_actual",
    "Metcalcpy.Props.C107_counterexample",
    "Metcalcpy.Props.C107_anomalies",
    "Metcalcpy.Props.C107_other_line_types"
   ],
   "note": "Proved for requests without ':' in independent values and known statistics in all rows, every line type and without event equalization (sal1l2: after renaming, C107_anomalies). False when a row names an unknown statistic: the error is logged, and that row and all later ones keep the stat_value of the input (proved for all inputs)."
  },
  {
   "property": "C108",
   "status": "partial",
   "theorems": [
    "Metcalcpy.Props.C108_never_aggregated",
    "Metcalcpy.Props.C108_counterexample"
   ],
   "note": "False: the test looks for ':' in the characters of independent values and variable names, so values joined with ';' are not noticed (proved for all inputs without ':')."
  },
  {
   "property": "C109",
   "status": "partial",
   "theorems": [
    "Metcalcpy.Props.C109_nothing_left",
    "Metcalcpy.Props.C109_counterexample"
   ],
   "note": "False: for date-time independent values the second axis is searched in what the first one left; with different values of one variable on the two axes nothing is left (proved for all inputs). Without ':' no row is filtered at all (C107, C108)."
  },
  {
   "property": "C110",
   "status": "partial",
   "theorems": [
    "Metcalcpy.Props.C110_rows_partial",
    "Metcalcpy.Props.C110_lead_required",
    "Metcalcpy.Props.C110_two_variables_counterexample",
    "Metcalcpy.Props.C110_lead_counterexample"
   ],
   "note": "Proved for comparisons of two series that differ in at most one variable (and possibly in the statistic) when no two fields share a value and the run succeeds. False otherwise: series that differ in two variables are compared with other rows, and unless fcst_lead is a series variable there are no rows at all (proved for all inputs: a run with data fails with a KeyError)."
  },
  {
   "property": "C111",
   "status": "proved",
   "theorems": [
    "Metcalcpy.Props.C111_means",
    "Metcalcpy.Props.C111_unequal_counts",
    "Metcalcpy.Props.C110_rows_partial"
   ],
   "note": "For all row sets; exact arithmetic. C110_rows_partial carries the same values to the rows of the written table."
  },
  {
   "property": "C112",
   "status": "partial",
   "theorems": [
    "Metcalcpy.Props.C112_pairs_partial",
    "Metcalcpy.Props.C112_unpaired_counterexample",
    "Metcalcpy.Props.C112_swapped_counterexample"
   ],
   "note": "Proved for series with the same cases in any order. Refusing different cases is false: only the first series is checked, so a second series with repeated and missing cases is accepted and its values are paired by position."
  },
  {
   "property": "C113",
   "status": "partial",
   "theorems": [
    "Metcalcpy.Props.C113_confidence_partial",
    "Metcalcpy.Props.C113_range",
    "Metcalcpy.Props.C113_swap_partial",
    "Metcalcpy.Props.C113_failures",
    "Metcalcpy.Props.C113_tie_counterexample",
    "Metcalcpy.Props.C113_tie",
    "Metcalcpy.Props.C113_exactly_partial"
   ],
   "note": "Proved with the perfect score of the first requested statistic (see C114), over the reals, for any distribution function. Antisymmetry fails when both means are equally far from the perfect score (each series is then reported as better than the other); a single pair makes the run fail. For which series antisymmetry holds is proved exactly."
  },
  {
   "property": "C114",
   "status": "partial",
   "theorems": [
    "Metcalcpy.Props.C114_first_statistic_only",
    "Metcalcpy.Props.C114_counterexample"
   ],
   "note": "False: the first requested statistic decides for all comparisons (proved for all inputs); with RMSE and ACC requested the better ACC gets a negative significance."
  },
  {
   "property": "C115",
   "status": "partial",
   "theorems": [
    "Metcalcpy.Props.C115_curves_partial",
    "Metcalcpy.Props.C115_no_field",
    "Metcalcpy.Props.C115_no_probabilistic_curve",
    "Metcalcpy.Props.C115_empty_series_counterexample"
   ],
   "note": "Contingency counts: the whole table is characterised when every series has events and non-events; a single series without (for example without rows) makes the run fail, and that is proved for all inputs. Probabilistic counts: no run gives a curve with the pinned NumPy. Without a series field among the columns the run fails. Runs with resampling are not part of this claim."
  },
  {
   "property": "C116",
   "status": "proved",
   "theorems": [
    "Metcalcpy.Props.C116_scalar_statistics",
    "Metcalcpy.Props.C116_pooled",
    "Metcalcpy.Props.C116_spread"
   ],
   "note": ""
  },
  {
   "property": "C117",
   "status": "partial",
   "theorems": [
    "Metcalcpy.Props.C117_anom_corr_is_pr_corr",
    "Metcalcpy.Props.C117_short_names",
    "Metcalcpy.Props.C117_total_fails",
    "Metcalcpy.Props.C117_counterexample",
    "Metcalcpy.Props.C117_total",
    "Metcalcpy.Props.C117_run_anom_corr",
    "Metcalcpy.Props.C117_run_total"
   ],
   "note": "True in aggregation runs for the anomaly correlation (it equals the correlation). False otherwise: with an array of texts of at most five letters the result is always missing, and the total always fails in an aggregation run. At the level of a run: C117_run_anom_corr, C117_run_total."
  },
  {
   "property": "C118",
   "status": "proved",
   "theorems": [
    "Metcalcpy.Props.C118_nan_iff",
    "Metcalcpy.Props.C118_value",
    "Metcalcpy.Props.C118_symmetric",
    "Metcalcpy.Props.C118_order",
    "Metcalcpy.Props.C118_self",
    "Metcalcpy.Props.C118_affine",
    "Metcalcpy.Props.C118_outlier",
    "Metcalcpy.Props.C118_pvalue"
   ],
   "note": "Exact arithmetic for the data, real square roots; only symmetry and strict monotonicity of the t-distribution are used for the p-value."
  },
  {
   "property": "C119",
   "status": "proved",
   "theorems": [
    "Metcalcpy.Props.C119_value",
    "Metcalcpy.Props.C119_symmetric",
    "Metcalcpy.Props.C119_order",
    "Metcalcpy.Props.C119_self",
    "Metcalcpy.Props.C119_affine",
    "Metcalcpy.Props.C119_zero_scale",
    "Metcalcpy.Props.C119_errors",
    "Metcalcpy.Props.C119_pvalue"
   ],
   "note": "A zero bend scale does not always make the coefficient undefined; C119_zero_scale says what is computed."
  },
  {
   "property": "C120",
   "status": "partial",
   "theorems": [
    "Metcalcpy.Props.C120_missing",
    "Metcalcpy.Props.C120_row",
    "Metcalcpy.Props.C120_columns",
    "Metcalcpy.Props.C120_robust",
    "Metcalcpy.Props.C120_errors"
   ],
   "note": "False for the columns: 'outliers' is never reported although documented for robust methods, and BF10 appears for other methods when the coefficient is missing (C120_columns). The Bayes factor and the coefficients taken from scipy are not modelled."
  },
  {
   "property": "C121",
   "status": "partial",
   "theorems": [
    "Metcalcpy.Props.C121_interval",
    "Metcalcpy.Props.C121_reported",
    "Metcalcpy.Props.C121_narrower",
    "Metcalcpy.Props.C121_mirror",
    "Metcalcpy.Props.C121_small",
    "Metcalcpy.Props.C121_refused",
    "Metcalcpy.Props.C121_difference",
    "Metcalcpy.Props.C121_counterexample"
   ],
   "note": "All parts hold except that the rounded interval need not contain the coefficient: it can miss it by half a unit of the last decimal (C121_reported), and does for 0.123 with many cases (C121_counterexample)."
  },
  {
   "property": "C122",
   "status": "proved",
   "theorems": [
    "Metcalcpy.Props.C122_probability",
    "Metcalcpy.Props.C122_monotone",
    "Metcalcpy.Props.C122_errors",
    "Metcalcpy.Props.C122_level",
    "Metcalcpy.Props.C122_one_sided_reflected",
    "Metcalcpy.Props.C122_monotone_two_sided"
   ],
   "note": "The normal distribution function enters with values at least 0, monotone and symmetric; the searches for n, r or alpha are C197; the two-sided monotonicity (C122_monotone_two_sided) uses that the distribution grows less further outside. One-sided levels above 1/2 give the power of the complementary level."
  },
  {
   "property": "C123",
   "status": "partial",
   "theorems": [
    "Metcalcpy.Props.C123_one_row_per_valid_time_partial",
    "Metcalcpy.Props.C123_not_an_integer",
    "Metcalcpy.Props.C123_name_counterexample"
   ],
   "note": "The rows are pooled per valid time as stated, but the pooled row carries the first listed lead only, so it cannot be told from rows of that lead. A listed lead that is not an integer raises ValueError."
  },
  {
   "property": "C124",
   "status": "partial",
   "theorems": [
    "Metcalcpy.Props.C124_marked_partial",
    "Metcalcpy.Props.C124_no_straddle",
    "Metcalcpy.Props.C124_distance_ignored",
    "Metcalcpy.Props.C124_straddle_counterexample",
    "Metcalcpy.Props.C124_distance_counterexample"
   ],
   "note": "Exactly the longitudes in groups around the circle are marked provided the groups cover at least twice the required number of degrees of the circle read twice; this holds when no group straddles longitude 0. A group across longitude 0 may be dropped, and IBL_DIST has no effect (half the required extent is used)."
  },
  {
   "property": "C125",
   "status": "partial",
   "theorems": [
    "Metcalcpy.Props.C125_blocked_partial",
    "Metcalcpy.Props.C125_beyond_pole",
    "Metcalcpy.Props.C125_counterexample",
    "Metcalcpy.Props.C125_other_method"
   ],
   "note": "Proved for even band widths on whole latitudes when every band stays on the grid. One offset whose northern band leaves the grid makes the index missing and the longitude unblocked. Other method names are accepted and never find blocking."
  },
  {
   "property": "C126",
   "status": "proved",
   "theorems": [
    "Metcalcpy.Props.C126_smoothed",
    "Metcalcpy.Props.C126_rotation",
    "Metcalcpy.Props.C126_range",
    "Metcalcpy.Props.C126_wide"
   ],
   "note": "Windows with a half width beyond the circle are rejected."
  },
  {
   "property": "C127",
   "status": "proved",
   "theorems": [
    "Metcalcpy.Props.C127_order",
    "Metcalcpy.Props.C127_sum"
   ],
   "note": "For any argsort that sorts; the clustering itself is a parameter."
  },
  {
   "property": "C128",
   "status": "partial",
   "theorems": [
    "Metcalcpy.Props.C128_unmatched",
    "Metcalcpy.Props.C128_permutation",
    "Metcalcpy.Props.C128_correlate_partial",
    "Metcalcpy.Props.C128_correlate_counterexample",
    "Metcalcpy.Props.C128_last_place",
    "Metcalcpy.Props.C128_lost_counterexample"
   ],
   "note": "Holds when the order is a permutation, in particular when the best matches are different. Proved in general: a repeated regime gets the number of its last place, and every order that repeats one loses another, whose days keep uninitialised labels."
  },
  {
   "property": "C129",
   "status": "proved",
   "theorems": [
    "Metcalcpy.Props.C129_counts",
    "Metcalcpy.Props.C129_short"
   ],
   "note": "A window longer than the year by two days or more is rejected."
  },
  {
   "property": "C130",
   "status": "partial",
   "theorems": [
    "Metcalcpy.Props.C130_trend_kept",
    "Metcalcpy.Props.C130_counterexample",
    "Metcalcpy.Props.C130_exactly_partial"
   ],
   "note": "False: the trend is computed from an array of zeros, so the result keeps the weighted trend of the data; only the mean is removed. The trend is zero exactly when the weight or the trend of the data is."
  },
  {
   "property": "C131",
   "status": "proved",
   "theorems": [
    "Metcalcpy.Props.C131_elbow",
    "Metcalcpy.Props.C131_above"
   ],
   "note": "Over the reals."
  },
  {
   "property": "C132",
   "status": "proved",
   "theorems": [
    "Metcalcpy.Props.C132_label",
    "Metcalcpy.Props.C132_injective"
   ],
   "note": ""
  },
  {
   "property": "C133",
   "status": "partial",
   "theorems": [
    "Metcalcpy.Props.C133_columns_partial",
    "Metcalcpy.Props.C133_file",
    "Metcalcpy.Props.C133_names",
    "Metcalcpy.Props.C133_missing_observation_counterexample"
   ],
   "note": "Proved when all texts are present and without blanks. On a day without observation file the observation times are empty and the columns shift."
  },
  {
   "property": "C134",
   "status": "partial",
   "theorems": [
    "Metcalcpy.Props.C134_lag_one_partial",
    "Metcalcpy.Props.C134_units",
    "Metcalcpy.Props.C134_names",
    "Metcalcpy.Props.C134_default_lag_counterexample",
    "Metcalcpy.Props.C134_any_lag_partial"
   ],
   "note": "Proved for lag 1. At larger lags, in particular the default one, values of different revisions are paired across the single separator; which pairs enter is proved for every lag."
  },
  {
   "property": "C135",
   "status": "proved",
   "theorems": [
    "Metcalcpy.Props.C135_runs",
    "Metcalcpy.Props.C135_empty",
    "Metcalcpy.Props.C134_units",
    "Metcalcpy.Props.C134_names"
   ],
   "note": ""
  },
  {
   "property": "C136",
   "status": "partial",
   "theorems": [
    "Metcalcpy.Props.C136_size",
    "Metcalcpy.Props.C136_large_counterexample"
   ],
   "note": "False: the number depends only on the numbers of rows and revisions, and is 0 from 159 rows and revisions on."
  },
  {
   "property": "C137",
   "status": "partial",
   "theorems": [
    "Metcalcpy.Props.C137_surface_below_partial",
    "Metcalcpy.Props.C137_surface_between",
    "Metcalcpy.Props.C137_counterexample",
    "Metcalcpy.Props.C137_no_temperature"
   ],
   "note": "Proved when the surface lies below all levels. When it lies between two levels, all heights are too large by the thickness of the air between the lower level and the surface, stated exactly. A missing temperature makes its layer empty."
  },
  {
   "property": "C138",
   "status": "partial",
   "theorems": [
    "Metcalcpy.Props.C138_below_missing",
    "Metcalcpy.Props.C138_increasing",
    "Metcalcpy.Props.C138_on_level",
    "Metcalcpy.Props.C138_no_surface"
   ],
   "note": "Levels not above the surface are missing and present heights increase; when the surface pressure equals a level, all levels are missing."
  },
  {
   "property": "C139",
   "status": "partial",
   "theorems": [
    "Metcalcpy.Props.C139_same_unit_partial",
    "Metcalcpy.Props.C139_reading",
    "Metcalcpy.Props.C139_counterexample",
    "Metcalcpy.Props.C139_exactly_partial"
   ],
   "note": "Proved for equal units. For different units the factor is inverted: a level e in units lu over surfaces in units su is read as e su^2 / lu meters. The levels are read rightly for all columns exactly when the units are the same."
  },
  {
   "property": "C140",
   "status": "partial",
   "theorems": [
    "Metcalcpy.Props.C140_expand_partial",
    "Metcalcpy.Props.C140_nested_counterexample"
   ],
   "note": "Proved when no value contains a dollar sign. With nested references the result depends on the order of mention. The YAML parser is not modelled; word characters are ASCII."
  },
  {
   "property": "C141",
   "status": "partial",
   "theorems": [
    "Metcalcpy.Props.C141_to360_partial",
    "Metcalcpy.Props.C141_to180_partial",
    "Metcalcpy.Props.C141_round_trip_partial",
    "Metcalcpy.Props.C141_unequal_counterexample",
    "Metcalcpy.Props.C141_shared_counterexample",
    "Metcalcpy.Props.C141_to360_exactly_partial",
    "Metcalcpy.Props.C141_to180_exactly_partial"
   ],
   "note": "Proved exactly: the data go with their longitudes when there are as many western as eastern longitudes or only one kind, and lon.values is a copy. Otherwise the data are rolled by the wrong count, and with shared memory the western longitudes are lost."
  },
  {
   "property": "C142",
   "status": "partial",
   "theorems": [
    "Metcalcpy.Props.C142_remove_partial",
    "Metcalcpy.Props.C142_spacing_counterexample",
    "Metcalcpy.Props.C142_any_spacing_partial",
    "Metcalcpy.Props.C142_exactly_when_partial"
   ],
   "note": "Proved for equally spaced times. Only the first spacing is looked at, so that other times average the wrong window; the exact window is proved for all times, and for exactly which times the result is right."
  },
  {
   "property": "C143",
   "status": "partial",
   "theorems": [
    "Metcalcpy.Props.C143_even_partial",
    "Metcalcpy.Props.C143_odd",
    "Metcalcpy.Props.C143_odd_counterexample",
    "Metcalcpy.Props.C143_odd_exactly_partial"
   ],
   "note": "Proved for even numbers of times and longitudes. With an odd number of times components are judged at the neighbouring frequency; exactly the components next to a limit of the band are treated wrongly. The transforms are not modelled."
  },
  {
   "property": "C144",
   "status": "proved",
   "theorems": [
    "Metcalcpy.Props.C144_taper",
    "Metcalcpy.Props.C144_symmetric",
    "Metcalcpy.Props.C144_too_long",
    "Metcalcpy.Props.C144_single_value"
   ],
   "note": ""
  },
  {
   "property": "C145",
   "status": "partial",
   "theorems": [
    "Metcalcpy.Props.C145_sizes_partial",
    "Metcalcpy.Props.C145_counterexample",
    "Metcalcpy.Props.C145_reversed_counterexample"
   ],
   "note": "False: no grid is ever refused. Fields on reversed latitudes are projected on the wrong patterns. Proved what is left: the projection on daily EOFs ends with a ValueError exactly if some field has another number of points."
  },
  {
   "property": "C146",
   "status": "proved",
   "theorems": [
    "Metcalcpy.Props.C146_least_squares",
    "Metcalcpy.Props.C146_recovers",
    "Metcalcpy.Props.C146_rmm",
    "Metcalcpy.Props.C146_daily",
    "Metcalcpy.Props.C146_leap_year"
   ],
   "note": "lstsq is modelled by the normal equations, for patterns that are not multiples of each other."
  },
  {
   "property": "C147",
   "status": "partial",
   "theorems": [
    "Metcalcpy.Props.C147_cycle",
    "Metcalcpy.Props.C147_zero_mean",
    "Metcalcpy.Props.C147_cycle_removed",
    "Metcalcpy.Props.C147_single",
    "Metcalcpy.Props.C147_leap_counterexample",
    "Metcalcpy.Props.C147_day_of_year",
    "Metcalcpy.Props.C147_choice"
   ],
   "note": "The removal of the cycle is proved for all records. The choice between cycle and overall mean goes by day of the year: a record from 31 December 2019 to 30 December 2020 has zero activity."
  },
  {
   "property": "C148",
   "status": "partial",
   "theorems": [
    "Metcalcpy.Props.C148_skill_partial",
    "Metcalcpy.Props.C148_overwrites_counterexample",
    "Metcalcpy.Props.C148_single_counterexample"
   ],
   "note": "Proved for at least two hours and two forecast lines. The activities of the caller are overwritten, and one hour or one line raises. The correlation is a parameter."
  },
  {
   "property": "C153",
   "status": "proved",
   "theorems": [
    "Metcalcpy.Props.C153_window"
   ],
   "note": ""
  },
  {
   "property": "C152",
   "status": "partial",
   "theorems": [
    "Metcalcpy.Props.C152_smooth",
    "Metcalcpy.Props.C152_constant",
    "Metcalcpy.Props.C152_single_counterexample",
    "Metcalcpy.Props.C152_missing_counterexample"
   ],
   "note": "Proved for two or more values without missing ones. A single value raises IndexError; a missing value anywhere makes the first smoothed value missing."
  },
  {
   "property": "C154",
   "status": "partial",
   "theorems": [
    "Metcalcpy.Props.C154_segments_partial",
    "Metcalcpy.Props.C154_last_counterexample",
    "Metcalcpy.Props.C154_endless_counterexample"
   ],
   "note": "The segments used are exactly those at multiples of length + overlap - 1 that end before the last time: one that ends with the data is not used, consecutive segments share one value more than asked for, and an overlap of 1 - length never ends."
  },
  {
   "property": "C155",
   "status": "partial",
   "theorems": [
    "Metcalcpy.Props.C155_wavenumbers",
    "Metcalcpy.Props.C155_frequencies_partial",
    "Metcalcpy.Props.C155_even_counterexample",
    "Metcalcpy.Props.C155_odd_counterexample",
    "Metcalcpy.Props.C155_counts",
    "Metcalcpy.Props.C155_exactly_when_partial"
   ],
   "note": "Wavenumbers are right for all numbers of longitudes. Frequencies are right exactly for segment lengths that are multiples of four: otherwise labels are too small, the last row holds the time mean, or the arrays do not fit."
  },
  {
   "property": "C156",
   "status": "proved",
   "theorems": [
    "Metcalcpy.Props.C156_range",
    "Metcalcpy.Props.C156_proportional",
    "Metcalcpy.Props.C156_no_segments"
   ],
   "note": "Over exact complex coefficients of the transforms of the segments."
  },
  {
   "property": "C157",
   "status": "partial",
   "theorems": [
    "Metcalcpy.Props.C157_descending_partial",
    "Metcalcpy.Props.C157_ascending_counterexample",
    "Metcalcpy.Props.C157_option"
   ],
   "note": "Proved for latitudes from north to south. From south to north the rows come in reverse order of their latitudes and the antisymmetric part has the wrong sign."
  },
  {
   "property": "C158",
   "status": "partial",
   "theorems": [
    "Metcalcpy.Props.C158_closed_partial",
    "Metcalcpy.Props.C158_quadrature_counterexample",
    "Metcalcpy.Props.C158_nyquist_counterexample",
    "Metcalcpy.Props.C158_exactly_partial"
   ],
   "note": "Powers and co-spectra agree; quadrature spectra have opposite signs, and for even numbers of times and longitudes only the power of X is repeated. The two agree exactly when the quadrature spectrum is zero."
  },
  {
   "property": "C159",
   "status": "partial",
   "theorems": [
    "Metcalcpy.Props.C159_eastward_partial",
    "Metcalcpy.Props.C159_period",
    "Metcalcpy.Props.C159_lowest_counterexample",
    "Metcalcpy.Props.C159_single_counterexample",
    "Metcalcpy.Props.C159_odd_counterexample",
    "Metcalcpy.Props.C159_signed"
   ],
   "note": "At the level of data, through the two-dimensional transform and its inverse, for eastward and westward waves: the filter keeps wavenumbers kMin+1 to kMax+1 instead of kMin to kMax, all wavenumbers if the limits are equal, and loses the last of an odd number of times."
  },
  {
   "property": "C163",
   "status": "partial",
   "theorems": [
    "Metcalcpy.Props.C163_kelvin_partial",
    "Metcalcpy.Props.C163_kelvin_counterexample",
    "Metcalcpy.Props.C163_memory_counterexample",
    "Metcalcpy.Props.C163_wave_types_partial"
   ],
   "note": "For all wave types and both directions a wave is compared with the dispersion curves (stated as equations with their constants) of the wavenumber before its own, instead of its own, so that Kelvin waves of wavenumber one are always removed; with one depth the result depends on uninitialised memory."
  },
  {
   "property": "C149",
   "status": "partial",
   "theorems": [
    "Metcalcpy.Props.C149_amplitude_partial",
    "Metcalcpy.Props.C149_shortest_counterexample",
    "Metcalcpy.Props.C149_integer_counterexample"
   ],
   "note": "Proved for all superpositions of waves longer than two longitudes; the shortest wave of an even number of longitudes has twice its amplitude, and amplitudes of integer data are truncated."
  },
  {
   "property": "C150",
   "status": "partial",
   "theorems": [
    "Metcalcpy.Props.C150_sum_partial",
    "Metcalcpy.Props.C150_wave_partial",
    "Metcalcpy.Props.C150_selection_counterexample",
    "Metcalcpy.Props.C150_package_counterexample"
   ],
   "note": "Proved for all waves of an even number of longitudes; an odd number of longitudes, a selection of waves and the second package raise."
  },
  {
   "property": "C151",
   "status": "partial",
   "theorems": [
    "Metcalcpy.Props.C151_counterexample"
   ],
   "note": "The function reads a name that does not exist and raises for all data; nothing positive is left to prove."
  },
  {
   "property": "C164",
   "status": "proved",
   "theorems": [
    "Metcalcpy.Props.C164_wavenumbers",
    "Metcalcpy.Props.C164_kelvin"
   ],
   "note": ""
  },
  {
   "property": "C165",
   "status": "proved",
   "theorems": [
    "Metcalcpy.Props.C165_mode_zero",
    "Metcalcpy.Props.C165_mixed_relation"
   ],
   "note": ""
  },
  {
   "property": "C166",
   "status": "proved",
   "theorems": [
    "Metcalcpy.Props.C166_westward",
    "Metcalcpy.Props.C166_eastward",
    "Metcalcpy.Props.C166_missing",
    "Metcalcpy.Props.C166_mode_order",
    "Metcalcpy.Props.searchOK_exists"
   ],
   "note": "fsolve is a parameter with the assumption named in the statement; searchOK_exists shows that it can be met."
  },
  {
   "property": "C167",
   "status": "partial",
   "theorems": [
    "Metcalcpy.Props.C167_frame",
    "Metcalcpy.Props.C167_zero_range"
   ],
   "note": "Proved for max_wn other than 0; with max_wn = 0 the joins multiply the rows."
  },
  {
   "property": "C160",
   "status": "partial",
   "theorems": [
    "Metcalcpy.Props.C160_structure_partial",
    "Metcalcpy.Props.C160_power",
    "Metcalcpy.Props.C160_raises_counterexample",
    "Metcalcpy.Props.C160_descending_counterexample",
    "Metcalcpy.Props.C160_coarse_counterexample",
    "Metcalcpy.Props.C160_rows_counterexample"
   ],
   "note": "Proved for increasing, fine enough latitudes that reach at least a row beyond the equator; otherwise IndexError, missing or negative weights."
  },
  {
   "property": "C161",
   "status": "partial",
   "theorems": [
    "Metcalcpy.Props.C161_returns",
    "Metcalcpy.Props.C161_short",
    "Metcalcpy.Props.C161_window_counterexample",
    "Metcalcpy.Props.C161_shifted_counterexample",
    "Metcalcpy.Props.C161_raises_counterexample",
    "Metcalcpy.Props.C161_calendar"
   ],
   "note": "False as stated: the windows end with the month's first day, or in the month before; most records that do not begin 90 days before a month raise. The exact behaviour is proved."
  },
  {
   "property": "C168",
   "status": "partial",
   "theorems": [
    "Metcalcpy.Props.C168_quadratic_counterexample",
    "Metcalcpy.Props.C168_raises",
    "Metcalcpy.Props.C168_example",
    "Metcalcpy.Props.C168_exactly_partial"
   ],
   "note": "The result grows with the square of the factor; the exceptions are characterised exactly. Proportional exactly when the factor is one or the result zero."
  },
  {
   "property": "C169",
   "status": "partial",
   "theorems": [
    "Metcalcpy.Props.C169_complete_partial",
    "Metcalcpy.Props.C169_missing_counterexample",
    "Metcalcpy.Props.C169_left_out_counterexample"
   ],
   "note": "False: one missing value makes all results missing, and points missing on the eleventh day return the stress itself. Proved for records without missing values at the points that take part: the result of every point and time in closed form, and exactly when there is none; points missing at all times have no result."
  },
  {
   "property": "C170",
   "status": "proved",
   "theorems": [
    "Metcalcpy.Props.C170_units",
    "Metcalcpy.Props.C170_order"
   ],
   "note": ""
  },
  {
   "property": "C171",
   "status": "partial",
   "theorems": [
    "Metcalcpy.Props.C171_missing_counterexample",
    "Metcalcpy.Props.C171_example"
   ],
   "note": "False: one missing value leaves no day with an index."
  },
  {
   "property": "C172",
   "status": "partial",
   "theorems": [
    "Metcalcpy.Props.C172_value_partial",
    "Metcalcpy.Props.C172_bounds",
    "Metcalcpy.Props.C172_nan_counterexample",
    "Metcalcpy.Props.C172_unknown_counterexample"
   ],
   "note": "Proved for statistics that are numbers or missing. One replicate that is NaN makes the value 0, and a statistic that does not exist raises a TypeError instead of an empty result."
  },
  {
   "property": "C173",
   "status": "partial",
   "theorems": [
    "Metcalcpy.Props.C173_swap_partial",
    "Metcalcpy.Props.C173_tie_counterexample",
    "Metcalcpy.Props.C173_exactly_partial"
   ],
   "note": "Proved unless both series are equally far from the perfect score; then both orders give the same positive value. Exactly then, unless the value is zero."
  },
  {
   "property": "C174",
   "status": "proved",
   "theorems": [
    "Metcalcpy.Props.C174_refused",
    "Metcalcpy.Props.C174_value"
   ],
   "note": ""
  },
  {
   "property": "C175",
   "status": "partial",
   "theorems": [
    "Metcalcpy.Props.C175_order_partial",
    "Metcalcpy.Props.C175_categories_counterexample"
   ],
   "note": "Proved for lines that agree on the number of categories and the category pairs of the columns; lines with different numbers of categories are pooled without complaint and then the order matters."
  },
  {
   "property": "C176",
   "status": "proved",
   "theorems": [
    "Metcalcpy.Props.C176_blocks",
    "Metcalcpy.Props.C176_groups",
    "Metcalcpy.Props.C176_gibl_days"
   ],
   "note": "C176_gibl_days shows that days produced by run_Calc_GIBL meet the hypothesis of the other two unless all 360 longitudes are marked."
  },
  {
   "property": "C177",
   "status": "proved",
   "theorems": [
    "Metcalcpy.Props.C177_values"
   ],
   "note": ""
  },
  {
   "property": "C178",
   "status": "proved",
   "theorems": [
    "Metcalcpy.Props.C178_found"
   ],
   "note": ""
  },
  {
   "property": "C179",
   "status": "partial",
   "theorems": [
    "Metcalcpy.Props.C179_few_partial",
    "Metcalcpy.Props.C179_time_counterexample",
    "Metcalcpy.Props.C179_up_to_five_partial",
    "Metcalcpy.Props.C179_marked_partial"
   ],
   "note": "False: BLOCK_TIME is compared with the number of unused groups of the year, a block itself needs more than four groups whatever BLOCK_TIME is. Proved: a year with fewer groups than BLOCK_TIME has no block. Proved for BLOCK_TIME up to 5."
  },
  {
   "property": "C180",
   "status": "partial",
   "theorems": [
    "Metcalcpy.Props.C180_turned_counterexample",
    "Metcalcpy.Props.C180_turned_partial"
   ],
   "note": "False: groups over longitude 0 get a centre from the median of the indices; a slowly moving sequence over longitude 0 is discarded, the same sequence elsewhere is kept. Proved for a season with one block whose groups do not go over longitude 0 before or after turning."
  },
  {
   "property": "C181",
   "status": "partial",
   "theorems": [
    "Metcalcpy.Props.C181_none",
    "Metcalcpy.Props.C181_isolated_counterexample",
    "Metcalcpy.Props.C181_full_counterexample",
    "Metcalcpy.Props.C181_isolated_partial"
   ],
   "note": "False: without any group an IndexError is raised (for all such records), with groups of one year that are all more than two days apart a TypeError (for all such records), with a first day wholly marked an IndexError."
  },
  {
   "property": "C162",
   "status": "partial",
   "theorems": [
    "Metcalcpy.Props.C162_activity_partial",
    "Metcalcpy.Props.C162_descending_counterexample",
    "Metcalcpy.Props.C162_shifted_counterexample",
    "Metcalcpy.Props.C162_missing_counterexample"
   ],
   "note": "False in full: data from north to south, data sharing no grid label with the EOFs, and times without data give activity 0 without any warning. Proved when data coordinates ascend, contain those of the EOFs, and no value on the EOF grid is missing."
  },
  {
   "property": "C182",
   "status": "proved",
   "theorems": [
    "Metcalcpy.Props.C182_constant_field",
    "Metcalcpy.Props.C182_scale"
   ],
   "note": ""
  },
  {
   "property": "C183",
   "status": "proved",
   "theorems": [
    "Metcalcpy.Props.C183_nbr_scores",
    "Metcalcpy.Props.C183_nbr_skill",
    "Metcalcpy.Props.C183_nbr_composed"
   ],
   "note": ""
  },
  {
   "property": "C184",
   "status": "partial",
   "theorems": [
    "Metcalcpy.Props.C184_calls_partial",
    "Metcalcpy.Props.C184_unreadable",
    "Metcalcpy.Props.C184_script",
    "Metcalcpy.Props.C184_twice_counterexample"
   ],
   "note": "False in full: the threshold image cannot be saved a second time or after an image with boxes, nor the second image with boxes twice (ValueError from testing an array). C184_calls_partial says exactly which sequences succeed and what they give."
  },
  {
   "property": "C185",
   "status": "partial",
   "theorems": [
    "Metcalcpy.Props.C185_agg",
    "Metcalcpy.Props.C185_sum_partial",
    "Metcalcpy.Props.C185_unknown",
    "Metcalcpy.Props.C185_sal1l2_counterexample"
   ],
   "note": "False in full: sum_stat does not import the anomaly statistics, so the summary of line type sal1l2 has no values. Proved for all line types of agg_stat and all others of sum_stat. The tables of functions and imports are data of the code."
  },
  {
   "property": "C186",
   "status": "proved",
   "theorems": [
    "Metcalcpy.Props.C186_same_curves",
    "Metcalcpy.Props.C186_limits"
   ],
   "note": ""
  },
  {
   "property": "C187",
   "status": "proved",
   "theorems": [
    "Metcalcpy.Props.C187_outside"
   ],
   "note": ""
  },
  {
   "property": "C188",
   "status": "partial",
   "theorems": [
    "Metcalcpy.Props.C188_verdicts_partial",
    "Metcalcpy.Props.C188_sizes_counterexample"
   ],
   "note": "False in full: images of different sizes make the similarity raise ValueError, which ends the run. Proved when the similarity of all pairs can be computed."
  },
  {
   "property": "C189",
   "status": "partial",
   "theorems": [
    "Metcalcpy.Props.C189_kept_partial",
    "Metcalcpy.Props.C189_stem_counterexample"
   ],
   "note": "False in full: the files of an identical plot are deleted by the pattern stem*, which also matches data and scripts of a differing plot whose name begins with that stem. Proved for files whose path begins with no such stem."
  },
  {
   "property": "C190",
   "status": "partial",
   "theorems": [
    "Metcalcpy.Props.C190_sine_partial",
    "Metcalcpy.Props.C190_cosine_partial",
    "Metcalcpy.Props.C190_band_counterexample",
    "Metcalcpy.Props.C190_mean"
   ],
   "note": "False in full: the mask takes the packed order of scipy.fftpack.rfft for the order of fftfreq, so sine waves pass when half their period is between the limits. The two theorems say for every sine and cosine wave what happens; padding and tapering before are in C144, C192."
  },
  {
   "property": "C191",
   "status": "partial",
   "theorems": [
    "Metcalcpy.Props.C191_after",
    "Metcalcpy.Props.C191_unchanged_partial",
    "Metcalcpy.Props.C191_again",
    "Metcalcpy.Props.C191_overwrite_counterexample"
   ],
   "note": "False in full: detrend(..., overwrite_data=True) removes mean and trend in the array of the caller. Proved: what the array is after the call, that it is unchanged when there is neither mean nor trend, and that a second call returns the same index."
  },
  {
   "property": "C192",
   "status": "proved",
   "theorems": [
    "Metcalcpy.Props.C192_trend"
   ],
   "note": "Over the real numbers."
  },
  {
   "property": "C193",
   "status": "proved",
   "theorems": [
    "Metcalcpy.Props.C193_scale",
    "Metcalcpy.Props.C193_normalised"
   ],
   "note": "Over the real numbers; the transforms are given by their definitions."
  },
  {
   "property": "C194",
   "status": "proved",
   "theorems": [
    "Metcalcpy.Props.C194_background",
    "Metcalcpy.Props.C194_past",
    "Metcalcpy.Props.C194_window",
    "Metcalcpy.Props.C194_superposition",
    "Metcalcpy.Props.C194_first"
   ],
   "note": "Exact arithmetic, no missing values; the value of the norms is arbitrary."
  },
  {
   "property": "C195",
   "status": "partial",
   "theorems": [
    "Metcalcpy.Props.C195_shepherd_partial",
    "Metcalcpy.Props.C195_distance_unique",
    "Metcalcpy.Props.C195_units",
    "Metcalcpy.Props.C195_line",
    "Metcalcpy.Props.C195_counterexample"
   ],
   "note": "False in full: a resample whose points lie on a line (for instance the same pair drawn every time) makes the call fail. Proved when no resample does. Exact arithmetic; Spearman's coefficient itself is a parameter."
  },
  {
   "property": "C196",
   "status": "proved",
   "theorems": [
    "Metcalcpy.Props.C196_formula",
    "Metcalcpy.Props.C196_monotone",
    "Metcalcpy.Props.C196_sign",
    "Metcalcpy.Props.C196_refused",
    "Metcalcpy.Props.C196_tail_ignored"
   ],
   "note": "Method 'ly', |r| < 1, over the real numbers. C196_tail_ignored: one-sided alternatives are accepted (method 'wetzels' even switches to 'ly' for them) but give the two-sided factor."
  },
  {
   "property": "C197",
   "status": "partial",
   "theorems": [
    "Metcalcpy.Props.C197_correlation",
    "Metcalcpy.Props.C197_cases",
    "Metcalcpy.Props.C197_level",
    "Metcalcpy.Props.C197_one_sided_counterexample",
    "Metcalcpy.Props.C197_stronger",
    "Metcalcpy.Props.C197_refused",
    "Metcalcpy.Props.C197_few_cases"
   ],
   "note": "False in full for the level of a one-sided test: the search always returns NaN. Proved for the correlation, the number of cases and the level of a two-sided test. Real arithmetic; the t distribution and brenth are parameters with their specification."
  },
  {
   "property": "C198",
   "status": "partial",
   "theorems": [
    "Metcalcpy.Props.C198_value_partial",
    "Metcalcpy.Props.C198_table_partial",
    "Metcalcpy.Props.C198_extent",
    "Metcalcpy.Props.C198_counterexample",
    "Metcalcpy.Props.C198_case_column",
    "Metcalcpy.Props.C198_ratio_statistics"
   ],
   "note": "False in full: the requested forecast variable restricts the cases but not the rows, so objects of other forecast variables at the same cases are counted. Proved when the data hold the requested variable only; C198_extent says exactly which rows are counted. The table theorem is for one statistic (see C45)."
  },
  {
   "property": "C199",
   "status": "partial",
   "theorems": [
    "Metcalcpy.Props.C199_pool",
    "Metcalcpy.Props.C199_single_partial",
    "Metcalcpy.Props.C199_replicates",
    "Metcalcpy.Props.C199_counterexample"
   ],
   "note": "False in full: the pool of cases is not emptied between independent values, so the bootstrap of the second value also draws the cases of the first. Proved for a single independent value; C199_pool gives the exact pool. One thread and one batch."
  },
  {
   "property": "C200",
   "status": "partial",
   "theorems": [
    "Metcalcpy.Props.C200_counterexample",
    "Metcalcpy.Props.C200_axes_partial"
   ],
   "note": "False in full: the equalization returns nothing and every run with event_equal = True fails. Proved without event equalization."
  },
  {
   "property": "C201",
   "status": "partial",
   "theorems": [
    "Metcalcpy.Props.C201_values_partial",
    "Metcalcpy.Props.C201_same_cases_partial",
    "Metcalcpy.Props.C201_case_fixes_independent",
    "Metcalcpy.Props.C201_counterexample",
    "Metcalcpy.Props.C201_two_axes_partial"
   ],
   "note": "Proved for one axis with any number of series and fixed variables, when the last series variable holds texts (C83: numeric ones leave nothing) and the input has fcst_var and stat_name. False for two axes: the series of the second axis are not restricted to the cases of the first (C201_counterexample). num_iterations = 1. C201_two_axes_partial: it holds on both axes if they have the same series and different statistics or forecast variables."
  },
  {
   "property": "C202",
   "status": "partial",
   "theorems": [
    "Metcalcpy.Props.C202_once_partial",
    "Metcalcpy.Props.C202_without_statistic_column",
    "Metcalcpy.Props.C202_counterexample"
   ],
   "note": "False in full: without a stat_name column the data are repeated once per statistic (C202_without_statistic_column), and a series shown on both axes is counted twice. Proved for one axis when both columns exist and no statistic is listed twice."
  },
  {
   "property": "C203",
   "status": "proved",
   "theorems": [
    "Metcalcpy.Props.C203_group_names"
   ],
   "note": "For all parameters."
  },
  {
   "property": "C204",
   "status": "partial",
   "theorems": [
    "Metcalcpy.Props.C204_off_partial",
    "Metcalcpy.Props.C204_on",
    "Metcalcpy.Props.C204_counterexample"
   ],
   "note": "False in full: every text other than 'False' and the empty text, also 'false', switches equalization on (C204_on). Booleans read from the parameter file are not modelled."
  },
  {
   "property": "C205",
   "status": "proved",
   "theorems": [
    "Metcalcpy.Props.C205_scores",
    "Metcalcpy.Props.C205_completes",
    "Metcalcpy.Props.C205_scores_without_equalization",
    "Metcalcpy.Props.C205_bias_scores"
   ],
   "note": "Same input conditions as C201 (one axis, last series variable holds texts, fcst_var and stat_name columns). Exact arithmetic; num_iterations = 1. C205_bias_scores adds the multiplicative bias and the squared mean error."
  },
  {
   "property": "C206",
   "status": "proved",
   "theorems": [
    "Metcalcpy.Props.C206_same_observations"
   ],
   "note": "Same input conditions as C201."
  },
  {
   "property": "C207",
   "status": "proved",
   "theorems": [
    "Metcalcpy.Props.C207_scores",
    "Metcalcpy.Props.C205_scores_without_equalization",
    "Metcalcpy.Props.C207_composed_scores"
   ],
   "note": "Same input conditions as C201. C207_composed_scores adds HK, ODDS and ODDS1, which are composed of rounded POD and POFD."
  },
  {
   "property": "C208",
   "status": "proved",
   "theorems": [
    "Metcalcpy.Props.C208_one_ec_value"
   ],
   "note": "Same input conditions as C201."
  },
  {
   "property": "C209",
   "status": "proved",
   "theorems": [
    "Metcalcpy.Props.C209_curves",
    "Metcalcpy.Props.C209_rows",
    "Metcalcpy.Props.C209_off",
    "Metcalcpy.Props.C209_needs_statistic_name"
   ],
   "note": "CTC lines without a thresh_i column; series values without ':'; exact arithmetic."
  },
  {
   "property": "C210",
   "status": "proved",
   "theorems": [
    "Metcalcpy.Props.C210_same_cases"
   ],
   "note": "Series values that are integers or texts other than NA (decimals never match in the equalization, C01)."
  },
  {
   "property": "C211",
   "status": "partial",
   "theorems": [
    "Metcalcpy.Props.C211_absent_value_fails",
    "Metcalcpy.Props.C211_group_counterexample"
   ],
   "note": "False: equalization splits groups, the aggregation does not; a run with a value that is no cell's value never gives a table."
  },
  {
   "property": "C212",
   "status": "proved",
   "theorems": [
    "Metcalcpy.Props.C212_latitude",
    "Metcalcpy.Props.C212_other_grid",
    "Metcalcpy.Props.C212_invariant"
   ],
   "note": "Exact arithmetic (reals for the square roots and the cosine); every file of the same shape."
  },
  {
   "property": "C213",
   "status": "partial",
   "theorems": [
    "Metcalcpy.Props.C213_missing_season",
    "Metcalcpy.Props.C213_counterexample"
   ],
   "note": "False: a season without values gets the first latitude of the grid (the pole) everywhere and pulls the mean towards it."
  },
  {
   "property": "C214",
   "status": "proved",
   "theorems": [
    "Metcalcpy.Props.C214_flags",
    "Metcalcpy.Props.C214_invariant",
    "Metcalcpy.Props.C214_season_order"
   ],
   "note": "Even band widths; bands that leave the grid are the subject of C125."
  },
  {
   "property": "C215",
   "status": "proved",
   "theorems": [
    "Metcalcpy.Props.C215_text",
    "Metcalcpy.Props.C215_missing_day"
   ],
   "note": "Regimes are whole numbers printed as floats (1.0)."
  },
  {
   "property": "C216",
   "status": "proved",
   "theorems": [
    "Metcalcpy.Props.C216_time"
   ],
   "note": "datetime's ordinal numbers are part of the model; netCDF4 storage is not."
  },
  {
   "property": "C217",
   "status": "partial",
   "theorems": [
    "Metcalcpy.Props.C217_old_file_lost",
    "Metcalcpy.Props.C217_counterexample"
   ],
   "note": "False: the earlier file is removed before the times are read."
  },
  {
   "property": "C218",
   "status": "proved",
   "theorems": [
    "Metcalcpy.Props.C218_projection"
   ],
   "note": "The EOF solver is not modelled: its orthogonality and covariances are hypotheses."
  },
  {
   "property": "C219",
   "status": "proved",
   "theorems": [
    "Metcalcpy.Props.C219_rows",
    "Metcalcpy.Props.C219_none",
    "Metcalcpy.Props.C219_off"
   ],
   "note": "One axis, without values joined with ':' in names or ';' (see C107 for these); the labels of the kept rows are numbered anew."
  },
  {
   "property": "C220",
   "status": "partial",
   "theorems": [
    "Metcalcpy.Props.C220_key_error",
    "Metcalcpy.Props.C220_counterexample"
   ],
   "note": "False: a KeyError in the equalization (e.g. a fixed variable that is no column) is logged and all input rows are written, without statistics. C219_rows holds when the equalization ends without error."
  },
  {
   "property": "C221",
   "status": "proved",
   "theorems": [
    "Metcalcpy.Props.C221_shares",
    "Metcalcpy.Props.C221_too_many"
   ],
   "note": "The decomposition is a parameter with its defining properties as hypotheses; dim = 0."
  },
  {
   "property": "C222",
   "status": "partial",
   "theorems": [
    "Metcalcpy.Props.C222_correlation_partial",
    "Metcalcpy.Props.C222_counterexample",
    "Metcalcpy.Props.C222_covariance_extent_partial"
   ],
   "note": "False with the covariance matrix: the mean is not removed; there the result stays the same only if nothing is added or the data are constant in time (proved for every decomposition). Proved with the correlation matrix."
  },
  {
   "property": "C223",
   "status": "proved",
   "theorems": [
    "Metcalcpy.Props.C223_value",
    "Metcalcpy.Props.C223_zero",
    "Metcalcpy.Props.C223_units"
   ],
   "note": "Exact rational arithmetic."
  },
  {
   "property": "C224",
   "status": "proved",
   "theorems": [
    "Metcalcpy.Props.C224_reversal"
   ],
   "note": "missing values included"
  },
  {
   "property": "C225",
   "status": "proved",
   "theorems": [
    "Metcalcpy.Props.C225_steady"
   ],
   "note": ""
  },
  {
   "property": "C226",
   "status": "proved",
   "theorems": [
    "Metcalcpy.Props.C226_regression"
   ],
   "note": ""
  },
  {
   "property": "C227",
   "status": "proved",
   "theorems": [
    "Metcalcpy.Props.C227_waves"
   ],
   "note": "odd sizes: C143"
  },
  {
   "property": "C228",
   "status": "proved",
   "theorems": [
    "Metcalcpy.Props.C228_parts"
   ],
   "note": ""
  },
  {
   "property": "C229",
   "status": "proved",
   "theorems": [
    "Metcalcpy.Props.C229_clean"
   ],
   "note": ""
  },
  {
   "property": "C230",
   "status": "proved",
   "theorems": [
    "Metcalcpy.Props.C230_nothing_left"
   ],
   "note": "names of files and plots with exactly one dot (C57)"
  },
  {
   "property": "C231",
   "status": "proved",
   "theorems": [
    "Metcalcpy.Props.C231_call"
   ],
   "note": "names of files and plots with exactly one dot (C57)"
  },
  {
   "property": "C232",
   "status": "proved",
   "theorems": [
    "Metcalcpy.Props.C232_columns",
    "Metcalcpy.Props.C232_runs"
   ],
   "note": ""
  },
  {
   "property": "C233",
   "status": "partial",
   "theorems": [
    "Metcalcpy.Props.C233_single_row_partial",
    "Metcalcpy.Props.C233_first_row",
    "Metcalcpy.Props.C233_second_row_counterexample"
   ],
   "note": "false in the code: only the first row is formatted"
  },
  {
   "property": "C234",
   "status": "proved",
   "theorems": [
    "Metcalcpy.Props.C234_width"
   ],
   "note": ""
  },
  {
   "property": "C235",
   "status": "partial",
   "theorems": [
    "Metcalcpy.Props.C235_fraction_partial",
    "Metcalcpy.Props.C235_other_values",
    "Metcalcpy.Props.C235_negative_counterexample",
    "Metcalcpy.Props.C235_exactly_partial"
   ],
   "note": "false in the code for negative values; proved for positive values and factors For which values and factors it holds is proved exactly."
  },
  {
   "property": "C236",
   "status": "partial",
   "theorems": [
    "Metcalcpy.Props.C236_written_partial",
    "Metcalcpy.Props.C236_types_counterexample"
   ],
   "note": "false in the code for types other than the signed and unsigned 32- and 64-bit integers and floats; proved for these"
  },
  {
   "property": "C237",
   "status": "partial",
   "theorems": [
    "Metcalcpy.Props.C237_intervals_partial",
    "Metcalcpy.Props.C237_shift",
    "Metcalcpy.Props.C237_shift_counterexample",
    "Metcalcpy.Props.C237_exactly_partial"
   ],
   "note": "false in the code: the first time is lost; the differences are proved The times themselves are found in the file exactly when the first is the beginning of 1970."
  },
  {
   "property": "C238",
   "status": "partial",
   "theorems": [
    "Metcalcpy.Props.C238_written_partial",
    "Metcalcpy.Props.C238_attributes_counterexample",
    "Metcalcpy.Props.C238_first",
    "Metcalcpy.Props.C238_before",
    "Metcalcpy.Props.C238_exactly_partial"
   ],
   "note": "false in the code: attributes of valid_time go to another variable; proved when valid_time has none Where the attributes go, and when the file is right, is proved exactly."
  },
  {
   "property": "C239",
   "status": "partial",
   "theorems": [
    "Metcalcpy.Props.C239_reference_partial",
    "Metcalcpy.Props.C239_reference_counterexample",
    "Metcalcpy.Props.C239_first_dot",
    "Metcalcpy.Props.C239_no_dot",
    "Metcalcpy.Props.C239_exactly_partial"
   ],
   "note": "false in the code: local time is used and a dot in the directory fails; the exact value is proved for paths whose first dot stands before the date It is right exactly when local time is universal time; paths with an earlier dot or none are shown to fail."
  },
  {
   "property": "C240",
   "status": "proved",
   "theorems": [
    "Metcalcpy.Props.C240_ground",
    "Metcalcpy.Props.C240_no_height"
   ],
   "note": "over every ordered field"
  },
  {
   "property": "C241",
   "status": "partial",
   "theorems": [
    "Metcalcpy.Props.C241_between_partial",
    "Metcalcpy.Props.C241_outside",
    "Metcalcpy.Props.C241_missing",
    "Metcalcpy.Props.C241_top_counterexample",
    "Metcalcpy.Props.C241_top_interval",
    "Metcalcpy.Props.C241_top_exactly_partial"
   ],
   "note": "false in the code in the top interval and on the layers (as C42); proved elsewhere, over every ordered field What the top interval gives, and when it is right, is proved exactly."
  },
  {
   "property": "C242",
   "status": "partial",
   "theorems": [
    "Metcalcpy.Props.C242_between_partial",
    "Metcalcpy.Props.C242_underground_partial",
    "Metcalcpy.Props.C242_field",
    "Metcalcpy.Props.C242_underground_counterexample"
   ],
   "note": "false in the code when all levels lie above the ground, and in the top interval; proved otherwise"
  },
  {
   "property": "C243",
   "status": "proved",
   "theorems": [
    "Metcalcpy.Props.C243_scores",
    "Metcalcpy.Props.C243_completes"
   ],
   "note": "rational statistics; RMSE and spreads (square roots) are in C21"
  },
  {
   "property": "C244",
   "status": "proved",
   "theorems": [
    "Metcalcpy.Props.C244_scores"
   ],
   "note": "AFSS, UFSS and the observed rate are in C20 and C22 (the observed rate is not weighted)"
  },
  {
   "property": "C245",
   "status": "proved",
   "theorems": [
    "Metcalcpy.Props.C245_scores"
   ],
   "note": ""
  },
  {
   "property": "C246",
   "status": "proved",
   "theorems": [
    "Metcalcpy.Props.C246_scores"
   ],
   "note": ""
  },
  {
   "property": "C247",
   "status": "proved",
   "theorems": [
    "Metcalcpy.Props.C247_curve",
    "Metcalcpy.Props.C247_same_observations"
   ],
   "note": "The curve is described by C102 (CurveRequest collects its hypotheses; C102 shows that they are needed)."
  },
  {
   "property": "C248",
   "status": "proved",
   "theorems": [
    "Metcalcpy.Props.C248_scores",
    "Metcalcpy.Props.C248_mae",
    "Metcalcpy.Props.C248_completes"
   ],
   "note": "MAE under the hypothesis that the lines have a column with the mean absolute errors. ESTDEV is not claimed (C65)."
  },
  {
   "property": "C249",
   "status": "proved",
   "theorems": [
    "Metcalcpy.Props.C249_scores",
    "Metcalcpy.Props.C249_completes"
   ],
   "note": ""
  },
  {
   "property": "C250",
   "status": "proved",
   "theorems": [
    "Metcalcpy.Props.C250_scores",
    "Metcalcpy.Props.C250_anomalies",
    "Metcalcpy.Props.C250_completes",
    "Metcalcpy.Props.C250_anomalies_complete"
   ],
   "note": "VL1L2_FSPD and VL1L2_OSPD are not claimed: they are plain means over the lines (C68_fspd_counterexample). Not modelled: the directions and the unrounded VCNT anomaly correlations."
  },
  {
   "property": "C251",
   "status": "proved",
   "theorems": [
    "Metcalcpy.Props.C251_scores",
    "Metcalcpy.Props.C251_completes"
   ],
   "note": ""
  },
  {
   "property": "C252",
   "status": "partial",
   "theorems": [
    "Metcalcpy.Props.C252_scores",
    "Metcalcpy.Props.C252_completes",
    "Metcalcpy.Props.C252_brier_fails"
   ],
   "note": "False for the Brier score, its skill score and the resolution: every run that asks for one of them at a point with forecasts fails (C252_brier_fails). Proved for the other four."
  },
  {
   "property": "C253",
   "status": "proved",
   "theorems": [
    "Metcalcpy.Props.C253_curve",
    "Metcalcpy.Props.C253_completes"
   ],
   "note": ""
  },
  {
   "property": "C254",
   "status": "proved",
   "theorems": [
    "Metcalcpy.Props.C254_mctc",
    "Metcalcpy.Props.C254_mctc_completes",
    "Metcalcpy.Props.C254_nbr",
    "Metcalcpy.Props.C254_nbr_completes"
   ],
   "note": "NBR_HK and NBR_ODDS are not claimed here (C183)."
  },
  {
   "property": "C255",
   "status": "partial",
   "theorems": [
    "Metcalcpy.Props.C255_equivalence",
    "Metcalcpy.Props.C255_counterexample"
   ],
   "note": "False: the result of the test is a dictionary, of which the first element is taken; the KeyError ends the run. Exact condition for the failure, and the value is missing otherwise."
  },
  {
   "property": "C256",
   "status": "partial",
   "theorems": [
    "Metcalcpy.Props.C256_leads_partial",
    "Metcalcpy.Props.C256_regions_partial",
    "Metcalcpy.Props.C256_roots_partial",
    "Metcalcpy.Props.C256_gradients_partial",
    "Metcalcpy.Props.C256_winds_partial",
    "Metcalcpy.Props.C256_without_lists",
    "Metcalcpy.Props.C256_counterexample",
    "Metcalcpy.Props.C256_two_lists_counterexample"
   ],
   "note": "Proved for SL1L2 lines (the scores without roots, and RMSE and the other scores with roots), GRAD lines and VL1L2 lines, for lists of leads and (with every valid time at every lead) of other values; lists among the series values alone are not pooled and change nothing. False for line types whose columns calc_series_sums does not know (NBRCNT), and for two lists at once (TypeError)."
  },
  {
   "property": "C257",
   "status": "partial",
   "theorems": [
    "Metcalcpy.Props.C257_same_values_partial",
    "Metcalcpy.Props.C257_two_axes_partial",
    "Metcalcpy.Props.C257_equalized_partial",
    "Metcalcpy.Props.C257_counterexample"
   ],
   "note": "Proved when both runs complete (tables of an axis, runs with two axes, and one-axis runs with event equalization), for derived curves other than DIFF_SIG (their values agree up to the rounding to five decimals that only the run without bootstrapping does) and for the methods perc and pivotal. False for DIFF_SIG curves, and for any other name of a method, with which all values disappear without a message."
  },
  {
   "property": "C258",
   "status": "partial",
   "theorems": [
    "Metcalcpy.Props.C258_rows_partial",
    "Metcalcpy.Props.C258_two_axes_partial",
    "Metcalcpy.Props.C258_between_replicates",
    "Metcalcpy.Props.C258_sl1l2",
    "Metcalcpy.Props.C258_ctc",
    "Metcalcpy.Props.C258_alpha_counterexample",
    "Metcalcpy.Props.C258_roots",
    "Metcalcpy.Props.C258_anomalies",
    "Metcalcpy.Props.C258_winds",
    "Metcalcpy.Props.C258_ensembles",
    "Metcalcpy.Props.C258_spread",
    "Metcalcpy.Props.C258_ecnt",
    "Metcalcpy.Props.C258_nbrcnt",
    "Metcalcpy.Props.C258_rps",
    "Metcalcpy.Props.C258_grad",
    "Metcalcpy.Props.C258_mctc",
    "Metcalcpy.Props.C258_nbrctc",
    "Metcalcpy.Props.C258_directions",
    "Metcalcpy.Props.C258_pct"
   ],
   "note": "Proved with alpha = 0.05 for the rows of plain series: any statistic, runs with one or two axes, and down to the pooled data of every replicate for SL1L2, CTC, SAL1L2, VL1L2/VCNT (with directions), ECNT, SSVAR, NBRCNT, RPS, GRAD, MCTC, NBR_CTC and PCT lines. False for the requested alpha: it is not handed on for plain series, only for derived curves, so one table mixes two confidence levels."
  },
  {
   "property": "C259",
   "status": "partial",
   "theorems": [
    "Metcalcpy.Props.C259_vdiff_dir_partial",
    "Metcalcpy.Props.C259_degrees_counterexample"
   ],
   "note": "The vector and the missing case are proved; false for the unit: the number is an angle in radians, increased by 360 if negative (see C70)."
  },
  {
   "property": "C260",
   "status": "partial",
   "theorems": [
    "Metcalcpy.Props.C260_abs_is_err",
    "Metcalcpy.Props.C260_dir_abser_partial",
    "Metcalcpy.Props.C260_clockwise_counterexample"
   ],
   "note": "The value is characterised for every reported group: the angle in radians if the forecast is turned counterclockwise. False otherwise: a clockwise angle is reported as 360 minus radians, the error is never negative and the absolute error equals it always."
  },
  {
   "property": "C261",
   "status": "proved",
   "theorems": [
    "Metcalcpy.Props.C261_curve_limits",
    "Metcalcpy.Props.C261_sl1l2",
    "Metcalcpy.Props.C261_same_observations",
    "Metcalcpy.Props.C261_case_fixes_time",
    "Metcalcpy.Props.C261_ctc",
    "Metcalcpy.Props.C261_same_events",
    "Metcalcpy.Props.C261_roots",
    "Metcalcpy.Props.C261_anomalies",
    "Metcalcpy.Props.C261_winds",
    "Metcalcpy.Props.C261_ensembles",
    "Metcalcpy.Props.C261_spread",
    "Metcalcpy.Props.C261_ecnt",
    "Metcalcpy.Props.C261_nbrcnt",
    "Metcalcpy.Props.C261_rps",
    "Metcalcpy.Props.C261_grad",
    "Metcalcpy.Props.C261_mctc",
    "Metcalcpy.Props.C261_nbrctc",
    "Metcalcpy.Props.C261_directions",
    "Metcalcpy.Props.C261_pct"
   ],
   "note": "Proved for any statistic; for SL1L2 lines down to the pooled pairs for CTC lines down to the summed counts of every replicate, and for root statistics, SAL1L2, VL1L2/VCNT (with directions), ECNT, SSVAR, NBRCNT, RPS, GRAD, PCT, MCTC and NBRCTC lines down to the pool of every replicate. Models verified against the same observations (events) have a difference of observed means (base rates) of 0 without limits. Same time and lead of lines with one case key follows from their texts (C261_case_fixes_time)."
  },
  {
   "property": "C262",
   "status": "partial",
   "theorems": [
    "Metcalcpy.Props.C262_counterexample",
    "Metcalcpy.Props.C262_axis_iff",
    "Metcalcpy.Props.C262_interval_iff",
    "Metcalcpy.Props.C262_run",
    "Metcalcpy.Props.C262_completes_partial",
    "Metcalcpy.Props.C262_sl1l2",
    "Metcalcpy.Props.C262_rmse",
    "Metcalcpy.Props.C262_anomalies",
    "Metcalcpy.Props.C262_winds",
    "Metcalcpy.Props.C262_ensembles",
    "Metcalcpy.Props.C262_spread",
    "Metcalcpy.Props.C262_ecnt",
    "Metcalcpy.Props.C262_nbrcnt",
    "Metcalcpy.Props.C262_rps",
    "Metcalcpy.Props.C262_grad",
    "Metcalcpy.Props.C262_directions",
    "Metcalcpy.Props.C262_curves_partial",
    "Metcalcpy.Props.C262_rmse_curves",
    "Metcalcpy.Props.C262_anomalies_curves",
    "Metcalcpy.Props.C262_winds_curves",
    "Metcalcpy.Props.C262_ensembles_curves",
    "Metcalcpy.Props.C262_spread_curves",
    "Metcalcpy.Props.C262_ecnt_curves",
    "Metcalcpy.Props.C262_nbrcnt_curves",
    "Metcalcpy.Props.C262_rps_curves",
    "Metcalcpy.Props.C262_grad_curves",
    "Metcalcpy.Props.C262_directions_curves",
    "Metcalcpy.Props.C262_sig_curves_partial",
    "Metcalcpy.Props.C262_pct",
    "Metcalcpy.Props.C262_pct_curves"
   ],
   "note": "False as stated (C262_counterexample: multiplicative bias, one case with observations 0). C262_axis_iff says exactly when the table is completed; runs whose statistic has a number for every set of lines always are (means and errors of SL1L2 lines, RMSE, root mean square anomalies, wind statistics, ECNT means, counts, errors and spread, SSVAR, NBRCNT, RPS and GRAD means, and scores of PCT lines with counts). C262_curves_partial and the theorems ending in _curves: the same with requested differences and single series."
  },
  {
   "property": "C263",
   "status": "proved",
   "theorems": [
    "Metcalcpy.Props.C263_scores",
    "Metcalcpy.Props.C263_completes",
    "Metcalcpy.Props.C263_bcrmse"
   ],
   "note": "BCMSE and BCRMSE within the rounding of their parts, RMSE the root of the rounded mean square; ESTDEV is not part of it (see C63)."
  },
  {
   "property": "C264",
   "status": "proved",
   "theorems": [
    "Metcalcpy.Props.C264_directions",
    "Metcalcpy.Props.C264_completes"
   ],
   "note": "The unit is part of C70 and C259 (radians, 360 added to negative angles); whether VCNT_DIR_ERR is reported depends on the number of pairs (C71)."
  },
  {
   "property": "C265",
   "status": "partial",
   "theorems": [
    "Metcalcpy.Props.C265_counterexample",
    "Metcalcpy.Props.C265_refused",
    "Metcalcpy.Props.C265_refused_boot",
    "Metcalcpy.Props.C265_completes_partial",
    "Metcalcpy.Props.C265_values_partial"
   ],
   "note": "False as stated (C265_counterexample: mean error of two models against two times). C265_refused: every run with such a curve and a colon in an independent value with lines of both series fails, with and without bootstrapping (C265_refused_boot). C265_completes_partial and C265_values_partial: without colons the run completes and the curve has its value."
  },
  {
   "property": "C266",
   "status": "proved",
   "theorems": [
    "Metcalcpy.Props.C266_significance",
    "Metcalcpy.Props.C266_sl1l2"
   ],
   "note": "NaN as a value of the statistic is excluded (see C172). The limits of the row are those of the difference, so the value need not lie between them (example exSig_boot)."
  },
  {
   "property": "C267",
   "status": "proved",
   "theorems": [
    "Metcalcpy.Props.C267_tables",
    "Metcalcpy.Props.C267_statistics",
    "Metcalcpy.Props.C267_boot",
    "Metcalcpy.Props.C267_boot_equalized",
    "Metcalcpy.Props.C267_boot_counterexample"
   ],
   "note": "Draws are positions in the sorted lines of a series, so equal times and leads within a series are excluded for the limits; C267_boot_counterexample shows that this is needed. ETB curves are excluded: such runs fail with a KeyError once a curve has values (C255)."
  },
  {
   "property": "C268",
   "status": "partial",
   "theorems": [
    "Metcalcpy.Props.C268_plain_partial",
    "Metcalcpy.Props.C268_equalized_partial",
    "Metcalcpy.Props.C268_fixed_counterexample",
    "Metcalcpy.Props.C268_empty_counterexample"
   ],
   "note": "False for fixed variables: lines with other fixed values are pooled, with and without event equalization (C268_fixed_counterexample). Proved for all other lines, all curves and with bootstrapping. Also, an input without any line gives an empty table, one with foreign lines only a table of missing values (C268_empty_counterexample)."
  },
  {
   "property": "C269",
   "status": "proved",
   "theorems": [
    "Metcalcpy.Props.C269_axis",
    "Metcalcpy.Props.C269_run",
    "Metcalcpy.Props.C269_once"
   ],
   "note": "The run stops without bootstrapping only if the point has lines; points without lines are skipped. Assumes that the preparation of the lines does not raise the KeyError itself, as it does for SSVAR statistics without fields (agg_stat.py:535)."
  },
  {
   "property": "C270",
   "status": "proved",
   "theorems": [
    "Metcalcpy.Props.C270_counts",
    "Metcalcpy.Props.C270_pct",
    "Metcalcpy.Props.C270_thresholds_counterexample"
   ],
   "note": "The dependence on the order for lines with different thresholds is C270_thresholds_counterexample. Reliability curves over the thresholds are not covered by this property (see C253 for their values)."
  },
  {
   "property": "C271",
   "status": "partial",
   "theorems": [
    "Metcalcpy.Props.C271_correlation",
    "Metcalcpy.Props.C271_scores_partial",
    "Metcalcpy.Props.C271_rmse_partial",
    "Metcalcpy.Props.C271_humidity_counterexample"
   ],
   "note": "False for RMSE and MSESS, which are computed from the MSE rounded to 7 decimals: forecasts of specific humidity 0.0001 kg/kg too high have RMSE 0 and MSESS 1 in kg/kg, and RMSE 0.1 in g/kg (C271_humidity_counterexample). Proved for the correlation, the means, ME, MSE, MAE and standard deviations; RMSE converts up to 1/4000 of either unit, and up to 10^-7 of it when the MSE is at least 1 in both units."
  },
  {
   "property": "C272",
   "status": "partial",
   "theorems": [
    "Metcalcpy.Props.C272_exchange_partial",
    "Metcalcpy.Props.C272_complement_partial",
    "Metcalcpy.Props.C272_multiple",
    "Metcalcpy.Props.C272_odds_counterexample"
   ],
   "note": "False for ODDS, which is computed from PODY and POFD rounded to 7 decimals: exchanging forecasts and observations turns a missing value into 1 while LODDS is the same (C272_odds_counterexample). Proved for every other score named; HK changes by at most 10^-7, and complements are exact up to the last decimal of rounding."
  },
  {
   "property": "C273",
   "status": "proved",
   "theorems": [
    "Metcalcpy.Props.C273_vectors",
    "Metcalcpy.Props.C273_anomalies",
    "Metcalcpy.Props.C273_unweighted_speeds"
   ],
   "note": "For rotations with rational cosine and sine (a dense set of angles), since the columns of lines are rational.  Directions themselves turn with the axes and are not claimed."
  },
  {
   "property": "C274",
   "status": "partial",
   "theorems": [
    "Metcalcpy.Props.C274_exchange_partial",
    "Metcalcpy.Props.C274_tie_counterexample"
   ],
   "note": "False for ME (and the scores computed from the rounded ME) when the mean error lies in the middle between two numbers with 7 decimals: round_half_up rounds 0.00000005 to 0.0000001 and -0.00000005 to 0. Proved for all other groups, and the difference on ties is one unit of the last decimal."
  },
  {
   "property": "C275",
   "status": "partial",
   "theorems": [
    "Metcalcpy.Props.C275_me_mae",
    "Metcalcpy.Props.C275_mae_rmse_partial",
    "Metcalcpy.Props.C275_small_errors_counterexample"
   ],
   "note": "|ME| <= MAE is proved without exception. MAE <= RMSE is false for small errors, because the MSE is rounded to seven decimals before the root is taken (humidity error 0.0001: ME = MAE = 0.0001, RMSE = 0). Proved: it holds when the MSE is not rounded down, and MAE exceeds RMSE by at most 1/3900 in general and by at most 2 units of the last decimal for MSE >= 1."
  },
  {
   "property": "C276",
   "status": "partial",
   "theorems": [
    "Metcalcpy.Props.C276_curves_partial",
    "Metcalcpy.Props.C276_significance_counterexample"
   ],
   "note": "DIFF = 0, RATIO = 1 and SS = 0 are proved for every run. False for DIFF_SIG for all inputs: the code counts the replicates with |d - mean| <= |value|, so for equal data every replicate counts and the row shows 1, full confidence."
  },
  {
   "property": "C277",
   "status": "partial",
   "theorems": [
    "Metcalcpy.Props.C277_empty_line",
    "Metcalcpy.Props.C277_missing_value_counterexample"
   ],
   "note": "Lines with TOTAL = 0 are proved harmless for eighteen scores, at any position and whatever they hold. False for lines with a missing partial sum, in all cases: the missing value is left out of the sum but the pairs of its line stay in the divisor, so the mean over n pairs is reported multiplied by n/(n+k)."
  },
  {
   "property": "C278",
   "status": "proved",
   "theorems": [
    "Metcalcpy.Props.C278_batch",
    "Metcalcpy.Props.C278_boot_arithmetic",
    "Metcalcpy.Props.C278_runs",
    "Metcalcpy.Props.C278_counts",
    "Metcalcpy.Props.C278_baser",
    "Metcalcpy.Props.C278_prepare",
    "Metcalcpy.Props.C278_thresholds",
    "Metcalcpy.Props.C278_dates",
    "Metcalcpy.Props.C278_against_values",
    "Metcalcpy.Props.C278_fixed_values",
    "Metcalcpy.Props.C278_permutations",
    "Metcalcpy.Props.C278_steps",
    "Metcalcpy.Props.C278_significance",
    "Metcalcpy.Props.C278_waves",
    "Metcalcpy.Props.C278_symmetric",
    "Metcalcpy.Props.C278_annual",
    "Metcalcpy.Props.C278_patterns",
    "Metcalcpy.Props.C278_skill",
    "Metcalcpy.Props.C278_mean120",
    "Metcalcpy.Props.C278_projection",
    "Metcalcpy.Props.C278_omi",
    "Metcalcpy.Props.C278_stress",
    "Metcalcpy.Props.C278_kelvin",
    "Metcalcpy.Props.C278_read",
    "Metcalcpy.Props.C278_profile",
    "Metcalcpy.Props.C278_write",
    "Metcalcpy.Props.C278_heights",
    "Metcalcpy.Props.C278_order",
    "Metcalcpy.Props.C278_pivotal",
    "Metcalcpy.Props.C278_resample",
    "Metcalcpy.Props.C278_eclv_column",
    "Metcalcpy.Props.C278_autocovariance",
    "Metcalcpy.Props.C278_derived",
    "Metcalcpy.Props.C278_derived_rows",
    "Metcalcpy.Props.C278_error_fraction",
    "Metcalcpy.Props.C278_eclv_no_rows",
    "Metcalcpy.Props.C278_eclv_no_value"
   ],
   "note": "One theorem per call, about the modelled call. Equivalences where the model has no other failure; otherwise the stated case only. Kinds raised by libraries (numpy, pandas, netCDF4) are those the model gives them and are part of the trusted base."
  },
  {
   "property": "C279",
   "status": "partial",
   "theorems": [
    "Metcalcpy.Props.C279_aligned_partial",
    "Metcalcpy.Props.C279_named_partial",
    "Metcalcpy.Props.C279_long_description_counterexample",
    "Metcalcpy.Props.C279_lines",
    "Metcalcpy.Props.C279_file"
   ],
   "note": "False for a description longer than the model name (or four characters) and one more: the width of DESC is computed from the model name, so all later values move right by the excess while the header does not (proved for all such descriptions). With shorter descriptions and times that fit, header and lines are aligned in all 24 columns; the lines among each other in all 37."
  },
  {
   "property": "C280",
   "status": "proved",
   "theorems": [
    "Metcalcpy.Props.C280_departures",
    "Metcalcpy.Props.C280_trend",
    "Metcalcpy.Props.C280_two_seasons"
   ],
   "note": "Over the reals, no missing values; the eofs package solver is an arbitrary function of the matrix."
  },
  {
   "property": "C281",
   "status": "partial",
   "theorems": [
    "Metcalcpy.Props.C281_argument_counterexample",
    "Metcalcpy.Props.C281_overwritten_exactly_partial",
    "Metcalcpy.Props.C281_again_partial"
   ],
   "note": "False: the array is overwritten with the departures (WeatherRegime.py:109-110). Proved: what it holds afterwards, that it is unchanged exactly when it had neither mean nor trend over the seasons at any day and point, and that calling again with it gives the same result."
  },
  {
   "property": "C282",
   "status": "proved",
   "theorems": [
    "Metcalcpy.Props.C282_place",
    "Metcalcpy.Props.C282_returns",
    "Metcalcpy.Props.C282_no_file"
   ],
   "note": "File contents are data of the model; repetition of fields with a single latitude or longitude is refused (numpy would repeat them)."
  },
  {
   "property": "C283",
   "status": "partial",
   "theorems": [
    "Metcalcpy.Props.C283_masked_counterexample",
    "Metcalcpy.Props.C283_exactly_partial"
   ],
   "note": "False: the assignment to an array without a mask (line 118) takes the numbers below the mask, so the point holds the fill value, e.g. -9999. Proved exactly: it is missing if and only if the fill value is NaN; all other points keep their values."
  },
  {
   "property": "C284",
   "status": "partial",
   "theorems": [
    "Metcalcpy.Props.C284_runs",
    "Metcalcpy.Props.C284_replaced",
    "Metcalcpy.Props.C284_other_files",
    "Metcalcpy.Props.C284_exactly_partial",
    "Metcalcpy.Props.C284_bare_true_counterexample",
    "Metcalcpy.Props.C284_first_counterexample",
    "Metcalcpy.Props.C284_columns_counterexample"
   ],
   "note": "False: the parameter is compared with the text 'True', so the YAML word True overwrites the file; the first appending run writes no header; columns are not compared. Proved: any number of runs with the text 'True' after a first one accumulate, and the exact cases in which a run does what it is told."
  },
  {
   "property": "C285",
   "status": "partial",
   "theorems": [
    "Metcalcpy.Props.C285_exactly_partial",
    "Metcalcpy.Props.C285_appended",
    "Metcalcpy.Props.C285_other_files",
    "Metcalcpy.Props.C285_stale_counterexample"
   ],
   "note": "False: a run without rows writes no file and leaves the rows of an earlier run. Proved exactly: the file holds the rows of the run if and only if there is one or the file had none before."
  },
  {
   "property": "C286",
   "status": "partial",
   "theorems": [
    "Metcalcpy.Props.C286_exactly_partial",
    "Metcalcpy.Props.C286_empty_counterexample"
   ],
   "note": "False: an input without rows replaces the file by a header before raising, also when appending. Proved exactly: the file stays as it was if and only if the input has rows and columns, or the file was that header."
  },
  {
   "property": "C287",
   "status": "proved",
   "theorems": [
    "Metcalcpy.Props.C287_named",
    "Metcalcpy.Props.C287_unset",
    "Metcalcpy.Props.C287_own_variable",
    "Metcalcpy.Props.C287_whole"
   ],
   "note": "Without the variable the list holds one empty text."
  },
  {
   "property": "C288",
   "status": "partial",
   "theorems": [
    "Metcalcpy.Props.C288_saves",
    "Metcalcpy.Props.C288_exactly_partial",
    "Metcalcpy.Props.C288_mjo_cross",
    "Metcalcpy.Props.C288_cut_counterexample"
   ],
   "note": "False for wavenumbers that are not whole (they are cut to integers) and for other than eight spectra (eight names are always written). Proved: exactly those cases fail; spectra of mjo_cross are always read back."
  },
  {
   "property": "C289",
   "status": "partial",
   "theorems": [
    "Metcalcpy.Props.C289_directory",
    "Metcalcpy.Props.C289_tropical_exactly_partial",
    "Metcalcpy.Props.C289_tropical_counterexample",
    "Metcalcpy.Props.C289_absolute_name"
   ],
   "note": "Proved for the function in contributed/spacetime. False for the copy in contributed/tropical_diagnostics, exactly when the directory is given without a slash at the end. A name beginning with a slash is taken as an absolute path."
  },
  {
   "property": "C290",
   "status": "partial",
   "theorems": [
    "Metcalcpy.Props.objectFunctions_distinct",
    "Metcalcpy.Props.C290_objects_and_2d_partial",
    "Metcalcpy.Props.C290_3d_exactly_partial",
    "Metcalcpy.Props.C290_letters_partial",
    "Metcalcpy.Props.C290_area_letters_partial",
    "Metcalcpy.Props.C290_missing_counterexample",
    "Metcalcpy.Props.C290_value_counterexample",
    "Metcalcpy.Props.C290_count_of_groups_partial",
    "Metcalcpy.Props.C290_area_of_groups_partial",
    "Metcalcpy.Props.C290_volume_missing"
   ],
   "note": "False exactly for two 3d count ratios (oca_aca, aca_asa), which have no function and end in a KeyError, for the area and volume ratio fsu_asu, which has none either, and for the ratios with other filters than their names say (C79). Proved for all others. The volume ratios are always missing (C81)."
  },
  {
   "property": "C291",
   "status": "partial",
   "theorems": [
    "Metcalcpy.Props.C291_never_partial",
    "Metcalcpy.Props.C291_exactly_partial",
    "Metcalcpy.Props.C291_counterexample"
   ],
   "note": "False: the subtraction keeps only the common latitudes, so the message is never printed, whatever the latitudes are; it is right exactly when they are the same."
  },
  {
   "property": "C292",
   "status": "partial",
   "theorems": [
    "Metcalcpy.Props.C292_winds",
    "Metcalcpy.Props.C292_exactly_partial",
    "Metcalcpy.Props.C292_counterexample"
   ],
   "note": "False for the third spectrum, whose segments keep the length computed with the configured number of values a day while its frequencies use two a day. Right exactly when two a day are configured; the first two spectra are always right."
  },
  {
   "property": "C293",
   "status": "proved",
   "theorems": [
    "Metcalcpy.Props.C293_different_files"
   ],
   "note": "For every model, symmetry and text of the number of values a day."
  },
  {
   "property": "C294",
   "status": "partial",
   "theorems": [
    "Metcalcpy.Props.C294_exactly_partial",
    "Metcalcpy.Props.C294_daily_partial",
    "Metcalcpy.Props.C294_missing",
    "Metcalcpy.Props.C294_dates",
    "Metcalcpy.Props.C294_counterexample"
   ],
   "note": "False exactly when the last date has more than one record: only its first record is shown. Proved for daily records; a date without records is an IndexError."
  },
  {
   "property": "C295",
   "status": "partial",
   "theorems": [
    "Metcalcpy.Props.C295_daily_partial",
    "Metcalcpy.Props.C295_last_day_counterexample",
    "Metcalcpy.Props.C295_first_label_partial",
    "Metcalcpy.Props.C295_gap_counterexample",
    "Metcalcpy.Props.C295_labels_exactly_partial"
   ],
   "note": "False: the last day is never shown, and after a missing day the labels are those of earlier days. Proved for an index with a value for every day: all days but the last, each with its own label. Labels, exactly: all right if and only if, for each day of the index between the dates, the index has every day from the first date up to it."
  },
  {
   "property": "C296",
   "status": "proved",
   "theorems": [
    "Metcalcpy.Props.C296_diagnostics",
    "Metcalcpy.Props.C296_no_variable",
    "Metcalcpy.Props.C296_waves"
   ],
   "note": "Given the functions the module imports, which are not in the repository (the module itself cannot be imported as it stands). Without any of the variables an UnboundLocalError is raised."
  },
  {
   "property": "C297",
   "status": "proved",
   "theorems": [
    "Metcalcpy.Props.C297_flux",
    "Metcalcpy.Props.C297_result"
   ],
   "note": "On one circle of latitude without missing values, exact arithmetic; the zonal mean is the mean over the longitudes."
  },
  {
   "property": "C298",
   "status": "partial",
   "theorems": [
    "Metcalcpy.Props.C298_model_counterexample",
    "Metcalcpy.Props.C298_value_partial",
    "Metcalcpy.Props.C298_refused"
   ],
   "note": "False: the observed precipitation itself is passed, so the skill does not depend on the model data nor on any activity. Proved: what is computed (correlations of each latitude of the observations with the first one) and what is refused."
  }
 ]
}