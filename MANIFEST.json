{
 "claims": [
  {
   "property": "C01",
   "status": "proved",
   "theorems": [
    "Kats.C01_construct_sorted_perm",
    "Kats.C01_drop_duplicates_first"
   ],
   "note": "Full statement proved about the model."
  },
  {
   "property": "C02",
   "status": "proved",
   "theorems": [
    "Kats.C02_time_value_accepted_iff",
    "Kats.C02_other_arguments",
    "Kats.C02_time_value_result",
    "Kats.C02_dataframe_accepted_iff"
   ],
   "note": "Full statement proved about the model."
  },
  {
   "property": "C03",
   "status": "partial",
   "theorems": [
    "Kats.C03_failed_extend_unchanged_violated",
    "Kats.C03_extend_appends_partial"
   ],
   "note": "The code violates the full statement; the negation is proved with a witness and the true part separately."
  },
  {
   "property": "C04",
   "status": "proved",
   "theorems": [
    "Kats.C04_exclude_exact",
    "Kats.C04_exclude_idempotent"
   ],
   "note": "Full statement proved about the model."
  },
  {
   "property": "C05",
   "status": "partial",
   "theorems": [
    "Kats.C05_pointwise_violated",
    "Kats.C05_pointwise_partial",
    "Kats.C05_scalar_partial",
    "Kats.C05_rejections"
   ],
   "note": "The code violates the full statement; the negation is proved with a witness and the true part separately."
  },
  {
   "property": "C06",
   "status": "proved",
   "theorems": [
    "Kats.C06_min_max_current",
    "Kats.C06_values_tracked"
   ],
   "note": "Full statement proved about the model."
  },
  {
   "property": "C07",
   "status": "partial",
   "theorems": [
    "Kats.C07_second_iteration_violated",
    "Kats.C07_first_iteration_partial"
   ],
   "note": "The code violates the full statement; the negation is proved with a witness and the true part separately."
  },
  {
   "property": "C08",
   "status": "partial",
   "theorems": [
    "Kats.C08_majority_gap_partial",
    "Kats.C08_too_short",
    "Kats.C08_order_irrelevant",
    "Kats.C08_after_extend_violated"
   ],
   "note": "The code violates the full statement; the negation is proved with a witness and the true part separately."
  },
  {
   "property": "C09",
   "status": "partial",
   "theorems": [
    "Kats.C09_train_prefix_test_next_partial",
    "Kats.C09_whole_series_partial",
    "Kats.C09_rejects_iff",
    "Kats.C09_out_of_range_rejected_violated"
   ],
   "note": "The code violates the full statement; the negation is proved with a witness and the true part separately."
  },
  {
   "property": "C10",
   "status": "proved",
   "theorems": [
    "Kats.C10_closed_windows",
    "Kats.C10_no_overlap",
    "Kats.C10_accepts_iff"
   ],
   "note": "Full statement proved about the model."
  },
  {
   "property": "C11",
   "status": "proved",
   "theorems": [
    "Kats.C11_rolling_folds",
    "Kats.C11_accepts_iff"
   ],
   "note": "Full statement proved about the model."
  },
  {
   "property": "C12",
   "status": "partial",
   "theorems": [
    "Kats.C12_max_core_violated",
    "Kats.C12_max_core_partial",
    "Kats.C12_backtester_core_bounds"
   ],
   "note": "The code violates the full statement; the negation is proved with a witness and the true part separately."
  },
  {
   "property": "C13",
   "status": "proved",
   "theorems": [
    "Kats.C13_dict_regroup",
    "Kats.C13_list_regroup"
   ],
   "note": "Full statement proved about the model."
  },
  {
   "property": "C14",
   "status": "proved",
   "theorems": [
    "Kats.C14_simple",
    "Kats.C14_rolling",
    "Kats.C14_fixed",
    "Kats.C14_exact"
   ],
   "note": "Full statement proved about the model."
  },
  {
   "property": "C15",
   "status": "proved",
   "theorems": [
    "Kats.C15_offsets"
   ],
   "note": "Full statement proved about the model."
  },
  {
   "property": "C16",
   "status": "partial",
   "theorems": [
    "Kats.C16_first_run_partial",
    "Kats.C16_aligned",
    "Kats.C16_rerun_doubles_violated",
    "Kats.C16_between_partial"
   ],
   "note": "The code violates the full statement; the negation is proved with a witness and the true part separately."
  },
  {
   "property": "C17",
   "status": "partial",
   "theorems": [
    "Kats.C17_parent_partial",
    "Kats.C17_generic_violated"
   ],
   "note": "The code violates the full statement; the negation is proved with a witness and the true part separately."
  },
  {
   "property": "C18",
   "status": "proved",
   "theorems": [
    "Kats.C18_mismatch",
    "Kats.C18_length",
    "Kats.C18_values",
    "Kats.C18_weighted"
   ],
   "note": "Full statement proved about the model."
  },
  {
   "property": "C19",
   "status": "proved",
   "theorems": [
    "Kats.C19_values",
    "Kats.C19_mismatch",
    "Kats.C19_relations",
    "Kats.C19_mdae_median"
   ],
   "note": "Full statement proved about the model."
  },
  {
   "property": "C20",
   "status": "partial",
   "theorems": [
    "Kats.C20_symmetric_partial",
    "Kats.C20_smape_violated",
    "Kats.C20_mape_partial",
    "Kats.C20_mape_violated",
    "Kats.C20_probability_partial"
   ],
   "note": "The code violates the full statement; the negation is proved with a witness and the true part separately."
  },
  {
   "property": "C21",
   "status": "proved",
   "theorems": [
    "Kats.C21_value",
    "Kats.C21_domain"
   ],
   "note": "Full statement proved about the model."
  },
  {
   "property": "C22",
   "status": "partial",
   "theorems": [
    "Kats.C22_exceed_partial",
    "Kats.C22_orientation_violated",
    "Kats.C22_mult_partial"
   ],
   "note": "The code violates the full statement; the negation is proved with a witness and the true part separately."
  },
  {
   "property": "C23",
   "status": "proved",
   "theorems": [
    "Kats.C23_coverage",
    "Kats.C23_interval_score",
    "Kats.C23_per_point"
   ],
   "note": "Full statement proved about the model."
  },
  {
   "property": "C24",
   "status": "proved",
   "theorems": [
    "Kats.C24_exact",
    "Kats.C24_rejects",
    "Kats.C24_bounds"
   ],
   "note": "Full statement proved about the model."
  },
  {
   "property": "C25",
   "status": "proved",
   "theorems": [
    "Kats.C25_lowest",
    "Kats.C25_total"
   ],
   "note": "Full statement proved about the model."
  },
  {
   "property": "C26",
   "status": "proved",
   "theorems": [
    "Kats.C26_tolerance",
    "Kats.C26_too_long",
    "Kats.C26_bracket_valid",
    "Kats.C26_in_bracket",
    "Kats.C26_converges"
   ],
   "note": "Full statement proved about the model."
  },
  {
   "property": "C27",
   "status": "proved",
   "theorems": [
    "Kats.C27_runs",
    "Kats.C27_intervals",
    "Kats.C27_intervals_exist",
    "Kats.C27_partition",
    "Kats.C27_predictions",
    "Kats.C27_anomaly_caution"
   ],
   "note": "Full statement proved about the model."
  },
  {
   "property": "C28",
   "status": "partial",
   "theorems": [
    "Kats.C28_duality_partial",
    "Kats.C28_duality_violated"
   ],
   "note": "The code violates the full statement; the negation is proved with a witness and the true part separately."
  },
  {
   "property": "C29",
   "status": "partial",
   "theorems": [
    "Kats.C29_repeat_violated",
    "Kats.C29_placeholder_violated",
    "Kats.C29_partial"
   ],
   "note": "The code violates the full statement; the negation is proved with a witness and the true part separately."
  },
  {
   "property": "C30",
   "status": "proved",
   "theorems": [
    "Kats.C30_message",
    "Kats.C30_posterior",
    "Kats.C30_rows"
   ],
   "note": "Full statement proved about the model."
  },
  {
   "property": "C31",
   "status": "proved",
   "theorems": [
    "Kats.C31_lag",
    "Kats.C31_long_lag_rejected",
    "Kats.C31_agg",
    "Kats.C31_range",
    "Kats.C31_reported",
    "Kats.C31_probabilities"
   ],
   "note": "Full statement proved about the model."
  },
  {
   "property": "C32",
   "status": "partial",
   "theorems": [
    "Kats.C32_rows_partial",
    "Kats.C32_aggregated_violated"
   ],
   "note": "The code violates the full statement; the negation is proved with a witness and the true part separately."
  },
  {
   "property": "C33",
   "status": "proved",
   "theorems": [
    "Kats.C33_range_and_stability",
    "Kats.C33_window",
    "Kats.C33_steps",
    "Kats.C33_argBest"
   ],
   "note": "Full statement proved about the model."
  },
  {
   "property": "C34",
   "status": "proved",
   "theorems": [
    "Kats.C34_vectorised"
   ],
   "note": "Full statement proved about the model."
  },
  {
   "property": "C35",
   "status": "partial",
   "theorems": [
    "Kats.C35_state",
    "Kats.C35_alert_end_partial",
    "Kats.C35_constant_baseline_violated",
    "Kats.C35_both_violated",
    "Kats.C35_alert_start"
   ],
   "note": "The code violates the full statement; the negation is proved with a witness and the true part separately."
  },
  {
   "property": "C36",
   "status": "partial",
   "theorems": [
    "Kats.C36_one_score_partial",
    "Kats.C36_short_step_violated"
   ],
   "note": "The code violates the full statement; the negation is proved with a witness and the true part separately."
  },
  {
   "property": "C37",
   "status": "partial",
   "theorems": [
    "Kats.C37_distribution",
    "Kats.C37_cusum",
    "Kats.C37_cusum_args",
    "Kats.C37_cusum_eq",
    "Kats.C37_cusum_eq_violated",
    "Kats.C37_cusum_new",
    "Kats.C37_cusum_score",
    "Kats.C37_bocpd_partial",
    "Kats.C37_bocpd_violated",
    "Kats.C37_rolling_violated",
    "Kats.C37_rolling_fields_partial",
    "Kats.C37_statsig_partial",
    "Kats.C37_statsig_violated",
    "Kats.C37_multi_violated"
   ],
   "note": "The code violates the full statement; the negation is proved with a witness and the true part separately."
  },
  {
   "property": "C38",
   "status": "partial",
   "theorems": [
    "Kats.C38_sequences",
    "Kats.C38_same_partial",
    "Kats.C38_multiple_violated",
    "Kats.C38_min_change_violated",
    "Kats.C38_short_violated",
    "Kats.C38_season_violated"
   ],
   "note": "The code violates the full statement; the negation is proved with a witness and the true part separately."
  },
  {
   "property": "C39",
   "status": "partial",
   "theorems": [
    "Kats.C39_interval_violated",
    "Kats.C39_cusum_units",
    "Kats.C39_cusum",
    "Kats.C39_bocpd_violated",
    "Kats.C39_rolling_violated",
    "Kats.C39_statsig_partial",
    "Kats.C39_statsig_violated"
   ],
   "note": "The code violates the full statement; the negation is proved with a witness and the true part separately."
  },
  {
   "property": "C40",
   "status": "partial",
   "theorems": [
    "Kats.C40_point_partial",
    "Kats.C40_window",
    "Kats.C40_again",
    "Kats.C40_again_violated",
    "Kats.C40_no_history_violated"
   ],
   "note": "The code violates the full statement; the negation is proved with a witness and the true part separately."
  },
  {
   "property": "C41",
   "status": "proved",
   "theorems": [
    "Kats.C41_intervals",
    "Kats.C41_alert_points"
   ],
   "note": "Full statement proved about the model."
  },
  {
   "property": "C42",
   "status": "partial",
   "theorems": [
    "Kats.C42_direction_partial",
    "Kats.C42_flat_violated",
    "Kats.C42_interval",
    "Kats.C42_score"
   ],
   "note": "The code violates the full statement; the negation is proved with a witness and the true part separately."
  },
  {
   "property": "C43",
   "status": "partial",
   "theorems": [
    "Kats.C43_aligned",
    "Kats.C43_window",
    "Kats.C43_last_n_partial",
    "Kats.C43_last_n_violated",
    "Kats.C43_inplace"
   ],
   "note": "The code violates the full statement; the negation is proved with a witness and the true part separately."
  },
  {
   "property": "C44",
   "status": "partial",
   "theorems": [
    "Kats.C44_weights_partial",
    "Kats.C44_weights_violated",
    "Kats.C44_convex_partial",
    "Kats.C44_formula"
   ],
   "note": "The code violates the full statement; the negation is proved with a witness and the true part separately."
  },
  {
   "property": "C45",
   "status": "partial",
   "theorems": [
    "Kats.C45_between",
    "Kats.C45_median",
    "Kats.C45_order_partial",
    "Kats.C45_order_violated"
   ],
   "note": "The code violates the full statement; the negation is proved with a witness and the true part separately."
  },
  {
   "property": "C46",
   "status": "proved",
   "theorems": [
    "Kats.THM.C46_period",
    "Kats.THM.C46_coherent",
    "Kats.THM.C46_S"
   ],
   "note": "Full statement proved about the model."
  },
  {
   "property": "C47",
   "status": "proved",
   "theorems": [
    "Kats.THM.C47_unchanged",
    "Kats.THM.C47_idempotent"
   ],
   "note": "Full statement proved about the model."
  },
  {
   "property": "C48",
   "status": "partial",
   "theorems": [
    "Kats.THM.C48_padding_partial",
    "Kats.THM.C48_padding_violated"
   ],
   "note": "The code violates the full statement; the negation is proved with a witness and the true part separately."
  },
  {
   "property": "C49",
   "status": "partial",
   "theorems": [
    "Kats.C49_last",
    "Kats.C49_phase_partial",
    "Kats.C49_phase_violated"
   ],
   "note": "The code violates the full statement; the negation is proved with a witness and the true part separately."
  },
  {
   "property": "C50",
   "status": "partial",
   "theorems": [
    "Kats.C50_accept",
    "Kats.C50_result",
    "Kats.C50_distinct_partial",
    "Kats.C50_distinct_violated"
   ],
   "note": "The code violates the full statement; the negation is proved with a witness and the true part separately."
  },
  {
   "property": "C51",
   "status": "partial",
   "theorems": [
    "Kats.C51_average_partial",
    "Kats.C51_weighted_partial",
    "Kats.C51_failed_fold_violated",
    "Kats.C51_all_failed_violated",
    "Kats.C51_nan_violated"
   ],
   "note": "The code violates the full statement; the negation is proved with a witness and the true part separately."
  },
  {
   "property": "C52",
   "status": "partial",
   "theorems": [
    "Kats.C52_core_partial",
    "Kats.C52_core_violated",
    "Kats.C52_metadata_violated",
    "Kats.C52_metadata_partial"
   ],
   "note": "The code violates the full statement; the negation is proved with a witness and the true part separately."
  },
  {
   "property": "C53",
   "status": "partial",
   "theorems": [
    "Kats.C53_ignore_missing_partial",
    "Kats.C53_percentage_violated",
    "Kats.C53_mape_dilution_violated",
    "Kats.C53_weighted_mse_violated",
    "Kats.C53_weighted_mae_partial"
   ],
   "note": "The code violates the full statement; the negation is proved with a witness and the true part separately."
  },
  {
   "property": "C54",
   "status": "partial",
   "theorems": [
    "Kats.C54_interior_partial",
    "Kats.C54_edges_violated",
    "Kats.C54_length_violated"
   ],
   "note": "The code violates the full statement; the negation is proved with a witness and the true part separately."
  },
  {
   "property": "C55",
   "status": "proved",
   "theorems": [
    "Kats.C55_mase",
    "Kats.C55_tracking"
   ],
   "note": "Full statement proved about the model."
  },
  {
   "property": "C56",
   "status": "partial",
   "theorems": [
    "Kats.C56_data_violated",
    "Kats.C56_data_partial"
   ],
   "note": "The code violates the full statement; the negation is proved with a witness and the true part separately."
  },
  {
   "property": "C57",
   "status": "partial",
   "theorems": [
    "Kats.C57_global_error_violated",
    "Kats.C57_global_error_partial"
   ],
   "note": "The code violates the full statement; the negation is proved with a witness and the true part separately."
  },
  {
   "property": "C58",
   "status": "partial",
   "theorems": [
    "Kats.C58_stat_sig_partial",
    "Kats.C58_stat_sig_violated"
   ],
   "note": "The code violates the full statement; the negation is proved with a witness and the true part separately."
  },
  {
   "property": "C59",
   "status": "partial",
   "theorems": [
    "Kats.C59_normal_partial",
    "Kats.C59_normal_violated"
   ],
   "note": "The code violates the full statement; the negation is proved with a witness and the true part separately."
  },
  {
   "property": "C60",
   "status": "proved",
   "theorems": [
    "Kats.C60_poisson"
   ],
   "note": "Full statement proved about the model."
  },
  {
   "property": "C61",
   "status": "partial",
   "theorems": [
    "Kats.C61_reset_partial",
    "Kats.C61_segments_violated"
   ],
   "note": "The code violates the full statement; the negation is proved with a witness and the true part separately."
  },
  {
   "property": "C62",
   "status": "partial",
   "theorems": [
    "Kats.C62_predictive_partial",
    "Kats.C62_first_term_violated",
    "Kats.C62_two_series_violated"
   ],
   "note": "The code violates the full statement; the negation is proved with a witness and the true part separately."
  },
  {
   "property": "C63",
   "status": "proved",
   "theorems": [
    "Kats.C63_groups",
    "Kats.C63_unknown_rejected"
   ],
   "note": "Full statement proved about the model."
  },
  {
   "property": "C64",
   "status": "partial",
   "theorems": [
    "Kats.C64_flag_partial",
    "Kats.C64_flag_violated"
   ],
   "note": "The code violates the full statement; the negation is proved with a witness and the true part separately."
  },
  {
   "property": "C65",
   "status": "partial",
   "theorems": [
    "Kats.C65_fit_partial",
    "Kats.C65_fit_violated"
   ],
   "note": "The code violates the full statement; the negation is proved with a witness and the true part separately."
  },
  {
   "property": "C66",
   "status": "partial",
   "theorems": [
    "Kats.C66_formula",
    "Kats.C66_monotone_partial",
    "Kats.C66_lower_bound_partial",
    "Kats.C66_affine",
    "Kats.C66_nonneg_violated"
   ],
   "note": "The code violates the full statement; the negation is proved with a witness and the true part separately."
  },
  {
   "property": "C67",
   "status": "partial",
   "theorems": [
    "Kats.C67_llr_partial",
    "Kats.C67_first_half_violated",
    "Kats.C67_llr_violated"
   ],
   "note": "The code violates the full statement; the negation is proved with a witness and the true part separately."
  },
  {
   "property": "C68",
   "status": "proved",
   "theorems": [
    "Kats.C68_reported",
    "Kats.C68_directions_differ",
    "Kats.C68_return_all"
   ],
   "note": "Full statement proved about the model."
  },
  {
   "property": "C69",
   "status": "proved",
   "theorems": [
    "Kats.C69_percentage",
    "Kats.C69_symmetric",
    "Kats.C69_exceeds",
    "Kats.C69_probability"
   ],
   "note": "Full statement proved about the model."
  },
  {
   "property": "C70",
   "status": "proved",
   "theorems": [
    "Kats.C70_swap",
    "Kats.C70_welch",
    "Kats.C70_variance"
   ],
   "note": "Full statement proved about the model."
  },
  {
   "property": "C71",
   "status": "partial",
   "theorems": [
    "Kats.C71_smoothing_partial",
    "Kats.C71_start_violated",
    "Kats.C71_scores_violated"
   ],
   "note": "The code violates the full statement; the negation is proved with a witness and the true part separately."
  },
  {
   "property": "C72",
   "status": "partial",
   "theorems": [
    "Kats.C72_extend",
    "Kats.C72_update_violated",
    "Kats.C72_update_partial",
    "Kats.C72_extend_violated"
   ],
   "note": "The code violates the full statement; the negation is proved with a witness and the true part separately."
  },
  {
   "property": "C73",
   "status": "partial",
   "theorems": [
    "Kats.C73_no_change_partial",
    "Kats.C73_significant_violated",
    "Kats.C73_undefined_violated"
   ],
   "note": "The code violates the full statement; the negation is proved with a witness and the true part separately."
  },
  {
   "property": "C74",
   "status": "partial",
   "theorems": [
    "Kats.C74_variance_partial",
    "Kats.C74_negative_violated"
   ],
   "note": "The code violates the full statement; the negation is proved with a witness and the true part separately."
  },
  {
   "property": "C75",
   "status": "partial",
   "theorems": [
    "Kats.C75_student_partial",
    "Kats.C75_default_violated",
    "Kats.C75_invariance",
    "Kats.C75_band"
   ],
   "note": "The code violates the full statement; the negation is proved with a witness and the true part separately."
  },
  {
   "property": "C76",
   "status": "partial",
   "theorems": [
    "Kats.C76_data",
    "Kats.C76_spikes_partial",
    "Kats.C76_count",
    "Kats.C76_stale_violated"
   ],
   "note": "The code violates the full statement; the negation is proved with a witness and the true part separately."
  },
  {
   "property": "C77",
   "status": "partial",
   "theorems": [
    "Kats.C77_rows",
    "Kats.C77_magnitude",
    "Kats.C77_individual",
    "Kats.C77_overall_partial",
    "Kats.C77_overall_violated",
    "Kats.C77_sign_partial",
    "Kats.C77_sign_violated"
   ],
   "note": "The code violates the full statement; the negation is proved with a witness and the true part separately."
  },
  {
   "property": "C78",
   "status": "partial",
   "theorems": [
    "Kats.C78_ensemble_violated",
    "Kats.C78_dates_partial",
    "Kats.C78_dates_violated",
    "Kats.C78_heuristic_partial"
   ],
   "note": "The code violates the full statement; the negation is proved with a witness and the true part separately."
  },
  {
   "property": "C79",
   "status": "partial",
   "theorems": [
    "Kats.C79_tile",
    "Kats.C79_continuation",
    "Kats.C79_inverse",
    "Kats.C79_bounds_partial",
    "Kats.C79_bounds_violated"
   ],
   "note": "The code violates the full statement; the negation is proved with a witness and the true part separately."
  },
  {
   "property": "C80",
   "status": "partial",
   "theorems": [
    "Kats.C80_agree_partial",
    "Kats.C80_agree_violated",
    "Kats.C80_aligned"
   ],
   "note": "The code violates the full statement; the negation is proved with a witness and the true part separately."
  },
  {
   "property": "C81",
   "status": "partial",
   "theorems": [
    "Kats.C81_median_partial",
    "Kats.C81_median_violated",
    "Kats.C81_weighted_partial",
    "Kats.C81_weighted_violated"
   ],
   "note": "The code violates the full statement; the negation is proved with a witness and the true part separately."
  },
  {
   "property": "C82",
   "status": "partial",
   "theorems": [
    "Kats.THM.C82_weights",
    "Kats.THM.C82_closest_partial",
    "Kats.THM.C82_struc",
    "Kats.THM.C82_closest_violated"
   ],
   "note": "The code violates the full statement; the negation is proved with a witness and the true part separately."
  },
  {
   "property": "C83",
   "status": "partial",
   "theorems": [
    "Kats.THM.C83_domain",
    "Kats.THM.C83_aggregate",
    "Kats.THM.C83_times_partial",
    "Kats.THM.C83_times_violated"
   ],
   "note": "The code violates the full statement; the negation is proved with a witness and the true part separately."
  },
  {
   "property": "C84",
   "status": "partial",
   "theorems": [
    "Kats.THM.C84_validation_partial",
    "Kats.THM.C84_validation_violated"
   ],
   "note": "The code violates the full statement; the negation is proved with a witness and the true part separately."
  },
  {
   "property": "C85",
   "status": "proved",
   "theorems": [
    "Kats.THM.C85_aligned",
    "Kats.THM.C85_coherent"
   ],
   "note": "Full statement proved about the model."
  },
  {
   "property": "C86",
   "status": "partial",
   "theorems": [
    "Kats.THM.C86_fit_partial",
    "Kats.THM.C86_fit_violated"
   ],
   "note": "The code violates the full statement; the negation is proved with a witness and the true part separately."
  },
  {
   "property": "C87",
   "status": "partial",
   "theorems": [
    "Kats.C87_windows_partial",
    "Kats.C87_row",
    "Kats.C87_season_partial"
   ],
   "note": "Part of the statement is proved; see DESIGN.md."
  },
  {
   "property": "C88",
   "status": "partial",
   "theorems": [
    "Kats.C88_causal_partial",
    "Kats.C88_history_partial"
   ],
   "note": "Part of the statement is proved; see DESIGN.md."
  },
  {
   "property": "C89",
   "status": "partial",
   "theorems": [
    "Kats.C89_scores_only_partial",
    "Kats.C89_min_change_violated"
   ],
   "note": "The code violates the full statement; the negation is proved with a witness and the true part separately."
  },
  {
   "property": "C90",
   "status": "partial",
   "theorems": [
    "Kats.C90_repeat_partial",
    "Kats.C90_repeat_violated",
    "Kats.C90_unit"
   ],
   "note": "The code violates the full statement; the negation is proved with a witness and the true part separately."
  },
  {
   "property": "C91",
   "status": "partial",
   "theorems": [
    "Kats.C91_percentile",
    "Kats.C91_median",
    "Kats.C91_perm",
    "Kats.C91_affine",
    "Kats.C91_z",
    "Kats.C91_modified",
    "Kats.C91_spread",
    "Kats.C91_constant_violated",
    "Kats.C91_interpolation",
    "Kats.C91_missing"
   ],
   "note": "The code violates the full statement; the negation is proved with a witness and the true part separately."
  },
  {
   "property": "C92",
   "status": "partial",
   "theorems": [
    "Kats.C92_regular_partial",
    "Kats.C92_irregular_partial",
    "Kats.C92_iqr_base_violated"
   ],
   "note": "The code violates the full statement; the negation is proved with a witness and the true part separately."
  },
  {
   "property": "C93",
   "status": "partial",
   "theorems": [
    "Kats.C93_sign_partial",
    "Kats.C93_negative_violated",
    "Kats.C93_zero_violated"
   ],
   "note": "The code violates the full statement; the negation is proved with a witness and the true part separately."
  },
  {
   "property": "C94",
   "status": "partial",
   "theorems": [
    "Kats.C94_rows",
    "Kats.C94_kind_partial",
    "Kats.C94_slow_drift_violated",
    "Kats.C94_trend_violated"
   ],
   "note": "The code violates the full statement; the negation is proved with a witness and the true part separately."
  },
  {
   "property": "C95",
   "status": "partial",
   "theorems": [
    "Kats.C95_least",
    "Kats.C95_euclid",
    "Kats.C95_self_partial",
    "Kats.C95_short_violated",
    "Kats.C95_symm_partial",
    "Kats.C95_symm_violated"
   ],
   "note": "The code violates the full statement; the negation is proved with a witness and the true part separately."
  },
  {
   "property": "C96",
   "status": "proved",
   "theorems": [
    "Kats.C96_bound",
    "Kats.C96_pruning",
    "Kats.C96_finite"
   ],
   "note": "Full statement proved about the model."
  },
  {
   "property": "C97",
   "status": "partial",
   "theorems": [
    "Kats.C97_windows",
    "Kats.C97_candidates",
    "Kats.C97_farthest",
    "Kats.C97_total",
    "Kats.C97_short_violated",
    "Kats.C97_negative_violated",
    "Kats.C97_again_violated",
    "Kats.C97_report",
    "Kats.C97_similar_violated"
   ],
   "note": "The code violates the full statement; the negation is proved with a witness and the true part separately."
  },
  {
   "property": "C98",
   "status": "partial",
   "theorems": [
    "Kats.C98_weights_partial",
    "Kats.C98_cdf",
    "Kats.C98_cdf_reversed",
    "Kats.C98_same",
    "Kats.C98_shift_violated",
    "Kats.C98_symm_violated",
    "Kats.C98_model"
   ],
   "note": "The code violates the full statement; the negation is proved with a witness and the true part separately."
  },
  {
   "property": "C99",
   "status": "partial",
   "theorems": [
    "Kats.C99_scores",
    "Kats.C99_no_history",
    "Kats.C99_overlap_violated",
    "Kats.C99_gap_violated"
   ],
   "note": "The code violates the full statement; the negation is proved with a witness and the true part separately."
  },
  {
   "property": "C100",
   "status": "partial",
   "theorems": [
    "Kats.C100_fractions",
    "Kats.C100_arguments",
    "Kats.C100_residual",
    "Kats.C100_training_partial",
    "Kats.C100_extremes_violated",
    "Kats.C100_two_values_violated",
    "Kats.C100_unfitted",
    "Kats.C100_times",
    "Kats.C100_missing_violated",
    "Kats.C100_caller_violated",
    "Kats.C100_caller",
    "Kats.C100_positive",
    "Kats.C100_probability_violated"
   ],
   "note": "The code violates the full statement; the negation is proved with a witness and the true part separately."
  },
  {
   "property": "C101",
   "status": "partial",
   "theorems": [
    "Kats.C101_metric",
    "Kats.C101_flagged",
    "Kats.C101_apart",
    "Kats.C101_cover",
    "Kats.C101_affine",
    "Kats.C101_flat",
    "Kats.C101_constant",
    "Kats.C101_short",
    "Kats.C101_trend_violated"
   ],
   "note": "The code violates the full statement; the negation is proved with a witness and the true part separately."
  },
  {
   "property": "C102",
   "status": "partial",
   "theorems": [
    "Kats.C102_frequency_partial",
    "Kats.C102_frequency_violated",
    "Kats.C102_dates",
    "Kats.C102_surplus_violated",
    "Kats.C102_ratios",
    "Kats.C102_hours_partial",
    "Kats.C102_repeated_violated",
    "Kats.C102_centre_violated",
    "Kats.C102_same_days_violated",
    "Kats.C102_matrix",
    "Kats.C102_anomalies",
    "Kats.C102_week_violated",
    "Kats.C102_scale",
    "Kats.C102_init",
    "Kats.C102_aggregate",
    "Kats.C102_result"
   ],
   "note": "The code violates the full statement; the negation is proved with a witness and the true part separately."
  },
  {
   "property": "C103",
   "status": "partial",
   "theorems": [
    "Kats.C103_acf",
    "Kats.C103_alpha_violated",
    "Kats.C103_primes_violated",
    "Kats.C103_trend",
    "Kats.C103_trend_top",
    "Kats.C103_remover",
    "Kats.C103_fft_selected",
    "Kats.C103_fft_none",
    "Kats.C103_fft_periods",
    "Kats.C103_nyquist_violated",
    "Kats.C103_scale_violated",
    "Kats.C103_chain_violated",
    "Kats.C103_decibel",
    "Kats.C103_threshold"
   ],
   "note": "The code violates the full statement; the negation is proved with a witness and the true part separately."
  },
  {
   "property": "C104",
   "status": "partial",
   "theorems": [
    "Kats.C104_scores",
    "Kats.C104_multiplier_violated",
    "Kats.C104_quartiles_violated",
    "Kats.C104_additive",
    "Kats.C104_affine",
    "Kats.C104_multiplicative_violated",
    "Kats.C104_offgrid_violated",
    "Kats.C104_times",
    "Kats.C104_columns",
    "Kats.C104_removed",
    "Kats.C104_interpolated",
    "Kats.C104_remover_violated",
    "Kats.C104_config",
    "Kats.C104_daily",
    "Kats.C104_filled"
   ],
   "note": "The code violates the full statement; the negation is proved with a witness and the true part separately."
  },
  {
   "property": "C105",
   "status": "partial",
   "theorems": [
    "Kats.C105_points_partial",
    "Kats.C105_first_violated",
    "Kats.C105_exact_violated",
    "Kats.C105_missing_violated",
    "Kats.C105_flag_violated",
    "Kats.C105_alpha_violated",
    "Kats.C105_direction",
    "Kats.C105_invalid",
    "Kats.C105_multi",
    "Kats.C105_season",
    "Kats.C105_mirror",
    "Kats.C105_anchor",
    "Kats.C105_short",
    "Kats.C105_top",
    "Kats.C105_flag",
    "Kats.C105_metrics"
   ],
   "note": "The code violates the full statement; the negation is proved with a witness and the true part separately."
  },
  {
   "property": "C106",
   "status": "partial",
   "theorems": [
    "Kats.C106_init",
    "Kats.C106_times_partial",
    "Kats.C106_offgrid_violated",
    "Kats.C106_pvalue_violated",
    "Kats.C106_metric_partial",
    "Kats.C106_metric_violated",
    "Kats.C106_variance",
    "Kats.C106_overall",
    "Kats.C106_timepoints",
    "Kats.C106_empty_violated",
    "Kats.C106_metrics_violated",
    "Kats.C106_top",
    "Kats.C106_clean_partial",
    "Kats.C106_clean_small_violated",
    "Kats.C106_clean_low_violated",
    "Kats.C106_clean_missing_violated",
    "Kats.C106_scores",
    "Kats.C106_fails",
    "Kats.C106_succeeds"
   ],
   "note": "The code violates the full statement; the negation is proved with a witness and the true part separately."
  },
  {
   "property": "C107",
   "status": "partial",
   "theorems": [
    "Kats.C107_outlier_partial",
    "Kats.C107_outlier_duplicate",
    "Kats.C107_outlier_stale_violated",
    "Kats.C107_outlier_history_violated",
    "Kats.C107_outlier_serialize",
    "Kats.C107_static",
    "Kats.C107_static_violated",
    "Kats.C107_multi_partial",
    "Kats.C107_multi_detector_partial",
    "Kats.C107_multi_shift_violated",
    "Kats.C107_multi_short_violated",
    "Kats.C107_multi_history_violated",
    "Kats.C107_multi_serialize_violated",
    "Kats.C107_multi_failed"
   ],
   "note": "The code violates the full statement; the negation is proved with a witness and the true part separately."
  },
  {
   "property": "C108",
   "status": "partial",
   "theorems": [
    "Kats.C108_accepts",
    "Kats.C108_selection",
    "Kats.C108_order_partial",
    "Kats.C108_order_violated",
    "Kats.C108_group_override_violated",
    "Kats.C108_feature_on_violated",
    "Kats.C108_instances_partial",
    "Kats.C108_instances_violated",
    "Kats.C108_static_partial",
    "Kats.C108_static_violated",
    "Kats.C108_short"
   ],
   "note": "The code violates the full statement; the negation is proved with a witness and the true part separately."
  },
  {
   "property": "C109",
   "status": "partial",
   "theorems": [
    "Kats.C109_chunks",
    "Kats.C109_chunk_length_violated",
    "Kats.C109_lumpiness",
    "Kats.C109_stability",
    "Kats.C109_window_one_violated",
    "Kats.C109_flat",
    "Kats.C109_flat_nan",
    "Kats.C109_flat_short_violated",
    "Kats.C109_derivative",
    "Kats.C109_crossing_partial",
    "Kats.C109_crossing_violated",
    "Kats.C109_binarize",
    "Kats.C109_mode",
    "Kats.C109_linearity",
    "Kats.C109_entropy"
   ],
   "note": "The code violates the full statement; the negation is proved with a witness and the true part separately."
  },
  {
   "property": "C110",
   "status": "partial",
   "theorems": [
    "Kats.C110_strength_partial",
    "Kats.C110_strength_violated",
    "Kats.C110_spikiness",
    "Kats.C110_peak",
    "Kats.C110_level_shift_partial",
    "Kats.C110_level_shift_violated",
    "Kats.C110_acf",
    "Kats.C110_acf_features_partial",
    "Kats.C110_seasonal_lag_violated",
    "Kats.C110_line_violated",
    "Kats.C110_acf_nan",
    "Kats.C110_first_minimum",
    "Kats.C110_first_zero_partial",
    "Kats.C110_first_zero_violated",
    "Kats.C110_constant_violated"
   ],
   "note": "The code violates the full statement; the negation is proved with a witness and the true part separately."
  },
  {
   "property": "C111",
   "status": "partial",
   "theorems": [
    "Kats.C111_ewma",
    "Kats.C111_values_partial",
    "Kats.C111_all_nan_violated",
    "Kats.C111_window_one_violated",
    "Kats.C111_roc_violated",
    "Kats.C111_macd"
   ],
   "note": "The code violates the full statement; the negation is proved with a witness and the true part separately."
  },
  {
   "property": "C112",
   "status": "partial",
   "theorems": [
    "Kats.C112_counts",
    "Kats.C112_days_partial",
    "Kats.C112_days_violated",
    "Kats.C112_length",
    "Kats.C112_weekdays",
    "Kats.C112_minute",
    "Kats.C112_fourier",
    "Kats.C112_fourier_period",
    "Kats.C112_fourier_second",
    "Kats.C112_fourier_init_partial",
    "Kats.C112_fourier_init_violated"
   ],
   "note": "The code violates the full statement; the negation is proved with a witness and the true part separately."
  },
  {
   "property": "C113",
   "status": "partial",
   "theorems": [
    "Kats.C113_cusum_partial",
    "Kats.C113_cusum_violated",
    "Kats.C113_robust",
    "Kats.C113_bocp",
    "Kats.C113_outlier",
    "Kats.C113_trend",
    "Kats.C113_seasonality_partial",
    "Kats.C113_seasonality_violated",
    "Kats.C113_trend_mag_partial",
    "Kats.C113_trend_mag_violated"
   ],
   "note": "The code violates the full statement; the negation is proved with a witness and the true part separately."
  },
  {
   "property": "C114",
   "status": "partial",
   "theorems": [
    "Kats.C114_init_partial",
    "Kats.C114_init_violated",
    "Kats.C114_standard_errors",
    "Kats.C114_line",
    "Kats.C114_interval",
    "Kats.C114_level_violated",
    "Kats.C114_order_partial",
    "Kats.C114_order_violated"
   ],
   "note": "The code violates the full statement; the negation is proved with a witness and the true part separately."
  },
  {
   "property": "C115",
   "status": "partial",
   "theorems": [
    "Kats.C115_forecast_partial",
    "Kats.C115_last_date",
    "Kats.C115_exact_partial",
    "Kats.C115_interval_partial",
    "Kats.C115_linear_partial",
    "Kats.C115_one_step_violated"
   ],
   "note": "The code violates the full statement; the negation is proved with a witness and the true part separately."
  },
  {
   "property": "C116",
   "status": "partial",
   "theorems": [
    "Kats.C116_seasonality",
    "Kats.C116_forecast_partial",
    "Kats.C116_seasonal_partial",
    "Kats.C116_zero_violated",
    "Kats.C116_interval_partial",
    "Kats.C116_history_partial"
   ],
   "note": "The code violates the full statement; the negation is proved with a witness and the true part separately."
  },
  {
   "property": "C117",
   "status": "partial",
   "theorems": [
    "Kats.C117_params",
    "Kats.C117_least_squares",
    "Kats.C117_exact_partial",
    "Kats.C117_level_violated",
    "Kats.C117_shift",
    "Kats.C117_periodic"
   ],
   "note": "The code violates the full statement; the negation is proved with a witness and the true part separately."
  },
  {
   "property": "C118",
   "status": "proved",
   "theorems": [
    "Kats.C118_init",
    "Kats.C118_frequency",
    "Kats.C118_recompose",
    "Kats.C118_period"
   ],
   "note": "Full statement proved about the model."
  },
  {
   "property": "C119",
   "status": "partial",
   "theorems": [
    "Kats.C119_frequency",
    "Kats.C119_checks",
    "Kats.C119_period_partial",
    "Kats.C119_period_violated",
    "Kats.C119_split",
    "Kats.C119_grid",
    "Kats.C119_fill",
    "Kats.C119_accept_partial",
    "Kats.C119_accept_violated"
   ],
   "note": "The code violates the full statement; the negation is proved with a witness and the true part separately."
  },
  {
   "property": "C120",
   "status": "partial",
   "theorems": [
    "Kats.C120_params",
    "Kats.C120_params_violated",
    "Kats.C120_init",
    "Kats.C120_forecast_partial",
    "Kats.C120_inverse",
    "Kats.C120_bounds",
    "Kats.C120_history_partial",
    "Kats.C120_exact_partial",
    "Kats.C120_history_violated",
    "Kats.C120_refused"
   ],
   "note": "The code violates the full statement; the negation is proved with a witness and the true part separately."
  },
  {
   "property": "C121",
   "status": "partial",
   "theorems": [
    "Kats.C121_sigma",
    "Kats.C121_posterior",
    "Kats.C121_fit",
    "Kats.C121_short",
    "Kats.C121_independent",
    "Kats.C121_forecast_partial",
    "Kats.C121_time_violated",
    "Kats.C121_history_partial",
    "Kats.C121_again_violated",
    "Kats.C121_predict",
    "Kats.C121_params_violated",
    "Kats.C121_params",
    "Kats.C121_data"
   ],
   "note": "The code violates the full statement; the negation is proved with a witness and the true part separately."
  },
  {
   "property": "C122",
   "status": "partial",
   "theorems": [
    "Kats.C122_calendar",
    "Kats.C122_leap",
    "Kats.C122_map",
    "Kats.C122_season_partial",
    "Kats.C122_season_violated",
    "Kats.C122_week_of_month_partial",
    "Kats.C122_week_of_month_violated",
    "Kats.C122_flags",
    "Kats.C122_quarter_violated",
    "Kats.C122_quarter_partial",
    "Kats.C122_time",
    "Kats.C122_offset_partial",
    "Kats.C122_offset_violated",
    "Kats.C122_circle"
   ],
   "note": "The code violates the full statement; the negation is proved with a witness and the true part separately."
  },
  {
   "property": "C123",
   "status": "partial",
   "theorems": [
    "Kats.C123_models_violated",
    "Kats.C123_detect_partial",
    "Kats.C123_caller_violated",
    "Kats.C123_attributes_violated",
    "Kats.C123_transform",
    "Kats.C123_sklearn",
    "Kats.C123_single_violated",
    "Kats.C123_chain_partial",
    "Kats.C123_univariate_violated",
    "Kats.C123_multivariate"
   ],
   "note": "The code violates the full statement; the negation is proved with a witness and the true part separately."
  },
  {
   "property": "C124",
   "status": "partial",
   "theorems": [
    "Kats.C124_sizes",
    "Kats.C124_init",
    "Kats.C124_errors",
    "Kats.C124_interval",
    "Kats.C124_chain_partial",
    "Kats.C124_projection",
    "Kats.C124_exact_partial",
    "Kats.C124_moments"
   ],
   "note": "Part of the statement is proved; see DESIGN.md."
  },
  {
   "property": "C125",
   "status": "partial",
   "theorems": [
    "Kats.C125_moving_average",
    "Kats.C125_arima_partial",
    "Kats.C125_arima_violated",
    "Kats.C125_components",
    "Kats.C125_new_partial",
    "Kats.C125_order",
    "Kats.C125_level_partial",
    "Kats.C125_anomaly_violated",
    "Kats.C125_period_violated",
    "Kats.C125_length_violated",
    "Kats.C125_multi",
    "Kats.C125_trend_partial",
    "Kats.C125_seed_violated",
    "Kats.C125_trend_violated",
    "Kats.C125_inject_level",
    "Kats.C125_inject_violated",
    "Kats.C125_inject_trend",
    "Kats.C125_spikes"
   ],
   "note": "The code violates the full statement; the negation is proved with a witness and the true part separately."
  },
  {
   "property": "C126",
   "status": "partial",
   "theorems": [
    "Kats.C126_cardinality_partial",
    "Kats.C126_cardinality_violated",
    "Kats.C126_validate",
    "Kats.C126_default_violated",
    "Kats.C126_fetch",
    "Kats.C126_processes",
    "Kats.C126_constraints_partial",
    "Kats.C126_constraints_violated",
    "Kats.C126_list",
    "Kats.C126_space",
    "Kats.C126_space_refused",
    "Kats.C126_score_partial",
    "Kats.C126_score_violated",
    "Kats.C126_workers_partial",
    "Kats.C126_workers_violated",
    "Kats.C126_factory_partial",
    "Kats.C126_factory_violated",
    "Kats.C126_multi_partial",
    "Kats.C126_multi_violated",
    "Kats.C126_logspace",
    "Kats.C126_scales",
    "Kats.C126_rates_violated"
   ],
   "note": "The code violates the full statement; the negation is proved with a witness and the true part separately."
  },
  {
   "property": "C127",
   "status": "partial",
   "theorems": [
    "Kats.C127_names",
    "Kats.C127_evaluate_partial",
    "Kats.C127_refused",
    "Kats.C127_failed_violated",
    "Kats.C127_interval",
    "Kats.C127_points"
   ],
   "note": "The code violates the full statement; the negation is proved with a witness and the true part separately."
  },
  {
   "property": "C128",
   "status": "partial",
   "theorems": [
    "Kats.C128_params",
    "Kats.C128_data",
    "Kats.C128_frame",
    "Kats.C128_data_violated",
    "Kats.C128_future_partial",
    "Kats.C128_history_partial",
    "Kats.C128_history_violated",
    "Kats.C128_multivariate_violated",
    "Kats.C128_given",
    "Kats.C128_given_violated",
    "Kats.C128_band",
    "Kats.C128_posterior",
    "Kats.C128_sample",
    "Kats.C128_piecewise",
    "Kats.C128_points_partial",
    "Kats.C128_points_violated",
    "Kats.C128_linear_partial",
    "Kats.C128_shifts",
    "Kats.C128_grid_partial",
    "Kats.C128_grid_violated",
    "Kats.C128_logistic_partial",
    "Kats.C128_logistic_violated",
    "Kats.C128_centre",
    "Kats.C128_uncertainty"
   ],
   "note": "The code violates the full statement; the negation is proved with a witness and the true part separately."
  },
  {
   "property": "C129",
   "status": "partial",
   "theorems": [
    "Kats.C129_init_partial",
    "Kats.C129_init_violated",
    "Kats.C129_dict",
    "Kats.C129_seasons",
    "Kats.C129_keys_violated",
    "Kats.C129_weekend_partial",
    "Kats.C129_weekend_violated",
    "Kats.C129_masks",
    "Kats.C129_exclude",
    "Kats.C129_outliers_partial",
    "Kats.C129_outliers_violated",
    "Kats.C129_holidays",
    "Kats.C129_train_partial",
    "Kats.C129_fit_partial",
    "Kats.C129_fit_violated",
    "Kats.C129_deviation",
    "Kats.C129_zscore",
    "Kats.C129_predict_partial",
    "Kats.C129_refused",
    "Kats.C129_predict_violated",
    "Kats.C129_days_partial",
    "Kats.C129_days_violated",
    "Kats.C129_fit_predict",
    "Kats.C129_trend_partial",
    "Kats.C129_trend_violated"
   ],
   "note": "The code violates the full statement; the negation is proved with a witness and the true part separately."
  },
  {
   "property": "C130",
   "status": "partial",
   "theorems": [
    "Kats.C130_changes",
    "Kats.C130_refused",
    "Kats.C130_ma",
    "Kats.C130_ema",
    "Kats.C130_macd",
    "Kats.C130_bbands",
    "Kats.C130_tsi",
    "Kats.C130_trix_partial",
    "Kats.C130_trix_violated",
    "Kats.C130_rsi_partial",
    "Kats.C130_rsi_violated",
    "Kats.C130_names_violated",
    "Kats.C130_roc_violated"
   ],
   "note": "The code violates the full statement; the negation is proved with a witness and the true part separately."
  },
  {
   "property": "C131",
   "status": "partial",
   "theorems": [
    "Kats.C131_features",
    "Kats.C131_train",
    "Kats.C131_predict",
    "Kats.C131_current_partial",
    "Kats.C131_current_violated",
    "Kats.C131_column_violated",
    "Kats.C131_multivariate",
    "Kats.C131_twice_violated",
    "Kats.C131_step_violated",
    "Kats.C131_model",
    "Kats.C131_serialize",
    "Kats.C131_season",
    "Kats.C131_names_violated",
    "Kats.C131_plus_features",
    "Kats.C131_plus_train",
    "Kats.C131_plus_train_partial",
    "Kats.C131_plus_train_violated",
    "Kats.C131_plus_missing_violated",
    "Kats.C131_plus_predict_partial",
    "Kats.C131_plus_rows_violated",
    "Kats.C131_plus_predict_violated",
    "Kats.C131_dynamic_violated",
    "Kats.C131_dynamic_features",
    "Kats.C131_dynamic_train",
    "Kats.C131_dynamic_train_zero",
    "Kats.C131_dynamic_predict",
    "Kats.C131_dynamic_predict_zero"
   ],
   "note": "The code violates the full statement; the negation is proved with a witness and the true part separately."
  },
  {
   "property": "C132",
   "status": "partial",
   "theorems": [
    "Kats.C132_first_missing",
    "Kats.C132_roundtrip_partial",
    "Kats.C132_roundtrip_violated",
    "Kats.C132_zero_violated",
    "Kats.C132_mode",
    "Kats.C132_stat_violated",
    "Kats.C132_embed",
    "Kats.C132_init",
    "Kats.C132_train",
    "Kats.C132_output_partial",
    "Kats.C132_infinite_violated",
    "Kats.C132_calendar",
    "Kats.C132_short",
    "Kats.C132_future_zero_violated",
    "Kats.C132_predict_partial",
    "Kats.C132_future_violated",
    "Kats.C132_predict_calendar",
    "Kats.C132_new_data",
    "Kats.C132_rows",
    "Kats.C132_terminates",
    "Kats.C132_iter_origin",
    "Kats.C132_iterate",
    "Kats.C132_steps_ignored",
    "Kats.C132_steps_fewer_violated",
    "Kats.C132_steps_partial",
    "Kats.C132_new_steps_partial",
    "Kats.C132_no_valid",
    "Kats.C132_iter_window",
    "Kats.C132_steps_violated",
    "Kats.C132_freq",
    "Kats.C132_auto_violated",
    "Kats.C132_auto"
   ],
   "note": "The code violates the full statement; the negation is proved with a witness and the true part separately."
  },
  {
   "property": "C133",
   "status": "partial",
   "theorems": [
    "Kats.C133_mean_partial",
    "Kats.C133_mean_violated",
    "Kats.C133_fit_partial",
    "Kats.C133_adapt_violated",
    "Kats.C133_predict_ok",
    "Kats.C133_predict",
    "Kats.C133_fit_predict_partial",
    "Kats.C133_epoch_violated",
    "Kats.C133_forgets_violated",
    "Kats.C133_columns_violated",
    "Kats.C133_univariate_partial",
    "Kats.C133_serialize_violated"
   ],
   "note": "The code violates the full statement; the negation is proved with a witness and the true part separately."
  },
  {
   "property": "C134",
   "status": "partial",
   "theorems": [
    "Kats.C134_fit_predict_partial",
    "Kats.C134_baseline_violated",
    "Kats.C134_nan_violated",
    "Kats.C134_overlap_violated",
    "Kats.C134_epoch_violated"
   ],
   "note": "The code violates the full statement; the negation is proved with a witness and the true part separately."
  },
  {
   "property": "C135",
   "status": "partial",
   "theorems": [
    "Kats.C135_filters",
    "Kats.C135_fill_partial",
    "Kats.C135_offgrid_violated",
    "Kats.C135_name_violated",
    "Kats.C135_nan_rows_violated",
    "Kats.C135_split",
    "Kats.C135_split_all_partial",
    "Kats.C135_split_lost_violated",
    "Kats.C135_mixed_keys_violated",
    "Kats.C135_preprocess_partial",
    "Kats.C135_test_length_violated",
    "Kats.C135_preprocess_all",
    "Kats.C135_mode",
    "Kats.C135_pad_partial",
    "Kats.C135_pad_violated"
   ],
   "note": "The code violates the full statement; the negation is proved with a witness and the true part separately."
  },
  {
   "property": "C136",
   "status": "partial",
   "theorems": [
    "Kats.C136_offset_partial",
    "Kats.C136_ratio_violated",
    "Kats.C136_ratio_one_violated",
    "Kats.C136_nan_valid_violated",
    "Kats.C136_row_partial",
    "Kats.C136_positive_partial",
    "Kats.C136_integers_violated",
    "Kats.C136_nan_row_violated",
    "Kats.C136_padded_times_violated",
    "Kats.C136_season",
    "Kats.C136_batch",
    "Kats.C136_indices_ok",
    "Kats.C136_train_indices",
    "Kats.C136_test_indices",
    "Kats.C136_min_input",
    "Kats.C136_epoch",
    "Kats.C136_epochs",
    "Kats.C136_init_partial",
    "Kats.C136_resize",
    "Kats.C136_magnitude_violated",
    "Kats.C136_rejected_violated",
    "Kats.C136_mixed_keys_violated",
    "Kats.C136_test_order_violated"
   ],
   "note": "The code violates the full statement; the negation is proved with a witness and the true part separately."
  },
  {
   "property": "C137",
   "status": "partial",
   "theorems": [
    "Kats.C137_hour",
    "Kats.C137_last_date_partial",
    "Kats.C137_last_date_injective",
    "Kats.C137_last_date_violated",
    "Kats.C137_month_partial",
    "Kats.C137_month_violated",
    "Kats.C137_size_partial",
    "Kats.C137_ts2vec_violated",
    "Kats.C137_tsfeatures_violated",
    "Kats.C137_names",
    "Kats.C137_eq_violated",
    "Kats.C137_eq_size",
    "Kats.C137_pin_row",
    "Kats.C137_pin_zero",
    "Kats.C137_quantile",
    "Kats.C137_weights",
    "Kats.C137_shapes",
    "Kats.C137_reduction",
    "Kats.C137_target_partial",
    "Kats.C137_adj_row",
    "Kats.C137_adj_bounded",
    "Kats.C137_log_violated",
    "Kats.C137_target_violated"
   ],
   "note": "The code violates the full statement; the negation is proved with a witness and the true part separately."
  },
  {
   "property": "C138",
   "status": "partial",
   "theorems": [
    "Kats.C138_defaults",
    "Kats.C138_accept_partial",
    "Kats.C138_fields",
    "Kats.C138_copy",
    "Kats.C138_text_partial",
    "Kats.C138_eq_partial",
    "Kats.C138_eq_sizes_partial",
    "Kats.C138_accept_violated",
    "Kats.C138_loss_violated",
    "Kats.C138_loss_partial",
    "Kats.C138_eq_violated",
    "Kats.C138_eq_sizes_violated",
    "Kats.C138_text_violated",
    "Kats.C138_errors",
    "Kats.C138_errors_violated"
   ],
   "note": "The code violates the full statement; the negation is proved with a witness and the true part separately."
  },
  {
   "property": "C139",
   "status": "partial",
   "theorems": [
    "Kats.C139_log",
    "Kats.C139_inputs",
    "Kats.C139_no_leak",
    "Kats.C139_window_violated",
    "Kats.C139_smoothing_violated",
    "Kats.C139_real",
    "Kats.C139_view_partial",
    "Kats.C139_view_level",
    "Kats.C139_view_violated",
    "Kats.C139_process_scale",
    "Kats.C139_process_past",
    "Kats.C139_forecasts_partial",
    "Kats.C139_training",
    "Kats.C139_turns_past",
    "Kats.C139_run_past",
    "Kats.C139_pass_scale",
    "Kats.C139_steps_partial",
    "Kats.C139_delta",
    "Kats.C139_valid_partial",
    "Kats.C139_valid_violated",
    "Kats.C139_s2s_steps",
    "Kats.C139_track",
    "Kats.C139_fill",
    "Kats.C139_seasonal"
   ],
   "note": "The code violates the full statement; the negation is proved with a witness and the true part separately."
  },
  {
   "property": "C140",
   "status": "partial",
   "theorems": [
    "Kats.C140_inputs",
    "Kats.C140_log",
    "Kats.C140_forecasts",
    "Kats.C140_indices",
    "Kats.C140_training",
    "Kats.C140_mean",
    "Kats.C140_last_violated",
    "Kats.C140_turns_past",
    "Kats.C140_causal",
    "Kats.C140_no_leak",
    "Kats.C140_fill",
    "Kats.C140_repeat",
    "Kats.C140_first",
    "Kats.C140_filled_unique",
    "Kats.C140_median",
    "Kats.C140_process",
    "Kats.C140_unit",
    "Kats.C140_process_past",
    "Kats.C140_process_scale",
    "Kats.C140_pass_scale",
    "Kats.C140_features",
    "Kats.C140_real"
   ],
   "note": "The code violates the full statement; the negation is proved with a witness and the true part separately."
  },
  {
   "property": "C141",
   "status": "partial",
   "theorems": [
    "Kats.C141_adjust",
    "Kats.C141_adjust_unique",
    "Kats.C141_constant_violated",
    "Kats.C141_crossing_violated",
    "Kats.C141_frame",
    "Kats.C141_no_steps_violated",
    "Kats.C141_window",
    "Kats.C141_evaluate",
    "Kats.C141_kinds",
    "Kats.C141_evaluate_refused",
    "Kats.C141_metrics",
    "Kats.C141_two_quantiles_violated",
    "Kats.C141_schedule",
    "Kats.C141_schedule_violated",
    "Kats.C141_modes",
    "Kats.C141_modes_violated",
    "Kats.C141_untrained",
    "Kats.C141_initiate",
    "Kats.C141_mode",
    "Kats.C141_saved",
    "Kats.C141_load_refused",
    "Kats.C141_predict",
    "Kats.C141_batch_size_violated",
    "Kats.C141_rnn",
    "Kats.C141_s2s",
    "Kats.C141_company_violated"
   ],
   "note": "The code violates the full statement; the negation is proved with a witness and the true part separately."
  },
  {
   "property": "C142",
   "status": "partial",
   "theorems": [
    "Kats.C142_mean",
    "Kats.C142_median",
    "Kats.C142_kind",
    "Kats.C142_predict",
    "Kats.C142_predict_refused",
    "Kats.C142_quantiles",
    "Kats.C142_single",
    "Kats.C142_evaluate",
    "Kats.C142_saved",
    "Kats.C142_test_ids_violated",
    "Kats.C142_save_refused",
    "Kats.C142_json",
    "Kats.C142_json_violated",
    "Kats.C142_init",
    "Kats.C142_jobs",
    "Kats.C142_hold_out",
    "Kats.C142_no_test",
    "Kats.C142_train",
    "Kats.C142_all_test_violated"
   ],
   "note": "The code violates the full statement; the negation is proved with a witness and the true part separately."
  },
  {
   "property": "C143",
   "status": "partial",
   "theorems": [
    "Kats.C143_init",
    "Kats.C143_period",
    "Kats.C143_load_violated",
    "Kats.C143_tile",
    "Kats.C143_continues",
    "Kats.C143_phase_violated",
    "Kats.C143_series",
    "Kats.C143_prophet",
    "Kats.C143_predict",
    "Kats.C143_no_model",
    "Kats.C143_exact",
    "Kats.C143_series_ok",
    "Kats.C143_ensemble",
    "Kats.C143_quantiles_partial",
    "Kats.C143_quantiles_violated",
    "Kats.C143_original_violated",
    "Kats.C143_short_violated"
   ],
   "note": "The code violates the full statement; the negation is proved with a witness and the true part separately."
  },
  {
   "property": "C144",
   "status": "partial",
   "theorems": [
    "Kats.C144_forward",
    "Kats.C144_bounded",
    "Kats.C144_init",
    "Kats.C144_init_violated",
    "Kats.C144_forward_violated",
    "Kats.C144_build_rnn",
    "Kats.C144_build_s2s",
    "Kats.C144_build_violated",
    "Kats.C144_decoder_more_violated",
    "Kats.C144_lstm2",
    "Kats.C144_s2",
    "Kats.C144_lstm",
    "Kats.C144_states",
    "Kats.C144_residual",
    "Kats.C144_one_block",
    "Kats.C144_adaptor",
    "Kats.C144_net_ok",
    "Kats.C144_pass",
    "Kats.C144_depends",
    "Kats.C144_decoder",
    "Kats.C144_decoder_layers_violated",
    "Kats.C144_decoder_violated",
    "Kats.C144_rows"
   ],
   "note": "The code violates the full statement; the negation is proved with a witness and the true part separately."
  },
  {
   "property": "C145",
   "status": "partial",
   "theorems": [
    "Kats.C145_rows",
    "Kats.C145_evaluate",
    "Kats.C145_aligned_partial",
    "Kats.C145_aligned_violated",
    "Kats.C145_init",
    "Kats.C145_cores_violated",
    "Kats.C145_filter",
    "Kats.C145_longest",
    "Kats.C145_small_violated",
    "Kats.C145_run",
    "Kats.C145_again",
    "Kats.C145_again_violated",
    "Kats.C145_ew_init",
    "Kats.C145_ew",
    "Kats.C145_ew_end_violated",
    "Kats.C145_ew_twice_violated",
    "Kats.C145_ew_aligned_partial",
    "Kats.C145_ew_gap_violated"
   ],
   "note": "The code violates the full statement; the negation is proved with a witness and the true part separately."
  },
  {
   "property": "C146",
   "status": "partial",
   "theorems": [
    "Kats.C146_scale_partial",
    "Kats.C146_scale_violated",
    "Kats.C146_infinite_violated",
    "Kats.C146_zero_violated",
    "Kats.C146_init",
    "Kats.C146_tune",
    "Kats.C146_evaluate",
    "Kats.C146_meta",
    "Kats.C146_none_violated"
   ],
   "note": "The code violates the full statement; the negation is proved with a witness and the true part separately."
  },
  {
   "property": "C147",
   "status": "partial",
   "theorems": [
    "Kats.C147_downsample",
    "Kats.C147_scale",
    "Kats.C147_twice_violated",
    "Kats.C147_same_partial",
    "Kats.C147_init",
    "Kats.C147_none_violated",
    "Kats.C147_text_violated",
    "Kats.C147_order_violated",
    "Kats.C147_rows_partial",
    "Kats.C147_train",
    "Kats.C147_oracle",
    "Kats.C147_top",
    "Kats.C147_frame_violated",
    "Kats.C147_loaded_violated",
    "Kats.C147_nan_violated",
    "Kats.C147_nan_partial",
    "Kats.C147_rescale_violated",
    "Kats.C147_time_violated",
    "Kats.C147_pred",
    "Kats.C147_fuzzy"
   ],
   "note": "The code violates the full statement; the negation is proved with a witness and the true part separately."
  },
  {
   "property": "C148",
   "status": "partial",
   "theorems": [
    "Kats.C148_scale",
    "Kats.C148_twice_violated",
    "Kats.C148_same",
    "Kats.C148_order_violated",
    "Kats.C148_refused_violated",
    "Kats.C148_pred",
    "Kats.C148_sets_partial",
    "Kats.C148_leak_violated",
    "Kats.C148_neighbors_violated",
    "Kats.C148_train",
    "Kats.C148_measures",
    "Kats.C148_report_partial",
    "Kats.C148_tie_violated",
    "Kats.C148_no_data",
    "Kats.C148_init_partial",
    "Kats.C148_nan_violated",
    "Kats.C148_skip_violated",
    "Kats.C148_threshold_partial",
    "Kats.C148_perfect_violated",
    "Kats.C148_recall_violated"
   ],
   "note": "The code violates the full statement; the negation is proved with a witness and the true part separately."
  },
  {
   "property": "C149",
   "status": "partial",
   "theorems": [
    "Kats.C149_init_partial",
    "Kats.C149_numeric_violated",
    "Kats.C149_forward",
    "Kats.C149_network",
    "Kats.C149_default",
    "Kats.C149_names",
    "Kats.C149_units",
    "Kats.C149_pred_partial",
    "Kats.C149_best",
    "Kats.C149_untrained_violated",
    "Kats.C149_categorical_violated",
    "Kats.C149_refused_violated",
    "Kats.C149_series",
    "Kats.C149_scale",
    "Kats.C149_same",
    "Kats.C149_epoch",
    "Kats.C149_stop",
    "Kats.C149_stop_violated",
    "Kats.C149_split",
    "Kats.C149_small_violated",
    "Kats.C149_rows_violated",
    "Kats.C149_missing_violated",
    "Kats.C149_entropy",
    "Kats.C149_error",
    "Kats.C149_trained"
   ],
   "note": "The code violates the full statement; the negation is proved with a witness and the true part separately."
  },
  {
   "property": "C150",
   "status": "partial",
   "theorems": [
    "Kats.C150_pre",
    "Kats.C150_refused",
    "Kats.C150_windows",
    "Kats.C150_twice_violated",
    "Kats.C150_reader",
    "Kats.C150_other_violated",
    "Kats.C150_synth_partial",
    "Kats.C150_synth_violated",
    "Kats.C150_windows_violated",
    "Kats.C150_init",
    "Kats.C150_train",
    "Kats.C150_fit_partial",
    "Kats.C150_predict",
    "Kats.C150_report_violated",
    "Kats.C150_report",
    "Kats.C150_retrain",
    "Kats.C150_fit_violated"
   ],
   "note": "The code violates the full statement; the negation is proved with a witness and the true part separately."
  },
  {
   "property": "C151",
   "status": "partial",
   "theorems": [
    "Kats.C151_init",
    "Kats.C151_train",
    "Kats.C151_default",
    "Kats.C151_errors",
    "Kats.C151_recommend_partial",
    "Kats.C151_missing_violated",
    "Kats.C151_series_violated",
    "Kats.C151_small_violated"
   ],
   "note": "The code violates the full statement; the negation is proved with a witness and the true part separately."
  },
  {
   "property": "C152",
   "status": "partial",
   "theorems": [
    "Kats.C152_scale",
    "Kats.C152_windows",
    "Kats.C152_fit_partial",
    "Kats.C152_predict_partial",
    "Kats.C152_interval_violated",
    "Kats.C152_repeat",
    "Kats.C152_init",
    "Kats.C152_units",
    "Kats.C152_short_violated",
    "Kats.C152_refit_violated",
    "Kats.C152_infer_violated",
    "Kats.C152_zero_violated"
   ],
   "note": "The code violates the full statement; the negation is proved with a witness and the true part separately."
  },
  {
   "property": "C153",
   "status": "partial",
   "theorems": [
    "Kats.C153_arima_fit",
    "Kats.C153_arima_trend_violated",
    "Kats.C153_arima_partial",
    "Kats.C153_arima_alpha_violated",
    "Kats.C153_arima_history_partial",
    "Kats.C153_arima_history_violated",
    "Kats.C153_sarima_errors",
    "Kats.C153_sarima_partial",
    "Kats.C153_sarima_history_partial",
    "Kats.C153_sarima_blank_violated",
    "Kats.C153_sarima_alpha_violated",
    "Kats.C153_sarima_bounds_violated",
    "Kats.C153_sarima_return_violated",
    "Kats.C153_sarima_differencing_violated",
    "Kats.C153_sarima_fit"
   ],
   "note": "The code violates the full statement; the negation is proved with a witness and the true part separately."
  },
  {
   "property": "C154",
   "status": "partial",
   "theorems": [
    "Kats.C154_hw_fit",
    "Kats.C154_hw_forecast",
    "Kats.C154_hw_history",
    "Kats.C154_hw_interval_partial",
    "Kats.C154_hw_dates_violated",
    "Kats.C154_hw_level_violated",
    "Kats.C154_var_fit",
    "Kats.C154_var_lags_violated",
    "Kats.C154_var_forecast_partial",
    "Kats.C154_var_dates_violated",
    "Kats.C154_var_history_partial",
    "Kats.C154_var_empty_violated",
    "Kats.C154_var_plot_partial",
    "Kats.C154_var_plot_violated"
   ],
   "note": "The code violates the full statement; the negation is proved with a witness and the true part separately."
  },
  {
   "property": "C155",
   "status": "partial",
   "theorems": [
    "Kats.C155_params",
    "Kats.C155_fit",
    "Kats.C155_forecast_partial",
    "Kats.C155_columns_violated",
    "Kats.C155_past_violated",
    "Kats.C155_caller_violated",
    "Kats.C155_rows_violated",
    "Kats.C155_dates_violated",
    "Kats.C155_errors"
   ],
   "note": "The code violates the full statement; the negation is proved with a witness and the true part separately."
  },
  {
   "property": "C156",
   "status": "partial",
   "theorems": [
    "Kats.C156_line",
    "Kats.C156_groups_partial",
    "Kats.C156_groups_violated",
    "Kats.C156_trend_partial",
    "Kats.C156_trend_violated",
    "Kats.C156_volatility_partial",
    "Kats.C156_volatility_violated",
    "Kats.C156_level_partial",
    "Kats.C156_level_violated",
    "Kats.C156_negative_violated",
    "Kats.C156_table"
   ],
   "note": "The code violates the full statement; the negation is proved with a witness and the true part separately."
  },
  {
   "property": "C157",
   "status": "partial",
   "theorems": [
    "Kats.C157_data",
    "Kats.C157_estimates",
    "Kats.C157_scores_partial",
    "Kats.C157_correction_violated",
    "Kats.C157_single_violated",
    "Kats.C157_rescaled_partial",
    "Kats.C157_spikes_partial",
    "Kats.C157_spikes_violated"
   ],
   "note": "The code violates the full statement; the negation is proved with a witness and the true part separately."
  },
  {
   "property": "C158",
   "status": "partial",
   "theorems": [
    "Kats.C158_rows",
    "Kats.C158_mean",
    "Kats.C158_scale",
    "Kats.C158_shape_violated",
    "Kats.C158_line",
    "Kats.C158_likelihood",
    "Kats.C158_floor_violated",
    "Kats.C158_floor_partial",
    "Kats.C158_unset_violated",
    "Kats.C158_setup",
    "Kats.C158_variance_violated"
   ],
   "note": "The code violates the full statement; the negation is proved with a witness and the true part separately."
  },
  {
   "property": "C159",
   "status": "partial",
   "theorems": [
    "Kats.C159_choice",
    "Kats.C159_given",
    "Kats.C159_default_violated",
    "Kats.C159_trend_violated",
    "Kats.C159_refused",
    "Kats.C159_multiplier_violated",
    "Kats.C159_units",
    "Kats.C159_empirical",
    "Kats.C159_normal",
    "Kats.C159_line"
   ],
   "note": "The code violates the full statement; the negation is proved with a witness and the true part separately."
  },
  {
   "property": "C160",
   "status": "partial",
   "theorems": [
    "Kats.C160_decision",
    "Kats.C160_level_violated",
    "Kats.C160_extreme_violated",
    "Kats.C160_stat_sig_partial",
    "Kats.C160_stat_sig_violated",
    "Kats.C160_band",
    "Kats.C160_band_violated",
    "Kats.C160_predictions",
    "Kats.C160_accepted",
    "Kats.C160_variance",
    "Kats.C160_refused"
   ],
   "note": "The code violates the full statement; the negation is proved with a witness and the true part separately."
  },
  {
   "property": "C161",
   "status": "partial",
   "theorems": [
    "Kats.C161_data",
    "Kats.C161_columns",
    "Kats.C161_hooks",
    "Kats.C161_count_violated",
    "Kats.C161_null_violated"
   ],
   "note": "The code violates the full statement; the negation is proved with a witness and the true part separately."
  },
  {
   "property": "C162",
   "status": "partial",
   "theorems": [
    "Kats.C162_times",
    "Kats.C162_fill",
    "Kats.C162_linear",
    "Kats.C162_complete",
    "Kats.C162_order",
    "Kats.C162_repeated",
    "Kats.C162_lost_violated",
    "Kats.C162_shift_violated",
    "Kats.C162_base_violated",
    "Kats.C162_frequency"
   ],
   "note": "The code violates the full statement; the negation is proved with a witness and the true part separately."
  },
  {
   "property": "C163",
   "status": "partial",
   "theorems": [
    "Kats.C163_fit",
    "Kats.C163_power",
    "Kats.C163_invariant",
    "Kats.C163_unit_violated",
    "Kats.C163_short",
    "Kats.C163_constant_violated",
    "Kats.C163_range_violated"
   ],
   "note": "The code violates the full statement; the negation is proved with a witness and the true part separately."
  },
  {
   "property": "C164",
   "status": "partial",
   "theorems": [
    "Kats.C164_lookup",
    "Kats.C164_concrete_partial",
    "Kats.C164_found",
    "Kats.C164_abstract_violated",
    "Kats.C164_name_violated"
   ],
   "note": "The code violates the full statement; the negation is proved with a witness and the true part separately."
  },
  {
   "property": "C165",
   "status": "partial",
   "theorems": [
    "Kats.C165_set",
    "Kats.C165_convert",
    "Kats.C165_odd_times",
    "Kats.C165_format",
    "Kats.C165_stamps_violated",
    "Kats.C165_labels_violated",
    "Kats.C165_labels_partial"
   ],
   "note": "The code violates the full statement; the negation is proved with a witness and the true part separately."
  },
  {
   "property": "C166",
   "status": "partial",
   "theorems": [
    "Kats.C166_order",
    "Kats.C166_incomparable",
    "Kats.C166_digits",
    "Kats.C166_digits_violated",
    "Kats.C166_keywords",
    "Kats.C166_series_partial",
    "Kats.C166_series_violated",
    "Kats.C166_errors_partial",
    "Kats.C166_errors_violated",
    "Kats.C166_smoothing_partial",
    "Kats.C166_smoothing_violated"
   ],
   "note": "The code violates the full statement; the negation is proved with a witness and the true part separately."
  },
  {
   "property": "C167",
   "status": "partial",
   "theorems": [
    "Kats.C167_exists",
    "Kats.C167_cells",
    "Kats.C167_parameters_partial",
    "Kats.C167_parameters_violated",
    "Kats.C167_raises_violated"
   ],
   "note": "The code violates the full statement; the negation is proved with a witness and the true part separately."
  },
  {
   "property": "C168",
   "status": "partial",
   "theorems": [
    "Kats.C168_residuals",
    "Kats.C168_kpss",
    "Kats.C168_invariant",
    "Kats.C168_lags",
    "Kats.C168_parameters_partial",
    "Kats.C168_parameters_violated"
   ],
   "note": "The code violates the full statement; the negation is proved with a witness and the true part separately."
  },
  {
   "property": "C169",
   "status": "partial",
   "theorems": [
    "Kats.C169_plain",
    "Kats.C169_fields_violated",
    "Kats.C169_cusum_partial",
    "Kats.C169_cusum_violated",
    "Kats.C169_mixed_violated",
    "Kats.C169_almost_partial",
    "Kats.C169_almost_violated",
    "Kats.C169_all"
   ],
   "note": "The code violates the full statement; the negation is proved with a witness and the true part separately."
  },
  {
   "property": "C170",
   "status": "partial",
   "theorems": [
    "Kats.C170_text",
    "Kats.C170_history",
    "Kats.C170_digits_violated",
    "Kats.C170_load",
    "Kats.C170_trend_violated",
    "Kats.C170_new",
    "Kats.C170_restore",
    "Kats.C170_duration_violated"
   ],
   "note": "The code violates the full statement; the negation is proved with a witness and the true part separately."
  },
  {
   "property": "C171",
   "status": "partial",
   "theorems": [
    "Kats.C171_training_partial",
    "Kats.C171_forecast_partial",
    "Kats.C171_iterated_violated",
    "Kats.C171_labels_violated"
   ],
   "note": "The code violates the full statement; the negation is proved with a witness and the true part separately."
  },
  {
   "property": "C172",
   "status": "partial",
   "theorems": [
    "Kats.C172_independent",
    "Kats.C172_law",
    "Kats.C172_sum",
    "Kats.C172_sum_violated"
   ],
   "note": "The code violates the full statement; the negation is proved with a witness and the true part separately."
  },
  {
   "property": "C173",
   "status": "partial",
   "theorems": [
    "Kats.C173_rejects",
    "Kats.C173_independent",
    "Kats.C173_bounds_partial",
    "Kats.C173_exact_violated"
   ],
   "note": "The code violates the full statement; the negation is proved with a witness and the true part separately."
  },
  {
   "property": "C174",
   "status": "partial",
   "theorems": [
    "Kats.C174_positive",
    "Kats.C174_roundtrip_partial",
    "Kats.C174_roundtrip_violated",
    "Kats.C174_scale_partial",
    "Kats.C174_scale_plain_partial",
    "Kats.C174_scale_violated",
    "Kats.C174_report_violated"
   ],
   "note": "The code violates the full statement; the negation is proved with a witness and the true part separately."
  }
 ]
}