{
 "claims": [
  {
   "property": "C01",
   "status": "proved",
   "theorems": [
    "Mealpy.C01_correct_solution_in_box",
    "Mealpy.C01_correct_solution_coordinate",
    "Mealpy.C01_inverted_bounds_escape",
    "Mealpy.C01_transfer_small_ub_escape"
   ],
   "note": ""
  },
  {
   "property": "C02",
   "status": "proved",
   "theorems": [
    "Mealpy.C02_correct_idempotent",
    "Mealpy.C02_correct_fixes_feasible",
    "Mealpy.C02_permutation_not_idempotent",
    "Mealpy.C02_permutation_three_times",
    "Mealpy.C02_correct_solution_idempotent"
   ],
   "note": ""
  },
  {
   "property": "C03",
   "status": "proved",
   "theorems": [
    "Mealpy.C03_decode_legal",
    "Mealpy.C03_decode_solution_legal"
   ],
   "note": ""
  },
  {
   "property": "C04",
   "status": "proved",
   "theorems": [
    "Mealpy.C04_encode_decode",
    "Mealpy.C04_sequence_round_trip",
    "Mealpy.C04_sequence_unknown_rejected",
    "Mealpy.C04_permutation_round_trip_inverse",
    "Mealpy.C04_permutation_round_trip_fails"
   ],
   "note": ""
  },
  {
   "property": "C05",
   "status": "proved",
   "theorems": [
    "Mealpy.C05_integer_decode",
    "Mealpy.C05_integer_surjective",
    "Mealpy.C05_integer_monotone",
    "Mealpy.C05_scalar_bounds_integer",
    "Mealpy.C05_fractional_array_bounds_escape"
   ],
   "note": ""
  },
  {
   "property": "C06",
   "status": "proved",
   "theorems": [
    "Mealpy.C06_generated_solution_feasible",
    "Mealpy.C06_string_var_numeric_labels_raise"
   ],
   "note": ""
  },
  {
   "property": "C07",
   "status": "proved",
   "theorems": [
    "Mealpy.C07_label_bijection",
    "Mealpy.C07_codes_follow_key_order",
    "Mealpy.C07_order_and_multiplicity_irrelevant",
    "Mealpy.C07_unknown",
    "Mealpy.C07_transform_list"
   ],
   "note": ""
  },
  {
   "property": "C08",
   "status": "proved",
   "theorems": [
    "Mealpy.C08_correct_slice",
    "Mealpy.C08_correct_noninterference",
    "Mealpy.C08_n_dims",
    "Mealpy.C08_decode_entry",
    "Mealpy.C08_decode_one_entry_per_variable",
    "Mealpy.C08_decode_one_entry_per_name",
    "Mealpy.C08_same_name_later_wins"
   ],
   "note": ""
  },
  {
   "property": "C09",
   "status": "proved",
   "theorems": [
    "Mealpy.C09_duplicate_label_leaks_unknown",
    "Mealpy.C09_permutation_duplicates_always_unknown",
    "Mealpy.C09_distinct_labels_never_unknown"
   ],
   "note": ""
  },
  {
   "property": "C10",
   "status": "proved",
   "theorems": [
    "Mealpy.C10_range",
    "Mealpy.C10_v_shaped",
    "Mealpy.C10_s_shaped",
    "Mealpy.C10_v_monotone"
   ],
   "note": ""
  },
  {
   "property": "C11",
   "status": "proved",
   "theorems": [
    "Mealpy.C11_correct_never_all_zero",
    "Mealpy.C11_decode_never_all_zero",
    "Mealpy.C11_generate_never_all_zero",
    "Mealpy.C11_all_zeros_true_can_be_zero"
   ],
   "note": ""
  },
  {
   "property": "C12",
   "status": "proved",
   "theorems": [
    "Mealpy.C12_lower_bound_ignored",
    "Mealpy.C12_s_shaped_probability_at_least_half"
   ],
   "note": ""
  },
  {
   "property": "C13",
   "status": "proved",
   "theorems": [
    "Mealpy.C13_equal_variables_equal_values"
   ],
   "note": ""
  },
  {
   "property": "C14",
   "status": "proved",
   "theorems": [
    "Mealpy.C14_weighted_sum",
    "Mealpy.C14_plain_sum",
    "Mealpy.C14_scalar_weight",
    "Mealpy.C14_single_objective",
    "Mealpy.C14_rejects",
    "Mealpy.C14_copy"
   ],
   "note": ""
  },
  {
   "property": "C15",
   "status": "proved",
   "theorems": [
    "Mealpy.C15_eq_iff",
    "Mealpy.C15_refl",
    "Mealpy.C15_hash_eq_imp_eq",
    "Mealpy.C15_eq_not_hash",
    "Mealpy.C15_not_symmetric",
    "Mealpy.C15_not_transitive",
    "Mealpy.C15_sync"
   ],
   "note": ""
  },
  {
   "property": "C16",
   "status": "proved",
   "theorems": [
    "Mealpy.C16_compare_fitness",
    "Mealpy.C16_helpers_agree",
    "Mealpy.C16_ties",
    "Mealpy.C16_total_order"
   ],
   "note": ""
  },
  {
   "property": "C17",
   "status": "proved",
   "theorems": [
    "Mealpy.C17_sorted_population"
   ],
   "note": ""
  },
  {
   "property": "C18",
   "status": "proved",
   "theorems": [
    "Mealpy.C18_best",
    "Mealpy.C18_worst",
    "Mealpy.C18_empty"
   ],
   "note": ""
  },
  {
   "property": "C19",
   "status": "proved",
   "theorems": [
    "Mealpy.C19_special_agents",
    "Mealpy.C19_special_indices",
    "Mealpy.C19_none",
    "Mealpy.C19_special_fitness"
   ],
   "note": ""
  },
  {
   "property": "C20",
   "status": "proved",
   "theorems": [
    "Mealpy.C20_greedy",
    "Mealpy.C20_length_mismatch"
   ],
   "note": ""
  },
  {
   "property": "C21",
   "status": "proved",
   "theorems": [
    "Mealpy.C21_sort_trim"
   ],
   "note": ""
  },
  {
   "property": "C22",
   "status": "proved",
   "theorems": [
    "Mealpy.C22_groups"
   ],
   "note": ""
  },
  {
   "property": "C23",
   "status": "proved",
   "theorems": [
    "Mealpy.C23_exclude_one",
    "Mealpy.C23_when_it_raises",
    "Mealpy.C23_bijection"
   ],
   "note": ""
  },
  {
   "property": "C24",
   "status": "proved",
   "theorems": [
    "Mealpy.C24_exclude_list",
    "Mealpy.C24_candidates",
    "Mealpy.C24_when_it_raises"
   ],
   "note": ""
  },
  {
   "property": "C25",
   "status": "proved",
   "theorems": [
    "Mealpy.C25_roulette_weights",
    "Mealpy.C25_worst_weight_zero",
    "Mealpy.C25_roulette_index"
   ],
   "note": "Exact rational arithmetic. The index theorem covers every fitness list; the uniform fallback is stated as the very draw integers(0, n)."
  },
  {
   "property": "C26",
   "status": "proved",
   "theorems": [
    "Mealpy.C26_tournament",
    "Mealpy.C26_tournament_reverse",
    "Mealpy.C26_when_it_raises",
    "Mealpy.C26_small_population"
   ],
   "note": "int(k_way*len) is computed exactly (floats: not modelled)."
  },
  {
   "property": "C27",
   "status": "proved",
   "theorems": [
    "Mealpy.C27_crossover",
    "Mealpy.C27_crossover_feasible"
   ],
   "note": ""
  },
  {
   "property": "C28",
   "status": "proved",
   "theorems": [
    "Mealpy.C28_catalogue_best_monotone",
    "Mealpy.C28_global_best_monotone",
    "Mealpy.C28_global_best_is_a_member"
   ],
   "note": ""
  },
  {
   "property": "C29",
   "status": "proved",
   "theorems": [
    "Mealpy.C29_save_false_misaligned",
    "Mealpy.C29_catalogue_lengths",
    "Mealpy.C29_history_lines_up",
    "Mealpy.C29_lengths"
   ],
   "note": ""
  },
  {
   "property": "C30",
   "status": "proved",
   "theorems": [
    "Mealpy.C30_trailing_streak",
    "Mealpy.C30_unique"
   ],
   "note": ""
  },
  {
   "property": "C31",
   "status": "proved",
   "theorems": [
    "Mealpy.C31_should_terminate",
    "Mealpy.C31_constructor"
   ],
   "note": ""
  },
  {
   "property": "C32",
   "status": "proved",
   "theorems": [
    "Mealpy.C32_catalogue_stops",
    "Mealpy.C32_stops_at_first_true_test",
    "Mealpy.C32_no_termination",
    "Mealpy.C32_max_epoch"
   ],
   "note": ""
  },
  {
   "property": "C33",
   "status": "proved",
   "theorems": [
    "Mealpy.C33_counter_counts",
    "Mealpy.C33_process_misses_initial_population",
    "Mealpy.C33_counter_at_most_calls",
    "Mealpy.C33_thread_loses_increments"
   ],
   "note": ""
  },
  {
   "property": "C34",
   "status": "proved",
   "theorems": [
    "Mealpy.C34_diversity_nonneg",
    "Mealpy.C34_diversity_zero_iff",
    "Mealpy.C34_percentages"
   ],
   "note": ""
  },
  {
   "property": "C35",
   "status": "proved",
   "theorems": [
    "Mealpy.C35_global_best_record_is_immune",
    "Mealpy.C35_population_is_separate",
    "Mealpy.C35_start_is_well_formed",
    "Mealpy.C35_current_best_record_is_live",
    "Mealpy.C35_array_write_reaches_copies"
   ],
   "note": ""
  },
  {
   "property": "C36",
   "status": "proved",
   "theorems": [
    "Mealpy.C36_pool_results_in_input_order",
    "Mealpy.C36_parallel_evaluation"
   ],
   "note": ""
  },
  {
   "property": "C37",
   "status": "proved",
   "theorems": [
    "Mealpy.C37_generates_n_evaluated_agents",
    "Mealpy.C37_thread_completion_order",
    "Mealpy.C37_process_identical"
   ],
   "note": ""
  },
  {
   "property": "C38",
   "status": "proved",
   "theorems": [
    "Mealpy.C38_none",
    "Mealpy.C38_rows_used_verbatim",
    "Mealpy.C38_rejected",
    "Mealpy.C38_not_clipped"
   ],
   "note": ""
  },
  {
   "property": "C39",
   "status": "proved",
   "theorems": [
    "Mealpy.C39_unknown_rejected",
    "Mealpy.C39_known_accepted",
    "Mealpy.C39_list",
    "Mealpy.C39_list_unknown",
    "Mealpy.C39_consistent_preserved",
    "Mealpy.C39_roundtrip",
    "Mealpy.C39_not_revalidated"
   ],
   "note": ""
  },
  {
   "property": "C40",
   "status": "proved",
   "theorems": [
    "Mealpy.C40_is_in_bound",
    "Mealpy.C40_finite",
    "Mealpy.C40_nan",
    "Mealpy.C40_check_float",
    "Mealpy.C40_check_int",
    "Mealpy.C40_check_int_closed",
    "Mealpy.C40_check_int_open_escapes",
    "Mealpy.C40_check_str_bool",
    "Mealpy.C40_check_tuple",
    "Mealpy.C40_check_tuple_skips",
    "Mealpy.C40_others"
   ],
   "note": ""
  },
  {
   "property": "C41",
   "status": "proved",
   "theorems": [
    "Mealpy.C41_unknown_mode",
    "Mealpy.C41_mode_and_workers",
    "Mealpy.C41_small_machine"
   ],
   "note": ""
  },
  {
   "property": "C42",
   "status": "proved",
   "theorems": [
    "Mealpy.C42_members",
    "Mealpy.C42_exactly_once",
    "Mealpy.C42_last_key_fastest",
    "Mealpy.C42_len"
   ],
   "note": ""
  },
  {
   "property": "C43",
   "status": "proved",
   "theorems": [
    "Mealpy.C43_index_hits_every_combination",
    "Mealpy.C43_index_is_not_iteration_order",
    "Mealpy.C43_negative_index_never_raises"
   ],
   "note": ""
  },
  {
   "property": "C44",
   "status": "proved",
   "theorems": [
    "Mealpy.C44_min_selects_best",
    "Mealpy.C44_max_selects_worst"
   ],
   "note": ""
  },
  {
   "property": "C45",
   "status": "proved",
   "theorems": [
    "Mealpy.C45_sequential",
    "Mealpy.C45_pool",
    "Mealpy.C45_run_error"
   ],
   "note": ""
  },
  {
   "property": "C46",
   "status": "proved",
   "theorems": [
    "Mealpy.C46_one_value",
    "Mealpy.C46_one_per_problem",
    "Mealpy.C46_one_per_algorithm_raises",
    "Mealpy.C46_flat",
    "Mealpy.C46_flat_terminations_raise",
    "Mealpy.C46_other_lengths"
   ],
   "note": ""
  },
  {
   "property": "C47",
   "status": "proved",
   "theorems": [
    "Mealpy.C47_runs",
    "Mealpy.C47_one_column_per_problem",
    "Mealpy.C47_same_name_overwrites",
    "Mealpy.C47_padding"
   ],
   "note": ""
  },
  {
   "property": "C48",
   "status": "proved",
   "theorems": [
    "Mealpy.C48_load_after_save",
    "Mealpy.C48_file_written",
    "Mealpy.C48_suffix_optional",
    "Mealpy.C48_other_files_untouched"
   ],
   "note": ""
  },
  {
   "property": "C49",
   "status": "proved",
   "theorems": [
    "Mealpy.C49_weights_in_range",
    "Mealpy.C49_zero_iterations",
    "Mealpy.C49_increase_pyramid_not_ranked"
   ],
   "note": ""
  },
  {
   "property": "C50",
   "status": "proved",
   "theorems": [
    "Mealpy.C50_unit_interval",
    "Mealpy.C50_orbits",
    "Mealpy.C50_logistic",
    "Mealpy.C50_chebyshev",
    "Mealpy.C50_singer_escapes",
    "Mealpy.C50_clipped_update"
   ],
   "note": ""
  },
  {
   "property": "C51",
   "status": "proved",
   "theorems": [
    "Mealpy.C51_min_nan_is_never_best",
    "Mealpy.C51_max_nan_is_best",
    "Mealpy.C51_greedy_rejects_nan",
    "Mealpy.C51_greedy_keeps_nan",
    "Mealpy.C51_compare_nan",
    "Mealpy.C51_min_nan_global_best_is_forever",
    "Mealpy.C51_max_nan_destroys_global_best",
    "Mealpy.C51_min_number_survives",
    "Mealpy.C51_clip"
   ],
   "note": ""
  },
  {
   "property": "C52",
   "status": "partial",
   "theorems": [
    "Mealpy.C52_evaluates_feasible_points_partial",
    "Mealpy.C52_original_sa_leaves_box",
    "Mealpy.C52_gaussian_sa_leaves_box",
    "Mealpy.C52_declared_variables",
    "Mealpy.C52_hc_stays_in_box",
    "Mealpy.C52_foa_leaves_box",
    "Mealpy.C52_whale_foa_leaves_box",
    "Mealpy.C52_who_leaves_box",
    "Mealpy.C52_oppo_two_leaves_box",
    "Mealpy.C52_levy_two_leaves_box",
    "Mealpy.C52_tseeda_leaves_box",
    "Mealpy.C52_archoa_leaves_box",
    "Mealpy.C52_dev_foa_leaves_box",
    "Mealpy.C52_bco_leaves_box",
    "Mealpy.C52_enhanced_two_leaves_box"
   ],
   "note": "False of the code as stated. Proved for the classes in StaysIn, refuted by runs for those the statement names. OriginalHC is proved in C52_hc_stays_in_box. Open: catalogue lines that put conditions on the parameters say nothing outside them."
  },
  {
   "property": "C53",
   "status": "partial",
   "theorems": [
    "Mealpy.C53_targets_are_values_partial",
    "Mealpy.C53_targets_belong_to_solutions_partial",
    "Mealpy.C53_ica_lies",
    "Mealpy.C53_single_ga_lies",
    "Mealpy.C53_base_ga_lies",
    "Mealpy.C53_single_ga_strays",
    "Mealpy.C53_hbo_lies",
    "Mealpy.C53_dev_foa_lies",
    "Mealpy.C53_multi_ga_lies",
    "Mealpy.C53_oppo_two_lies",
    "Mealpy.C53_levy_two_lies",
    "Mealpy.C53_tseeda_lies",
    "Mealpy.C53_archoa_lies",
    "Mealpy.C53_whale_foa_lies",
    "Mealpy.C53_foa_lies",
    "Mealpy.C53_elite_single_ga_lies",
    "Mealpy.C53_elite_multi_ga_lies",
    "Mealpy.C53_who_lies",
    "Mealpy.C53_sbo_lies",
    "Mealpy.C53_bco_lies",
    "Mealpy.C53_bees_lies",
    "Mealpy.C53_prob_bees_lies",
    "Mealpy.C53_enhanced_two_lies",
    "Mealpy.C53_thro_lies",
    "Mealpy.C53_aaa_lies"
   ],
   "note": "False of the code as stated. Proved for Listed/Contained, refuted by runs for the classes the statement names. Conditions on parameters as for C52."
  },
  {
   "property": "C54",
   "status": "partial",
   "theorems": [
    "Mealpy.C54_returns_best_evaluated_partial",
    "Mealpy.C54_keeping_returns_best_partial",
    "Mealpy.C54_cg_gwo_forgets",
    "Mealpy.C54_originalCSO_forgets",
    "Mealpy.C54_originalCCO_forgets",
    "Mealpy.C54_originalBA_forgets",
    "Mealpy.C54_originalDMOA_forgets",
    "Mealpy.C54_devDMOA_forgets",
    "Mealpy.C54_improvedBSO_forgets",
    "Mealpy.C54_originalBSO_forgets",
    "Mealpy.C54_enhancedTWO_forgets",
    "Mealpy.C54_originalOrcaPA_forgets",
    "Mealpy.C54_originalEO_forgets",
    "Mealpy.C54_adaptiveEO_forgets",
    "Mealpy.C54_modifiedEO_forgets",
    "Mealpy.C54_originalSHO_forgets",
    "Mealpy.C54_originalCA_forgets",
    "Mealpy.C54_originalCoatiOA_forgets",
    "Mealpy.C54_originalHHO_forgets",
    "Mealpy.C54_originalAHO_forgets",
    "Mealpy.C54_modifiedSLO_forgets",
    "Mealpy.C54_improvedSLO_forgets",
    "Mealpy.C54_devBRO_forgets",
    "Mealpy.C54_c_PSO_forgets",
    "Mealpy.C54_originalWOAmM_forgets",
    "Mealpy.C54_originalSFO_forgets",
    "Mealpy.C54_improvedSFO_forgets",
    "Mealpy.C54_originalHGSO_forgets",
    "Mealpy.C54_mLFA_GD_forgets",
    "Mealpy.C54_originalTOA_forgets",
    "Mealpy.C54_originalSRSR_forgets",
    "Mealpy.C54_iOBL_GWO_forgets",
    "Mealpy.C54_originalFFA_forgets",
    "Mealpy.C54_devSMO_forgets",
    "Mealpy.C54_aBFO_forgets",
    "Mealpy.C54_sAP_DE_forgets",
    "Mealpy.C54_originalWHO_forgets",
    "Mealpy.C54_originalBCO_forgets",
    "Mealpy.C54_originalABC_forgets",
    "Mealpy.C54_oppoTWO_forgets",
    "Mealpy.C54_originalESO_forgets",
    "Mealpy.C54_originalEP_forgets",
    "Mealpy.C54_levyEP_forgets",
    "Mealpy.C54_originalBFO_forgets",
    "Mealpy.C54_originalIMODE_forgets",
    "Mealpy.C54_originalCOA_forgets",
    "Mealpy.C54_originalDO_forgets",
    "Mealpy.C54_originalCHIO_forgets",
    "Mealpy.C54_devCHIO_forgets",
    "Mealpy.C54_originalWCA_forgets",
    "Mealpy.C54_adaptiveBA_forgets",
    "Mealpy.C54_originalGJA_forgets",
    "Mealpy.C54_iChameleonSA_forgets",
    "Mealpy.C54_originalAAA_forgets",
    "Mealpy.C54_originalICA_forgets",
    "Mealpy.C54_swarmSA_forgets",
    "Mealpy.C54_originalGRSA_forgets",
    "Mealpy.C54_remembers_best_partial"
   ],
   "note": "False for many classes. Proved for Elitist, Keeping and Remembers; refuted by runs in Props/Forgets.lean and Props/Forgets2.lean. Every modelled class is on one side or the other; SwarmSA keeps its best point with max_sub_iter 1 and forgets it with 5; OriginalBRO keeps it if positions at distance 0 are equal. Open: other parameter settings of the refuted classes."
  },
  {
   "property": "C55",
   "status": "partial",
   "theorems": [
    "Mealpy.C55_population_size_partial",
    "Mealpy.C55_sa_hc_resize",
    "Mealpy.C55_ffa_grows",
    "Mealpy.C55_orca_shrinks",
    "Mealpy.C55_ica_loses_at_most_one",
    "Mealpy.C55_ica_shrinks",
    "Mealpy.C55_ica_drops_the_best",
    "Mealpy.C55_dev_saro_doubles",
    "Mealpy.C55_original_saro_doubles",
    "Mealpy.C55_sap_de_resizes",
    "Mealpy.C55_ts_resizes",
    "Mealpy.C55_abfo_shrinks",
    "Mealpy.C55_lshade_cn_between",
    "Mealpy.C55_lshade_cn_shrinks",
    "Mealpy.C55_hgso_sizes",
    "Mealpy.C55_hgso_shrinks",
    "Mealpy.C55_original_bso_shrinks",
    "Mealpy.C55_improved_tlo_sizes",
    "Mealpy.C55_improved_tlo_shrinks"
   ],
   "note": "False of the code as stated. Proved for KeepsSize, refuted by runs for the exceptions the statement names. Open: parameter settings outside the conditions of a line."
  },
  {
   "property": "C56",
   "status": "proved",
   "theorems": [
    "Mealpy.C56_evaluation_budget",
    "Mealpy.C56_original_gwo_exact"
   ],
   "note": ""
  },
  {
   "property": "C57",
   "status": "partial",
   "theorems": [
    "Mealpy.C57_never_raises_partial",
    "Mealpy.C57_raises_only_partial",
    "Mealpy.C57_ds_gwo_raises",
    "Mealpy.C57_original_de_raises",
    "Mealpy.C57_eho_raises",
    "Mealpy.C57_jade_raises",
    "Mealpy.C57_orca_raises",
    "Mealpy.C57_squirrel_raises",
    "Mealpy.C57_pss_raises",
    "Mealpy.C57_nro_raises",
    "Mealpy.C57_ica_index_error",
    "Mealpy.C57_ica_zero_costs",
    "Mealpy.C57_ica_opposite_costs",
    "Mealpy.C57_ica_mixed_costs",
    "Mealpy.C57_shade_real",
    "Mealpy.C57_lshade_real",
    "Mealpy.C57_wso_real",
    "Mealpy.C57_iwo_real",
    "Mealpy.C57_sspidero_real",
    "Mealpy.C57_cro_real",
    "Mealpy.C57_ocro_real",
    "Mealpy.C57_srsr_real",
    "Mealpy.C57_sapde_real",
    "Mealpy.C57_dev_efo_real",
    "Mealpy.C57_efo_real",
    "Mealpy.C57_dev_gska_real",
    "Mealpy.C57_gska_real",
    "Mealpy.C57_fla_real",
    "Mealpy.C57_cro_one_dim_raises",
    "Mealpy.C57_ocro_one_dim_raises",
    "Mealpy.C57_foa_raises",
    "Mealpy.C57_dev_foa_raises",
    "Mealpy.C57_bees_raises",
    "Mealpy.C57_abfo_raises",
    "Mealpy.C57_oppo_two_raises",
    "Mealpy.C57_dev_hs_raises",
    "Mealpy.C57_ao_raises",
    "Mealpy.C57_aao_raises",
    "Mealpy.C57_dandelion_raises",
    "Mealpy.C57_ca_raises",
    "Mealpy.C57_coa_raises",
    "Mealpy.C57_doa_raises",
    "Mealpy.C57_doa_one_dim_raises",
    "Mealpy.C57_base_ga_raises",
    "Mealpy.C57_multi_ga_raises",
    "Mealpy.C57_single_ga_raises",
    "Mealpy.C57_ma_raises",
    "Mealpy.C57_dev_efo_raises",
    "Mealpy.C57_efo_raises",
    "Mealpy.C57_improved_bso_raises",
    "Mealpy.C57_bfo_raises",
    "Mealpy.C57_clever_book_bees_raises",
    "Mealpy.C57_dev_gska_may_raise",
    "Mealpy.C57_gska_may_raise",
    "Mealpy.C57_info_may_raise",
    "Mealpy.C57_improved_nmra_may_raise",
    "Mealpy.C57_sho_may_raise",
    "Mealpy.C57_dev_smo_may_raise",
    "Mealpy.C57_chio_may_raise",
    "Mealpy.C57_dev_chio_may_raise",
    "Mealpy.C57_cso_may_raise",
    "Mealpy.C57_wca_index_may_raise",
    "Mealpy.C57_wca_value_may_raise",
    "Mealpy.C57_ts_may_raise",
    "Mealpy.C57_lshadecn_raises",
    "Mealpy.C57_lshadecn_one_dim_raises",
    "Mealpy.C57_lshadecn_one_dim_may_raise",
    "Mealpy.C57_mslo_pool_fresh",
    "Mealpy.C57_islo_pool_fresh",
    "Mealpy.C57_mslo_pool_started_may_raise",
    "Mealpy.C57_eso_real",
    "Mealpy.C57_eso_corners_raise",
    "Mealpy.C57_qlesca_collapsed_raises",
    "Mealpy.C57_cddo_narrow_raises",
    "Mealpy.C57_sfo_may_raise",
    "Mealpy.C57_fla_overfull_raises",
    "Mealpy.C57_srsr_negative_may_raise",
    "Mealpy.C57_islo_pool_started_may_raise",
    "Mealpy.C57_elite_ga_raises",
    "Mealpy.C57_elite_ga_two_groups_raises",
    "Mealpy.C57_original_bso_may_raise",
    "Mealpy.C57_aaa_raises"
   ],
   "note": "False of the code as stated. Proved for AnyModelled; for the classes in MayRaise and Untidy no exception but the listed ones occurs. For SHADE, L_SHADE, WSO, IWO, SSpiderO, CRO, OCRO, SRSR, SAP_DE, EFO, GSKA, FLA and ESO (with at most 16 variables) the conditions of the line are derived from the constructor ranges in exact real arithmetic only; rounding of doubles is not covered. Open: ALO with epoch 1, and whether every listed exception can occur."
  },
  {
   "property": "C58",
   "status": "proved",
   "theorems": [
    "Mealpy.C58_read_preserves_fitness",
    "Mealpy.C58_raises_iff",
    "Mealpy.C58_raises_once"
   ],
   "note": ""
  },
  {
   "property": "C59",
   "status": "proved",
   "theorems": [
    "Mealpy.C59_no_rank_gets_worse",
    "Mealpy.C59_best_and_worst",
    "Mealpy.C59_aeo_loses_ground"
   ],
   "note": ""
  },
  {
   "property": "C60",
   "status": "proved",
   "theorems": [
    "Mealpy.C60_repeats",
    "Mealpy.C60_plain_repeats",
    "Mealpy.C60_originalBeesA_drifts",
    "Mealpy.C60_probBeesA_drifts",
    "Mealpy.C60_originalOrcaOA_drifts",
    "Mealpy.C60_aBFO_drifts",
    "Mealpy.C60_sAP_DE_drifts"
   ],
   "note": "The positive part covers classes whose model sets all attributes anew; that these are all but the five was established by reading the source (DESIGN.md), not by proof. Calls without a termination also inherit the evaluation counter."
  },
  {
   "property": "C61",
   "status": "proved",
   "theorems": [
    "Mealpy.C61_same_epochs",
    "Mealpy.C61_history_begins",
    "Mealpy.C61_looser_runs_longer",
    "Mealpy.C61_looser_raises_too",
    "Mealpy.C61_catalogue"
   ],
   "note": "Calls with and without a termination are not compared: a termination resets the evaluation counter and reads the clock."
  },
  {
   "property": "C62",
   "status": "proved",
   "theorems": [
    "Mealpy.C62_compare",
    "Mealpy.C62_greedy_selection",
    "Mealpy.C62_compare_target",
    "Mealpy.C62_sorted",
    "Mealpy.C62_ties_differ",
    "Mealpy.C62_roulette",
    "Mealpy.C62_roulette_differs",
    "Mealpy.C62_constant_objective"
   ],
   "note": "The roulette wheel in exact rational arithmetic. Whole runs on two scales are compared in C63."
  },
  {
   "property": "C63",
   "status": "proved",
   "theorems": [
    "Mealpy.C63_run",
    "Mealpy.C63_same_points",
    "Mealpy.C63_same_exception",
    "Mealpy.C63_mean_fitness_differs"
   ],
   "note": "Proved for the 52 classes of `RankBased`; the other classes either compute with fitness values or have not been examined. np.argsort is assumed to depend on the order only."
  }
 ]
}