{
 "claims": [
  {
   "property": "C01",
   "status": "proved",
   "theorems": [
    "Verif.C01_smote_extends_input",
    "Verif.C01_fit_resample_eq_sample",
    "Verif.C01_smote_total"
   ],
   "note": ""
  },
  {
   "property": "C02",
   "status": "proved",
   "theorems": [
    "Verif.C02_smote_exact_count",
    "Verif.C02_smote_balances",
    "Verif.C02_smote_never_outgrows",
    "Verif.C02_count_monotone",
    "Verif.C02_count_characterised",
    "Verif.C02_unknown_strategy"
   ],
   "note": ""
  },
  {
   "property": "C03",
   "status": "proved",
   "theorems": [
    "Verif.C03_smote_convex",
    "Verif.C03_class_rows",
    "Verif.C03_sample_simplex_convex"
   ],
   "note": ""
  },
  {
   "property": "C04",
   "status": "proved",
   "theorems": [
    "Verif.C04_rejected_returns_input",
    "Verif.C04_accepted_runs_algorithm",
    "Verif.C04_smote_unchanged"
   ],
   "note": ""
  },
  {
   "property": "C05",
   "status": "proved",
   "theorems": [
    "Verif.C05_two_classes",
    "Verif.C05_minority_exists_unique",
    "Verif.C05_single_class_raises",
    "Verif.C05_three_classes_fails",
    "Verif.C05_only_two_smallest"
   ],
   "note": ""
  },
  {
   "property": "C06",
   "status": "proved",
   "theorems": [
    "Verif.C06_exact_picks",
    "Verif.C06_robust_counts",
    "Verif.C06_result_length"
   ],
   "note": ""
  },
  {
   "property": "C07",
   "status": "proved",
   "theorems": [
    "Verif.C07_positions",
    "Verif.C07_real_indices",
    "Verif.C07_real_complete",
    "Verif.C07_clamped_nonempty",
    "Verif.C07_too_many_vertices_raises",
    "Verif.C07_dim_zero_raises"
   ],
   "note": ""
  },
  {
   "property": "C08",
   "status": "proved",
   "theorems": [
    "Verif.C08_choice",
    "Verif.C08_choice_iff",
    "Verif.C08_vector_choice",
    "Verif.C08_vector_choice_fallback",
    "Verif.C08_selection_positive"
   ],
   "note": ""
  },
  {
   "property": "C09",
   "status": "proved",
   "theorems": [
    "Verif.C09_distribution",
    "Verif.C09_ratios",
    "Verif.C09_uniform"
   ],
   "note": ""
  },
  {
   "property": "C10",
   "status": "proved",
   "theorems": [
    "Verif.C10_dim2_same_set",
    "Verif.C10_dim2_two_sets",
    "Verif.C10_points_distinct",
    "Verif.C10_strictly_inside",
    "Verif.C10_dim1",
    "Verif.C10_other_dims_raise"
   ],
   "note": ""
  },
  {
   "property": "C11",
   "status": "proved",
   "theorems": [
    "Verif.C11_coalesce",
    "Verif.C11_coalesce_dict_lookup",
    "Verif.C11_coalesce_dict_keys",
    "Verif.C11_coalesce_dict_none",
    "Verif.C11_equal_dicts_decides",
    "Verif.C11_equal_dicts_symmetric",
    "Verif.C11_equal_dicts_complete",
    "Verif.C11_equal_dicts_size",
    "Verif.C11_equal_dicts_keyerror",
    "Verif.C11_equal_dicts_typeerror",
    "Verif.C11_equal_dicts_not_total"
   ],
   "note": ""
  },
  {
   "property": "C12",
   "status": "proved",
   "theorems": [
    "Verif.C12_exact",
    "Verif.C12_count",
    "Verif.C12_nodup",
    "Verif.C12_empty_list",
    "Verif.C12_raw"
   ],
   "note": ""
  },
  {
   "property": "C13",
   "status": "partial",
   "theorems": [
    "Verif.C13_atoms",
    "Verif.C13_partition",
    "Verif.C13_atoms_binary",
    "Verif.C13_defined",
    "Verif.C13_scores",
    "Verif.C13_gacc",
    "Verif.C13_mcc_partial",
    "Verif.C13_mcc_none_overflow",
    "Verif.C13_mcc_range_overflow",
    "Verif.C13_uc_none",
    "Verif.C13_uc_range",
    "Verif.C13_uc_denominator"
   ],
   "note": "All identities and ranges proved except |mcc|<=1, which holds only while the product of the four marginals stays below 2^63 (C13_mcc_partial); beyond that numpy int64 overflow makes the score None or larger than one (C13_mcc_none_overflow, C13_mcc_range_overflow)."
  },
  {
   "property": "C14",
   "status": "proved",
   "theorems": [
    "Verif.C14_length",
    "Verif.C14_label",
    "Verif.C14_strict"
   ],
   "note": ""
  },
  {
   "property": "C15",
   "status": "proved",
   "theorems": [
    "Verif.C15_remove_both",
    "Verif.C15_remove_majority",
    "Verif.C15_keeps_minority",
    "Verif.C15_links_are_mutual_nearest",
    "Verif.C15_single"
   ],
   "note": ""
  },
  {
   "property": "C16",
   "status": "proved",
   "theorems": [
    "Verif.C16_enn",
    "Verif.C16_enn_protects",
    "Verif.C16_enn_small",
    "Verif.C16_ncr",
    "Verif.C16_ncr_keeps_minority",
    "Verif.C16_ncr_small"
   ],
   "note": ""
  },
  {
   "property": "C17",
   "status": "proved",
   "theorems": [
    "Verif.C17_cnn",
    "Verif.C17_cnn_items",
    "Verif.C17_one_sided_selection_drops_minority",
    "Verif.C17_one_sided_selection_raises",
    "Verif.C17_cnn_tomek",
    "Verif.C17_cnn_tomek_drops_minority",
    "Verif.C17_cnn_drops_third_class"
   ],
   "note": ""
  },
  {
   "property": "C18",
   "status": "proved",
   "theorems": [
    "Verif.C18_balanced",
    "Verif.C18_equal_sizes",
    "Verif.C18_rejects"
   ],
   "note": ""
  },
  {
   "property": "C19",
   "status": "proved",
   "theorems": [
    "Verif.C19_extends_input",
    "Verif.C19_successive_balances",
    "Verif.C19_equalize_size",
    "Verif.C19_equalize_overshoots",
    "Verif.C19_tied_largest_raises",
    "Verif.C19_single_class_raises",
    "Verif.C19_smote_meets_contract"
   ],
   "note": ""
  },
  {
   "property": "C20",
   "status": "proved",
   "theorems": [
    "Verif.C20_result_slots",
    "Verif.C20_started_at_most_once",
    "Verif.C20_mutual_exclusion",
    "Verif.C20_bounded_executions",
    "Verif.C20_no_deadlock",
    "Verif.C20_large_result_hangs",
    "Verif.C20_start_failure_hangs",
    "Verif.C20_ready_result_overwritten",
    "Verif.C20_no_threads",
    "Verif.C20_apply"
   ],
   "note": ""
  },
  {
   "property": "C21",
   "status": "proved",
   "theorems": [
    "Verif.C21_torn_json",
    "Verif.C21_complete_json",
    "Verif.C21_unserialisable",
    "Verif.C21_torn_pickle"
   ],
   "note": ""
  },
  {
   "property": "C22",
   "status": "proved",
   "theorems": [
    "Verif.C22_json_round_trip",
    "Verif.C22_json_mutates_argument",
    "Verif.C22_json_second_dump_fails",
    "Verif.C22_pickle_round_trip",
    "Verif.C22_unknown_serialization",
    "Verif.C22_extension",
    "Verif.C22_no_extension",
    "Verif.C22_surrogates_merge"
   ],
   "note": ""
  },
  {
   "property": "C23",
   "status": "proved",
   "theorems": [
    "Verif.C23_descriptors",
    "Verif.C23_list_shares_descriptor",
    "Verif.C23_list_descriptors_not_distinct",
    "Verif.C23_cache_complete",
    "Verif.C23_files_sorted",
    "Verif.C23_file_names_distinct",
    "Verif.C23_incomplete_after_crash",
    "Verif.C23_stale_files_returned",
    "Verif.C23_label_stats_binary",
    "Verif.C23_label_stats_wrong",
    "Verif.C23_label_stats_index_error"
   ],
   "note": ""
  },
  {
   "property": "C24",
   "status": "proved",
   "theorems": [
    "Verif.C24_same_fields",
    "Verif.C24_success",
    "Verif.C24_failure",
    "Verif.C24_timeout",
    "Verif.C24_scaler",
    "Verif.C24_other_exceptions",
    "Verif.C24_test_set_unscaled_on_success",
    "Verif.C24_test_set_scaled_on_failure",
    "Verif.C24_timeout_records_other_parameters"
   ],
   "note": ""
  },
  {
   "property": "C25",
   "status": "proved",
   "theorems": [
    "Verif.C25_miss_computes",
    "Verif.C25_hit_returns_stored",
    "Verif.C25_key_inputs",
    "Verif.C25_key_determines",
    "Verif.C25_scaler_not_in_key",
    "Verif.C25_timeout_sticks"
   ],
   "note": ""
  },
  {
   "property": "C26",
   "status": "proved",
   "theorems": [
    "Verif.C26_one_result_each",
    "Verif.C26_record_of_success",
    "Verif.C26_record_of_failure",
    "Verif.C26_record_provenance",
    "Verif.C26_key_determines",
    "Verif.C26_key_inputs",
    "Verif.C26_hit",
    "Verif.C26_miss",
    "Verif.C26_all_files_present",
    "Verif.C26_single_class_raises"
   ],
   "note": ""
  },
  {
   "property": "C27",
   "status": "proved",
   "theorems": [
    "Verif.C27_selected_is_maximal",
    "Verif.C27_raises_iff",
    "Verif.C27_timed_out_folds_do_not_count"
   ],
   "note": ""
  },
  {
   "property": "C28",
   "status": "proved",
   "theorems": [
    "Verif.C28_all",
    "Verif.C28_quickest",
    "Verif.C28_raises_iff",
    "Verif.C28_table",
    "Verif.C28_queries_total",
    "Verif.C28_multiclass",
    "Verif.C28_simplex",
    "Verif.C28_exactly"
   ],
   "note": ""
  },
  {
   "property": "C29",
   "status": "proved",
   "theorems": [
    "Verif.C29_chunked",
    "Verif.C29_diverges",
    "Verif.C29_zero_limit",
    "Verif.C29_entry",
    "Verif.C29_near_identity",
    "Verif.C29_near_identity_iff",
    "Verif.C29_near_identity_wrong",
    "Verif.C29_rowwise",
    "Verif.C29_kneighbors",
    "Verif.C29_root_order",
    "Verif.C29_radius",
    "Verif.C29_radius_default"
   ],
   "note": ""
  },
  {
   "property": "C30",
   "status": "proved",
   "theorems": [
    "Verif.C30_only_value_error",
    "Verif.C30_greater_or_equal",
    "Verif.C30_greater",
    "Verif.C30_less_or_equal",
    "Verif.C30_less",
    "Verif.C30_equal",
    "Verif.C30_in_range",
    "Verif.C30_out_range",
    "Verif.C30_in_range_ext",
    "Verif.C30_isin",
    "Verif.C30_n_jobs",
    "Verif.C30_nan_accepted",
    "Verif.C30_numeric_text"
   ],
   "note": ""
  },
  {
   "property": "C31",
   "status": "proved",
   "theorems": [
    "Verif.C31_random_smote",
    "Verif.C31_random_smote_total",
    "Verif.C31_msmote",
    "Verif.C31_safe_level",
    "Verif.C31_safe_level_copies_majority",
    "Verif.C31_componentwise_is_segment",
    "Verif.C31_masked",
    "Verif.C31_safe_level_pairs",
    "Verif.C31_msmote_total",
    "Verif.C31_safe_level_total"
   ],
   "note": ""
  },
  {
   "property": "C32",
   "status": "proved",
   "theorems": [
    "Verif.C32_terminates",
    "Verif.C32_result",
    "Verif.C32_level_not_guaranteed"
   ],
   "note": ""
  },
  {
   "property": "C33",
   "status": "proved",
   "theorems": [
    "Verif.C33_assertion_holds",
    "Verif.C33_distances_shortest",
    "Verif.C33_parent_walk_ends",
    "Verif.C33_dbscan_never_raises",
    "Verif.C33_samples_between",
    "Verif.C33_total"
   ],
   "note": ""
  },
  {
   "property": "C34",
   "status": "proved",
   "theorems": [
    "Verif.C34_levels_partition",
    "Verif.C34_level_content",
    "Verif.C34_samples_within_level",
    "Verif.C34_total"
   ],
   "note": ""
  },
  {
   "property": "C35",
   "status": "proved",
   "theorems": [
    "Verif.C35_cbso",
    "Verif.C35_cbso_labels",
    "Verif.C35_assembled",
    "Verif.C35_asuwo",
    "Verif.C35_asuwo_majority"
   ],
   "note": ""
  },
  {
   "property": "C36",
   "status": "proved",
   "theorems": [
    "Verif.C36_pair",
    "Verif.C36_sample"
   ],
   "note": ""
  },
  {
   "property": "C37",
   "status": "proved",
   "theorems": [
    "Verif.C37_radius_pos",
    "Verif.C37_energy_budget_broken",
    "Verif.C37_budget",
    "Verif.C37_l1_two_dim",
    "Verif.C37_l1_three_dim_fails",
    "Verif.C37_sample"
   ],
   "note": ""
  },
  {
   "property": "C38",
   "status": "proved",
   "theorems": [
    "Verif.C38_spy",
    "Verif.C38_stefanowski",
    "Verif.C38_strong_amp_raises",
    "Verif.C38_smote_enn",
    "Verif.C38_smote_tomek",
    "Verif.C38_smote_enn_total",
    "Verif.C38_smote_tomek_total",
    "Verif.C38_tomek_may_lose_the_minority",
    "Verif.C38_gazzah",
    "Verif.C38_gazzah_drops_the_minority"
   ],
   "note": ""
  },
  {
   "property": "C39",
   "status": "proved",
   "theorems": [
    "Verif.C39_roundtrip",
    "Verif.C39_lost",
    "Verif.C39_mlp_copy",
    "Verif.C39_mlp_copy_iff",
    "Verif.C39_hidden_layer",
    "Verif.C39_seed_roundtrip",
    "Verif.C39_seed_accepted",
    "Verif.C39_set_params_seed",
    "Verif.C39_osclf",
    "Verif.C39_osclf_classes",
    "Verif.C39_osclf_set_params",
    "Verif.C39_osclf_dimension",
    "Verif.C39_pick"
   ],
   "note": ""
  },
  {
   "property": "C40",
   "status": "proved",
   "theorems": [
    "Verif.C40_choice",
    "Verif.C40_best_is_not_kept",
    "Verif.C40_nan",
    "Verif.C40_osmote",
    "Verif.C40_step",
    "Verif.C40_no_positive_score_raises",
    "Verif.C40_sis",
    "Verif.C40_reversed",
    "Verif.C40_output",
    "Verif.C40_majority_point_relabelled"
   ],
   "note": ""
  },
  {
   "property": "C41",
   "status": "proved",
   "theorems": [
    "Verif.C41_grids_accepted",
    "Verif.C41_defaults_accepted",
    "Verif.C41_typos_unnoticed",
    "Verif.C41_checks_bite",
    "Verif.C41_unchecked_proportion"
   ],
   "note": ""
  },
  {
   "property": "C42",
   "status": "proved",
   "theorems": [
    "Verif.C42_farthest_keeps_closest",
    "Verif.C42_random_removes_farthest",
    "Verif.C42_random_equidistant_raises",
    "Verif.C42_unknown_mode_keeps_all",
    "Verif.C42_nothing_generated_raises"
   ],
   "note": ""
  },
  {
   "property": "C43",
   "status": "proved",
   "theorems": [
    "Verif.C43_entries",
    "Verif.C43_key_error"
   ],
   "note": ""
  },
  {
   "property": "C44",
   "status": "proved",
   "theorems": [
    "Verif.C44_lengths",
    "Verif.C44_aligned_iff",
    "Verif.C44_misaligned",
    "Verif.C44_wrong_labels"
   ],
   "note": ""
  },
  {
   "property": "C45",
   "status": "proved",
   "theorems": [
    "Verif.C45_star",
    "Verif.C45_bus",
    "Verif.C45_poly",
    "Verif.C45_poly_parameters",
    "Verif.C45_mesh",
    "Verif.C45_mesh_total"
   ],
   "note": ""
  },
  {
   "property": "C46",
   "status": "proved",
   "theorems": [
    "Verif.C46_smote_noise"
   ],
   "note": ""
  },
  {
   "property": "C47",
   "status": "proved",
   "theorems": [
    "Verif.C47_adasyn",
    "Verif.C47_adasyn_total"
   ],
   "note": ""
  },
  {
   "property": "C48",
   "status": "proved",
   "theorems": [
    "Verif.C48_borderline1",
    "Verif.C48_borderline1_rows",
    "Verif.C48_borderline1_copies",
    "Verif.C48_borderline2",
    "Verif.C48_total"
   ],
   "note": ""
  },
  {
   "property": "C49",
   "status": "proved",
   "theorems": [
    "Verif.C49_brier",
    "Verif.C49_top20",
    "Verif.C49_top20_unsorted"
   ],
   "note": ""
  },
  {
   "property": "C50",
   "status": "proved",
   "theorems": [
    "Verif.C50_density_uniform",
    "Verif.C50_sdsmote_is_smote"
   ],
   "note": ""
  },
  {
   "property": "C51",
   "status": "proved",
   "theorems": [
    "Verif.C51_kappa",
    "Verif.C51_and_smote",
    "Verif.C51_total"
   ],
   "note": ""
  },
  {
   "property": "C52",
   "status": "proved",
   "theorems": [
    "Verif.C52_ismote",
    "Verif.C52_balanced",
    "Verif.C52_copies",
    "Verif.C52_unchanged",
    "Verif.C52_total",
    "Verif.C52_weight_above_one"
   ],
   "note": ""
  },
  {
   "property": "C53",
   "status": "proved",
   "theorems": [
    "Verif.C53_ans",
    "Verif.C53_total",
    "Verif.C53_does_nothing"
   ],
   "note": ""
  },
  {
   "property": "C54",
   "status": "proved",
   "theorems": [
    "Verif.C54_distance",
    "Verif.C54_segment",
    "Verif.C54_hull",
    "Verif.C54_total"
   ],
   "note": ""
  },
  {
   "property": "C55",
   "status": "proved",
   "theorems": [
    "Verif.C55_gaussian",
    "Verif.C55_total",
    "Verif.C55_constant_feature_moves"
   ],
   "note": ""
  },
  {
   "property": "C56",
   "status": "proved",
   "theorems": [
    "Verif.C56_nt",
    "Verif.C56_nt_raises_iff",
    "Verif.C56_nt_default",
    "Verif.C56_rwo",
    "Verif.C56_rwo_rows",
    "Verif.C56_rwo_constant",
    "Verif.C56_rwo_raises_iff"
   ],
   "note": ""
  },
  {
   "property": "C57",
   "status": "proved",
   "theorems": [
    "Verif.C57_kmeans",
    "Verif.C57_kmeans_hull",
    "Verif.C57_kmeans_total",
    "Verif.C57_cluster",
    "Verif.C57_cluster_one_neighbour",
    "Verif.C57_cluster_total"
   ],
   "note": ""
  },
  {
   "property": "C58",
   "status": "proved",
   "theorems": [
    "Verif.C58_mwmote",
    "Verif.C58_total",
    "Verif.C58_zero_parameter"
   ],
   "note": ""
  },
  {
   "property": "C59",
   "status": "proved",
   "theorems": [
    "Verif.C59_ce_matching",
    "Verif.C59_ce",
    "Verif.C59_ce_single",
    "Verif.C59_ce_total",
    "Verif.C59_nras",
    "Verif.C59_nras_total",
    "Verif.C59_ce_names",
    "Verif.C59_nras_noise_vertex"
   ],
   "note": ""
  },
  {
   "property": "C60",
   "status": "proved",
   "theorems": [
    "Verif.C60_clustering",
    "Verif.C60_cure",
    "Verif.C60_even",
    "Verif.C60_total",
    "Verif.C60_count"
   ],
   "note": ""
  },
  {
   "property": "C61",
   "status": "proved",
   "theorems": [
    "Verif.C61_mct",
    "Verif.C61_mct_closer",
    "Verif.C61_mct_clones",
    "Verif.C61_mct_total",
    "Verif.C61_edge",
    "Verif.C61_edge_total",
    "Verif.C61_adasyn"
   ],
   "note": ""
  },
  {
   "property": "C62",
   "status": "proved",
   "theorems": [
    "Verif.C62_sn",
    "Verif.C62_sn_same",
    "Verif.C62_sn_one",
    "Verif.C62_sn_total",
    "Verif.C62_smmo",
    "Verif.C62_smmo_total",
    "Verif.C62_smmo_selects",
    "Verif.C62_smmo_other",
    "Verif.C62_smmo_nothing"
   ],
   "note": ""
  },
  {
   "property": "C63",
   "status": "proved",
   "theorems": [
    "Verif.C63_supervised",
    "Verif.C63_supervised_total",
    "Verif.C63_supervised_first",
    "Verif.C63_nrs",
    "Verif.C63_nrs_total",
    "Verif.C63_nrs_raises",
    "Verif.C63_nrs_fewer"
   ],
   "note": ""
  },
  {
   "property": "C64",
   "status": "proved",
   "theorems": [
    "Verif.C64_split",
    "Verif.C64_trimming",
    "Verif.C64_rows",
    "Verif.C64_trim",
    "Verif.C64_trim_total",
    "Verif.C64_isolated"
   ],
   "note": ""
  },
  {
   "property": "C65",
   "status": "proved",
   "theorems": [
    "Verif.C65_vis",
    "Verif.C65_unchanged",
    "Verif.C65_label_lost"
   ],
   "note": ""
  },
  {
   "property": "C66",
   "status": "proved",
   "theorems": [
    "Verif.C66_weights",
    "Verif.C66_oups",
    "Verif.C66_segment",
    "Verif.C66_wraps"
   ],
   "note": ""
  },
  {
   "property": "C67",
   "status": "proved",
   "theorems": [
    "Verif.C67_somo",
    "Verif.C67_example"
   ],
   "note": ""
  },
  {
   "property": "C68",
   "status": "proved",
   "theorems": [
    "Verif.C68_gsmote",
    "Verif.C68_linear",
    "Verif.C68_wrong_direction"
   ],
   "note": ""
  },
  {
   "property": "C69",
   "status": "proved",
   "theorems": [
    "Verif.C69_lle",
    "Verif.C69_default",
    "Verif.C69_outside"
   ],
   "note": ""
  },
  {
   "property": "C70",
   "status": "proved",
   "theorems": [
    "Verif.C70_out",
    "Verif.C70_overshoot",
    "Verif.C70_cosine",
    "Verif.C70_cosine_all",
    "Verif.C70_outside"
   ],
   "note": ""
  },
  {
   "property": "C71",
   "status": "proved",
   "theorems": [
    "Verif.C71_selected",
    "Verif.C71_share",
    "Verif.C71_rose",
    "Verif.C71_rose_constant",
    "Verif.C71_zero"
   ],
   "note": ""
  },
  {
   "property": "C72",
   "status": "proved",
   "theorems": [
    "Verif.C72_lvq",
    "Verif.C72_outside"
   ],
   "note": ""
  },
  {
   "property": "C73",
   "status": "proved",
   "theorems": [
    "Verif.C73_choice",
    "Verif.C73_labels"
   ],
   "note": ""
  },
  {
   "property": "C74",
   "status": "proved",
   "theorems": [
    "Verif.C74_smobd",
    "Verif.C74_threshold"
   ],
   "note": ""
  },
  {
   "property": "C75",
   "status": "proved",
   "theorems": [
    "Verif.C75_adoms",
    "Verif.C75_distance",
    "Verif.C75_one",
    "Verif.C75_outside"
   ],
   "note": ""
  },
  {
   "property": "C76",
   "status": "proved",
   "theorems": [
    "Verif.C76_asmobd",
    "Verif.C76_raises",
    "Verif.C76_sigmoid"
   ],
   "note": ""
  },
  {
   "property": "C77",
   "status": "proved",
   "theorems": [
    "Verif.C77_ln",
    "Verif.C77_between",
    "Verif.C77_one"
   ],
   "note": ""
  },
  {
   "property": "C78",
   "status": "proved",
   "theorems": [
    "Verif.C78_msyn",
    "Verif.C78_score"
   ],
   "note": ""
  },
  {
   "property": "C79",
   "status": "proved",
   "theorems": [
    "Verif.C79_min",
    "Verif.C79_maj",
    "Verif.C79_minmaj",
    "Verif.C79_hull",
    "Verif.C79_outgrows",
    "Verif.C79_recursion"
   ],
   "note": ""
  },
  {
   "property": "C80",
   "status": "proved",
   "theorems": [
    "Verif.C80_sundo",
    "Verif.C80_none",
    "Verif.C80_count",
    "Verif.C80_both",
    "Verif.C80_reversed"
   ],
   "note": ""
  },
  {
   "property": "C81",
   "status": "proved",
   "theorems": [
    "Verif.C81_ndo",
    "Verif.C81_one_more",
    "Verif.C81_default_k"
   ],
   "note": ""
  },
  {
   "property": "C82",
   "status": "proved",
   "theorems": [
    "Verif.C82_mot",
    "Verif.C82_minority_first",
    "Verif.C82_wrong_rows"
   ],
   "note": ""
  },
  {
   "property": "C83",
   "status": "proved",
   "theorems": [
    "Verif.C83_dsmote",
    "Verif.C83_too_few",
    "Verif.C83_none",
    "Verif.C83_gap",
    "Verif.C83_relabelled"
   ],
   "note": ""
  },
  {
   "property": "C84",
   "status": "proved",
   "theorems": [
    "Verif.C84_isomap",
    "Verif.C84_too_few",
    "Verif.C84_labels",
    "Verif.C84_tie",
    "Verif.C84_minority_removed"
   ],
   "note": ""
  },
  {
   "property": "C85",
   "status": "proved",
   "theorems": [
    "Verif.C85_svm",
    "Verif.C85_faithful",
    "Verif.C85_changed",
    "Verif.C85_nosmote"
   ],
   "note": ""
  },
  {
   "property": "C86",
   "status": "proved",
   "theorems": [
    "Verif.C86_rsb",
    "Verif.C86_level",
    "Verif.C86_none",
    "Verif.C86_short"
   ],
   "note": ""
  },
  {
   "property": "C87",
   "status": "proved",
   "theorems": [
    "Verif.C87_ipf",
    "Verif.C87_labels",
    "Verif.C87_consensus",
    "Verif.C87_few",
    "Verif.C87_votes",
    "Verif.C87_zero",
    "Verif.C87_hangs"
   ],
   "note": ""
  },
  {
   "property": "C88",
   "status": "proved",
   "theorems": [
    "Verif.C88_ellipsoid",
    "Verif.C88_mdo",
    "Verif.C88_unselected",
    "Verif.C88_isolated",
    "Verif.C88_single",
    "Verif.C88_outside"
   ],
   "note": ""
  },
  {
   "property": "C89",
   "status": "proved",
   "theorems": [
    "Verif.C89_kernel_adasyn",
    "Verif.C89_one_column",
    "Verif.C89_rows",
    "Verif.C89_too_few_rows",
    "Verif.C89_projected"
   ],
   "note": ""
  },
  {
   "property": "C90",
   "status": "proved",
   "theorems": [
    "Verif.C90_symprod",
    "Verif.C90_few",
    "Verif.C90_between",
    "Verif.C90_nan",
    "Verif.C90_majority_lost"
   ],
   "note": ""
  },
  {
   "property": "C91",
   "status": "proved",
   "theorems": [
    "Verif.C91_sso",
    "Verif.C91_box",
    "Verif.C91_count",
    "Verif.C91_unrequested",
    "Verif.C91_one_centre",
    "Verif.C91_balanced"
   ],
   "note": ""
  },
  {
   "property": "C92",
   "status": "proved",
   "theorems": [
    "Verif.C92_pdfos",
    "Verif.C92_one_column",
    "Verif.C92_moved",
    "Verif.C92_compact",
    "Verif.C92_label_one"
   ],
   "note": ""
  },
  {
   "property": "C93",
   "status": "proved",
   "theorems": [
    "Verif.C93_neater",
    "Verif.C93_exchanged",
    "Verif.C93_foreign",
    "Verif.C93_no_rounds"
   ],
   "note": ""
  },
  {
   "property": "C94",
   "status": "proved",
   "theorems": [
    "Verif.C94_frst",
    "Verif.C94_kept",
    "Verif.C94_unneeded",
    "Verif.C94_zero",
    "Verif.C94_relabelled"
   ],
   "note": ""
  },
  {
   "property": "C95",
   "status": "proved",
   "theorems": [
    "Verif.C95_smotewb",
    "Verif.C95_noise",
    "Verif.C95_perfect",
    "Verif.C95_unneeded",
    "Verif.C95_fewer",
    "Verif.C95_error"
   ],
   "note": ""
  },
  {
   "property": "C96",
   "status": "proved",
   "theorems": [
    "Verif.C96_gasmote",
    "Verif.C96_numbers",
    "Verif.C96_nothing",
    "Verif.C96_overshoot"
   ],
   "note": ""
  },
  {
   "property": "C97",
   "status": "proved",
   "theorems": [
    "Verif.C97_box",
    "Verif.C97_vsynth",
    "Verif.C97_one_component",
    "Verif.C97_cell",
    "Verif.C97_shifted",
    "Verif.C97_unbounded"
   ],
   "note": ""
  },
  {
   "property": "C98",
   "status": "proved",
   "theorems": [
    "Verif.C98_de",
    "Verif.C98_survive",
    "Verif.C98_rate",
    "Verif.C98_imbalanced"
   ],
   "note": ""
  },
  {
   "property": "C99",
   "status": "proved",
   "theorems": [
    "Verif.C99_esmote",
    "Verif.C99_stale"
   ],
   "note": ""
  },
  {
   "property": "C100",
   "status": "proved",
   "theorems": [
    "Verif.C100_amsr",
    "Verif.C100_between",
    "Verif.C100_copies"
   ],
   "note": ""
  },
  {
   "property": "C101",
   "status": "proved",
   "theorems": [
    "Verif.C101_pso",
    "Verif.C101_balanced",
    "Verif.C101_within",
    "Verif.C101_overshoot"
   ],
   "note": ""
  },
  {
   "property": "C102",
   "status": "proved",
   "theorems": [
    "Verif.C102_psobat",
    "Verif.C102_swarm",
    "Verif.C102_never_better",
    "Verif.C102_remembers",
    "Verif.C102_worse",
    "Verif.C102_memory",
    "Verif.C102_wrong_bat",
    "Verif.C102_swarm_stops",
    "Verif.C102_bats_stop",
    "Verif.C102_bats_stagnate",
    "Verif.C102_moves"
   ],
   "note": ""
  },
  {
   "property": "C103",
   "status": "proved",
   "theorems": [
    "Verif.C103_ipade",
    "Verif.C103_scaled",
    "Verif.C103_score",
    "Verif.C103_shrinks",
    "Verif.C103_scaled_witness",
    "Verif.C103_target"
   ],
   "note": ""
  },
  {
   "property": "C104",
   "status": "proved",
   "theorems": [
    "Verif.C104_cbso",
    "Verif.C104_too_few",
    "Verif.C104_isolated"
   ],
   "note": ""
  },
  {
   "property": "C105",
   "status": "proved",
   "theorems": [
    "Verif.C105_assembled",
    "Verif.C105_apart"
   ],
   "note": ""
  },
  {
   "property": "C106",
   "status": "proved",
   "theorems": [
    "Verif.C106_suwo",
    "Verif.C106_copies",
    "Verif.C106_drops"
   ],
   "note": ""
  },
  {
   "property": "C107",
   "status": "proved",
   "theorems": [
    "Verif.C107_soi",
    "Verif.C107_island",
    "Verif.C107_ends",
    "Verif.C107_joined",
    "Verif.C107_lost"
   ],
   "note": ""
  },
  {
   "property": "C108",
   "status": "proved",
   "theorems": [
    "Verif.C108_deago",
    "Verif.C108_cone",
    "Verif.C108_training",
    "Verif.C108_untrained"
   ],
   "note": ""
  },
  {
   "property": "C109",
   "status": "proved",
   "theorems": [
    "Verif.C109_adg",
    "Verif.C109_swapped",
    "Verif.C109_lost",
    "Verif.C109_labels",
    "Verif.C109_identical",
    "Verif.C109_matrices",
    "Verif.C109_within",
    "Verif.C109_scatter",
    "Verif.C109_within_not",
    "Verif.C109_more",
    "Verif.C109_projected",
    "Verif.C109_shares"
   ],
   "note": ""
  },
  {
   "property": "C110",
   "status": "proved",
   "theorems": [
    "Verif.C110_dsrbf",
    "Verif.C110_labels",
    "Verif.C110_copies",
    "Verif.C110_epochs",
    "Verif.C110_single",
    "Verif.C110_small"
   ],
   "note": ""
  },
  {
   "property": "C111",
   "status": "proved",
   "theorems": [
    "Verif.C111_summary",
    "Verif.C111_dropped",
    "Verif.C111_unknown",
    "Verif.C111_incomplete",
    "Verif.C111_groups",
    "Verif.C111_order",
    "Verif.C111_lost",
    "Verif.C111_repeats"
   ],
   "note": ""
  },
  {
   "property": "C112",
   "status": "proved",
   "theorems": [
    "Verif.C112_rounded",
    "Verif.C112_labeling",
    "Verif.C112_flags",
    "Verif.C112_extensive",
    "Verif.C112_resampled",
    "Verif.C112_projection",
    "Verif.C112_rounding",
    "Verif.C112_binary",
    "Verif.C112_multiclass",
    "Verif.C112_dummy"
   ],
   "note": ""
  },
  {
   "property": "C113",
   "status": "proved",
   "theorems": [
    "Verif.C113_keeps",
    "Verif.C113_keeps_any",
    "Verif.C113_lee",
    "Verif.C113_multiclass",
    "Verif.C113_removed",
    "Verif.C113_not_equal"
   ],
   "note": ""
  },
  {
   "property": "C114",
   "status": "proved",
   "theorems": [
    "Verif.C114_seeded",
    "Verif.C114_model",
    "Verif.C114_interleaved",
    "Verif.C114_unseeded",
    "Verif.C114_object",
    "Verif.C114_refused",
    "Verif.C114_second_call",
    "Verif.C114_esmote",
    "Verif.C114_esmote_both",
    "Verif.C114_smotewb",
    "Verif.C114_smotewb_differ",
    "Verif.C114_deago",
    "Verif.C114_deago_object"
   ],
   "note": ""
  },
  {
   "property": "C115",
   "status": "proved",
   "theorems": [
    "Verif.C115_fix_pd",
    "Verif.C115_fix_pd_keeps",
    "Verif.C115_separates",
    "Verif.C115_unknown",
    "Verif.C115_no_itml",
    "Verif.C115_mi_weighted",
    "Verif.C115_regression_model",
    "Verif.C115_regression_exact",
    "Verif.C115_search",
    "Verif.C115_forest",
    "Verif.C115_forest_query",
    "Verif.C115_reverse",
    "Verif.C115_reverse_ties",
    "Verif.C115_columns",
    "Verif.C115_one_column",
    "Verif.C115_columns_chain",
    "Verif.C115_pairs",
    "Verif.C115_itml_mi_negative",
    "Verif.C115_mi_zero",
    "Verif.C115_cov_min_label",
    "Verif.C115_fix_pd_grows",
    "Verif.C115_construct",
    "Verif.C115_construct_exact",
    "Verif.C115_reverse_matrix",
    "Verif.C115_mean",
    "Verif.C115_trainers",
    "Verif.C115_cov_needs",
    "Verif.C115_kept_columns"
   ],
   "note": ""
  },
  {
   "property": "C116",
   "status": "proved",
   "theorems": [
    "Verif.C116_nonneg",
    "Verif.C116_entry",
    "Verif.C116_determinant",
    "Verif.C116_zero_iff",
    "Verif.C116_repeated",
    "Verif.C116_too_many",
    "Verif.C116_translation",
    "Verif.C116_scaling",
    "Verif.C116_order",
    "Verif.C116_independent",
    "Verif.C116_smote",
    "Verif.C116_too_many_vertices",
    "Verif.C116_equal_rows",
    "Verif.C116_returns"
   ],
   "note": ""
  },
  {
   "property": "C117",
   "status": "proved",
   "theorems": [
    "Verif.C117_smote",
    "Verif.C117_adoms",
    "Verif.C117_asmobd",
    "Verif.C117_adasyn",
    "Verif.C117_ccr",
    "Verif.C117_spy",
    "Verif.C117_kmeansSmote",
    "Verif.C117_clusterSmote",
    "Verif.C117_cureSmote",
    "Verif.C117_dbsmote",
    "Verif.C117_deago",
    "Verif.C117_dsmote",
    "Verif.C117_gsmote",
    "Verif.C117_randomSmote",
    "Verif.C117_msmote",
    "Verif.C117_safeLevel",
    "Verif.C117_noSmote",
    "Verif.C117_lle",
    "Verif.C117_lnSmote",
    "Verif.C117_lvq",
    "Verif.C117_mdo",
    "Verif.C117_cbso",
    "Verif.C117_assembled",
    "Verif.C117_msyn",
    "Verif.C117_polynom",
    "Verif.C117_mesh",
    "Verif.C117_prowsyn",
    "Verif.C117_sdsmote",
    "Verif.C117_andSmote",
    "Verif.C117_ans",
    "Verif.C117_distanceSmote",
    "Verif.C117_gaussianSmote",
    "Verif.C117_ntSmote",
    "Verif.C117_rwo",
    "Verif.C117_rsb",
    "Verif.C117_selected",
    "Verif.C117_rose",
    "Verif.C117_smoteD",
    "Verif.C117_smoteOut",
    "Verif.C117_smoteCosine",
    "Verif.C117_snSmote",
    "Verif.C117_somo",
    "Verif.C117_sundo",
    "Verif.C117_mct",
    "Verif.C117_ahc",
    "Verif.C117_amsr",
    "Verif.C117_mot",
    "Verif.C117_smobd",
    "Verif.C117_symprod",
    "Verif.C117_mwmote",
    "Verif.C117_ismote",
    "Verif.C117_gazzah",
    "Verif.C117_borderline1",
    "Verif.C117_borderline2",
    "Verif.C117_stefanowski",
    "Verif.C117_smoteEnn",
    "Verif.C117_smoteTomek",
    "Verif.C117_nras",
    "Verif.C117_supervised",
    "Verif.C117_borderline_ties",
    "Verif.C117_neater",
    "Verif.C117_smmo"
   ],
   "note": ""
  },
  {
   "property": "C118",
   "status": "proved",
   "theorems": [
    "Verif.C118_smote",
    "Verif.C118_adasyn",
    "Verif.C118_borderline1",
    "Verif.C118_borderline2",
    "Verif.C118_nt",
    "Verif.C118_ismote",
    "Verif.C118_distance",
    "Verif.C118_enn",
    "Verif.C118_tomek",
    "Verif.C118_smoteEnn",
    "Verif.C118_smoteTomek",
    "Verif.C118_smote_euclid",
    "Verif.C118_borderline1_euclid",
    "Verif.C118_columns",
    "Verif.C118_noise",
    "Verif.C118_spy",
    "Verif.C118_stefanowski",
    "Verif.C118_polynom",
    "Verif.C118_polynom_class",
    "Verif.C118_mesh",
    "Verif.C118_cluster_smote",
    "Verif.C118_kmeans_smote",
    "Verif.C118_supervised",
    "Verif.C118_random_smote",
    "Verif.C118_and_smote",
    "Verif.C118_random_smote_rotation",
    "Verif.C118_and_smote_rotation"
   ],
   "note": ""
  },
  {
   "property": "C119",
   "status": "proved",
   "theorems": [
    "Verif.C119_smote",
    "Verif.C119_adoms",
    "Verif.C119_clusterSmote",
    "Verif.C119_gsmote",
    "Verif.C119_randomSmote",
    "Verif.C119_noSmote",
    "Verif.C119_lle",
    "Verif.C119_lvq",
    "Verif.C119_polynom",
    "Verif.C119_mesh",
    "Verif.C119_distanceSmote",
    "Verif.C119_ntSmote",
    "Verif.C119_rwo",
    "Verif.C119_smoteD",
    "Verif.C119_snSmote",
    "Verif.C119_mct",
    "Verif.C119_polynomClass",
    "Verif.C119_rose",
    "Verif.C119_smobd",
    "Verif.C119_deago",
    "Verif.C119_gaussian_not"
   ],
   "note": ""
  },
  {
   "property": "C120",
   "status": "proved",
   "theorems": [
    "Verif.C120_smote",
    "Verif.C120_adg",
    "Verif.C120_adoms",
    "Verif.C120_amsr",
    "Verif.C120_asmobd",
    "Verif.C120_adasyn",
    "Verif.C120_borderline1",
    "Verif.C120_borderline2",
    "Verif.C120_ccr",
    "Verif.C120_nras",
    "Verif.C120_kmeansSmote",
    "Verif.C120_clusterSmote",
    "Verif.C120_cureSmote",
    "Verif.C120_dbsmote",
    "Verif.C120_de",
    "Verif.C120_deago",
    "Verif.C120_dsmote",
    "Verif.C120_dsrbf",
    "Verif.C120_es",
    "Verif.C120_gsmote",
    "Verif.C120_randomSmote",
    "Verif.C120_msmote",
    "Verif.C120_safeLevel",
    "Verif.C120_ka",
    "Verif.C120_lle",
    "Verif.C120_lnSmote",
    "Verif.C120_lvq",
    "Verif.C120_mdo",
    "Verif.C120_cbso",
    "Verif.C120_assembled",
    "Verif.C120_suwo",
    "Verif.C120_mot",
    "Verif.C120_msyn",
    "Verif.C120_mwmote",
    "Verif.C120_ndo",
    "Verif.C120_neater",
    "Verif.C120_oups",
    "Verif.C120_pd",
    "Verif.C120_polynom",
    "Verif.C120_mesh",
    "Verif.C120_prowsyn",
    "Verif.C120_sdsmote",
    "Verif.C120_andSmote",
    "Verif.C120_ans",
    "Verif.C120_distanceSmote",
    "Verif.C120_gaussianSmote",
    "Verif.C120_ntSmote",
    "Verif.C120_rwo",
    "Verif.C120_supervised",
    "Verif.C120_nrs",
    "Verif.C120_selected",
    "Verif.C120_rose",
    "Verif.C120_slGraph",
    "Verif.C120_smobd",
    "Verif.C120_smoteD",
    "Verif.C120_smoteOut",
    "Verif.C120_smoteCosine",
    "Verif.C120_wb",
    "Verif.C120_snSmote",
    "Verif.C120_smmo",
    "Verif.C120_soi",
    "Verif.C120_somo",
    "Verif.C120_sy",
    "Verif.C120_trimSmote",
    "Verif.C120_vis",
    "Verif.C120_vs",
    "Verif.C120_mct",
    "Verif.C120_edgeDet",
    "Verif.C120_noSmote",
    "Verif.C120_frst",
    "Verif.C120_pso",
    "Verif.C120_ceSmote",
    "Verif.C120_rsb",
    "Verif.C120_polynomClass",
    "Verif.C120_gazzah",
    "Verif.C120_lee",
    "Verif.C120_ipf",
    "Verif.C120_ismote",
    "Verif.C120_sundo",
    "Verif.C120_smoteTomek_not",
    "Verif.C120_smoteEnn_not",
    "Verif.C120_spy_not",
    "Verif.C120_stefanowski_not",
    "Verif.C120_ahc_not",
    "Verif.C120_sso_not",
    "Verif.C120_after_smote",
    "Verif.C120_smote_twice",
    "Verif.C120_smote_twice_proportion",
    "Verif.C120_tomek_twice_not",
    "Verif.C120_enn_twice_not"
   ],
   "note": ""
  },
  {
   "property": "C121",
   "status": "proved",
   "theorems": [
    "Verif.C121_search",
    "Verif.C121_search_ties",
    "Verif.C121_tomek",
    "Verif.C121_enn",
    "Verif.C121_ncr",
    "Verif.C121_spy",
    "Verif.C121_spy_exact",
    "Verif.C121_star",
    "Verif.C121_bus_not",
    "Verif.C121_smote",
    "Verif.C121_smote_exact",
    "Verif.C121_smote_deterministic_not",
    "Verif.C121_cnn_not",
    "Verif.C121_oss_not",
    "Verif.C121_cnn_tomek_not"
   ],
   "note": ""
  },
  {
   "property": "C122",
   "status": "proved",
   "theorems": [
    "Verif.C122_determined",
    "Verif.C122_genuine_names",
    "Verif.C122_cached",
    "Verif.C122_cached_returns",
    "Verif.C122_plain",
    "Verif.C122_second_run",
    "Verif.C122_clean_up",
    "Verif.C122_parallel",
    "Verif.C122_table",
    "Verif.C122_datasets",
    "Verif.C122_plain_last_fold",
    "Verif.C122_changed_data_not",
    "Verif.C122_parallel_hides_errors",
    "Verif.C122_stale_folds",
    "Verif.C122_missing"
   ],
   "note": ""
  },
  {
   "property": "C123",
   "status": "proved",
   "theorems": [
    "Verif.C123_smote",
    "Verif.C123_sdsmote",
    "Verif.C123_lee",
    "Verif.C123_borderline1",
    "Verif.C123_adasyn",
    "Verif.C123_and",
    "Verif.C123_distance",
    "Verif.C123_prowsyn",
    "Verif.C123_smote_d",
    "Verif.C123_star_bus",
    "Verif.C123_mesh",
    "Verif.C123_kmeans",
    "Verif.C123_cluster",
    "Verif.C123_mwmote",
    "Verif.C123_cure",
    "Verif.C123_mct",
    "Verif.C123_edge",
    "Verif.C123_sn",
    "Verif.C123_supervised",
    "Verif.C123_trim",
    "Verif.C123_nrs",
    "Verif.C123_smmo",
    "Verif.C123_smote_enn",
    "Verif.C123_smote_tomek",
    "Verif.C123_somo",
    "Verif.C123_assembled",
    "Verif.C123_gsmote",
    "Verif.C123_equations",
    "Verif.C123_ranges",
    "Verif.C123_constants_of_ranges",
    "Verif.C123_constants",
    "Verif.C123_copies",
    "Verif.C123_random_smote",
    "Verif.C123_random_smote_not",
    "Verif.C123_constants_not",
    "Verif.C123_poly_not",
    "Verif.C123_nt",
    "Verif.C123_ce",
    "Verif.C123_rsb",
    "Verif.C123_ans",
    "Verif.C123_cbso",
    "Verif.C123_suwo",
    "Verif.C123_symprod",
    "Verif.C123_out_negative"
   ],
   "note": ""
  },
  {
   "property": "C124",
   "status": "proved",
   "theorems": [
    "Verif.C124_plain",
    "Verif.C124_attributes",
    "Verif.C124_one_class",
    "Verif.C124_mot2ld",
    "Verif.C124_mot2ld_same",
    "Verif.C124_psobat",
    "Verif.C124_psobat_same",
    "Verif.C124_soi_cj",
    "Verif.C124_e_smote",
    "Verif.C124_e_smote_mask",
    "Verif.C124_somo",
    "Verif.C124_first",
    "Verif.C124_mot2ld_not",
    "Verif.C124_psobat_not",
    "Verif.C124_somo_left",
    "Verif.C124_e_smote_stale"
   ],
   "note": ""
  },
  {
   "property": "C125",
   "status": "proved",
   "theorems": [
    "Verif.C125_predictions",
    "Verif.C125_training",
    "Verif.C125_labels",
    "Verif.C125_scores",
    "Verif.C125_data",
    "Verif.C125_transform_not",
    "Verif.C125_classifier_not"
   ],
   "note": ""
  },
  {
   "property": "C126",
   "status": "proved",
   "theorems": [
    "Verif.C126_tomek",
    "Verif.C126_enn",
    "Verif.C126_ncr",
    "Verif.C126_cnn",
    "Verif.C126_undersampling",
    "Verif.C126_cnn_not",
    "Verif.C126_tomek_not",
    "Verif.C126_enn_not",
    "Verif.C126_ncr_not"
   ],
   "note": ""
  },
  {
   "property": "C127",
   "status": "proved",
   "theorems": [
    "Verif.C127_readers",
    "Verif.C127_left",
    "Verif.C127_race",
    "Verif.C127_disappears",
    "Verif.C127_mixed"
   ],
   "note": ""
  },
  {
   "property": "C128",
   "status": "proved",
   "theorems": [
    "Verif.C128_index",
    "Verif.C128_index_not",
    "Verif.C128_index_lengths",
    "Verif.C128_product",
    "Verif.C128_product_complete",
    "Verif.C128_shuffle",
    "Verif.C128_jitter",
    "Verif.C128_jitter_componentwise",
    "Verif.C128_cov",
    "Verif.C128_cov_single",
    "Verif.C128_cov_columns"
   ],
   "note": ""
  },
  {
   "property": "C129",
   "status": "proved",
   "theorems": [
    "Verif.C129_smote",
    "Verif.C129_smote_segment",
    "Verif.C129_mct",
    "Verif.C129_edge",
    "Verif.C129_adasyn",
    "Verif.C129_borderline1",
    "Verif.C129_random_smote"
   ],
   "note": ""
  },
  {
   "property": "C130",
   "status": "proved",
   "theorems": [
    "Verif.C130_smote",
    "Verif.C130_nosmote",
    "Verif.C130_spy",
    "Verif.C130_stefanowski",
    "Verif.C130_vis",
    "Verif.C130_amsr",
    "Verif.C130_shuffle",
    "Verif.C130_results_are_own",
    "Verif.C130_data_are_own",
    "Verif.C130_session",
    "Verif.C130_amsr_shared",
    "Verif.C130_amsr_session",
    "Verif.C130_shared",
    "Verif.C130_loader"
   ],
   "note": ""
  },
  {
   "property": "C131",
   "status": "proved",
   "theorems": [
    "Verif.C131_last",
    "Verif.C131_initial",
    "Verif.C131_distances",
    "Verif.C131_default_limit",
    "Verif.C131_small_limit",
    "Verif.C131_copies"
   ],
   "note": ""
  },
  {
   "property": "C132",
   "status": "proved",
   "theorems": [
    "Verif.C132_binary",
    "Verif.C132_between",
    "Verif.C132_random_smote",
    "Verif.C132_msmote",
    "Verif.C132_smote_close",
    "Verif.C132_exact",
    "Verif.C132_smote_box",
    "Verif.C132_smote_sign",
    "Verif.C132_constant_lost",
    "Verif.C132_deterministic",
    "Verif.C132_deterministic_exact",
    "Verif.C132_largest",
    "Verif.C132_random_smote_close",
    "Verif.C132_msmote_close"
   ],
   "note": ""
  },
  {
   "property": "C133",
   "status": "proved",
   "theorems": [
    "Verif.C133_integers",
    "Verif.C133_requested",
    "Verif.C133_gap",
    "Verif.C133_one",
    "Verif.C133_one_more",
    "Verif.C133_quotient",
    "Verif.C133_quotient_lost",
    "Verif.C133_smote",
    "Verif.C133_smote_balance",
    "Verif.C133_smote_contract",
    "Verif.C133_multiclass",
    "Verif.C133_multiclass_short"
   ],
   "note": ""
  },
  {
   "property": "C134",
   "status": "proved",
   "theorems": [
    "Verif.C134_choice",
    "Verif.C134_positive",
    "Verif.C134_accepts",
    "Verif.C134_simplices",
    "Verif.C134_smote",
    "Verif.C134_smote_rows"
   ],
   "note": ""
  },
  {
   "property": "C135",
   "status": "proved",
   "theorems": [
    "Verif.C135_counts",
    "Verif.C135_sample",
    "Verif.C135_share_lost",
    "Verif.C135_simplices",
    "Verif.C135_smote",
    "Verif.C135_smote_rows"
   ],
   "note": ""
  },
  {
   "property": "C136",
   "status": "proved",
   "theorems": [
    "Verif.C136_safe_level",
    "Verif.C136_safe_level_close",
    "Verif.C136_copy_lost",
    "Verif.C136_doubles"
   ],
   "note": ""
  },
  {
   "property": "C137",
   "status": "proved",
   "theorems": [
    "Verif.C137_count",
    "Verif.C137_bus",
    "Verif.C137_star",
    "Verif.C137_constant_lost",
    "Verif.C137_doubles"
   ],
   "note": ""
  },
  {
   "property": "C138",
   "status": "proved",
   "theorems": [
    "Verif.C138_pair",
    "Verif.C138_samples",
    "Verif.C138_tiny",
    "Verif.C138_hang",
    "Verif.C138_doubles"
   ],
   "note": ""
  },
  {
   "property": "C139",
   "status": "proved",
   "theorems": [
    "Verif.C139_vis",
    "Verif.C139_nras",
    "Verif.C139_vis_lost",
    "Verif.C139_nras_lost",
    "Verif.C139_doubles"
   ],
   "note": ""
  },
  {
   "property": "C140",
   "status": "proved",
   "theorems": [
    "Verif.C140_plot",
    "Verif.C140_again",
    "Verif.C140_dummy",
    "Verif.C140_comparison",
    "Verif.C140_oversampled",
    "Verif.C140_oversampled_wrong"
   ],
   "note": ""
  },
  {
   "property": "C141",
   "status": "proved",
   "theorems": [
    "Verif.C141_score",
    "Verif.C141_lowest",
    "Verif.C141_never_better",
    "Verif.C141_separated",
    "Verif.C141_none"
   ],
   "note": ""
  },
  {
   "property": "C142",
   "status": "proved",
   "theorems": [
    "Verif.C142_shapes",
    "Verif.C142_add",
    "Verif.C142_clone",
    "Verif.C142_forgets",
    "Verif.C142_connections",
    "Verif.C142_seed",
    "Verif.C142_lost"
   ],
   "note": ""
  },
  {
   "property": "C143",
   "status": "proved",
   "theorems": [
    "Verif.C143_far",
    "Verif.C143_near",
    "Verif.C143_grows"
   ],
   "note": ""
  },
  {
   "property": "C144",
   "status": "proved",
   "theorems": [
    "Verif.C144_evaluate",
    "Verif.C144_synthetic",
    "Verif.C144_ratio"
   ],
   "note": ""
  },
  {
   "property": "C145",
   "status": "proved",
   "theorems": [
    "Verif.C145_free",
    "Verif.C145_units",
    "Verif.C145_mean"
   ],
   "note": ""
  },
  {
   "property": "C146",
   "status": "proved",
   "theorems": [
    "Verif.C146_two",
    "Verif.C146_largest"
   ],
   "note": ""
  }
 ]
}