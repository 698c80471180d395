# Axioms of the theorems in MANIFEST.json

Made by `tools/axioms.py` with `#print axioms`.

| theorem | axioms |
|---|---|
| `Verif.C01_smote_extends_input` | propext, Classical.choice, Quot.sound |
| `Verif.C01_fit_resample_eq_sample` | propext, Quot.sound |
| `Verif.C01_smote_total` | propext, Classical.choice, Quot.sound |
| `Verif.C02_smote_exact_count` | propext, Classical.choice, Quot.sound |
| `Verif.C02_smote_balances` | propext, Classical.choice, Quot.sound |
| `Verif.C02_smote_never_outgrows` | propext, Classical.choice, Quot.sound |
| `Verif.C02_count_monotone` | propext, Classical.choice, Quot.sound |
| `Verif.C02_count_characterised` | propext, Classical.choice, Quot.sound |
| `Verif.C02_unknown_strategy` | propext, Classical.choice, Quot.sound |
| `Verif.C03_smote_convex` | propext, Classical.choice, Quot.sound |
| `Verif.C03_class_rows` | propext, Classical.choice, Quot.sound |
| `Verif.C03_sample_simplex_convex` | propext, Classical.choice, Quot.sound |
| `Verif.C04_rejected_returns_input` | propext, Classical.choice, Quot.sound |
| `Verif.C04_accepted_runs_algorithm` | propext, Classical.choice, Quot.sound |
| `Verif.C04_smote_unchanged` | propext, Classical.choice, Quot.sound |
| `Verif.C05_two_classes` | propext, Classical.choice, Quot.sound |
| `Verif.C05_minority_exists_unique` | propext, Quot.sound |
| `Verif.C05_single_class_raises` | propext, Quot.sound |
| `Verif.C05_three_classes_fails` | propext, Quot.sound |
| `Verif.C05_only_two_smallest` | propext, Quot.sound |
| `Verif.C06_exact_picks` | propext, Classical.choice, Quot.sound |
| `Verif.C06_robust_counts` | propext, Classical.choice, Quot.sound |
| `Verif.C06_result_length` | propext, Classical.choice, Quot.sound |
| `Verif.C07_positions` | propext, Classical.choice, Quot.sound |
| `Verif.C07_real_indices` | propext, Classical.choice, Quot.sound |
| `Verif.C07_real_complete` | propext, Classical.choice, Quot.sound |
| `Verif.C07_clamped_nonempty` | propext, Classical.choice, Quot.sound |
| `Verif.C07_too_many_vertices_raises` | propext, Classical.choice, Quot.sound |
| `Verif.C07_dim_zero_raises` | none |
| `Verif.C08_choice` | propext, Classical.choice, Quot.sound |
| `Verif.C08_choice_iff` | propext, Classical.choice, Quot.sound |
| `Verif.C08_vector_choice` | propext, Classical.choice, Quot.sound |
| `Verif.C08_vector_choice_fallback` | propext, Classical.choice, Quot.sound |
| `Verif.C08_selection_positive` | propext, Classical.choice, Quot.sound |
| `Verif.C09_distribution` | propext, Classical.choice, Quot.sound |
| `Verif.C09_ratios` | propext, Classical.choice, Quot.sound |
| `Verif.C09_uniform` | propext, Classical.choice, Quot.sound |
| `Verif.C10_dim2_same_set` | propext, Classical.choice, Quot.sound |
| `Verif.C10_dim2_two_sets` | propext, Classical.choice, Quot.sound |
| `Verif.C10_points_distinct` | propext, Classical.choice, Quot.sound |
| `Verif.C10_strictly_inside` | propext, Classical.choice, Quot.sound |
| `Verif.C10_dim1` | propext, Classical.choice, Quot.sound |
| `Verif.C10_other_dims_raise` | propext, Classical.choice, Quot.sound |
| `Verif.C11_coalesce` | none |
| `Verif.C11_coalesce_dict_lookup` | propext, Quot.sound |
| `Verif.C11_coalesce_dict_keys` | propext, Classical.choice, Quot.sound |
| `Verif.C11_coalesce_dict_none` | none |
| `Verif.C11_equal_dicts_decides` | propext, Classical.choice, Quot.sound |
| `Verif.C11_equal_dicts_symmetric` | propext, Classical.choice, Quot.sound |
| `Verif.C11_equal_dicts_complete` | propext, Classical.choice, Quot.sound |
| `Verif.C11_equal_dicts_size` | propext, Classical.choice, Quot.sound |
| `Verif.C11_equal_dicts_keyerror` | propext, Classical.choice, Quot.sound |
| `Verif.C11_equal_dicts_typeerror` | propext, Classical.choice, Quot.sound |
| `Verif.C11_equal_dicts_not_total` | propext, Classical.choice, Quot.sound |
| `Verif.C12_exact` | propext, Classical.choice, Quot.sound |
| `Verif.C12_count` | propext, Classical.choice, Quot.sound |
| `Verif.C12_nodup` | propext, Quot.sound |
| `Verif.C12_empty_list` | propext, Classical.choice, Quot.sound |
| `Verif.C12_raw` | propext |
| `Verif.C13_atoms` | propext, Classical.choice, Quot.sound |
| `Verif.C13_partition` | propext, Classical.choice, Quot.sound |
| `Verif.C13_atoms_binary` | propext, Classical.choice, Quot.sound |
| `Verif.C13_defined` | propext, Classical.choice, Quot.sound |
| `Verif.C13_scores` | propext, Classical.choice, Quot.sound |
| `Verif.C13_gacc` | propext, Classical.choice, Quot.sound |
| `Verif.C13_mcc_partial` | propext, Classical.choice, Quot.sound |
| `Verif.C13_mcc_none_overflow` | propext, Classical.choice, Quot.sound |
| `Verif.C13_mcc_range_overflow` | propext, Classical.choice, Quot.sound |
| `Verif.C13_uc_none` | propext, Classical.choice, Quot.sound |
| `Verif.C13_uc_range` | propext, Classical.choice, Quot.sound |
| `Verif.C13_uc_denominator` | propext, Classical.choice, Quot.sound |
| `Verif.C14_length` | propext, Classical.choice, Quot.sound |
| `Verif.C14_label` | propext, Classical.choice, Quot.sound |
| `Verif.C14_strict` | propext, Classical.choice, Quot.sound |
| `Verif.C15_remove_both` | propext, Classical.choice, Quot.sound |
| `Verif.C15_remove_majority` | propext, Classical.choice, Quot.sound |
| `Verif.C15_keeps_minority` | propext, Classical.choice, Quot.sound |
| `Verif.C15_links_are_mutual_nearest` | propext, Classical.choice, Quot.sound |
| `Verif.C15_single` | propext |
| `Verif.C16_enn` | propext, Classical.choice, Quot.sound |
| `Verif.C16_enn_protects` | propext, Classical.choice, Quot.sound |
| `Verif.C16_enn_small` | propext |
| `Verif.C16_ncr` | propext, Classical.choice, Quot.sound |
| `Verif.C16_ncr_keeps_minority` | propext, Classical.choice, Quot.sound |
| `Verif.C16_ncr_small` | propext, Quot.sound |
| `Verif.C17_cnn` | propext, Classical.choice, Quot.sound |
| `Verif.C17_cnn_items` | propext, Classical.choice, Quot.sound |
| `Verif.C17_one_sided_selection_drops_minority` | propext, Classical.choice, Quot.sound |
| `Verif.C17_one_sided_selection_raises` | propext, Classical.choice, Quot.sound |
| `Verif.C17_cnn_tomek` | propext, Classical.choice, Quot.sound |
| `Verif.C17_cnn_tomek_drops_minority` | propext, Classical.choice, Quot.sound |
| `Verif.C17_cnn_drops_third_class` | propext, Classical.choice, Quot.sound |
| `Verif.C18_balanced` | propext, Classical.choice, Quot.sound |
| `Verif.C18_equal_sizes` | propext, Classical.choice, Quot.sound |
| `Verif.C18_rejects` | propext, Classical.choice, Quot.sound |
| `Verif.C19_extends_input` | propext, Classical.choice, Quot.sound |
| `Verif.C19_successive_balances` | propext, Classical.choice, Quot.sound |
| `Verif.C19_equalize_size` | propext, Classical.choice, Quot.sound |
| `Verif.C19_equalize_overshoots` | propext, Classical.choice, Quot.sound |
| `Verif.C19_tied_largest_raises` | propext, Classical.choice, Quot.sound |
| `Verif.C19_single_class_raises` | propext, Classical.choice, Quot.sound |
| `Verif.C19_smote_meets_contract` | propext, Classical.choice, Quot.sound |
| `Verif.C20_result_slots` | propext, Classical.choice, Quot.sound |
| `Verif.C20_started_at_most_once` | propext, Classical.choice, Quot.sound |
| `Verif.C20_mutual_exclusion` | propext, Classical.choice, Quot.sound |
| `Verif.C20_bounded_executions` | propext, Classical.choice, Quot.sound |
| `Verif.C20_no_deadlock` | propext, Classical.choice, Quot.sound |
| `Verif.C20_large_result_hangs` | propext, Classical.choice, Quot.sound |
| `Verif.C20_start_failure_hangs` | propext, Classical.choice, Quot.sound |
| `Verif.C20_ready_result_overwritten` | propext |
| `Verif.C20_no_threads` | propext, Quot.sound |
| `Verif.C20_apply` | propext, Classical.choice, Quot.sound |
| `Verif.C21_torn_json` | propext, Classical.choice, Quot.sound |
| `Verif.C21_complete_json` | propext, Classical.choice, Quot.sound |
| `Verif.C21_unserialisable` | propext |
| `Verif.C21_torn_pickle` | propext, Quot.sound |
| `Verif.C22_json_round_trip` | propext, Classical.choice, Quot.sound |
| `Verif.C22_json_mutates_argument` | propext, Classical.choice, Quot.sound |
| `Verif.C22_json_second_dump_fails` | propext, Classical.choice, Quot.sound |
| `Verif.C22_pickle_round_trip` | propext |
| `Verif.C22_unknown_serialization` | propext, Quot.sound |
| `Verif.C22_extension` | propext, Quot.sound |
| `Verif.C22_no_extension` | propext, Quot.sound |
| `Verif.C22_surrogates_merge` | propext |
| `Verif.C23_descriptors` | propext, Classical.choice, Quot.sound |
| `Verif.C23_list_shares_descriptor` | propext, Classical.choice, Quot.sound |
| `Verif.C23_list_descriptors_not_distinct` | propext, Classical.choice, Quot.sound |
| `Verif.C23_cache_complete` | propext, Classical.choice, Quot.sound |
| `Verif.C23_files_sorted` | propext, Classical.choice, Quot.sound |
| `Verif.C23_file_names_distinct` | propext, Classical.choice, Quot.sound |
| `Verif.C23_incomplete_after_crash` | propext, Classical.choice, Quot.sound |
| `Verif.C23_stale_files_returned` | propext, Classical.choice, Quot.sound |
| `Verif.C23_label_stats_binary` | propext, Classical.choice, Quot.sound |
| `Verif.C23_label_stats_wrong` | propext |
| `Verif.C23_label_stats_index_error` | propext |
| `Verif.C24_same_fields` | propext, Classical.choice, Quot.sound |
| `Verif.C24_success` | propext, Classical.choice, Quot.sound |
| `Verif.C24_failure` | propext, Classical.choice, Quot.sound |
| `Verif.C24_timeout` | propext, Classical.choice, Quot.sound |
| `Verif.C24_scaler` | propext, Classical.choice, Quot.sound |
| `Verif.C24_other_exceptions` | propext, Quot.sound |
| `Verif.C24_test_set_unscaled_on_success` | propext, Classical.choice, Quot.sound |
| `Verif.C24_test_set_scaled_on_failure` | propext, Classical.choice, Quot.sound |
| `Verif.C24_timeout_records_other_parameters` | propext, Classical.choice, Quot.sound |
| `Verif.C25_miss_computes` | propext |
| `Verif.C25_hit_returns_stored` | propext, Quot.sound |
| `Verif.C25_key_inputs` | none |
| `Verif.C25_key_determines` | propext |
| `Verif.C25_scaler_not_in_key` | propext, Classical.choice, Quot.sound |
| `Verif.C25_timeout_sticks` | propext, Quot.sound |
| `Verif.C26_one_result_each` | propext, Quot.sound |
| `Verif.C26_record_of_success` | propext, Classical.choice, Quot.sound |
| `Verif.C26_record_of_failure` | propext, Classical.choice, Quot.sound |
| `Verif.C26_record_provenance` | propext, Classical.choice, Quot.sound |
| `Verif.C26_key_determines` | propext |
| `Verif.C26_key_inputs` | none |
| `Verif.C26_hit` | propext, Quot.sound |
| `Verif.C26_miss` | propext, Quot.sound |
| `Verif.C26_all_files_present` | propext, Quot.sound |
| `Verif.C26_single_class_raises` | propext, Quot.sound |
| `Verif.C27_selected_is_maximal` | propext, Classical.choice, Quot.sound |
| `Verif.C27_raises_iff` | propext, Classical.choice, Quot.sound |
| `Verif.C27_timed_out_folds_do_not_count` | propext, Classical.choice, Quot.sound |
| `Verif.C28_all` | none |
| `Verif.C28_quickest` | propext, Classical.choice, Quot.sound |
| `Verif.C28_raises_iff` | propext, Quot.sound |
| `Verif.C28_table` | propext, Classical.choice, Quot.sound |
| `Verif.C28_queries_total` | propext, Classical.choice, Quot.sound |
| `Verif.C28_multiclass` | propext, Classical.choice, Quot.sound |
| `Verif.C28_simplex` | propext, Classical.choice, Quot.sound |
| `Verif.C28_exactly` | propext, Classical.choice, Quot.sound |
| `Verif.C29_chunked` | propext, Classical.choice, Quot.sound |
| `Verif.C29_diverges` | propext, Classical.choice, Quot.sound |
| `Verif.C29_zero_limit` | propext, Classical.choice, Quot.sound |
| `Verif.C29_entry` | propext, Classical.choice, Quot.sound |
| `Verif.C29_near_identity` | propext, Classical.choice, Quot.sound |
| `Verif.C29_near_identity_iff` | propext, Classical.choice, Quot.sound |
| `Verif.C29_near_identity_wrong` | propext, Classical.choice, Quot.sound |
| `Verif.C29_rowwise` | propext, Classical.choice, Quot.sound |
| `Verif.C29_kneighbors` | propext, Classical.choice, Quot.sound |
| `Verif.C29_root_order` | propext, Classical.choice, Quot.sound |
| `Verif.C29_radius` | propext, Classical.choice, Quot.sound |
| `Verif.C29_radius_default` | propext, Classical.choice, Quot.sound |
| `Verif.C30_only_value_error` | propext |
| `Verif.C30_greater_or_equal` | propext |
| `Verif.C30_greater` | propext, Classical.choice, Quot.sound |
| `Verif.C30_less_or_equal` | propext |
| `Verif.C30_less` | propext, Classical.choice, Quot.sound |
| `Verif.C30_equal` | propext |
| `Verif.C30_in_range` | propext, Classical.choice, Quot.sound |
| `Verif.C30_out_range` | propext |
| `Verif.C30_in_range_ext` | propext |
| `Verif.C30_isin` | propext |
| `Verif.C30_n_jobs` | propext, Quot.sound |
| `Verif.C30_nan_accepted` | propext |
| `Verif.C30_numeric_text` | propext, Classical.choice, Quot.sound |
| `Verif.C31_random_smote` | propext, Classical.choice, Quot.sound |
| `Verif.C31_random_smote_total` | propext, Classical.choice, Quot.sound |
| `Verif.C31_msmote` | propext, Classical.choice, Quot.sound |
| `Verif.C31_safe_level` | propext, Classical.choice, Quot.sound |
| `Verif.C31_safe_level_copies_majority` | propext, Classical.choice, Quot.sound |
| `Verif.C31_componentwise_is_segment` | propext, Classical.choice, Quot.sound |
| `Verif.C31_masked` | propext, Classical.choice, Quot.sound |
| `Verif.C31_safe_level_pairs` | propext, Classical.choice, Quot.sound |
| `Verif.C31_msmote_total` | propext, Classical.choice, Quot.sound |
| `Verif.C31_safe_level_total` | propext, Classical.choice, Quot.sound |
| `Verif.C32_terminates` | propext, Classical.choice, Quot.sound |
| `Verif.C32_result` | propext, Classical.choice, Quot.sound |
| `Verif.C32_level_not_guaranteed` | propext, Classical.choice, Quot.sound |
| `Verif.C33_assertion_holds` | propext, Classical.choice, Quot.sound |
| `Verif.C33_distances_shortest` | propext, Classical.choice, Quot.sound |
| `Verif.C33_parent_walk_ends` | propext, Classical.choice, Quot.sound |
| `Verif.C33_dbscan_never_raises` | propext, Classical.choice, Quot.sound |
| `Verif.C33_samples_between` | propext, Classical.choice, Quot.sound |
| `Verif.C33_total` | propext, Classical.choice, Quot.sound |
| `Verif.C34_levels_partition` | propext, Classical.choice, Quot.sound |
| `Verif.C34_level_content` | propext, Classical.choice, Quot.sound |
| `Verif.C34_samples_within_level` | propext, Classical.choice, Quot.sound |
| `Verif.C34_total` | propext, Classical.choice, Quot.sound |
| `Verif.C35_cbso` | propext, Classical.choice, Quot.sound |
| `Verif.C35_cbso_labels` | propext, Classical.choice, Quot.sound |
| `Verif.C35_assembled` | propext, Classical.choice, Quot.sound |
| `Verif.C35_asuwo` | propext, Classical.choice, Quot.sound |
| `Verif.C35_asuwo_majority` | propext, Classical.choice, Quot.sound |
| `Verif.C36_pair` | propext, Classical.choice, Quot.sound |
| `Verif.C36_sample` | propext, Classical.choice, Quot.sound |
| `Verif.C37_radius_pos` | propext, Classical.choice, Quot.sound |
| `Verif.C37_energy_budget_broken` | propext, Classical.choice, Quot.sound |
| `Verif.C37_budget` | propext, Classical.choice, Quot.sound |
| `Verif.C37_l1_two_dim` | propext, Classical.choice, Quot.sound |
| `Verif.C37_l1_three_dim_fails` | propext, Classical.choice, Quot.sound |
| `Verif.C37_sample` | propext, Classical.choice, Quot.sound |
| `Verif.C38_spy` | propext, Classical.choice, Quot.sound |
| `Verif.C38_stefanowski` | propext, Classical.choice, Quot.sound |
| `Verif.C38_strong_amp_raises` | propext, Classical.choice, Quot.sound |
| `Verif.C38_smote_enn` | propext, Classical.choice, Quot.sound |
| `Verif.C38_smote_tomek` | propext, Classical.choice, Quot.sound |
| `Verif.C38_smote_enn_total` | propext, Classical.choice, Quot.sound |
| `Verif.C38_smote_tomek_total` | propext, Classical.choice, Quot.sound |
| `Verif.C38_tomek_may_lose_the_minority` | propext, Classical.choice, Quot.sound |
| `Verif.C38_gazzah` | propext, Classical.choice, Quot.sound |
| `Verif.C38_gazzah_drops_the_minority` | propext, Classical.choice, Quot.sound |
| `Verif.C39_roundtrip` | propext, Classical.choice, Quot.sound |
| `Verif.C39_lost` | propext, Classical.choice, Quot.sound |
| `Verif.C39_mlp_copy` | propext, Classical.choice, Quot.sound |
| `Verif.C39_mlp_copy_iff` | propext, Classical.choice, Quot.sound |
| `Verif.C39_hidden_layer` | propext, Classical.choice, Quot.sound |
| `Verif.C39_seed_roundtrip` | propext, Quot.sound |
| `Verif.C39_seed_accepted` | propext, Classical.choice, Quot.sound |
| `Verif.C39_set_params_seed` | propext |
| `Verif.C39_osclf` | propext |
| `Verif.C39_osclf_classes` | propext, Quot.sound |
| `Verif.C39_osclf_set_params` | propext |
| `Verif.C39_osclf_dimension` | propext, Quot.sound |
| `Verif.C39_pick` | propext, Quot.sound |
| `Verif.C40_choice` | propext, Classical.choice, Quot.sound |
| `Verif.C40_best_is_not_kept` | propext, Classical.choice, Quot.sound |
| `Verif.C40_nan` | propext |
| `Verif.C40_osmote` | propext, Classical.choice, Quot.sound |
| `Verif.C40_step` | propext, Classical.choice, Quot.sound |
| `Verif.C40_no_positive_score_raises` | propext, Classical.choice, Quot.sound |
| `Verif.C40_sis` | propext, Classical.choice, Quot.sound |
| `Verif.C40_reversed` | propext, Classical.choice, Quot.sound |
| `Verif.C40_output` | propext, Classical.choice, Quot.sound |
| `Verif.C40_majority_point_relabelled` | propext, Classical.choice, Quot.sound |
| `Verif.C41_grids_accepted` | propext, Classical.choice, Quot.sound |
| `Verif.C41_defaults_accepted` | propext, Classical.choice, Quot.sound |
| `Verif.C41_typos_unnoticed` | propext, Classical.choice, Quot.sound |
| `Verif.C41_checks_bite` | propext, Classical.choice, Quot.sound |
| `Verif.C41_unchecked_proportion` | propext, Classical.choice, Quot.sound |
| `Verif.C42_farthest_keeps_closest` | propext, Classical.choice, Quot.sound |
| `Verif.C42_random_removes_farthest` | propext, Classical.choice, Quot.sound |
| `Verif.C42_random_equidistant_raises` | propext, Classical.choice, Quot.sound |
| `Verif.C42_unknown_mode_keeps_all` | propext, Classical.choice, Quot.sound |
| `Verif.C42_nothing_generated_raises` | propext, Classical.choice, Quot.sound |
| `Verif.C43_entries` | propext, Classical.choice, Quot.sound |
| `Verif.C43_key_error` | propext, Classical.choice, Quot.sound |
| `Verif.C44_lengths` | propext, Classical.choice, Quot.sound |
| `Verif.C44_aligned_iff` | propext, Classical.choice, Quot.sound |
| `Verif.C44_misaligned` | propext, Quot.sound |
| `Verif.C44_wrong_labels` | propext, Quot.sound |
| `Verif.C45_star` | propext, Classical.choice, Quot.sound |
| `Verif.C45_bus` | propext, Classical.choice, Quot.sound |
| `Verif.C45_poly` | propext, Classical.choice, Quot.sound |
| `Verif.C45_poly_parameters` | propext, Classical.choice, Quot.sound |
| `Verif.C45_mesh` | propext, Classical.choice, Quot.sound |
| `Verif.C45_mesh_total` | propext, Classical.choice, Quot.sound |
| `Verif.C46_smote_noise` | propext, Classical.choice, Quot.sound |
| `Verif.C47_adasyn` | propext, Classical.choice, Quot.sound |
| `Verif.C47_adasyn_total` | propext, Classical.choice, Quot.sound |
| `Verif.C48_borderline1` | propext, Classical.choice, Quot.sound |
| `Verif.C48_borderline1_rows` | propext, Classical.choice, Quot.sound |
| `Verif.C48_borderline1_copies` | propext, Classical.choice, Quot.sound |
| `Verif.C48_borderline2` | propext, Classical.choice, Quot.sound |
| `Verif.C48_total` | propext, Classical.choice, Quot.sound |
| `Verif.C49_brier` | propext, Classical.choice, Quot.sound |
| `Verif.C49_top20` | propext, Classical.choice, Quot.sound |
| `Verif.C49_top20_unsorted` | propext, Classical.choice, Quot.sound |
| `Verif.C50_density_uniform` | propext, Classical.choice, Quot.sound |
| `Verif.C50_sdsmote_is_smote` | propext, Classical.choice, Quot.sound |
| `Verif.C51_kappa` | propext, Classical.choice, Quot.sound |
| `Verif.C51_and_smote` | propext, Classical.choice, Quot.sound |
| `Verif.C51_total` | propext, Classical.choice, Quot.sound |
| `Verif.C52_ismote` | propext, Classical.choice, Quot.sound |
| `Verif.C52_balanced` | propext, Classical.choice, Quot.sound |
| `Verif.C52_copies` | propext, Classical.choice, Quot.sound |
| `Verif.C52_unchanged` | propext, Classical.choice, Quot.sound |
| `Verif.C52_total` | propext, Classical.choice, Quot.sound |
| `Verif.C52_weight_above_one` | propext, Classical.choice, Quot.sound |
| `Verif.C53_ans` | propext, Classical.choice, Quot.sound |
| `Verif.C53_total` | propext, Classical.choice, Quot.sound |
| `Verif.C53_does_nothing` | propext, Classical.choice, Quot.sound |
| `Verif.C54_distance` | propext, Classical.choice, Quot.sound |
| `Verif.C54_segment` | propext, Classical.choice, Quot.sound |
| `Verif.C54_hull` | propext, Classical.choice, Quot.sound |
| `Verif.C54_total` | propext, Classical.choice, Quot.sound |
| `Verif.C55_gaussian` | propext, Classical.choice, Quot.sound |
| `Verif.C55_total` | propext, Classical.choice, Quot.sound |
| `Verif.C55_constant_feature_moves` | propext, Classical.choice, Quot.sound |
| `Verif.C56_nt` | propext, Classical.choice, Quot.sound |
| `Verif.C56_nt_raises_iff` | propext, Classical.choice, Quot.sound |
| `Verif.C56_nt_default` | propext, Classical.choice, Quot.sound |
| `Verif.C56_rwo` | propext, Classical.choice, Quot.sound |
| `Verif.C56_rwo_rows` | propext, Classical.choice, Quot.sound |
| `Verif.C56_rwo_constant` | propext, Classical.choice, Quot.sound |
| `Verif.C56_rwo_raises_iff` | propext, Classical.choice, Quot.sound |
| `Verif.C57_kmeans` | propext, Classical.choice, Quot.sound |
| `Verif.C57_kmeans_hull` | propext, Classical.choice, Quot.sound |
| `Verif.C57_kmeans_total` | propext, Classical.choice, Quot.sound |
| `Verif.C57_cluster` | propext, Classical.choice, Quot.sound |
| `Verif.C57_cluster_one_neighbour` | propext, Classical.choice, Quot.sound |
| `Verif.C57_cluster_total` | propext, Classical.choice, Quot.sound |
| `Verif.C58_mwmote` | propext, Classical.choice, Quot.sound |
| `Verif.C58_total` | propext, Classical.choice, Quot.sound |
| `Verif.C58_zero_parameter` | propext, Classical.choice, Quot.sound |
| `Verif.C59_ce_matching` | propext, Classical.choice, Quot.sound |
| `Verif.C59_ce` | propext, Classical.choice, Quot.sound |
| `Verif.C59_ce_single` | propext, Classical.choice, Quot.sound |
| `Verif.C59_ce_total` | propext, Classical.choice, Quot.sound |
| `Verif.C59_nras` | propext, Classical.choice, Quot.sound |
| `Verif.C59_nras_total` | propext, Classical.choice, Quot.sound |
| `Verif.C59_ce_names` | propext, Classical.choice, Quot.sound |
| `Verif.C59_nras_noise_vertex` | propext, Classical.choice, Quot.sound |
| `Verif.C60_clustering` | propext, Classical.choice, Quot.sound |
| `Verif.C60_cure` | propext, Classical.choice, Quot.sound |
| `Verif.C60_even` | propext, Classical.choice, Quot.sound |
| `Verif.C60_total` | propext, Classical.choice, Quot.sound |
| `Verif.C60_count` | propext, Quot.sound |
| `Verif.C61_mct` | propext, Classical.choice, Quot.sound |
| `Verif.C61_mct_closer` | propext, Classical.choice, Quot.sound |
| `Verif.C61_mct_clones` | propext, Classical.choice, Quot.sound |
| `Verif.C61_mct_total` | propext, Classical.choice, Quot.sound |
| `Verif.C61_edge` | propext, Classical.choice, Quot.sound |
| `Verif.C61_edge_total` | propext, Classical.choice, Quot.sound |
| `Verif.C61_adasyn` | propext, Classical.choice, Quot.sound |
| `Verif.C62_sn` | propext, Classical.choice, Quot.sound |
| `Verif.C62_sn_same` | propext, Classical.choice, Quot.sound |
| `Verif.C62_sn_one` | propext, Classical.choice, Quot.sound |
| `Verif.C62_sn_total` | propext, Classical.choice, Quot.sound |
| `Verif.C62_smmo` | propext, Classical.choice, Quot.sound |
| `Verif.C62_smmo_total` | propext, Classical.choice, Quot.sound |
| `Verif.C62_smmo_selects` | propext, Classical.choice, Quot.sound |
| `Verif.C62_smmo_other` | propext, Classical.choice, Quot.sound |
| `Verif.C62_smmo_nothing` | propext, Classical.choice, Quot.sound |
| `Verif.C63_supervised` | propext, Classical.choice, Quot.sound |
| `Verif.C63_supervised_total` | propext, Classical.choice, Quot.sound |
| `Verif.C63_supervised_first` | propext, Classical.choice, Quot.sound |
| `Verif.C63_nrs` | propext, Classical.choice, Quot.sound |
| `Verif.C63_nrs_total` | propext, Classical.choice, Quot.sound |
| `Verif.C63_nrs_raises` | propext, Classical.choice, Quot.sound |
| `Verif.C63_nrs_fewer` | propext, Classical.choice, Quot.sound |
| `Verif.C64_split` | propext, Classical.choice, Quot.sound |
| `Verif.C64_trimming` | propext, Classical.choice, Quot.sound |
| `Verif.C64_rows` | propext, Classical.choice, Quot.sound |
| `Verif.C64_trim` | propext, Classical.choice, Quot.sound |
| `Verif.C64_trim_total` | propext, Classical.choice, Quot.sound |
| `Verif.C64_isolated` | propext, Classical.choice, Quot.sound |
| `Verif.C65_vis` | propext, Classical.choice, Quot.sound |
| `Verif.C65_unchanged` | propext, Quot.sound |
| `Verif.C65_label_lost` | propext, Classical.choice, Quot.sound |
| `Verif.C66_weights` | propext, Classical.choice, Quot.sound |
| `Verif.C66_oups` | propext, Classical.choice, Quot.sound |
| `Verif.C66_segment` | propext, Classical.choice, Quot.sound |
| `Verif.C66_wraps` | propext, Classical.choice, Quot.sound |
| `Verif.C67_somo` | propext, Classical.choice, Quot.sound |
| `Verif.C67_example` | propext, Classical.choice, Quot.sound |
| `Verif.C68_gsmote` | propext, Classical.choice, Quot.sound |
| `Verif.C68_linear` | propext, Classical.choice, Quot.sound |
| `Verif.C68_wrong_direction` | propext, Classical.choice, Quot.sound |
| `Verif.C69_lle` | propext, Classical.choice, Quot.sound |
| `Verif.C69_default` | propext, Classical.choice, Quot.sound |
| `Verif.C69_outside` | propext, Classical.choice, Quot.sound |
| `Verif.C70_out` | propext, Classical.choice, Quot.sound |
| `Verif.C70_overshoot` | propext, Classical.choice, Quot.sound |
| `Verif.C70_cosine` | propext, Classical.choice, Quot.sound |
| `Verif.C70_cosine_all` | propext, Classical.choice, Quot.sound |
| `Verif.C70_outside` | propext, Classical.choice, Quot.sound |
| `Verif.C71_selected` | propext, Classical.choice, Quot.sound |
| `Verif.C71_share` | propext, Classical.choice, Quot.sound |
| `Verif.C71_rose` | propext, Classical.choice, Quot.sound |
| `Verif.C71_rose_constant` | propext, Classical.choice, Quot.sound |
| `Verif.C71_zero` | propext, Classical.choice, Quot.sound |
| `Verif.C72_lvq` | propext, Classical.choice, Quot.sound |
| `Verif.C72_outside` | propext, Classical.choice, Quot.sound |
| `Verif.C73_choice` | propext, Classical.choice, Quot.sound |
| `Verif.C73_labels` | propext, Classical.choice, Quot.sound |
| `Verif.C74_smobd` | propext, Classical.choice, Quot.sound |
| `Verif.C74_threshold` | propext, Classical.choice, Quot.sound |
| `Verif.C75_adoms` | propext, Classical.choice, Quot.sound |
| `Verif.C75_distance` | propext, Classical.choice, Quot.sound |
| `Verif.C75_one` | propext, Classical.choice, Quot.sound |
| `Verif.C75_outside` | propext, Classical.choice, Quot.sound |
| `Verif.C76_asmobd` | propext, Classical.choice, Quot.sound |
| `Verif.C76_raises` | propext, Classical.choice, Quot.sound |
| `Verif.C76_sigmoid` | propext, Classical.choice, Quot.sound |
| `Verif.C77_ln` | propext, Classical.choice, Quot.sound |
| `Verif.C77_between` | propext, Classical.choice, Quot.sound |
| `Verif.C77_one` | propext, Classical.choice, Quot.sound |
| `Verif.C78_msyn` | propext, Classical.choice, Quot.sound |
| `Verif.C78_score` | propext, Classical.choice, Quot.sound |
| `Verif.C79_min` | propext, Classical.choice, Quot.sound |
| `Verif.C79_maj` | propext, Classical.choice, Quot.sound |
| `Verif.C79_minmaj` | propext, Classical.choice, Quot.sound |
| `Verif.C79_hull` | propext, Classical.choice, Quot.sound |
| `Verif.C79_outgrows` | propext, Classical.choice, Quot.sound |
| `Verif.C79_recursion` | propext, Classical.choice, Quot.sound |
| `Verif.C80_sundo` | propext, Classical.choice, Quot.sound |
| `Verif.C80_none` | propext, Classical.choice, Quot.sound |
| `Verif.C80_count` | propext, Quot.sound |
| `Verif.C80_both` | propext, Quot.sound |
| `Verif.C80_reversed` | propext, Classical.choice, Quot.sound |
| `Verif.C81_ndo` | propext, Classical.choice, Quot.sound |
| `Verif.C81_one_more` | propext, Classical.choice, Quot.sound |
| `Verif.C81_default_k` | propext, Classical.choice, Quot.sound |
| `Verif.C82_mot` | propext, Classical.choice, Quot.sound |
| `Verif.C82_minority_first` | propext, Classical.choice, Quot.sound |
| `Verif.C82_wrong_rows` | propext, Classical.choice, Quot.sound |
| `Verif.C83_dsmote` | propext, Classical.choice, Quot.sound |
| `Verif.C83_too_few` | propext, Classical.choice, Quot.sound |
| `Verif.C83_none` | propext, Classical.choice, Quot.sound |
| `Verif.C83_gap` | propext, Classical.choice, Quot.sound |
| `Verif.C83_relabelled` | propext, Classical.choice, Quot.sound |
| `Verif.C84_isomap` | propext, Classical.choice, Quot.sound |
| `Verif.C84_too_few` | propext, Classical.choice, Quot.sound |
| `Verif.C84_labels` | propext, Classical.choice, Quot.sound |
| `Verif.C84_tie` | propext, Classical.choice, Quot.sound |
| `Verif.C84_minority_removed` | propext, Classical.choice, Quot.sound |
| `Verif.C85_svm` | propext, Classical.choice, Quot.sound |
| `Verif.C85_faithful` | propext, Classical.choice, Quot.sound |
| `Verif.C85_changed` | propext, Classical.choice, Quot.sound |
| `Verif.C85_nosmote` | propext, Classical.choice, Quot.sound |
| `Verif.C86_rsb` | propext, Classical.choice, Quot.sound |
| `Verif.C86_level` | propext, Classical.choice, Quot.sound |
| `Verif.C86_none` | propext, Classical.choice, Quot.sound |
| `Verif.C86_short` | propext, Classical.choice, Quot.sound |
| `Verif.C87_ipf` | propext, Classical.choice, Quot.sound |
| `Verif.C87_labels` | propext, Classical.choice, Quot.sound |
| `Verif.C87_consensus` | propext, Classical.choice, Quot.sound |
| `Verif.C87_few` | propext, Classical.choice, Quot.sound |
| `Verif.C87_votes` | propext, Classical.choice, Quot.sound |
| `Verif.C87_zero` | propext, Classical.choice, Quot.sound |
| `Verif.C87_hangs` | propext, Classical.choice, Quot.sound |
| `Verif.C88_ellipsoid` | propext, Classical.choice, Quot.sound |
| `Verif.C88_mdo` | propext, Classical.choice, Quot.sound |
| `Verif.C88_unselected` | propext, Classical.choice, Quot.sound |
| `Verif.C88_isolated` | propext, Classical.choice, Quot.sound |
| `Verif.C88_single` | propext, Classical.choice, Quot.sound |
| `Verif.C88_outside` | propext, Classical.choice, Quot.sound |
| `Verif.C89_kernel_adasyn` | propext, Classical.choice, Quot.sound |
| `Verif.C89_one_column` | propext, Classical.choice, Quot.sound |
| `Verif.C89_rows` | propext, Classical.choice, Quot.sound |
| `Verif.C89_too_few_rows` | propext, Classical.choice, Quot.sound |
| `Verif.C89_projected` | propext, Classical.choice, Quot.sound |
| `Verif.C90_symprod` | propext, Classical.choice, Quot.sound |
| `Verif.C90_few` | propext, Classical.choice, Quot.sound |
| `Verif.C90_between` | propext, Classical.choice, Quot.sound |
| `Verif.C90_nan` | propext, Classical.choice, Quot.sound |
| `Verif.C90_majority_lost` | propext, Classical.choice, Quot.sound |
| `Verif.C91_sso` | propext, Classical.choice, Quot.sound |
| `Verif.C91_box` | propext, Classical.choice, Quot.sound |
| `Verif.C91_count` | propext, Classical.choice, Quot.sound |
| `Verif.C91_unrequested` | propext, Classical.choice, Quot.sound |
| `Verif.C91_one_centre` | propext, Classical.choice, Quot.sound |
| `Verif.C91_balanced` | propext, Classical.choice, Quot.sound |
| `Verif.C92_pdfos` | propext, Classical.choice, Quot.sound |
| `Verif.C92_one_column` | propext, Classical.choice, Quot.sound |
| `Verif.C92_moved` | propext, Classical.choice, Quot.sound |
| `Verif.C92_compact` | propext, Classical.choice, Quot.sound |
| `Verif.C92_label_one` | propext, Classical.choice, Quot.sound |
| `Verif.C93_neater` | propext, Classical.choice, Quot.sound |
| `Verif.C93_exchanged` | propext, Classical.choice, Quot.sound |
| `Verif.C93_foreign` | propext, Classical.choice, Quot.sound |
| `Verif.C93_no_rounds` | propext, Classical.choice, Quot.sound |
| `Verif.C94_frst` | propext, Classical.choice, Quot.sound |
| `Verif.C94_kept` | propext, Classical.choice, Quot.sound |
| `Verif.C94_unneeded` | propext, Classical.choice, Quot.sound |
| `Verif.C94_zero` | propext, Classical.choice, Quot.sound |
| `Verif.C94_relabelled` | propext, Classical.choice, Quot.sound |
| `Verif.C95_smotewb` | propext, Classical.choice, Quot.sound |
| `Verif.C95_noise` | propext, Classical.choice, Quot.sound |
| `Verif.C95_perfect` | propext, Classical.choice, Quot.sound |
| `Verif.C95_unneeded` | propext, Classical.choice, Quot.sound |
| `Verif.C95_fewer` | propext, Classical.choice, Quot.sound |
| `Verif.C95_error` | propext, Classical.choice, Quot.sound |
| `Verif.C96_gasmote` | propext, Classical.choice, Quot.sound |
| `Verif.C96_numbers` | propext, Classical.choice, Quot.sound |
| `Verif.C96_nothing` | propext, Classical.choice, Quot.sound |
| `Verif.C96_overshoot` | propext, Classical.choice, Quot.sound |
| `Verif.C97_box` | propext, Classical.choice, Quot.sound |
| `Verif.C97_vsynth` | propext, Classical.choice, Quot.sound |
| `Verif.C97_one_component` | propext, Classical.choice, Quot.sound |
| `Verif.C97_cell` | propext, Classical.choice, Quot.sound |
| `Verif.C97_shifted` | propext, Classical.choice, Quot.sound |
| `Verif.C97_unbounded` | propext, Classical.choice, Quot.sound |
| `Verif.C98_de` | propext, Classical.choice, Quot.sound |
| `Verif.C98_survive` | propext, Classical.choice, Quot.sound |
| `Verif.C98_rate` | propext, Classical.choice, Quot.sound |
| `Verif.C98_imbalanced` | propext, Classical.choice, Quot.sound |
| `Verif.C99_esmote` | propext, Classical.choice, Quot.sound |
| `Verif.C99_stale` | propext, Classical.choice, Quot.sound |
| `Verif.C100_amsr` | propext, Classical.choice, Quot.sound |
| `Verif.C100_between` | propext, Classical.choice, Quot.sound |
| `Verif.C100_copies` | propext, Classical.choice, Quot.sound |
| `Verif.C101_pso` | propext, Classical.choice, Quot.sound |
| `Verif.C101_balanced` | propext, Classical.choice, Quot.sound |
| `Verif.C101_within` | propext, Classical.choice, Quot.sound |
| `Verif.C101_overshoot` | propext, Classical.choice, Quot.sound |
| `Verif.C102_psobat` | propext, Classical.choice, Quot.sound |
| `Verif.C102_swarm` | propext, Classical.choice, Quot.sound |
| `Verif.C102_never_better` | propext, Classical.choice, Quot.sound |
| `Verif.C102_remembers` | propext, Quot.sound |
| `Verif.C102_worse` | propext, Classical.choice, Quot.sound |
| `Verif.C102_memory` | propext, Classical.choice, Quot.sound |
| `Verif.C102_wrong_bat` | propext, Classical.choice, Quot.sound |
| `Verif.C102_swarm_stops` | propext, Classical.choice, Quot.sound |
| `Verif.C102_bats_stop` | propext, Classical.choice, Quot.sound |
| `Verif.C102_bats_stagnate` | propext, Classical.choice, Quot.sound |
| `Verif.C102_moves` | propext, Classical.choice, Quot.sound |
| `Verif.C103_ipade` | propext, Classical.choice, Quot.sound |
| `Verif.C103_scaled` | propext, Classical.choice, Quot.sound |
| `Verif.C103_score` | propext, Classical.choice, Quot.sound |
| `Verif.C103_shrinks` | propext, Classical.choice, Quot.sound |
| `Verif.C103_scaled_witness` | propext, Classical.choice, Quot.sound |
| `Verif.C103_target` | propext, Classical.choice, Quot.sound |
| `Verif.C104_cbso` | propext, Classical.choice, Quot.sound |
| `Verif.C104_too_few` | propext, Classical.choice, Quot.sound |
| `Verif.C104_isolated` | propext, Classical.choice, Quot.sound |
| `Verif.C105_assembled` | propext, Classical.choice, Quot.sound |
| `Verif.C105_apart` | propext, Classical.choice, Quot.sound |
| `Verif.C106_suwo` | propext, Classical.choice, Quot.sound |
| `Verif.C106_copies` | propext, Classical.choice, Quot.sound |
| `Verif.C106_drops` | propext, Classical.choice, Quot.sound |
| `Verif.C107_soi` | propext, Classical.choice, Quot.sound |
| `Verif.C107_island` | propext, Classical.choice, Quot.sound |
| `Verif.C107_ends` | propext, Classical.choice, Quot.sound |
| `Verif.C107_joined` | propext, Classical.choice, Quot.sound |
| `Verif.C107_lost` | propext, Classical.choice, Quot.sound |
| `Verif.C108_deago` | propext, Classical.choice, Quot.sound |
| `Verif.C108_cone` | propext, Classical.choice, Quot.sound |
| `Verif.C108_training` | propext, Classical.choice, Quot.sound |
| `Verif.C108_untrained` | propext, Classical.choice, Quot.sound |
| `Verif.C109_adg` | propext, Classical.choice, Quot.sound |
| `Verif.C109_swapped` | propext, Classical.choice, Quot.sound |
| `Verif.C109_lost` | propext, Classical.choice, Quot.sound |
| `Verif.C109_labels` | propext, Classical.choice, Quot.sound |
| `Verif.C109_identical` | propext, Classical.choice, Quot.sound |
| `Verif.C109_matrices` | propext, Classical.choice, Quot.sound |
| `Verif.C109_within` | propext, Classical.choice, Quot.sound |
| `Verif.C109_scatter` | propext, Classical.choice, Quot.sound |
| `Verif.C109_within_not` | propext, Classical.choice, Quot.sound |
| `Verif.C109_more` | propext, Classical.choice, Quot.sound |
| `Verif.C109_projected` | propext, Classical.choice, Quot.sound |
| `Verif.C109_shares` | propext, Classical.choice, Quot.sound |
| `Verif.C110_dsrbf` | propext, Classical.choice, Quot.sound |
| `Verif.C110_labels` | propext, Classical.choice, Quot.sound |
| `Verif.C110_copies` | propext, Classical.choice, Quot.sound |
| `Verif.C110_epochs` | propext, Classical.choice, Quot.sound |
| `Verif.C110_single` | propext, Classical.choice, Quot.sound |
| `Verif.C110_small` | propext, Classical.choice, Quot.sound |
| `Verif.C111_summary` | propext, Classical.choice, Quot.sound |
| `Verif.C111_dropped` | propext, Classical.choice, Quot.sound |
| `Verif.C111_unknown` | propext, Classical.choice, Quot.sound |
| `Verif.C111_incomplete` | propext, Classical.choice, Quot.sound |
| `Verif.C111_groups` | propext |
| `Verif.C111_order` | propext, Classical.choice, Quot.sound |
| `Verif.C111_lost` | propext, Classical.choice, Quot.sound |
| `Verif.C111_repeats` | propext, Classical.choice, Quot.sound |
| `Verif.C112_rounded` | propext, Classical.choice, Quot.sound |
| `Verif.C112_labeling` | propext, Classical.choice, Quot.sound |
| `Verif.C112_flags` | propext, Classical.choice, Quot.sound |
| `Verif.C112_extensive` | propext, Classical.choice, Quot.sound |
| `Verif.C112_resampled` | propext, Classical.choice, Quot.sound |
| `Verif.C112_projection` | propext, Classical.choice, Quot.sound |
| `Verif.C112_rounding` | propext, Classical.choice, Quot.sound |
| `Verif.C112_binary` | propext, Classical.choice, Quot.sound |
| `Verif.C112_multiclass` | propext, Classical.choice, Quot.sound |
| `Verif.C112_dummy` | propext, Quot.sound |
| `Verif.C113_keeps` | propext, Classical.choice, Quot.sound |
| `Verif.C113_keeps_any` | propext, Classical.choice, Quot.sound |
| `Verif.C113_lee` | propext, Classical.choice, Quot.sound |
| `Verif.C113_multiclass` | propext, Classical.choice, Quot.sound |
| `Verif.C113_removed` | propext, Classical.choice, Quot.sound |
| `Verif.C113_not_equal` | propext, Classical.choice, Quot.sound |
| `Verif.C114_seeded` | propext, Classical.choice, Quot.sound |
| `Verif.C114_model` | propext, Classical.choice, Quot.sound |
| `Verif.C114_interleaved` | propext |
| `Verif.C114_unseeded` | propext, Classical.choice, Quot.sound |
| `Verif.C114_object` | propext |
| `Verif.C114_refused` | propext, Quot.sound |
| `Verif.C114_second_call` | propext, Classical.choice, Quot.sound |
| `Verif.C114_esmote` | propext, Classical.choice, Quot.sound |
| `Verif.C114_esmote_both` | propext, Classical.choice, Quot.sound |
| `Verif.C114_smotewb` | propext, Classical.choice, Quot.sound |
| `Verif.C114_smotewb_differ` | propext, Classical.choice, Quot.sound |
| `Verif.C114_deago` | propext, Classical.choice, Quot.sound |
| `Verif.C114_deago_object` | propext |
| `Verif.C115_fix_pd` | propext, Classical.choice, Quot.sound |
| `Verif.C115_fix_pd_keeps` | propext, Classical.choice, Quot.sound |
| `Verif.C115_separates` | propext, Classical.choice, Quot.sound |
| `Verif.C115_unknown` | propext, Classical.choice, Quot.sound |
| `Verif.C115_no_itml` | propext, Classical.choice, Quot.sound |
| `Verif.C115_mi_weighted` | propext, Classical.choice, Quot.sound |
| `Verif.C115_regression_model` | propext, Classical.choice, Quot.sound |
| `Verif.C115_regression_exact` | propext, Classical.choice, Quot.sound |
| `Verif.C115_search` | propext |
| `Verif.C115_forest` | propext, Classical.choice, Quot.sound |
| `Verif.C115_forest_query` | propext, Classical.choice, Quot.sound |
| `Verif.C115_reverse` | propext, Classical.choice, Quot.sound |
| `Verif.C115_reverse_ties` | propext, Classical.choice, Quot.sound |
| `Verif.C115_columns` | propext, Classical.choice, Quot.sound |
| `Verif.C115_one_column` | none |
| `Verif.C115_columns_chain` | propext, Classical.choice, Quot.sound |
| `Verif.C115_pairs` | propext, Classical.choice, Quot.sound |
| `Verif.C115_itml_mi_negative` | propext, Classical.choice, Quot.sound |
| `Verif.C115_mi_zero` | propext, Classical.choice, Quot.sound |
| `Verif.C115_cov_min_label` | propext, Classical.choice, Quot.sound |
| `Verif.C115_fix_pd_grows` | propext, Classical.choice, Quot.sound |
| `Verif.C115_construct` | propext, Classical.choice, Quot.sound |
| `Verif.C115_construct_exact` | propext, Classical.choice, Quot.sound |
| `Verif.C115_reverse_matrix` | propext, Classical.choice, Quot.sound |
| `Verif.C115_mean` | propext, Classical.choice, Quot.sound |
| `Verif.C115_trainers` | propext, Classical.choice, Quot.sound |
| `Verif.C115_cov_needs` | propext, Classical.choice, Quot.sound |
| `Verif.C115_kept_columns` | propext, Classical.choice, Quot.sound |
| `Verif.C116_nonneg` | propext, Classical.choice, Quot.sound |
| `Verif.C116_entry` | propext, Classical.choice, Quot.sound |
| `Verif.C116_determinant` | propext, Classical.choice, Quot.sound |
| `Verif.C116_zero_iff` | propext, Classical.choice, Quot.sound |
| `Verif.C116_repeated` | propext, Classical.choice, Quot.sound |
| `Verif.C116_too_many` | propext, Classical.choice, Quot.sound |
| `Verif.C116_translation` | propext, Classical.choice, Quot.sound |
| `Verif.C116_scaling` | propext, Classical.choice, Quot.sound |
| `Verif.C116_order` | propext, Classical.choice, Quot.sound |
| `Verif.C116_independent` | propext, Classical.choice, Quot.sound |
| `Verif.C116_smote` | propext, Classical.choice, Quot.sound |
| `Verif.C116_too_many_vertices` | propext, Classical.choice, Quot.sound |
| `Verif.C116_equal_rows` | propext, Classical.choice, Quot.sound |
| `Verif.C116_returns` | propext, Classical.choice, Quot.sound |
| `Verif.C117_smote` | propext, Classical.choice, Quot.sound |
| `Verif.C117_adoms` | propext, Classical.choice, Quot.sound |
| `Verif.C117_asmobd` | propext, Classical.choice, Quot.sound |
| `Verif.C117_adasyn` | propext, Classical.choice, Quot.sound |
| `Verif.C117_ccr` | propext, Classical.choice, Quot.sound |
| `Verif.C117_spy` | propext, Classical.choice, Quot.sound |
| `Verif.C117_kmeansSmote` | propext, Classical.choice, Quot.sound |
| `Verif.C117_clusterSmote` | propext, Classical.choice, Quot.sound |
| `Verif.C117_cureSmote` | propext, Classical.choice, Quot.sound |
| `Verif.C117_dbsmote` | propext, Classical.choice, Quot.sound |
| `Verif.C117_deago` | propext, Classical.choice, Quot.sound |
| `Verif.C117_dsmote` | propext, Classical.choice, Quot.sound |
| `Verif.C117_gsmote` | propext, Classical.choice, Quot.sound |
| `Verif.C117_randomSmote` | propext, Classical.choice, Quot.sound |
| `Verif.C117_msmote` | propext, Classical.choice, Quot.sound |
| `Verif.C117_safeLevel` | propext, Classical.choice, Quot.sound |
| `Verif.C117_noSmote` | propext, Classical.choice, Quot.sound |
| `Verif.C117_lle` | propext, Classical.choice, Quot.sound |
| `Verif.C117_lnSmote` | propext, Classical.choice, Quot.sound |
| `Verif.C117_lvq` | propext, Classical.choice, Quot.sound |
| `Verif.C117_mdo` | propext, Classical.choice, Quot.sound |
| `Verif.C117_cbso` | propext, Classical.choice, Quot.sound |
| `Verif.C117_assembled` | propext, Classical.choice, Quot.sound |
| `Verif.C117_msyn` | propext, Classical.choice, Quot.sound |
| `Verif.C117_polynom` | propext, Classical.choice, Quot.sound |
| `Verif.C117_mesh` | propext, Classical.choice, Quot.sound |
| `Verif.C117_prowsyn` | propext, Classical.choice, Quot.sound |
| `Verif.C117_sdsmote` | propext, Classical.choice, Quot.sound |
| `Verif.C117_andSmote` | propext, Classical.choice, Quot.sound |
| `Verif.C117_ans` | propext, Classical.choice, Quot.sound |
| `Verif.C117_distanceSmote` | propext, Classical.choice, Quot.sound |
| `Verif.C117_gaussianSmote` | propext, Classical.choice, Quot.sound |
| `Verif.C117_ntSmote` | propext, Classical.choice, Quot.sound |
| `Verif.C117_rwo` | propext, Classical.choice, Quot.sound |
| `Verif.C117_rsb` | propext, Classical.choice, Quot.sound |
| `Verif.C117_selected` | propext, Classical.choice, Quot.sound |
| `Verif.C117_rose` | propext, Classical.choice, Quot.sound |
| `Verif.C117_smoteD` | propext, Classical.choice, Quot.sound |
| `Verif.C117_smoteOut` | propext, Classical.choice, Quot.sound |
| `Verif.C117_smoteCosine` | propext, Classical.choice, Quot.sound |
| `Verif.C117_snSmote` | propext, Classical.choice, Quot.sound |
| `Verif.C117_somo` | propext, Classical.choice, Quot.sound |
| `Verif.C117_sundo` | propext, Classical.choice, Quot.sound |
| `Verif.C117_mct` | propext, Classical.choice, Quot.sound |
| `Verif.C117_ahc` | propext, Classical.choice, Quot.sound |
| `Verif.C117_amsr` | propext, Classical.choice, Quot.sound |
| `Verif.C117_mot` | propext, Classical.choice, Quot.sound |
| `Verif.C117_smobd` | propext, Classical.choice, Quot.sound |
| `Verif.C117_symprod` | propext, Classical.choice, Quot.sound |
| `Verif.C117_mwmote` | propext, Classical.choice, Quot.sound |
| `Verif.C117_ismote` | propext, Classical.choice, Quot.sound |
| `Verif.C117_gazzah` | propext, Classical.choice, Quot.sound |
| `Verif.C117_borderline1` | propext, Classical.choice, Quot.sound |
| `Verif.C117_borderline2` | propext, Classical.choice, Quot.sound |
| `Verif.C117_stefanowski` | propext, Classical.choice, Quot.sound |
| `Verif.C117_smoteEnn` | propext, Classical.choice, Quot.sound |
| `Verif.C117_smoteTomek` | propext, Classical.choice, Quot.sound |
| `Verif.C117_nras` | propext, Classical.choice, Quot.sound |
| `Verif.C117_supervised` | propext, Classical.choice, Quot.sound |
| `Verif.C117_borderline_ties` | propext, Classical.choice, Quot.sound |
| `Verif.C117_neater` | propext, Classical.choice, Quot.sound |
| `Verif.C117_smmo` | propext, Classical.choice, Quot.sound |
| `Verif.C118_smote` | propext, Classical.choice, Quot.sound |
| `Verif.C118_adasyn` | propext, Classical.choice, Quot.sound |
| `Verif.C118_borderline1` | propext, Classical.choice, Quot.sound |
| `Verif.C118_borderline2` | propext, Classical.choice, Quot.sound |
| `Verif.C118_nt` | propext, Classical.choice, Quot.sound |
| `Verif.C118_ismote` | propext, Classical.choice, Quot.sound |
| `Verif.C118_distance` | propext, Classical.choice, Quot.sound |
| `Verif.C118_enn` | propext, Quot.sound |
| `Verif.C118_tomek` | propext, Quot.sound |
| `Verif.C118_smoteEnn` | propext, Classical.choice, Quot.sound |
| `Verif.C118_smoteTomek` | propext, Classical.choice, Quot.sound |
| `Verif.C118_smote_euclid` | propext, Classical.choice, Quot.sound |
| `Verif.C118_borderline1_euclid` | propext, Classical.choice, Quot.sound |
| `Verif.C118_columns` | propext, Classical.choice, Quot.sound |
| `Verif.C118_noise` | propext, Classical.choice, Quot.sound |
| `Verif.C118_spy` | propext, Classical.choice, Quot.sound |
| `Verif.C118_stefanowski` | propext, Quot.sound |
| `Verif.C118_polynom` | propext, Classical.choice, Quot.sound |
| `Verif.C118_polynom_class` | propext, Classical.choice, Quot.sound |
| `Verif.C118_mesh` | propext, Classical.choice, Quot.sound |
| `Verif.C118_cluster_smote` | propext, Classical.choice, Quot.sound |
| `Verif.C118_kmeans_smote` | propext, Classical.choice, Quot.sound |
| `Verif.C118_supervised` | propext, Classical.choice, Quot.sound |
| `Verif.C118_random_smote` | propext, Classical.choice, Quot.sound |
| `Verif.C118_and_smote` | propext, Classical.choice, Quot.sound |
| `Verif.C118_random_smote_rotation` | propext, Classical.choice, Quot.sound |
| `Verif.C118_and_smote_rotation` | propext, Classical.choice, Quot.sound |
| `Verif.C119_smote` | propext, Classical.choice, Quot.sound |
| `Verif.C119_adoms` | propext, Classical.choice, Quot.sound |
| `Verif.C119_clusterSmote` | propext, Classical.choice, Quot.sound |
| `Verif.C119_gsmote` | propext, Classical.choice, Quot.sound |
| `Verif.C119_randomSmote` | propext, Classical.choice, Quot.sound |
| `Verif.C119_noSmote` | propext, Classical.choice, Quot.sound |
| `Verif.C119_lle` | propext, Classical.choice, Quot.sound |
| `Verif.C119_lvq` | propext, Classical.choice, Quot.sound |
| `Verif.C119_polynom` | propext, Classical.choice, Quot.sound |
| `Verif.C119_mesh` | propext, Classical.choice, Quot.sound |
| `Verif.C119_distanceSmote` | propext, Classical.choice, Quot.sound |
| `Verif.C119_ntSmote` | propext, Classical.choice, Quot.sound |
| `Verif.C119_rwo` | propext, Classical.choice, Quot.sound |
| `Verif.C119_smoteD` | propext, Classical.choice, Quot.sound |
| `Verif.C119_snSmote` | propext, Classical.choice, Quot.sound |
| `Verif.C119_mct` | propext, Classical.choice, Quot.sound |
| `Verif.C119_polynomClass` | propext, Classical.choice, Quot.sound |
| `Verif.C119_rose` | propext, Classical.choice, Quot.sound |
| `Verif.C119_smobd` | propext, Classical.choice, Quot.sound |
| `Verif.C119_deago` | propext, Classical.choice, Quot.sound |
| `Verif.C119_gaussian_not` | propext, Classical.choice, Quot.sound |
| `Verif.C120_smote` | propext, Classical.choice, Quot.sound |
| `Verif.C120_adg` | propext, Classical.choice, Quot.sound |
| `Verif.C120_adoms` | propext, Classical.choice, Quot.sound |
| `Verif.C120_amsr` | propext, Classical.choice, Quot.sound |
| `Verif.C120_asmobd` | propext, Classical.choice, Quot.sound |
| `Verif.C120_adasyn` | propext, Classical.choice, Quot.sound |
| `Verif.C120_borderline1` | propext, Classical.choice, Quot.sound |
| `Verif.C120_borderline2` | propext, Classical.choice, Quot.sound |
| `Verif.C120_ccr` | propext, Classical.choice, Quot.sound |
| `Verif.C120_nras` | propext, Classical.choice, Quot.sound |
| `Verif.C120_kmeansSmote` | propext, Classical.choice, Quot.sound |
| `Verif.C120_clusterSmote` | propext, Classical.choice, Quot.sound |
| `Verif.C120_cureSmote` | propext, Classical.choice, Quot.sound |
| `Verif.C120_dbsmote` | propext, Classical.choice, Quot.sound |
| `Verif.C120_de` | propext, Classical.choice, Quot.sound |
| `Verif.C120_deago` | propext, Classical.choice, Quot.sound |
| `Verif.C120_dsmote` | propext, Classical.choice, Quot.sound |
| `Verif.C120_dsrbf` | propext, Classical.choice, Quot.sound |
| `Verif.C120_es` | propext, Classical.choice, Quot.sound |
| `Verif.C120_gsmote` | propext, Classical.choice, Quot.sound |
| `Verif.C120_randomSmote` | propext, Classical.choice, Quot.sound |
| `Verif.C120_msmote` | propext, Classical.choice, Quot.sound |
| `Verif.C120_safeLevel` | propext, Classical.choice, Quot.sound |
| `Verif.C120_ka` | propext, Classical.choice, Quot.sound |
| `Verif.C120_lle` | propext, Classical.choice, Quot.sound |
| `Verif.C120_lnSmote` | propext, Classical.choice, Quot.sound |
| `Verif.C120_lvq` | propext, Classical.choice, Quot.sound |
| `Verif.C120_mdo` | propext, Classical.choice, Quot.sound |
| `Verif.C120_cbso` | propext, Classical.choice, Quot.sound |
| `Verif.C120_assembled` | propext, Classical.choice, Quot.sound |
| `Verif.C120_suwo` | propext, Classical.choice, Quot.sound |
| `Verif.C120_mot` | propext, Classical.choice, Quot.sound |
| `Verif.C120_msyn` | propext, Classical.choice, Quot.sound |
| `Verif.C120_mwmote` | propext, Classical.choice, Quot.sound |
| `Verif.C120_ndo` | propext, Classical.choice, Quot.sound |
| `Verif.C120_neater` | propext, Classical.choice, Quot.sound |
| `Verif.C120_oups` | propext, Classical.choice, Quot.sound |
| `Verif.C120_pd` | propext, Classical.choice, Quot.sound |
| `Verif.C120_polynom` | propext, Classical.choice, Quot.sound |
| `Verif.C120_mesh` | propext, Classical.choice, Quot.sound |
| `Verif.C120_prowsyn` | propext, Classical.choice, Quot.sound |
| `Verif.C120_sdsmote` | propext, Classical.choice, Quot.sound |
| `Verif.C120_andSmote` | propext, Classical.choice, Quot.sound |
| `Verif.C120_ans` | propext, Classical.choice, Quot.sound |
| `Verif.C120_distanceSmote` | propext, Classical.choice, Quot.sound |
| `Verif.C120_gaussianSmote` | propext, Classical.choice, Quot.sound |
| `Verif.C120_ntSmote` | propext, Classical.choice, Quot.sound |
| `Verif.C120_rwo` | propext, Classical.choice, Quot.sound |
| `Verif.C120_supervised` | propext, Classical.choice, Quot.sound |
| `Verif.C120_nrs` | propext, Classical.choice, Quot.sound |
| `Verif.C120_selected` | propext, Classical.choice, Quot.sound |
| `Verif.C120_rose` | propext, Classical.choice, Quot.sound |
| `Verif.C120_slGraph` | propext, Classical.choice, Quot.sound |
| `Verif.C120_smobd` | propext, Classical.choice, Quot.sound |
| `Verif.C120_smoteD` | propext, Classical.choice, Quot.sound |
| `Verif.C120_smoteOut` | propext, Classical.choice, Quot.sound |
| `Verif.C120_smoteCosine` | propext, Classical.choice, Quot.sound |
| `Verif.C120_wb` | propext, Classical.choice, Quot.sound |
| `Verif.C120_snSmote` | propext, Classical.choice, Quot.sound |
| `Verif.C120_smmo` | propext, Classical.choice, Quot.sound |
| `Verif.C120_soi` | propext, Classical.choice, Quot.sound |
| `Verif.C120_somo` | propext, Classical.choice, Quot.sound |
| `Verif.C120_sy` | propext, Classical.choice, Quot.sound |
| `Verif.C120_trimSmote` | propext, Classical.choice, Quot.sound |
| `Verif.C120_vis` | propext, Classical.choice, Quot.sound |
| `Verif.C120_vs` | propext, Classical.choice, Quot.sound |
| `Verif.C120_mct` | propext, Classical.choice, Quot.sound |
| `Verif.C120_edgeDet` | propext, Classical.choice, Quot.sound |
| `Verif.C120_noSmote` | propext, Classical.choice, Quot.sound |
| `Verif.C120_frst` | propext, Classical.choice, Quot.sound |
| `Verif.C120_pso` | propext, Classical.choice, Quot.sound |
| `Verif.C120_ceSmote` | propext, Classical.choice, Quot.sound |
| `Verif.C120_rsb` | propext, Classical.choice, Quot.sound |
| `Verif.C120_polynomClass` | propext, Classical.choice, Quot.sound |
| `Verif.C120_gazzah` | propext, Classical.choice, Quot.sound |
| `Verif.C120_lee` | propext, Classical.choice, Quot.sound |
| `Verif.C120_ipf` | propext, Classical.choice, Quot.sound |
| `Verif.C120_ismote` | propext, Classical.choice, Quot.sound |
| `Verif.C120_sundo` | propext, Classical.choice, Quot.sound |
| `Verif.C120_smoteTomek_not` | propext, Classical.choice, Quot.sound |
| `Verif.C120_smoteEnn_not` | propext, Classical.choice, Quot.sound |
| `Verif.C120_spy_not` | propext, Classical.choice, Quot.sound |
| `Verif.C120_stefanowski_not` | propext, Classical.choice, Quot.sound |
| `Verif.C120_ahc_not` | propext, Classical.choice, Quot.sound |
| `Verif.C120_sso_not` | propext, Classical.choice, Quot.sound |
| `Verif.C120_after_smote` | propext, Classical.choice, Quot.sound |
| `Verif.C120_smote_twice` | propext, Classical.choice, Quot.sound |
| `Verif.C120_smote_twice_proportion` | propext, Classical.choice, Quot.sound |
| `Verif.C120_tomek_twice_not` | propext, Classical.choice, Quot.sound |
| `Verif.C120_enn_twice_not` | propext, Classical.choice, Quot.sound |
| `Verif.C121_search` | propext, Classical.choice, Quot.sound |
| `Verif.C121_search_ties` | propext, Classical.choice, Quot.sound |
| `Verif.C121_tomek` | propext, Classical.choice, Quot.sound |
| `Verif.C121_enn` | propext, Classical.choice, Quot.sound |
| `Verif.C121_ncr` | propext, Classical.choice, Quot.sound |
| `Verif.C121_spy` | propext, Classical.choice, Quot.sound |
| `Verif.C121_spy_exact` | propext, Classical.choice, Quot.sound |
| `Verif.C121_star` | propext, Classical.choice, Quot.sound |
| `Verif.C121_bus_not` | propext, Classical.choice, Quot.sound |
| `Verif.C121_smote` | propext, Classical.choice, Quot.sound |
| `Verif.C121_smote_exact` | propext, Classical.choice, Quot.sound |
| `Verif.C121_smote_deterministic_not` | propext, Classical.choice, Quot.sound |
| `Verif.C121_cnn_not` | propext, Classical.choice, Quot.sound |
| `Verif.C121_oss_not` | propext, Classical.choice, Quot.sound |
| `Verif.C121_cnn_tomek_not` | propext, Classical.choice, Quot.sound |
| `Verif.C122_determined` | propext, Classical.choice, Quot.sound |
| `Verif.C122_genuine_names` | propext, Classical.choice, Quot.sound |
| `Verif.C122_cached` | propext, Classical.choice, Quot.sound |
| `Verif.C122_cached_returns` | propext, Classical.choice, Quot.sound |
| `Verif.C122_plain` | propext, Classical.choice, Quot.sound |
| `Verif.C122_second_run` | propext, Classical.choice, Quot.sound |
| `Verif.C122_clean_up` | propext, Classical.choice, Quot.sound |
| `Verif.C122_parallel` | propext, Classical.choice, Quot.sound |
| `Verif.C122_table` | propext, Classical.choice, Quot.sound |
| `Verif.C122_datasets` | propext, Classical.choice, Quot.sound |
| `Verif.C122_plain_last_fold` | propext, Classical.choice, Quot.sound |
| `Verif.C122_changed_data_not` | propext, Classical.choice, Quot.sound |
| `Verif.C122_parallel_hides_errors` | propext, Classical.choice, Quot.sound |
| `Verif.C122_stale_folds` | propext, Classical.choice, Quot.sound |
| `Verif.C122_missing` | propext, Classical.choice, Quot.sound |
| `Verif.C123_smote` | propext, Classical.choice, Quot.sound |
| `Verif.C123_sdsmote` | propext, Classical.choice, Quot.sound |
| `Verif.C123_lee` | propext, Classical.choice, Quot.sound |
| `Verif.C123_borderline1` | propext, Classical.choice, Quot.sound |
| `Verif.C123_adasyn` | propext, Classical.choice, Quot.sound |
| `Verif.C123_and` | propext, Classical.choice, Quot.sound |
| `Verif.C123_distance` | propext, Classical.choice, Quot.sound |
| `Verif.C123_prowsyn` | propext, Classical.choice, Quot.sound |
| `Verif.C123_smote_d` | propext, Classical.choice, Quot.sound |
| `Verif.C123_star_bus` | propext, Classical.choice, Quot.sound |
| `Verif.C123_mesh` | propext, Classical.choice, Quot.sound |
| `Verif.C123_kmeans` | propext, Classical.choice, Quot.sound |
| `Verif.C123_cluster` | propext, Classical.choice, Quot.sound |
| `Verif.C123_mwmote` | propext, Classical.choice, Quot.sound |
| `Verif.C123_cure` | propext, Classical.choice, Quot.sound |
| `Verif.C123_mct` | propext, Classical.choice, Quot.sound |
| `Verif.C123_edge` | propext, Classical.choice, Quot.sound |
| `Verif.C123_sn` | propext, Classical.choice, Quot.sound |
| `Verif.C123_supervised` | propext, Classical.choice, Quot.sound |
| `Verif.C123_trim` | propext, Classical.choice, Quot.sound |
| `Verif.C123_nrs` | propext, Classical.choice, Quot.sound |
| `Verif.C123_smmo` | propext, Classical.choice, Quot.sound |
| `Verif.C123_smote_enn` | propext, Classical.choice, Quot.sound |
| `Verif.C123_smote_tomek` | propext, Classical.choice, Quot.sound |
| `Verif.C123_somo` | propext, Classical.choice, Quot.sound |
| `Verif.C123_assembled` | propext, Classical.choice, Quot.sound |
| `Verif.C123_gsmote` | propext, Classical.choice, Quot.sound |
| `Verif.C123_equations` | propext, Classical.choice, Quot.sound |
| `Verif.C123_ranges` | propext, Classical.choice, Quot.sound |
| `Verif.C123_constants_of_ranges` | propext, Classical.choice, Quot.sound |
| `Verif.C123_constants` | propext, Classical.choice, Quot.sound |
| `Verif.C123_copies` | propext, Quot.sound |
| `Verif.C123_random_smote` | propext, Classical.choice, Quot.sound |
| `Verif.C123_random_smote_not` | propext, Classical.choice, Quot.sound |
| `Verif.C123_constants_not` | propext, Classical.choice, Quot.sound |
| `Verif.C123_poly_not` | propext, Classical.choice, Quot.sound |
| `Verif.C123_nt` | propext, Classical.choice, Quot.sound |
| `Verif.C123_ce` | propext, Classical.choice, Quot.sound |
| `Verif.C123_rsb` | propext, Classical.choice, Quot.sound |
| `Verif.C123_ans` | propext, Classical.choice, Quot.sound |
| `Verif.C123_cbso` | propext, Classical.choice, Quot.sound |
| `Verif.C123_suwo` | propext, Classical.choice, Quot.sound |
| `Verif.C123_symprod` | propext, Classical.choice, Quot.sound |
| `Verif.C123_out_negative` | propext, Classical.choice, Quot.sound |
| `Verif.C124_plain` | propext, Quot.sound |
| `Verif.C124_attributes` | propext, Classical.choice, Quot.sound |
| `Verif.C124_one_class` | propext, Classical.choice, Quot.sound |
| `Verif.C124_mot2ld` | propext, Classical.choice, Quot.sound |
| `Verif.C124_mot2ld_same` | propext, Classical.choice, Quot.sound |
| `Verif.C124_psobat` | propext, Classical.choice, Quot.sound |
| `Verif.C124_psobat_same` | propext, Classical.choice, Quot.sound |
| `Verif.C124_soi_cj` | propext, Classical.choice, Quot.sound |
| `Verif.C124_e_smote` | propext, Classical.choice, Quot.sound |
| `Verif.C124_e_smote_mask` | propext, Classical.choice, Quot.sound |
| `Verif.C124_somo` | propext, Classical.choice, Quot.sound |
| `Verif.C124_first` | propext, Classical.choice, Quot.sound |
| `Verif.C124_mot2ld_not` | propext, Classical.choice, Quot.sound |
| `Verif.C124_psobat_not` | propext, Classical.choice, Quot.sound |
| `Verif.C124_somo_left` | propext, Classical.choice, Quot.sound |
| `Verif.C124_e_smote_stale` | propext, Classical.choice, Quot.sound |
| `Verif.C125_predictions` | propext, Classical.choice, Quot.sound |
| `Verif.C125_training` | propext, Classical.choice, Quot.sound |
| `Verif.C125_labels` | propext, Classical.choice, Quot.sound |
| `Verif.C125_scores` | propext, Classical.choice, Quot.sound |
| `Verif.C125_data` | propext, Classical.choice, Quot.sound |
| `Verif.C125_transform_not` | propext, Classical.choice, Quot.sound |
| `Verif.C125_classifier_not` | propext, Classical.choice, Quot.sound |
| `Verif.C126_tomek` | propext, Classical.choice, Quot.sound |
| `Verif.C126_enn` | propext, Classical.choice, Quot.sound |
| `Verif.C126_ncr` | propext, Classical.choice, Quot.sound |
| `Verif.C126_cnn` | propext, Classical.choice, Quot.sound |
| `Verif.C126_undersampling` | propext, Classical.choice, Quot.sound |
| `Verif.C126_cnn_not` | propext, Classical.choice, Quot.sound |
| `Verif.C126_tomek_not` | propext, Classical.choice, Quot.sound |
| `Verif.C126_enn_not` | propext, Classical.choice, Quot.sound |
| `Verif.C126_ncr_not` | propext, Classical.choice, Quot.sound |
| `Verif.C127_readers` | propext, Classical.choice, Quot.sound |
| `Verif.C127_left` | propext, Classical.choice, Quot.sound |
| `Verif.C127_race` | propext, Quot.sound |
| `Verif.C127_disappears` | propext, Quot.sound |
| `Verif.C127_mixed` | propext, Classical.choice, Quot.sound |
| `Verif.C128_index` | propext, Classical.choice, Quot.sound |
| `Verif.C128_index_not` | propext |
| `Verif.C128_index_lengths` | propext |
| `Verif.C128_product` | propext, Quot.sound |
| `Verif.C128_product_complete` | propext, Quot.sound |
| `Verif.C128_shuffle` | propext, Classical.choice, Quot.sound |
| `Verif.C128_jitter` | propext, Classical.choice, Quot.sound |
| `Verif.C128_jitter_componentwise` | propext, Classical.choice, Quot.sound |
| `Verif.C128_cov` | propext, Classical.choice, Quot.sound |
| `Verif.C128_cov_single` | propext, Classical.choice, Quot.sound |
| `Verif.C128_cov_columns` | propext, Classical.choice, Quot.sound |
| `Verif.C129_smote` | propext, Classical.choice, Quot.sound |
| `Verif.C129_smote_segment` | propext, Classical.choice, Quot.sound |
| `Verif.C129_mct` | propext, Classical.choice, Quot.sound |
| `Verif.C129_edge` | propext, Classical.choice, Quot.sound |
| `Verif.C129_adasyn` | propext, Classical.choice, Quot.sound |
| `Verif.C129_borderline1` | propext, Classical.choice, Quot.sound |
| `Verif.C129_random_smote` | propext, Classical.choice, Quot.sound |
| `Verif.C130_smote` | propext, Classical.choice, Quot.sound |
| `Verif.C130_nosmote` | propext, Classical.choice, Quot.sound |
| `Verif.C130_spy` | propext, Classical.choice, Quot.sound |
| `Verif.C130_stefanowski` | propext, Classical.choice, Quot.sound |
| `Verif.C130_vis` | propext, Classical.choice, Quot.sound |
| `Verif.C130_amsr` | propext, Classical.choice, Quot.sound |
| `Verif.C130_shuffle` | propext, Classical.choice, Quot.sound |
| `Verif.C130_results_are_own` | propext, Quot.sound |
| `Verif.C130_data_are_own` | propext, Quot.sound |
| `Verif.C130_session` | propext, Classical.choice, Quot.sound |
| `Verif.C130_amsr_shared` | propext, Classical.choice, Quot.sound |
| `Verif.C130_amsr_session` | propext, Classical.choice, Quot.sound |
| `Verif.C130_shared` | propext, Quot.sound |
| `Verif.C130_loader` | propext, Quot.sound |
| `Verif.C131_last` | propext, Quot.sound |
| `Verif.C131_initial` | none |
| `Verif.C131_distances` | propext, Classical.choice, Quot.sound |
| `Verif.C131_default_limit` | propext, Classical.choice, Quot.sound |
| `Verif.C131_small_limit` | propext, Classical.choice, Quot.sound |
| `Verif.C131_copies` | propext, Classical.choice, Quot.sound |
| `Verif.C132_binary` | propext, Classical.choice, Quot.sound |
| `Verif.C132_between` | propext, Classical.choice, Quot.sound |
| `Verif.C132_random_smote` | propext, Classical.choice, Quot.sound |
| `Verif.C132_msmote` | propext, Classical.choice, Quot.sound |
| `Verif.C132_smote_close` | propext, Classical.choice, Quot.sound |
| `Verif.C132_exact` | propext, Classical.choice, Quot.sound |
| `Verif.C132_smote_box` | propext, Classical.choice, Quot.sound |
| `Verif.C132_smote_sign` | propext, Classical.choice, Quot.sound |
| `Verif.C132_constant_lost` | propext, Classical.choice, Quot.sound |
| `Verif.C132_deterministic` | propext, Classical.choice, Quot.sound |
| `Verif.C132_deterministic_exact` | propext, Classical.choice, Quot.sound |
| `Verif.C132_largest` | propext, Classical.choice, Quot.sound |
| `Verif.C132_random_smote_close` | propext, Classical.choice, Quot.sound |
| `Verif.C132_msmote_close` | propext, Classical.choice, Quot.sound |
| `Verif.C133_integers` | propext, Classical.choice, Quot.sound |
| `Verif.C133_requested` | propext, Classical.choice, Quot.sound |
| `Verif.C133_gap` | propext, Classical.choice, Quot.sound |
| `Verif.C133_one` | propext, Classical.choice, Quot.sound |
| `Verif.C133_one_more` | propext, Classical.choice, Quot.sound |
| `Verif.C133_quotient` | propext, Classical.choice, Quot.sound |
| `Verif.C133_quotient_lost` | propext, Classical.choice, Quot.sound |
| `Verif.C133_smote` | propext, Classical.choice, Quot.sound |
| `Verif.C133_smote_balance` | propext, Classical.choice, Quot.sound |
| `Verif.C133_smote_contract` | propext, Classical.choice, Quot.sound |
| `Verif.C133_multiclass` | propext, Classical.choice, Quot.sound |
| `Verif.C133_multiclass_short` | propext, Classical.choice, Quot.sound |
| `Verif.C134_choice` | propext, Classical.choice, Quot.sound |
| `Verif.C134_positive` | propext, Classical.choice, Quot.sound |
| `Verif.C134_accepts` | propext, Classical.choice, Quot.sound |
| `Verif.C134_simplices` | propext, Classical.choice, Quot.sound |
| `Verif.C134_smote` | propext, Classical.choice, Quot.sound |
| `Verif.C134_smote_rows` | propext, Classical.choice, Quot.sound |
| `Verif.C135_counts` | propext, Classical.choice, Quot.sound |
| `Verif.C135_sample` | propext, Classical.choice, Quot.sound |
| `Verif.C135_share_lost` | propext, Classical.choice, Quot.sound |
| `Verif.C135_simplices` | propext, Classical.choice, Quot.sound |
| `Verif.C135_smote` | propext, Classical.choice, Quot.sound |
| `Verif.C135_smote_rows` | propext, Classical.choice, Quot.sound |
| `Verif.C136_safe_level` | propext, Classical.choice, Quot.sound |
| `Verif.C136_safe_level_close` | propext, Classical.choice, Quot.sound |
| `Verif.C136_copy_lost` | propext, Classical.choice, Quot.sound |
| `Verif.C136_doubles` | propext, Classical.choice, Quot.sound |
| `Verif.C137_count` | propext, Classical.choice, Quot.sound |
| `Verif.C137_bus` | propext, Classical.choice, Quot.sound |
| `Verif.C137_star` | propext, Classical.choice, Quot.sound |
| `Verif.C137_constant_lost` | propext, Classical.choice, Quot.sound |
| `Verif.C137_doubles` | propext, Classical.choice, Quot.sound |
| `Verif.C138_pair` | propext, Classical.choice, Quot.sound |
| `Verif.C138_samples` | propext, Classical.choice, Quot.sound |
| `Verif.C138_tiny` | propext, Classical.choice, Quot.sound |
| `Verif.C138_hang` | propext, Classical.choice, Quot.sound |
| `Verif.C138_doubles` | propext, Classical.choice, Quot.sound |
| `Verif.C139_vis` | propext, Classical.choice, Quot.sound |
| `Verif.C139_nras` | propext, Classical.choice, Quot.sound |
| `Verif.C139_vis_lost` | propext, Classical.choice, Quot.sound |
| `Verif.C139_nras_lost` | propext, Classical.choice, Quot.sound |
| `Verif.C139_doubles` | propext, Classical.choice, Quot.sound |
| `Verif.C140_plot` | propext, Classical.choice, Quot.sound |
| `Verif.C140_again` | propext, Classical.choice, Quot.sound |
| `Verif.C140_dummy` | propext, Classical.choice, Quot.sound |
| `Verif.C140_comparison` | propext, Classical.choice, Quot.sound |
| `Verif.C140_oversampled` | propext, Classical.choice, Quot.sound |
| `Verif.C140_oversampled_wrong` | propext, Classical.choice, Quot.sound |
| `Verif.C141_score` | propext, Classical.choice, Quot.sound |
| `Verif.C141_lowest` | propext, Classical.choice, Quot.sound |
| `Verif.C141_never_better` | propext, Classical.choice, Quot.sound |
| `Verif.C141_separated` | propext, Classical.choice, Quot.sound |
| `Verif.C141_none` | propext, Classical.choice, Quot.sound |
| `Verif.C142_shapes` | propext, Classical.choice, Quot.sound |
| `Verif.C142_add` | propext, Classical.choice, Quot.sound |
| `Verif.C142_clone` | propext, Classical.choice, Quot.sound |
| `Verif.C142_forgets` | propext, Classical.choice, Quot.sound |
| `Verif.C142_connections` | propext, Classical.choice, Quot.sound |
| `Verif.C142_seed` | propext, Classical.choice, Quot.sound |
| `Verif.C142_lost` | propext, Classical.choice, Quot.sound |
| `Verif.C143_far` | propext, Classical.choice, Quot.sound |
| `Verif.C143_near` | propext, Classical.choice, Quot.sound |
| `Verif.C143_grows` | propext, Classical.choice, Quot.sound |
| `Verif.C144_evaluate` | propext, Classical.choice, Quot.sound |
| `Verif.C144_synthetic` | propext, Quot.sound |
| `Verif.C144_ratio` | propext, Classical.choice, Quot.sound |
| `Verif.C145_free` | propext, Classical.choice, Quot.sound |
| `Verif.C145_units` | propext, Classical.choice, Quot.sound |
| `Verif.C145_mean` | propext, Classical.choice, Quot.sound |
| `Verif.C146_two` | propext, Classical.choice, Quot.sound |
| `Verif.C146_largest` | propext, Classical.choice, Quot.sound |
