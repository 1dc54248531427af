{"claims": [
{"property": "C01", "status": "proved", "theorems": ["Reor.C01_simplex_projection_on_simplex", "Reor.C01_empty_vector_excluded"], "note": ""},
{"property": "C02", "status": "proved", "theorems": ["Reor.C02_simplex_projection_nearest"], "note": ""},
{"property": "C03", "status": "proved", "theorems": ["Reor.C03_simplex_projection_idempotent"], "note": ""},
{"property": "C04", "status": "proved", "theorems": ["Reor.C04_project_rows", "Reor.C04_project_columns"], "note": ""},
{"property": "C05", "status": "proved", "theorems": ["Reor.C05_projection_shift_invariant", "Reor.C05_projection_permutation_equivariant", "Reor.C05_projection_monotone", "Reor.C05_projection_nonexpansive"], "note": ""},
{"property": "C06", "status": "proved", "theorems": ["Reor.C06_step_shrinks"], "note": ""},
{"property": "C07", "status": "proved", "theorems": ["Reor.C07_interpolation", "Reor.C07_parabola_exists"], "note": ""},
{"property": "C08", "status": "proved", "theorems": ["Reor.C08_alpha_bounds"], "note": ""},
{"property": "C09", "status": "proved", "theorems": ["Reor.C09_gpnh", "Reor.C09_gpnh_fit_terminates", "Reor.C09_crom", "Reor.C09_crom_fit_terminates", "Reor.C09_kaa", "Reor.C09_kaa_fit_terminates", "Reor.C09_line_search_terminates", "Reor.C09_line_search_bound_exists", "Reor.C09_zero_memory_fails", "Reor.C09_floor_needed", "Reor.C09_line_search_terminates_slope", "Reor.C09_no_contraction_diverges", "Reor.C09_mtd", "Reor.C09_mtd_fit_terminates"], "note": ""},
{"property": "C10", "status": "partial", "theorems": ["Reor.C10_gpnh_dictionary_partial", "Reor.C10_gpnh_weights_partial", "Reor.C10_crom_parameters_partial", "Reor.C10_kaa_weights_partial", "Reor.C10_kaa_dictionary_partial", "Reor.C10_line_search_result_partial", "Reor.C10_step_range", "Reor.C10_step_le_one_iff", "Reor.C10_step_range_fails", "Reor.C10_full_step", "Reor.C10_not_full_step", "Reor.C10_mtd_dictionary_partial", "Reor.C10_mtd_weights_partial", "Reor.C10_mtd_parameters_partial"], "note": "Proved only for line search settings that keep the step in [0, 1] (Spec.SafeSteps: 0 <= sigma_one and sigma_two <= 1, or gamma <= 1/2 with 0 <= alpha_max whatever sigma_one, sigma_two), although all of them can be set by the user. C10_step_range_fails shows that 0 < lambda <= 1 is false for sigma_two > 1 with gamma > 1/2; C10_step_le_one_iff gives the exact settings."},
{"property": "C11", "status": "proved", "theorems": ["Reor.C11_furthest_sum_distinct"], "note": ""},
{"property": "C12", "status": "proved", "theorems": ["Reor.C12_furthest_sum_greedy", "Reor.C12_furthest_sum_replacement"], "note": ""},
{"property": "C13", "status": "proved", "theorems": ["Reor.C13_extra_steps_monotone"], "note": ""},
{"property": "C14", "status": "proved", "theorems": ["Reor.C14_nonsquare_rejected", "Reor.C14_zero_components", "Reor.C14_bad_arguments_rejected", "Reor.C14_negative_start_rejected"], "note": ""},
{"property": "C15", "status": "proved", "theorems": ["Reor.C15_single_component"], "note": ""},
{"property": "C16", "status": "partial", "theorems": ["Reor.C16_left_stochastic_partial", "Reor.C16_right_stochastic_partial", "Reor.C16_empty_fails", "Reor.C16_left_finite_iff", "Reor.C16_right_finite_iff"], "note": "False for matrices without rows or columns: C16_empty_fails. Proved for all others."},
{"property": "C17", "status": "partial", "theorems": ["Reor.C17_gpnh_fit_weights_stochastic_partial", "Reor.C17_gpnh_transform_weights_stochastic_partial", "Reor.C17_gpnh_weights_fail", "Reor.C17_gpnh_row_sums"], "note": "Proved only for line search settings that keep the step in [0, 1] (Spec.SafeSteps: 0 <= sigma_one and sigma_two <= 1, or gamma <= 1/2 with 0 <= alpha_max whatever sigma_one, sigma_two), although all of them can be set by the user. C17_gpnh_weights_fail shows that it is false for sigma_two > 1 with gamma > 1/2."},
{"property": "C18", "status": "proved", "theorems": ["Reor.C18_gpnh_dictionary_gradient", "Reor.C18_gpnh_dictionary_gradient_reported"], "note": ""},
{"property": "C19", "status": "proved", "theorems": ["Reor.C19_gpnh_weights_gradient"], "note": ""},
{"property": "C20", "status": "proved", "theorems": ["Reor.C20_gpnh_evaluate_cost", "Reor.C20_gpnh_cost", "Reor.C20_gpnh_monotone", "Reor.C20_gpnh_custom_never_worse"], "note": ""},
{"property": "C21", "status": "proved", "theorems": ["Reor.C21_gpnh_furthest_sum_fit_returns", "Reor.C21_gpnh_dictionary_descends", "Reor.C21_gpnh_weights_descends", "Reor.C21_gpnh_descends_with_floor", "Reor.C21_gpnh_fit_never_reports_increase", "Reor.C21_gpnh_default_fit_returns", "Reor.C21_gpnh_transform_returns"], "note": "Other line-search constants as in the quantifier of the property; they include the defaults."},
{"property": "C22", "status": "proved", "theorems": ["Reor.C22_fembv_no_warning", "Reor.C22_fembv_fit", "Reor.C22_femvarx_no_warning", "Reor.C22_gpnh_no_warning", "Reor.C22_gpnh_fit", "Reor.C22_kaa_no_warning", "Reor.C22_mtd_no_warning", "Reor.C22_mtd_fit"], "note": ""},
{"property": "C23", "status": "proved", "theorems": ["Reor.C23_gpnh_transform_keeps_dictionary", "Reor.C23_kaa_transform_keeps_dictionary", "Reor.C23_mtd_transform_keeps_model"], "note": ""},
{"property": "C24", "status": "proved", "theorems": ["Reor.C24_fembv_invalid_rejected", "Reor.C24_fembv_valid_accepted", "Reor.C24_fembv_too_few_samples", "Reor.C24_fembv_components", "Reor.C24_femvarx_invalid_rejected", "Reor.C24_gpnh_invalid_rejected", "Reor.C24_gpnh_valid_accepted", "Reor.C24_gpnh_components", "Reor.C24_valid_iff", "Reor.C24_crom_invalid_rejected", "Reor.C24_crom_valid_accepted", "Reor.C24_crom_bad_lags", "Reor.C24_crom_constructor", "Reor.C24_kaa_invalid_rejected", "Reor.C24_kaa_components", "Reor.C24_kaa_valid_accepted", "Reor.C24_mtd_invalid_rejected", "Reor.C24_mtd_valid_accepted", "Reor.C24_mtd_no_lags", "Reor.C24_mtd_components", "Reor.C24_mtd_lags"], "note": ""},
{"property": "C25", "status": "proved", "theorems": ["Reor.C25_gpnh_penalty", "Reor.C25_gpnh_nonneg", "Reor.C25_gpnh_zero_iff"], "note": ""},
{"property": "C26", "status": "proved", "theorems": ["Reor.C26_gpnh_exact_fixed_point", "Reor.C26_gpnh_exact_fit"], "note": ""},
{"property": "C27", "status": "partial", "theorems": ["Reor.C27_gpnh_reconstruction_partial", "Reor.C27_gpnh_reconstruction_fails"], "note": "Proved only for line search settings that keep the step in [0, 1] (Spec.SafeSteps: 0 <= sigma_one and sigma_two <= 1, or gamma <= 1/2 with 0 <= alpha_max whatever sigma_one, sigma_two), although all of them can be set by the user. C27_gpnh_reconstruction_fails shows that it is false for sigma_two > 1 with gamma > 1/2. Custom starts must be row stochastic."},
{"property": "C28", "status": "partial", "theorems": ["Reor.C28_kaa_fit_stochastic_partial", "Reor.C28_aa_fit_stochastic_partial", "Reor.C28_kaa_transform_stochastic_partial", "Reor.C28_kaa_custom_fails", "Reor.C28_kaa_empty_fails", "Reor.C28_kaa_row_sums"], "note": "Proved only for line search settings that keep the step in [0, 1] (Spec.SafeSteps: 0 <= sigma_one and sigma_two <= 1, or gamma <= 1/2 with 0 <= alpha_max whatever sigma_one, sigma_two), although all of them can be set by the user. Needs a non-empty kernel and row stochastic custom starts; C28_kaa_empty_fails and C28_kaa_custom_fails show that it is false otherwise."},
{"property": "C29", "status": "proved", "theorems": ["Reor.C29_kaa_weights_gradient", "Reor.C29_kaa_dictionary_gradient", "Reor.C29_kaa_asymmetric_gradient_wrong"], "note": "C29_kaa_asymmetric_gradient_wrong shows that the symmetry is needed."},
{"property": "C30", "status": "proved", "theorems": ["Reor.C30_aa_objective", "Reor.C30_aa_cost"], "note": ""},
{"property": "C31", "status": "proved", "theorems": ["Reor.C31_kaa_line_search_starts_at_current_cost", "Reor.C31_kaa_caches_current"], "note": ""},
{"property": "C32", "status": "proved", "theorems": ["Reor.C32_kaa_scale_factors_fixed", "Reor.C32_kaa_delta_irrelevant", "Reor.C32_kaa_delta_irrelevant_with_floor", "Reor.C32_kaa_fit_delta_irrelevant"], "note": "Stated for every fit that ends; with a step floor every fit ends."},
{"property": "C33", "status": "proved", "theorems": ["Reor.C33_kaa_cost", "Reor.C33_kaa_monotone", "Reor.C33_kaa_fit_never_reports_increase", "Reor.C33_kaa_default_fit_returns", "Reor.C33_kaa_transform_returns"], "note": ""},
{"property": "C34", "status": "partial", "theorems": ["Reor.C34_kaa_keywords_never_succeed", "Reor.C34_kaa_keywords_type_error_partial", "Reor.C34_kaa_start_index_type_error_partial", "Reor.C34_kaa_keywords_fail"], "note": "TypeError is proved when the dictionary initialiser succeeds; otherwise its own exception comes first, so the property is false: C34_kaa_keywords_fail. A fit with such keywords never succeeds."},
{"property": "C35", "status": "proved", "theorems": ["Reor.C35_kaa_nonsquare", "Reor.C35_kaa_transform_other_size"], "note": ""},
{"property": "C36", "status": "proved", "theorems": ["Reor.C36_gpnh_furthest_sum_start", "Reor.C36_gpnh_furthest_sum_succeeds", "Reor.C36_gpnh_excluded_draw_fails", "Reor.C36_kaa_furthest_sum_start", "Reor.C36_mtd_furthest_sum_start", "Reor.C36_mtd_furthest_sum_succeeds"], "note": ""},
{"property": "C37", "status": "proved", "theorems": ["Reor.C37_gpnh_custom_cannot_transform", "Reor.C37_kaa_custom_cannot_transform", "Reor.C37_mtd_custom_cannot_transform"], "note": ""},
{"property": "C38", "status": "partial", "theorems": ["Reor.C38_mtd_update_stochastic_partial", "Reor.C38_mtd_fit_stochastic_partial", "Reor.C38_mtd_transform_stochastic_partial", "Reor.C38_mtd_weights_fail"], "note": "Proved only for line search settings that keep the step in [0, 1] (Spec.SafeSteps: 0 <= sigma_one and sigma_two <= 1, or gamma <= 1/2 with 0 <= alpha_max whatever sigma_one, sigma_two), although all of them can be set by the user. C38_mtd_weights_fail shows that it is false for sigma_two > 1 with gamma > 1/2. Supplied arrays must be stochastic; the code checks only their sums."},
{"property": "C39", "status": "proved", "theorems": ["Reor.C39_mtd_dictionary_gradient", "Reor.C39_mtd_weights_gradient", "Reor.C39_mtd_parameters_gradient", "Reor.C39_mtd_order_weights_gradient", "Reor.C39_mtd_transition_gradient", "Reor.C39_mtd_reported"], "note": ""},
{"property": "C40", "status": "proved", "theorems": ["Reor.C40_mtd_predicted_weights", "Reor.C40_mtd_initially_current", "Reor.C40_mtd_trials_current", "Reor.C40_mtd_updates_current", "Reor.C40_mtd_finally_current"], "note": ""},
{"property": "C41", "status": "proved", "theorems": ["Reor.C41_crom_forecast", "Reor.C41_mtd_continuation", "Reor.C41_mtd_forecast"], "note": ""},
{"property": "C42", "status": "partial", "theorems": ["Reor.C42_crom_forecast_in_hull_partial", "Reor.C42_mtd_continuation_stochastic", "Reor.C42_mtd_forecast_in_hull_partial", "Reor.C42_mtd_forecast_fails"], "note": "Proved only for line search settings that keep the step in [0, 1] (Spec.SafeSteps: 0 <= sigma_one and sigma_two <= 1, or gamma <= 1/2 with 0 <= alpha_max whatever sigma_one, sigma_two), although all of them can be set by the user. C42_mtd_forecast_fails shows that it is false for sigma_two > 1 with gamma > 1/2. Supplied arrays must be stochastic."},
{"property": "C43", "status": "proved", "theorems": ["Reor.C43_mtd_cost", "Reor.C43_mtd_monotone", "Reor.C43_mtd_custom_never_worse"], "note": ""},
{"property": "C44", "status": "partial", "theorems": ["Reor.C44_crom_residual", "Reor.C44_crom_parameters_stochastic_partial", "Reor.C44_crom_residual_never_worse", "Reor.C44_crom_iterations_monotone"], "note": "Proved only for line search settings that keep the step in [0, 1] (Spec.SafeSteps: 0 <= sigma_one and sigma_two <= 1, or gamma <= 1/2 with 0 <= alpha_max whatever sigma_one, sigma_two), although all of them can be set by the user."},
{"property": "C45", "status": "proved", "theorems": ["Reor.C45_transition_fractions", "Reor.C45_columns"], "note": ""},
{"property": "C46", "status": "partial", "theorems": ["Reor.C46_predict_distribution_partial", "Reor.C46_horizons_compose_partial", "Reor.C46_unvisited_nan", "Reor.C46_not_distribution", "Reor.C46_labels"], "note": "Distribution and composition are proved when every cluster was visited before the last sample; otherwise all entries are NaN (C46_unvisited_nan), so the property is false: C46_not_distribution."},
{"property": "C47", "status": "proved", "theorems": ["Reor.C47_constraints", "Reor.C47_single_component", "Reor.C47_not_a_number"], "note": ""},
{"property": "C48", "status": "proved", "theorems": ["Reor.C48_weights_update", "Reor.C48_program_solvable", "Reor.C48_single_component", "Reor.C48_fit"], "note": "The solver is assumed exact on solvable programs; existence of optimal weights is proved over the real numbers."},
{"property": "C49", "status": "proved", "theorems": ["Reor.C49_centroids", "Reor.C49_unique", "Reor.C49_empty_component", "Reor.C49_negative_weights"], "note": "C49_negative_weights shows that non-negativity is needed."},
{"property": "C50", "status": "proved", "theorems": ["Reor.C50_one_component_returns", "Reor.C50_costs_decrease", "Reor.C50_each_update", "Reor.C50_fit_returns"], "note": "Real numbers, exact solver. The step into the first weights update is exempt: the random start may violate the TV bound."},
{"property": "C51", "status": "proved", "theorems": ["Reor.C51_transform_ignores_fit", "Reor.C51_transform_overwrites"], "note": ""},
{"property": "C52", "status": "proved", "theorems": ["Reor.C52_constructor_init_ignored", "Reor.C52_custom_is_used"], "note": ""},
{"property": "C53", "status": "proved", "theorems": ["Reor.C53_varx_residuals"], "note": "Real numbers. Proved for every least-squares routine."},
{"property": "C54", "status": "proved", "theorems": ["Reor.C54_varx_weighted_fit_least", "Reor.C54_varx_plain_fit_least", "Reor.C54_varx_weights_checked"], "note": "Real numbers; least-squares routine assumed to return minimisers."},
{"property": "C55", "status": "proved", "theorems": ["Reor.C55_unequal_memories_rejected", "Reor.C55_unequal_memories_shape", "Reor.C55_unequal_memories_exog", "Reor.C55_equal_memories_accepted", "Reor.C55_unequal_memories_broadcast"], "note": "C55_unequal_memories_broadcast shows that the exceptional case occurs."},
{"property": "C56", "status": "proved", "theorems": ["Reor.C56_pwvarx_residuals"], "note": "Real numbers. Proved for every clusterer, classifier and least-squares routine."},
{"property": "C57", "status": "proved", "theorems": ["Reor.C57_pwvarx_single_column", "Reor.C57_pwvarx_vector_accepted"], "note": "The vector is accepted if scikit-learn and the least-squares routine raise nothing."},
{"property": "C58", "status": "proved", "theorems": ["Reor.C58_check_init_weights", "Reor.C58_negative_weights_accepted"], "note": ""},
{"property": "C59", "status": "proved", "theorems": ["Reor.C59_kaa_seed", "Reor.C59_kaa_refit", "Reor.C59_gpnh_generator_consumed"], "note": ""},
{"property": "C60", "status": "proved", "theorems": ["Reor.C60_gpnh_fit_transform", "Reor.C60_gpnh_transform", "Reor.C60_gpnh_values", "Reor.C60_gpnh_fit_transform_fresh", "Reor.C60_gpnh_transform_fresh", "Reor.C60_gpnh_history", "Reor.C60_kernel_aa_fit_transform", "Reor.C60_kernel_aa_transform", "Reor.C60_kernel_aa_values", "Reor.C60_kernel_aa_fit_transform_fresh", "Reor.C60_kernel_aa_transform_fresh", "Reor.C60_archetypal_analysis", "Reor.C60_archetypal_analysis_values", "Reor.C60_kernel_aa_history", "Reor.C60_fembv_kmeans_fit_transform", "Reor.C60_fembv_kmeans_transform", "Reor.C60_fembv_kmeans_values", "Reor.C60_fembv_kmeans_uninitialised", "Reor.C60_fembv_kmeans_fit_transform_fresh", "Reor.C60_fembv_kmeans_transform_fresh", "Reor.C60_fembv_kmeans_history", "Reor.C60_mtd_fit_transform", "Reor.C60_mtd_transform", "Reor.C60_mtd_values", "Reor.C60_mtd_fit_transform_fresh", "Reor.C60_mtd_transform_fresh", "Reor.C60_mtd_history"], "note": "A kernel function given to ArchetypalAnalysis is assumed to modify nothing itself. Integer arrays are not modelled."},
{"property": "C61", "status": "proved", "theorems": ["Reor.C61_mtd_update_descends", "Reor.C61_mtd_fit_never_reports_increase", "Reor.C61_mtd_default_fit_returns", "Reor.C61_mtd_transform_returns", "Reor.C61_mtd_nan_at_max_lag"], "note": ""},
{"property": "C62", "status": "proved", "theorems": ["Reor.C62_crom_parameters_gradient"], "note": ""},
{"property": "C63", "status": "proved", "theorems": ["Reor.C63_crom_update_descends", "Reor.C63_crom_default_fit_returns"], "note": ""},
{"property": "C64", "status": "proved", "theorems": ["Reor.C64_crom_fit_is_gpnh_fit", "Reor.C64_crom_transform_is_gpnh_transform"], "note": ""},
{"property": "C65", "status": "proved", "theorems": ["Reor.C65_fit_predict_keeps_transitions", "Reor.C65_fit_transform_keeps_transitions", "Reor.C65_needs_fit", "Reor.C65_stale_transitions"], "note": ""},
{"property": "C66", "status": "proved", "theorems": ["Reor.C66_clusters_required"], "note": ""},
{"property": "C67", "status": "proved", "theorems": ["Reor.C67_femvarx_costs_decrease"], "note": "Real numbers; solver exact, least-squares routine exact and not raising RuntimeError itself."},
{"property": "C68", "status": "proved", "theorems": ["Reor.C68_femvarx_reported_cost", "Reor.C68_femvarx_fixed_weights"], "note": "Real numbers; solver and least-squares routine exact. Stated for runs that return."},
{"property": "C69", "status": "proved", "theorems": ["Reor.C69_femvarx_weights"], "note": "Real numbers; solver and least-squares routine exact. Stated for runs that return."},
{"property": "C70", "status": "proved", "theorems": ["Reor.C70_transform_ignores_fit", "Reor.C70_transform_single_model", "Reor.C70_transform_undetermined"], "note": "Real numbers; least-squares routine exact."},
{"property": "C71", "status": "proved", "theorems": ["Reor.C71_femvarx_parameters_ignored", "Reor.C71_negative_memory", "Reor.C71_negative_memory_constructed"], "note": ""},
{"property": "C72", "status": "proved", "theorems": ["Reor.C72_pwvarx_least_squares"], "note": "Real numbers; least-squares routine assumed to return minimisers."},
{"property": "C73", "status": "proved", "theorems": ["Reor.C73_pwvarx_transform_repeats", "Reor.C73_pwvarx_unfitted", "Reor.C73_pwvarx_transform_column"], "note": ""},
{"property": "C74", "status": "proved", "theorems": ["Reor.C74_pwvarx_exog_samples", "Reor.C74_pwvarx_exog_unused", "Reor.C74_pwvarx_stale_exog_coefficients"], "note": ""},
{"property": "C75", "status": "proved", "theorems": ["Reor.C75_pwvarx_covariance", "Reor.C75_pwvarx_negative_variance"], "note": ""},
{"property": "C76", "status": "proved", "theorems": ["Reor.C76_gpnh_stops", "Reor.C76_gpnh_transform_stops", "Reor.C76_kaa_stops", "Reor.C76_mtd_stops", "Reor.C76_crom_stops", "Reor.C76_fembv_stops", "Reor.C76_femvarx_stops"], "note": ""},
{"property": "C77", "status": "proved", "theorems": ["Reor.C77_gpnh_iterations", "Reor.C77_kaa_iterations", "Reor.C77_mtd_iterations", "Reor.C77_crom_iterations", "Reor.C77_fembv_iterations", "Reor.C77_femvarx_iterations"], "note": "FEM-BV: exact solver (and least-squares routine for VARX); the others: require_monotonic_cost_decrease."},
{"property": "C78", "status": "proved", "theorems": ["Reor.C78_gpnh_limit", "Reor.C78_kaa_limit", "Reor.C78_mtd_limit", "Reor.C78_crom_limit", "Reor.C78_fembv_limit", "Reor.C78_femvarx_limit"], "note": ""},
{"property": "C79", "status": "proved", "theorems": ["Reor.C79_fembv_nearest", "Reor.C79_femvarx_nearest"], "note": "Real numbers; exact solver (and least-squares routine for VARX). Stated for runs that return."},
{"property": "C80", "status": "proved", "theorems": ["Reor.C80_fembv_constant", "Reor.C80_fembv_centroids_coincide", "Reor.C80_femvarx_constant"], "note": "Real numbers; exact solver (and least-squares routine for VARX). Stated for runs that return."},
{"property": "C81", "status": "proved", "theorems": ["Reor.C81_regime_changes"], "note": ""},
{"property": "C82", "status": "proved", "theorems": ["Reor.C82_kaa_kernel_shift", "Reor.C82_kaa_kernel_shift_both_end", "Reor.C82_aa_rigid_motion", "Reor.C82_aa_transform_rigid_motion", "Reor.C82_aa_archetypes_move"], "note": "delta not positive, or a line search that contracts and has a step floor; otherwise for fits that end. Factors supplied by the caller need rows with sum exactly 1: the code accepts approximate sums."},
{"property": "C83", "status": "proved", "theorems": ["Reor.C83_kaa_relabel"], "note": "Custom start; random starts depend on the order of the samples. delta not positive, or a line search that contracts and has a step floor."},
{"property": "C84", "status": "proved", "theorems": ["Reor.C84_gpnh_rigid_motion", "Reor.C84_gpnh_transform_rigid_motion", "Reor.C84_gpnh_reconstruction_moves", "Reor.C84_gpnh_random_start_fails"], "note": "Custom weights need rows with sum exactly 1: the code accepts approximate sums. C84_gpnh_random_start_fails shows why random starts are excluded."},
{"property": "C85", "status": "proved", "theorems": ["Reor.C85_gpnh_relabel"], "note": "Custom start."},
{"property": "C86", "status": "proved", "theorems": ["Reor.C86_gpnh_weights_fixed_iff_optimal", "Reor.C86_gpnh_dictionary_fixed_iff_optimal", "Reor.C86_kaa_weights_fixed_iff_optimal", "Reor.C86_kaa_dictionary_fixed_iff_optimal", "Reor.C86_kaa_indefinite_fixed_not_optimal"], "note": "Single updates; the indefinite case is a proved counterexample."},
{"property": "C87", "status": "proved", "theorems": ["Reor.C87_kaa_fit_near_optimal", "Reor.C87_kaa_transform_near_optimal", "Reor.C87_aa_fit_near_optimal", "Reor.C87_aa_default_near_optimal"], "note": "Stated for fits that return (they do with the default start: C33_kaa_default_fit_returns); memory 1, step_size_tolerance zero or small compared with an explicit bound on the curvature (the *_default_* theorem has the default settings), exact arithmetic. Existence of the tolerance and the number of iterations; no rates."},
{"property": "C88", "status": "proved", "theorems": ["Reor.C88_gpnh_default_near_optimal", "Reor.C88_gpnh_fit_near_optimal", "Reor.C88_gpnh_furthest_sum_near_optimal", "Reor.C88_gpnh_transform_near_optimal", "Reor.C88_gpnh_default_fit_near_optimal"], "note": "Stated for fits that return (C21 shows that they do for the default, random and furthest_sum starts, and C88_gpnh_default_fit_near_optimal that they do with default settings); memory 1, step_size_tolerance zero or small compared with an explicit bound on the curvature (the *_default_* theorem has the default settings), exact arithmetic. Without penalty and with several components the dictionaries of bounded cost are unbounded, so no uniform tolerance is claimed for fits."},
{"property": "C89", "status": "proved", "theorems": ["Reor.C89_kaa_fit_unaffected", "Reor.C89_kaa_integer_kernel_fit_fails", "Reor.C89_kaa_integer_kernel_type_error", "Reor.C89_aa_integer_data_fit_fails", "Reor.C89_kaa_integer_factor_fit_fails", "Reor.C89_kaa_transform_unaffected", "Reor.C89_gpnh_fit_unaffected", "Reor.C89_gpnh_integer_data_furthest_sum_fails", "Reor.C89_gpnh_integer_data_type_error", "Reor.C89_gpnh_integer_factor_fit_fails", "Reor.C89_gpnh_transform_unaffected", "Reor.C89_mtd_floating_point_fit", "Reor.C89_mtd_integer_data_fit_fails", "Reor.C89_mtd_integer_data_type_error", "Reor.C89_mtd_integer_start_zero", "Reor.C89_crom_floating_point_fit", "Reor.C89_crom_integer_data_fit_fails"], "note": "Model/DTypes.lean adds to the other models the checks numpy makes when a floating point result is written to an integer array and the truncation of single elements; values stay exact. Overflow of integers, unsigned and boolean arrays are not represented. For CROM the TypeError is shown for floating point weights; with supplied integer weights only that no fit returns."},
{"property": "C90", "status": "proved", "theorems": ["Reor.C90_fembv_floating_point", "Reor.C90_fembv_fixed_centroids_unaffected", "Reor.C90_fembv_transform_unaffected", "Reor.C90_fembv_integer_cost", "Reor.C90_fembv_integer_fit_refused", "Reor.C90_fembv_integer_cost_understated"], "note": "Model/DTypesFEM.lean. Distances are exact before they are truncated; in floating point norm(x) ** 2 may fall short of an integer and then one less is stored. Overflow is not represented."},
{"property": "C91", "status": "proved", "theorems": ["Reor.C91_varx_floating_point", "Reor.C91_varx_integer_local_model", "Reor.C91_varx_integer_random_start_fails", "Reor.C91_varx_integer_custom_start_fails", "Reor.C91_varx_integer_parameters", "Reor.C91_varx_integer_random_start_error", "Reor.C91_varx_integer_fit_not_best"], "note": "Model/DTypesFEM.lean; as for C90. Random weights are below 1 with more than one component and positive draws, see the hypotheses of the theorems."},
{"property": "C92", "status": "proved", "theorems": ["Reor.C92_pwvarx_floating_point", "Reor.C92_pwvarx_integer_models", "Reor.C92_pwvarx_integer_covariance", "Reor.C92_pwvarx_integer_variances", "Reor.C92_pwvarx_integer_variance_lost"], "note": "Model/DTypesFEM.lean; as for C90."},
{"property": "C93", "status": "proved", "theorems": ["Reor.C93_fembv_rigid_motion", "Reor.C93_fembv_transform_rigid_motion"], "note": "The solver is any function of the linear programme, which is the same for both runs; exact arithmetic."},
{"property": "C94", "status": "proved", "theorems": ["Reor.C94_mtd_rigid_motion", "Reor.C94_mtd_transform_rigid_motion", "Reor.C94_mtd_predict_rigid_motion", "Reor.C94_mtd_random_start_fails"], "note": "Custom weights need rows with sum exactly 1, and the parameters used by predict sums exactly 1: the code accepts approximate sums. C94_mtd_random_start_fails shows why random dictionaries are excluded."},
{"property": "C95", "status": "proved", "theorems": ["Reor.C95_mtd_relabel"], "note": "Custom start."},
{"property": "C96", "status": "proved", "theorems": ["Reor.C96_mtd_weights_fixed_iff_optimal", "Reor.C96_mtd_dictionary_fixed_iff_optimal", "Reor.C96_mtd_order_weights_fixed_iff_optimal", "Reor.C96_mtd_transition_matrices_fixed_iff_optimal", "Reor.C96_mtd_parameters_fixed_not_jointly_optimal"], "note": "Single updates that return, from a state whose derived arrays are current (C40); that the parameters need not be jointly optimal is a proved counterexample."},
{"property": "C97", "status": "proved", "theorems": ["Reor.C97_mtd_default_near_optimal", "Reor.C97_mtd_fit_near_optimal", "Reor.C97_mtd_furthest_sum_near_optimal", "Reor.C97_mtd_transform_near_optimal", "Reor.C97_mtd_default_fit_near_optimal"], "note": "Stated for fits that return (C61 shows that they do for the default start and transform, and C97_mtd_default_fit_near_optimal that they do with default settings from furthest_sum); memory 1, step_size_tolerance zero or small compared with an explicit bound on the curvature (the *_default_* theorem has the default settings), exact arithmetic. Order weights and transition matrices are each optimal given the other, not jointly (C96 has a counterexample)."},
{"property": "C98", "status": "proved", "theorems": ["Reor.C98_gpnh_fit_draws", "Reor.C98_gpnh_transform_draws", "Reor.C98_gpnh_random_start", "Reor.C98_gpnh_start_ignores_signs", "Reor.C98_gpnh_start_scales_with_root", "Reor.C98_kaa_fit_draws", "Reor.C98_kaa_transform_draws", "Reor.C98_mtd_fit_draws", "Reor.C98_mtd_transform_draws", "Reor.C98_crom_fit_draws", "Reor.C98_kmeans_draws", "Reor.C98_varx_draws"], "note": "For calls that return. The order weights are drawn as a 1 x order array in the model; numpy takes the same numbers for both shapes. The two statements about scaling and signs are for the start of GPNH convex coding; MTD convex coding uses a textual copy of that initialiser."},
{"property": "C99", "status": "proved", "theorems": ["Reor.C99_transform_distances", "Reor.C99_predict_nearest", "Reor.C99_fit_transform_distances", "Reor.C99_transform_predict_agree", "Reor.C99_stale_distances"], "note": "scikit-learn is a parameter (KMeansLib) assumed to behave as documented (Lawful, Metric), in exact arithmetic; the library of the examples shows that the assumptions can be met. The stale centres are a finding, see DESIGN.md."},
{"property": "C100", "status": "proved", "theorems": ["Reor.C100_gpnh_outcomes", "Reor.C100_gpnh_failed_fit", "Reor.C100_gpnh_failed_weights", "Reor.C100_gpnh_failed_transform", "Reor.C100_gpnh_fit_forgets", "Reor.C100_gpnh_fit_after_failure", "Reor.C100_gpnh_retry_custom", "Reor.C100_kaa_outcomes", "Reor.C100_kaa_failed_fit", "Reor.C100_kaa_failed_stochastic", "Reor.C100_kaa_failed_transform", "Reor.C100_kaa_fit_forgets", "Reor.C100_kaa_fit_after_failure", "Reor.C100_kaa_retry", "Reor.C100_mtd_outcomes", "Reor.C100_mtd_failed_fit", "Reor.C100_mtd_failed_stochastic", "Reor.C100_mtd_failed_transform", "Reor.C100_mtd_fit_forgets", "Reor.C100_mtd_fit_after_failure", "Reor.C100_mtd_retry_custom", "Reor.C100_crom_outcomes", "Reor.C100_crom_failed_fit", "Reor.C100_crom_failed_stochastic", "Reor.C100_crom_failed_transform", "Reor.C100_crom_zero_lag", "Reor.C100_fem_outcomes", "Reor.C100_fem_failed_fit", "Reor.C100_fem_failed_transform", "Reor.C100_fem_half_done", "Reor.C100_fem_fit_forgets", "Reor.C100_fem_fit_after_failure", "Reor.C100_gpnh_furthest_sum_failed", "Reor.C100_kaa_keyword_failed", "Reor.C100_mtd_weights_rejected", "Reor.C100_mtd_parameters_rejected", "Reor.C100_gpnh_split"], "note": "Model/Failure.lean repeats the estimators with the object at the moment of an exception as part of the outcome; the outcomes are otherwise those of the other model files (the theorems named _outcomes). For the stochastic matrices settings in the usual range (SafeSteps) and stochastic supplied arrays, for MTD a drawn start. Where a number would become NaN the model stops, so nothing is claimed about what is left then. FEMBVVARX and ClusterPWVARX are not covered."},
{"property": "C101", "status": "proved", "theorems": ["Reor.C101_varx_memory", "Reor.C101_varx_memory_float", "Reor.C101_varx_constructor", "Reor.C101_settings_outcomes", "Reor.C101_settings_values", "Reor.C101_other_keywords_ignored", "Reor.C101_gpnh_constructor", "Reor.C101_gpnh_defaults", "Reor.C101_kaa_components", "Reor.C101_kaa_components_first", "Reor.C101_kaa_defaults", "Reor.C101_mtd_defaults", "Reor.C101_mtd_lags", "Reor.C101_crom_components", "Reor.C101_crom_lags", "Reor.C101_fem_defaults", "Reor.C101_monotonicity_check"], "note": "Keyword values are integers, other numbers and truth values; strings, None and arrays among the solver settings are not modelled, nor is the check of random_state."},
{"property": "C102", "status": "proved", "theorems": ["Reor.C102_kaa_fit_returns_with_floor", "Reor.C102_kaa_default_fit_returns", "Reor.C102_aa_default_fit_returns", "Reor.C102_kaa_default_transform_returns", "Reor.C102_gpnh_default_transform_returns", "Reor.C102_gpnh_default_fit_returns", "Reor.C102_gpnh_furthest_sum_fit_returns", "Reor.C102_gpnh_transform_fails_tall_dictionary", "Reor.C102_mtd_furthest_sum_fit_returns", "Reor.C102_mtd_default_transform_returns", "Reor.C102_crom_default_fit_returns", "Reor.C102_crom_furthest_sum_fit_returns"], "note": "Exact arithmetic; the object is the one returned by the constructor. GPNH, MTD and CROM fits need epsilon_states > 0 and at least two components (without the penalty the dictionary need not stay bounded). C102_gpnh_transform_fails_tall_dictionary is the failure beyond the bound."},
{"property": "C103", "status": "proved", "theorems": ["Reor.C103_kaa_inverse", "Reor.C103_gpnh_inverse", "Reor.C103_mtd_inverse", "Reor.C103_aa_fit_inverse", "Reor.C103_mtd_fit_inverse"], "note": "For the theorems after a fit: settings in the usual range (SafeSteps), stochastic supplied arrays."},
{"property": "C104", "status": "proved", "theorems": ["Reor.C104_kmeans_best", "Reor.C104_kmeans_more_starts", "Reor.C104_kmeans_weights", "Reor.C104_one_component", "Reor.C104_varx_best", "Reor.C104_varx_memory_rejected"], "note": "Model/Examples.lean; the copy of the best model is a value. The optimality of the weights and C104_one_component assume an exact solver."},
{"property": "C105", "status": "proved", "theorems": ["Reor.C105_affiliations", "Reor.C105_number_of_changes", "Reor.C105_too_few_samples", "Reor.C105_admissible", "Reor.C105_samples"], "note": "Model/Examples.lean; draws are those of an arbitrary generator, their distribution is not modelled."},
{"property": "C106", "status": "partial", "theorems": ["Reor.C106_order", "Reor.C106_samples", "Reor.C106_order_zero_partial", "Reor.C106_not_autoregressive", "Reor.C106_regimes", "Reor.C106_number_of_switches", "Reor.C106_switches_as_requested"], "note": "False for a positive order: C106_not_autoregressive; xt = mu[component] followed by xt += ... changes mu itself. C106_samples is what is returned in general, C106_order_zero_partial the property for order 0. The number of switches is as requested only if samples divide evenly (C106_switches_as_requested), and weights of inactive components are uninitialised memory."},
{"property": "C107", "status": "proved", "theorems": ["Reor.C107_samples", "Reor.C107_returns", "Reor.C107_phases"], "note": "Model/Examples.lean; as for C105."},
{"property": "C108", "status": "proved", "theorems": ["Reor.C108_no_invalid_region", "Reor.C108_data", "Reor.C108_no_samples"], "note": "Model/Examples.lean; uniform is assumed to respect its bounds."},
{"property": "C109", "status": "proved", "theorems": ["Reor.C109_panels", "Reor.C109_rejected", "Reor.C109_collect"], "note": "Model/Examples.lean; which panel shows which pair of predictors; the contents of the plots are not modelled. Collecting is about shapes."},
{"property": "C110", "status": "proved", "theorems": ["Reor.C110_femvarx_translation_matters", "Reor.C110_femvarx_rotation", "Reor.C110_femvarx_rotation_exog", "Reor.C110_transform_rigid_motion"], "note": "np.linalg.lstsq is any routine that returns the least-squares solution of least Frobenius norm, as numpy documents; one exists. In exact arithmetic."},
{"property": "C111", "status": "proved", "theorems": ["Reor.C111_gpnh_weights", "Reor.C111_gpnh_dictionary", "Reor.C111_kaa_weights", "Reor.C111_kaa_dictionary", "Reor.C111_mtd_weights", "Reor.C111_mtd_dictionary", "Reor.C111_mtd_parameters", "Reor.C111_crom_parameters", "Reor.C111_kaa_scale_factors"], "note": "Stated from values of the objective alone. With one component the MTD parameters are left out: the objective then has no penalty and the gradient has."},
{"property": "C112", "status": "proved", "theorems": ["Reor.C112_local_weighted_fit", "Reor.C112_hyperplane", "Reor.C112_kmeans"], "note": "The inverse of a singular covariance matrix is a LinAlgError in the model; in floating point a matrix that is singular up to rounding can also be inverted, with huge entries. The comparison is from given weights because the two estimators draw random starts in a different order."},
{"property": "C113", "status": "proved", "theorems": ["Reor.C113_component_is_weighted_model", "Reor.C113_single_component_is_plain_model"], "note": "numpy documents that lstsq returns the solution of least norm; without uniqueness of the solution the two calls could return different ones."},
{"property": "C114", "status": "proved", "theorems": ["Reor.C114_crom_rigid_motion", "Reor.C114_crom_predict_rigid_motion"], "note": "Random starts are excluded, as for the coding itself (C84, C94): the random dictionary is scaled with the mean modulus of the data. In exact arithmetic."},
{"property": "C115", "status": "proved", "theorems": ["Reor.C115_crom_order_weights_fixed_iff_optimal", "Reor.C115_crom_transition_matrices_fixed_iff_optimal", "Reor.C115_crom_fit_near_optimal", "Reor.C115_crom_default_near_optimal", "Reor.C115_crom_fixed_not_jointly_optimal"], "note": "The two blocks are optimal each given the other; the joint problem is not convex and C115_crom_fixed_not_jointly_optimal shows a state where both are stuck."},
{"property": "C116", "status": "proved", "theorems": ["Reor.C116_pwvarx_residuals_moved", "Reor.C116_pwvarx_residuals_moved_no_exog", "Reor.C116_pwvarx_coefficients_rotated", "Reor.C116_pwvarx_coefficients_rotated_no_exog", "Reor.C116_pwvarx_translation_needs_trend"], "note": "The labels are those of scikit-learn, taken as given; SVC with its default gamma depends on the variance of all entries and need not give rotated data the same labels."},
{"property": "C117", "status": "proved", "theorems": ["Reor.C117_transition_matrix_maximum_likelihood", "Reor.C117_label_frequencies_balance"], "note": "Stated for the exact quotients over the reals; the columns of labels without a successor are not a number (C45) and are left out."},
{"property": "C118", "status": "proved", "theorems": ["Reor.C118_gpnh_spread_decreases", "Reor.C118_gpnh_dictionary_unique", "Reor.C118_gpnh_unique_needs_penalty", "Reor.C118_gpnh_mean_and_spread", "Reor.C118_gpnh_fit_spread", "Reor.C118_fembv_looser_bound", "Reor.C118_fembv_cost_convex", "Reor.C118_fembv_transform_bound"], "note": "The GPNH statements compare dictionaries left unchanged by the update (C86); a fit stopped by its tolerance is only near one of them (C88). The weights are the same on both sides; weights and dictionary together need not be optimal."},
{"property": "C119", "status": "proved", "theorems": ["Reor.C119_pwvarx_component_local", "Reor.C119_pwvarx_relabelled"], "note": "The labels are an argument of _fit_var_model; how the clusterer and the classifier find them is up to scikit-learn."},
{"property": "C120", "status": "proved", "theorems": ["Reor.C120_pwvarx_outcomes", "Reor.C120_pwvarx_failed_fit", "Reor.C120_pwvarx_fit_after_failure", "Reor.C120_pwvarx_failed_transform", "Reor.C120_pwvarx_first_component_fails"], "note": "What scikit-learn does to its own object before it raises is a parameter of the model."},
{"property": "C121", "status": "proved", "theorems": ["Reor.C121_gpnh_stays_iff_nearest", "Reor.C121_gpnh_samples_independent", "Reor.C121_gpnh_unique", "Reor.C121_gpnh_unique_needs_independence", "Reor.C121_gpnh_transform_reproducible", "Reor.C121_aa_transform_reproducible"], "note": "transform with memory 1 and descending line search settings, as in C87 and C88."},
{"property": "C122", "status": "proved", "theorems": ["Reor.C122_furthest_sum_affine", "Reor.C122_furthest_sum_excluded_irrelevant", "Reor.C122_furthest_sum_relabel", "Reor.C122_furthest_sum_relabel_needs_no_ties"], "note": "exact arithmetic: scaling and shifting introduce no rounding in the model. The failure with ties is proved with a witness."},
{"property": "C123", "status": "proved", "theorems": ["Reor.C123_femvarx_outcomes", "Reor.C123_femvarx_failed_fit", "Reor.C123_femvarx_failed_transform", "Reor.C123_femvarx_update_halfway", "Reor.C123_femvarx_refit_hyperplane", "Reor.C123_femvarx_first_update_fails", "Reor.C123_femvarx_fit_after_failure"], "note": "self.models, self.X and self.u are not followed. The two concrete failures (samples in a hyperplane; first update failing at a component) are for memory 0, with an exact and total least-squares routine."},
{"property": "C124", "status": "proved", "theorems": ["Reor.C124_scale_cost", "Reor.C124_scale_start", "Reor.C124_scale_direction", "Reor.C124_scale_full_step", "Reor.C124_scale_gradient"], "note": "The scale factors found by the search are discarded (C32), so the direction has no effect on the fit beyond the exceptions and the time of the search."},
{"property": "C125", "status": "proved", "theorems": ["Reor.C125_continuations_approach", "Reor.C125_continuation_limit", "Reor.C125_stationary", "Reor.C125_mtd_forecast_forgets", "Reor.C125_crom_forecast_forgets", "Reor.C125_kmeans_crom_forgets", "Reor.C125_periodic_never_forgets"], "note": ""},
{"property": "C126", "status": "proved", "theorems": ["Reor.C126_weighted_residuals_orthogonal", "Reor.C126_plain_residuals_orthogonal", "Reor.C126_weighted_fit_fails", "Reor.C126_plain_fit_fails", "Reor.C126_femvarx_exact_relation", "Reor.C126_femvarx_periodic_feature"], "note": "exact least squares as a hypothesis; the covariance is inverted in exact arithmetic, so `np.linalg.inv` fails exactly on singular matrices"},
{"property": "C127", "status": "proved", "theorems": ["Reor.C127_pwvarx_residuals_orthogonal", "Reor.C127_pwvarx_noise_free"], "note": "exact least squares as a hypothesis"},
{"property": "C128", "status": "proved", "theorems": ["Reor.C128_least_squares", "Reor.C128_frequencies"], "note": "for any clustering library following the documented contract of scikit-learn"},
{"property": "C129", "status": "proved", "theorems": ["Reor.C129_relabelled"], "note": ""},
{"property": "C130", "status": "proved", "theorems": ["Reor.C130_positive_lags", "Reor.C130_predicted_weights_models", "Reor.C130_mixed_lags", "Reor.C130_negative_lags", "Reor.C130_negative_lags_forecast", "Reor.C130_forecast_models"], "note": "slices, indices and broadcasting as in Python and numpy; the models used by C38-C44 are proved equal to these functions for positive lags"},
{"property": "C131", "status": "proved", "theorems": ["Reor.C131_crom_parameters_relabel", "Reor.C131_crom_forecast_relabel", "Reor.C131_mtd_forecast_relabel", "Reor.C131_crom_fit_forecast"], "note": "the random start is not part of the statement: both fits are given corresponding starts"},
{"property": "C132", "status": "proved", "theorems": ["Reor.C132_nan_gives_zero", "Reor.C132_no_finite_entry", "Reor.C132_minus_infinity", "Reor.C132_finite_models", "Reor.C132_probability_iff", "Reor.C132_arithmetic"], "note": "finite values are exact and nothing overflows; NaN last in np.sort, comparisons with NaN false, np.fmax prefers the other argument"},
{"property": "C133", "status": "proved", "theorems": ["Reor.C133_zero_parameters", "Reor.C133_cost_nan", "Reor.C133_finite_models", "Reor.C133_finite_fit", "Reor.C133_arithmetic", "Reor.C133_forecast_zero"], "note": "finite values are exact, zeros have no sign, nothing overflows; NaN and the infinities follow IEEE rules; the weights are finite"},
{"property": "C134", "status": "proved", "theorems": ["Reor.C134_zero_weights", "Reor.C134_zero_parameters", "Reor.C134_finite_gradients", "Reor.C134_finite_weights", "Reor.C134_finite_parameters"], "note": "finite values are exact, zeros have no sign, nothing overflows; NaN and the infinities follow IEEE rules; lags are positive and the cost is arbitrary"}
]}
