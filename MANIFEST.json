{
 "claims": [
  {
   "property": "C01",
   "status": "proved",
   "theorems": [
    "QuOCS.C01_budget"
   ],
   "note": "dCRAB, DirectSearch, GRAPE with an arbitrary search method, user function, clock and stop requests; the AD algorithm has its own model and claim C61."
  },
  {
   "property": "C02",
   "status": "proved",
   "theorems": [
    "QuOCS.C02_no_call_after_stop_request",
    "QuOCS.C02_stopped_is_final",
    "QuOCS.C02_stopped_loop_ends",
    "QuOCS.C02_time_limit"
   ],
   "note": "GUI stop, SIGINT, time limit, stopped state; a request that arrives during the user call ends the run at the next poll."
  },
  {
   "property": "C03",
   "status": "proved",
   "theorems": [
    "QuOCS.C03_goal_record_ends_run",
    "QuOCS.C03_remaining_super_iterations",
    "QuOCS.C03_goal_stops",
    "QuOCS.C03_search_stops_at_goal"
   ],
   "note": "Whole runs without re-evaluation (in terms of the answers of get_FoM) and with re-evaluation (in terms of the reported records: nothing is called after a record that reaches the goal); any search and any remaining super-iterations (including drift compensation between them) from a state whose best value reached the goal. Searches that announce drift themselves are excluded."
  },
  {
   "property": "C04",
   "status": "partial",
   "theorems": [
    "QuOCS.C04_best_is_optimum_partial",
    "QuOCS.C04_best_never_worse",
    "QuOCS.C04_failed_evaluation_becomes_best",
    "QuOCS.C04_drift_compensation_loses_best",
    "QuOCS.C04_best_is_optimum_library_partial"
   ],
   "note": "Proved with failed answers counted; C04_failed_evaluation_becomes_best and C04_drift_compensation_loses_best are violations found."
  },
  {
   "property": "C05",
   "status": "proved",
   "theorems": [
    "QuOCS.C05_record_iff_strict_improvement",
    "QuOCS.C05_every_success_reported_once",
    "QuOCS.C05_tie_and_nan_no_record"
   ],
   "note": "Without re-evaluation and drift compensation, as in the statement of C04."
  },
  {
   "property": "C06",
   "status": "proved",
   "theorems": [
    "QuOCS.C06_maximization_mirrors_minimization"
   ],
   "note": "Whole-run simulation for dCRAB, DirectSearch and GRAPE with an arbitrary search method."
  },
  {
   "property": "C07",
   "status": "partial",
   "theorems": [
    "QuOCS.C07_failed_not_dumped_partial",
    "QuOCS.C07_failed_reevaluation_is_dumped",
    "QuOCS.C07_nothing_after_failure",
    "QuOCS.C07_failure_stops_run"
   ],
   "note": "Stopping and no further call proved in general; not dumped proved without re-evaluation (violation with re-evaluation: C07_failed_reevaluation_is_dumped)."
  },
  {
   "property": "C08",
   "status": "partial",
   "theorems": [
    "QuOCS.C08_counter_partial",
    "QuOCS.C08_counter_off_by_one"
   ],
   "note": "Counter exact unless a stop arrives between counting and measuring; violation C08_counter_off_by_one."
  },
  {
   "property": "C09",
   "status": "proved",
   "theorems": [
    "QuOCS.C09_cmaes_not_cut_off",
    "QuOCS.C09_cmaes_result_is_final",
    "QuOCS.C09_no_search_is_cut_off",
    "QuOCS.C09_result_is_final"
   ],
   "note": "Nelder-Mead inside dCRAB and DirectSearch; the loop is modelled with fuel and max_eval_total + 2 rounds always suffice. CMA-ES: see the CMA-ES theorems; scipy L-BFGS-B is not modelled."
  },
  {
   "property": "C10",
   "status": "partial",
   "theorems": [
    "QuOCS.C10_best_file_is_best_partial",
    "QuOCS.C10_final_file_is_final_best_partial",
    "QuOCS.C10_reports_show_last_call_partial",
    "QuOCS.C10_file_is_final_best_reeval_partial",
    "QuOCS.C10_drift_file_is_not_best"
   ],
   "note": "Violated with drift compensation between super-iterations: the file shows the last of the drift measurements, the run reports their mean (C10_drift_file_is_not_best). Without drift compensation: best evaluation at every moment (no re-evaluation), reported best mean at the end (re-evaluation). Figure of merit is stored with internal sign (negated for maximization)."
  },
  {
   "property": "C11",
   "status": "partial",
   "theorems": [
    "QuOCS.C11_own_names_partial",
    "QuOCS.C11_default_names_partial",
    "QuOCS.C11_repeated_names_partial",
    "QuOCS.C11_lost_pulse",
    "QuOCS.C11_parameter_replaces_pulse",
    "QuOCS.C11_pulse_named_FoM",
    "QuOCS.C11_pulse_named_file",
    "QuOCS.C11_only_records_written"
   ],
   "note": "Violated: equal names, a parameter named like a pulse, a pulse named FoM or file (C11_lost_pulse, C11_parameter_replaces_pulse, C11_pulse_named_FoM, C11_pulse_named_file). Complete for default names and for distinct names that avoid the reserved ones."
  },
  {
   "property": "C12",
   "status": "proved",
   "theorems": [
    "QuOCS.C12_new_folder",
    "QuOCS.C12_only_own_files",
    "QuOCS.C12_earlier_results_kept",
    "QuOCS.C12_refuses",
    "QuOCS.C12_second_run_refused"
   ],
   "note": "File systems as sets of paths; other processes may create files between any two steps. mkdir is atomic."
  },
  {
   "property": "C13",
   "status": "proved",
   "theorems": [
    "QuOCS.C13_all_delivered_pulses_within_limits",
    "QuOCS.C13_delivered_pulse_within_limits"
   ],
   "note": ""
  },
  {
   "property": "C14",
   "status": "proved",
   "theorems": [
    "QuOCS.C14_cut_only_outside"
   ],
   "note": ""
  },
  {
   "property": "C15",
   "status": "proved",
   "theorems": [
    "QuOCS.C15_shrink_preserves_shape",
    "QuOCS.C15_shrink_total"
   ],
   "note": ""
  },
  {
   "property": "C16",
   "status": "partial",
   "theorems": [
    "QuOCS.C16_all_delivered_pulses_have_bins_samples",
    "QuOCS.C16_pulse_and_grid_have_bins_samples",
    "QuOCS.C16_single_bin_can_grow"
   ],
   "note": "Holds for bins_number >= 2 and length-preserving two-argument scaling functions; C16_single_bin_can_grow shows the violation for bins_number = 1."
  },
  {
   "property": "C17",
   "status": "proved",
   "theorems": [
    "QuOCS.C17_base_pulse_accumulates"
   ],
   "note": ""
  },
  {
   "property": "C18",
   "status": "proved",
   "theorems": [
    "QuOCS.C18_shaping_in_listed_order",
    "QuOCS.C18_unknown_option_ignored",
    "QuOCS.C18_default_order"
   ],
   "note": ""
  },
  {
   "property": "C19",
   "status": "proved",
   "theorems": [
    "QuOCS.C19_boundary_enforced"
   ],
   "note": ""
  },
  {
   "property": "C20",
   "status": "proved",
   "theorems": [
    "QuOCS.C20_slots_partition",
    "QuOCS.C20_no_shared_slot",
    "QuOCS.C20_optimized_time_shares_slot_zero"
   ],
   "note": "Pulses and parameters, as stated (times not optimized); C20_optimized_time_shares_slot_zero shows that an optimized time shares slot 0."
  },
  {
   "property": "C21",
   "status": "partial",
   "theorems": [
    "QuOCS.C21_start_point",
    "QuOCS.C21_initial_start_point",
    "QuOCS.C21_start_sizes_partial",
    "QuOCS.C21_optimized_time_overwrites_first_size"
   ],
   "note": "Start point proved in general; start sizes proved when no time is optimized (violation with an optimized time: C21_optimized_time_overwrites_first_size)."
  },
  {
   "property": "C22",
   "status": "proved",
   "theorems": [
    "QuOCS.C22_parameters_within_limits"
   ],
   "note": ""
  },
  {
   "property": "C23",
   "status": "partial",
   "theorems": [
    "QuOCS.C23_control_depends_on_own_slots_partial",
    "QuOCS.C23_optimized_time_couples_controls"
   ],
   "note": "Proved when no time is optimized; violation otherwise: C23_optimized_time_couples_controls."
  },
  {
   "property": "C24",
   "status": "proved",
   "theorems": [
    "QuOCS.C24_kept_value_is_minimum",
    "QuOCS.C24_kept_value_never_increases",
    "QuOCS.C24_result_is_minimum",
    "QuOCS.C24_only_last_value_can_be_lost",
    "QuOCS.C24_interrupted_search_loses_best"
   ],
   "note": "With an interruption only the last value can be lost (C24_only_last_value_can_be_lost); C24_interrupted_search_loses_best shows that this happens."
  },
  {
   "property": "C25",
   "status": "partial",
   "theorems": [
    "QuOCS.C25_measured_pair_partial",
    "QuOCS.C25_unstable_sort_mixes_pairs"
   ],
   "note": "Proved for sorting methods that keep a leading minimum in front (NumPy: at most 16 entries); C25_unstable_sort_mixes_pairs is the violation otherwise."
  },
  {
   "property": "C26",
   "status": "proved",
   "theorems": [
    "QuOCS.C26_sorted_simplex",
    "QuOCS.C26_reported_evaluations"
   ],
   "note": "Dimension n of the vertices is enforced by typing."
  },
  {
   "property": "C27",
   "status": "proved",
   "theorems": [
    "QuOCS.C27_bounded_overshoot",
    "QuOCS.C27_in_run"
   ],
   "note": ""
  },
  {
   "property": "C28",
   "status": "proved",
   "theorems": [
    "QuOCS.C28_documented_moves",
    "QuOCS.C28_factors",
    "QuOCS.C28_adaptive_one_variable",
    "QuOCS.C28_affine_hull"
   ],
   "note": ""
  },
  {
   "property": "C29",
   "status": "proved",
   "theorems": [
    "QuOCS.C29_weights_positive",
    "QuOCS.C29_weights_decrease",
    "QuOCS.C29_weights_sum",
    "QuOCS.C29_mueff_range",
    "QuOCS.C29_mean_is_convex_combination",
    "QuOCS.C29_best_half",
    "QuOCS.C29_small_population_raises",
    "QuOCS.C29_default_population"
   ],
   "note": "Violation beside the theorem: a configured population below 2 raises ZeroDivisionError (C29_small_population_raises)."
  },
  {
   "property": "C30",
   "status": "proved",
   "theorems": [
    "QuOCS.C30_whole_generations",
    "QuOCS.C30_checks_between_generations",
    "QuOCS.C30_bounded_overshoot",
    "QuOCS.C30_first_point",
    "QuOCS.C30_in_run"
   ],
   "note": ""
  },
  {
   "property": "C31",
   "status": "proved",
   "theorems": [
    "QuOCS.C31_best_of_last_generation",
    "QuOCS.C31_no_generation",
    "QuOCS.C31_earlier_best_is_not_returned"
   ],
   "note": "Found beside it: the best individual of an earlier generation is not returned (C31_earlier_best_is_not_returned); a search stopped before its first generation returns 0 at the zero vector (C31_no_generation)."
  },
  {
   "property": "C32",
   "status": "partial",
   "theorems": [
    "QuOCS.C32_cmaes_ends_for_a_reason",
    "QuOCS.C32_cmaes_met_criterion_ends_search",
    "QuOCS.C32_nelderMead_check",
    "QuOCS.C32_cmaes_check",
    "QuOCS.C32_stopped_stays",
    "QuOCS.C32_spread_criterion",
    "QuOCS.C32_search_ends_for_a_reason",
    "QuOCS.C32_met_criterion_ends_search",
    "QuOCS.C32_reason_names_unmet_criterion"
   ],
   "note": "Checks, \"a search ends only for a reason\" and \"a met criterion ends the search\" proved for Nelder-Mead runs; the reason is right for every stop by a criterion when the change-based stop is off. Violated otherwise: C32_reason_names_unmet_criterion (stale reason after a run-level stop). The same is proved for CMA-ES runs."
  },
  {
   "property": "C33",
   "status": "proved",
   "theorems": [
    "QuOCS.C33_change_check",
    "QuOCS.C33_only_last_values",
    "QuOCS.C33_unique_slope",
    "QuOCS.C33_values_of_this_search"
   ],
   "note": "np.polyfit is modelled as the exact least-squares line."
  },
  {
   "property": "C34",
   "status": "proved",
   "theorems": [
    "QuOCS.C34_measurements_bounded",
    "QuOCS.C34_single_measurement"
   ],
   "note": ""
  },
  {
   "property": "C35",
   "status": "proved",
   "theorems": [
    "QuOCS.C35_record_passes_thresholds"
   ],
   "note": ""
  },
  {
   "property": "C36",
   "status": "proved",
   "theorems": [
    "QuOCS.C36_value_is_mean",
    "QuOCS.C36_displayed_average_wrong"
   ],
   "note": "The value given to the search is the mean; the average shown to the user (get_average of the first row) can differ: C36_displayed_average_wrong."
  },
  {
   "property": "C37",
   "status": "partial",
   "theorems": [
    "QuOCS.C37_best_controls_reproduced_library_partial",
    "QuOCS.C37_best_controls_mean_partial",
    "QuOCS.C37_best_controls_drift_minutes_partial",
    "QuOCS.C37_best_controls_mean_library_partial",
    "QuOCS.C37_best_controls_reproduced_partial",
    "QuOCS.C37_zeroUpdate",
    "QuOCS.C37_overwrite_loses_best",
    "QuOCS.C37_optimized_time_not_reproduced",
    "QuOCS.C37_no_base_pulse_loses_best",
    "QuOCS.C37_standard_dictionary"
   ],
   "note": "Proved for standard controls (no optimized times, no overwrite_base_pulse, shaping options that add the base pulse and then the update): without re-evaluation and drift compensation the single best evaluation, with re-evaluation and drift compensation after super-iterations the group of evaluations whose mean is reported (C37_best_controls_mean_partial, for the search methods of the library C37_best_controls_mean_library_partial). C37_best_controls_drift_minutes_partial: also with drift compensation by minutes, without re-evaluation; calls that were not made because the run was stopped count with the start value in the mean, which is how an interrupted compensation loses the best value. C37_standard_dictionary: these are conditions on the dictionary, every basis of the library is covered. Violations: with drift compensation by minutes, C93_interrupted_compensation_loses_best; C37_overwrite_loses_best, C37_optimized_time_not_reproduced, C37_no_base_pulse_loses_best."
  },
  {
   "property": "C38",
   "status": "partial",
   "theorems": [
    "QuOCS.C38_final_results_mean_partial",
    "QuOCS.C38_final_results_partial",
    "QuOCS.C38_reported_evaluations",
    "QuOCS.C38_directSearch_reports_last_point"
   ],
   "note": "dCRAB proved without re-evaluation and drift compensation, and with re-evaluation for the group whose mean is reported; DirectSearch reports the last instead of the best point (C38_directSearch_reports_last_point)."
  },
  {
   "property": "C39",
   "status": "proved",
   "theorems": [
    "QuOCS.C39_super_iterations",
    "QuOCS.C39_no_super_iteration_after_stop"
   ],
   "note": ""
  },
  {
   "property": "C40",
   "status": "proved",
   "theorems": [
    "QuOCS.C40_super_parameters_one_per_bin"
   ],
   "note": ""
  },
  {
   "property": "C41",
   "status": "partial",
   "theorems": [
    "QuOCS.C41_update_is_linear",
    "QuOCS.C41_zero_coefficients_zero_update",
    "QuOCS.C41_chebyshev_not_linear",
    "QuOCS.C41_zero_update_every_basis"
   ],
   "note": "Linear for Fourier, Sinc, piecewise, sigmoid; the Chebyshev basis is not linear in its phase coefficients (C41_chebyshev_not_linear). No update at zero coefficients: every basis of the library (C41_zero_update_every_basis)."
  },
  {
   "property": "C42",
   "status": "proved",
   "theorems": [
    "QuOCS.C42_declared_number_suffices",
    "QuOCS.C42_fewer_coefficients_fail"
   ],
   "note": "Walsh and custom bases excluded from the sufficiency statement (Walsh also depends on the guess)."
  },
  {
   "property": "C43",
   "status": "partial",
   "theorems": [
    "QuOCS.C43_start_simplex",
    "QuOCS.C43_spread_per_coordinate",
    "QuOCS.C43_not_degenerate",
    "QuOCS.C43_orthogonal_edges_partial",
    "QuOCS.C43_edges_not_orthogonal"
   ],
   "note": "Orthogonal edges only for equal start sizes (C43_orthogonal_edges_partial); for different start sizes the edges are not orthogonal (C43_edges_not_orthogonal). One exceptional random number makes the matrix singular and is excluded (RegularDraw)."
  },
  {
   "property": "C44",
   "status": "proved",
   "theorems": [
    "QuOCS.C44_stored_propagators",
    "QuOCS.C44_final_is_ordered_product",
    "QuOCS.C44_splitting_composes",
    "QuOCS.C44_refinement",
    "QuOCS.C44_no_slices"
   ],
   "note": "expm is an arbitrary function except in C44_refinement (Mathlib matrix exponential). Drive arrays that are too short raise IndexError and are excluded by HasShape."
  },
  {
   "property": "C45",
   "status": "proved",
   "theorems": [
    "QuOCS.C45_steps_unitary",
    "QuOCS.C45_final_unitary",
    "QuOCS.C45_states_preserved"
   ],
   "note": "For exact arithmetic and the exact matrix exponential."
  },
  {
   "property": "C46",
   "status": "proved",
   "theorems": [
    "QuOCS.C46_overlap_is_constant",
    "QuOCS.C46_independent_of_earlier_calls",
    "QuOCS.C46_real_target_loses_imaginary_parts"
   ],
   "note": "For complex arrays (sys_type StateTransfer). With a target given as a real array imaginary parts are dropped: C46_real_target_loses_imaginary_parts."
  },
  {
   "property": "C47",
   "status": "partial",
   "theorems": [
    "QuOCS.C47_final_evolution_agrees",
    "QuOCS.C47_store_is_not_written",
    "QuOCS.C47_zero_propagators",
    "QuOCS.C47_store_partial"
   ],
   "note": "Violated: pw_evolution_AD returns its store unchanged (C47_store_is_not_written, C47_zero_propagators). The final propagator agrees with the non-AD version (C47_final_evolution_agrees)."
  },
  {
   "property": "C48",
   "status": "proved",
   "theorems": [
    "QuOCS.C48_mask_is_permutation",
    "QuOCS.C48_out_of_range_rejected",
    "QuOCS.C48_partial_trace",
    "QuOCS.C48_basis_states_cover",
    "QuOCS.C48_trace_preserved",
    "QuOCS.C48_all_subsystems_raises"
   ],
   "note": "Distinct positions and at least one kept subsystem; tracing over all subsystems raises TypeError (C48_all_subsystems_raises)."
  },
  {
   "property": "C49",
   "status": "partial",
   "theorems": [
    "QuOCS.C49_superoperator_partial",
    "QuOCS.C49_not_the_commutator"
   ],
   "note": "Violated: the superoperator is not the commutator for Hamiltonians with imaginary entries (C49_not_the_commutator); for real symmetric Hamiltonians it is the commutator of rho with H."
  },
  {
   "property": "C50",
   "status": "partial",
   "theorems": [
    "QuOCS.C50_written_in_this_evaluation_partial",
    "QuOCS.C50_answers_own_controls",
    "QuOCS.C50_late_answer",
    "QuOCS.C50_nothing_published"
   ],
   "note": "Proved for every external program that answers each controls file at most once (C50_answers_own_controls); for all programs only that the value was written after the old file was removed. Violated in general: C50_late_answer, C50_nothing_published."
  },
  {
   "property": "C51",
   "status": "partial",
   "theorems": [
    "QuOCS.C51_bounded_wait",
    "QuOCS.C51_returns_partial",
    "QuOCS.C51_removal_race",
    "QuOCS.C51_silent_program",
    "QuOCS.C51_half_the_time",
    "QuOCS.C51_no_answer_raises"
   ],
   "note": "Bounded waiting proved for all programs. Violated: the waiting time is half of max_time (C51_half_the_time), a removal race raises (C51_removal_race), a missing answer ends the run with TypeError instead of the status code (C51_no_answer_raises)."
  },
  {
   "property": "C52",
   "status": "partial",
   "theorems": [
    "QuOCS.C52_precedence_partial",
    "QuOCS.C52_foreign_name",
    "QuOCS.C52_missing_type"
   ],
   "note": "Violated if a name is given without a class type (C52_missing_type); proved otherwise. The import system is a parameter."
  },
  {
   "property": "C54",
   "status": "proved",
   "theorems": [
    "QuOCS.C54_step_times_inside"
   ],
   "note": ""
  },
  {
   "property": "C53",
   "status": "partial",
   "theorems": [
    "QuOCS.C53_logfile",
    "QuOCS.C53_console",
    "QuOCS.C53_no_debug_messages",
    "QuOCS.C53_severity",
    "QuOCS.C53_debug_log"
   ],
   "note": "Violated for debug messages (C53_no_debug_messages): the debug log never contains one. Root-logger handlers are not modelled."
  },
  {
   "property": "C55",
   "status": "partial",
   "theorems": [
    "QuOCS.C55_default_simplex_partial",
    "QuOCS.C55_start_point_is_lost"
   ],
   "note": "Violated: row 0 of the default simplex is never written (C55_start_point_is_lost); C55_default_simplex_partial states what the simplex is."
  },
  {
   "property": "C56",
   "status": "proved",
   "theorems": [
    "QuOCS.C56_default_population_samples",
    "QuOCS.C56_uncapped_population_samples",
    "QuOCS.C56_general_draws_samples",
    "QuOCS.C56_draws_in_general_position",
    "QuOCS.C56_almost_surely"
   ],
   "note": "Exact real arithmetic; eigenvalue decomposition and sorting of the library are assumed to do what they say (CmaLib.Genuine, CmaLib.Sorts). Default population and every population whose learning rate is not capped: all draws. Larger populations: all draws in general position, which independent standard normal draws are with probability one (C56_almost_surely; measure = infinite product of standard normal distributions)."
  },
  {
   "property": "C57",
   "status": "partial",
   "theorems": [
    "QuOCS.C57_gradient_partial",
    "QuOCS.C57_commuting_gradient_partial",
    "QuOCS.C57_other_system_type_has_zero_gradient",
    "QuOCS.C57_not_the_derivative"
   ],
   "note": "Exact derivative for a control impulse before the slice, and for the amplitude if control and drift commute; otherwise it is not the derivative (C57_not_the_derivative). For other system types the gradient is 0 (C57_other_system_type_has_zero_gradient)."
  },
  {
   "property": "C58",
   "status": "partial",
   "theorems": [
    "QuOCS.C58_crash_during_run_partial",
    "QuOCS.C58_crash_keeps_best_partial",
    "QuOCS.C58_every_record_can_be_lost",
    "QuOCS.C58_crash_loses_best",
    "QuOCS.C58_outside_the_dump_partial"
   ],
   "note": "Violated by every record: the file of the best controls is truncated and rewritten in place (C58_crash_loses_best, C58_every_record_can_be_lost). Proved for all crash points of all runs: outside the writing of a record the file shows the latest record (C58_crash_during_run_partial), without re-evaluation and drift compensation the best call so far (C58_crash_keeps_best_partial)."
  },
  {
   "property": "C59",
   "status": "proved",
   "theorems": [
    "QuOCS.C59_json_controls",
    "QuOCS.C59_txt_controls"
   ],
   "note": "The writing of the JSON / text syntax itself is not modelled."
  },
  {
   "property": "C60",
   "status": "partial",
   "theorems": [
    "QuOCS.C60_last_run_partial",
    "QuOCS.C60_log_lost"
   ],
   "note": "Violated: creating a second run in one process redirects all messages (C60_log_lost). Proved for the run created last."
  },
  {
   "property": "C61",
   "status": "partial",
   "theorems": [
    "QuOCS.C61_evaluations_within_budget_partial",
    "QuOCS.C61_gradients_exceed_budget",
    "QuOCS.C61_calls_after_stop"
   ],
   "note": "Value requests are within the budget (proved for every optimizer). Violated by gradient requests: they are not counted (C61_gradients_exceed_budget) and go on after a stop (C61_calls_after_stop). JAX and scipy are parameters."
  },
  {
   "property": "C62",
   "status": "partial",
   "theorems": [
    "QuOCS.C62_best_controls_reproduced_partial",
    "QuOCS.C62_second_super_iteration_spoils_best"
   ],
   "note": "Proved while the base pulses are those of the record. Violated after a second super-iteration (C62_second_super_iteration_spoils_best)."
  },
  {
   "property": "C63",
   "status": "partial",
   "theorems": [
    "QuOCS.C63_is_infidelity",
    "QuOCS.C63_range",
    "QuOCS.C63_zero_iff_target_reached",
    "QuOCS.C63_global_phase",
    "QuOCS.C63_noise_and_drift",
    "QuOCS.C63_history_independent_partial",
    "QuOCS.C63_remembers_parameter",
    "QuOCS.C63_unnormalized"
   ],
   "note": "Exact arithmetic, exact matrix exponential. Violated: a parameter given once is remembered by later calls without parameters (C63_remembers_parameter), and for states that are not normalized the figure of merit is not an infidelity (C63_unnormalized)."
  },
  {
   "property": "C64",
   "status": "partial",
   "theorems": [
    "QuOCS.C64_is_infidelity",
    "QuOCS.C64_range_and_zero",
    "QuOCS.C64_equivalent_controls",
    "QuOCS.C64_noise",
    "QuOCS.C64_short_phase",
    "QuOCS.C64_unnormalized"
   ],
   "note": "Exact arithmetic, exact matrix exponential. Violated for states that are not normalized (C64_unnormalized)."
  },
  {
   "property": "C65",
   "status": "proved",
   "theorems": [
    "QuOCS.C65_unique_minimum",
    "QuOCS.C65_value",
    "QuOCS.C65_noise"
   ],
   "note": "Exact real arithmetic."
  },
  {
   "property": "C66",
   "status": "partial",
   "theorems": [
    "QuOCS.C66_drift_is_ring_energy_partial",
    "QuOCS.C66_two_qubits",
    "QuOCS.C66_two_qubits_wrong",
    "QuOCS.C66_control_flips_single_qubits",
    "QuOCS.C66_hermitian",
    "QuOCS.C66_states",
    "QuOCS.C66_one_qubit_rejected"
   ],
   "note": "Violated for two qubits with g not zero (C66_two_qubits_wrong); one qubit raises IndexError (C66_one_qubit_rejected). Proved for three or more."
  },
  {
   "property": "C67",
   "status": "proved",
   "theorems": [
    "QuOCS.C67_is_transition_probability",
    "QuOCS.C67_range_and_optimum",
    "QuOCS.C67_automatic_differentiation"
   ],
   "note": "Exact arithmetic, exact matrix exponential; sqrtm is any function that computes positive semidefinite square roots (IsSqrtm)."
  },
  {
   "property": "C68",
   "status": "partial",
   "theorems": [
    "QuOCS.C68_history_independent_partial",
    "QuOCS.C68_same_pulse_after_propagator_partial",
    "QuOCS.C68_stale_propagators"
   ],
   "note": "Proved for histories that end with a figure of merit, and for get_propagator followed by the figure of merit of the same pulse (as in GRAPE). Violated otherwise (C68_stale_propagators)."
  },
  {
   "property": "C69",
   "status": "partial",
   "theorems": [
    "QuOCS.C69_sqrtm",
    "QuOCS.C69_fidelity_AD",
    "QuOCS.C69_range_and_optimum",
    "QuOCS.C69_symmetric",
    "QuOCS.C69_unitary_invariant",
    "QuOCS.C69_state_to_dm",
    "QuOCS.C69_pure_states",
    "QuOCS.C69_same_as_example",
    "QuOCS.C69_not_diff_is_root_partial",
    "QuOCS.C69_not_diff_differs"
   ],
   "note": "Exact arithmetic; eigh, eigvals and sqrtm are any functions with the defining properties (IsEigh, IsEigvals, IsSqrtm). Violated by fidelity_not_diff_due_to_sqrtm, which returns the root of the fidelity (C69_not_diff_differs)."
  },
  {
   "property": "C70",
   "status": "proved",
   "theorems": [
    "QuOCS.C70_displacement",
    "QuOCS.C70_same_direction"
   ],
   "note": "Exact matrix exponential."
  },
  {
   "property": "C71",
   "status": "proved",
   "theorems": [
    "QuOCS.C71_realization",
    "QuOCS.C71_statistics",
    "QuOCS.C71_too_short",
    "QuOCS.C71_ensemble"
   ],
   "note": "Exact arithmetic; total time at least one step. A shorter time raises IndexError (C71_too_short)."
  },
  {
   "property": "C72",
   "status": "proved",
   "theorems": [
    "QuOCS.C72_nearest",
    "QuOCS.C72_same_grid",
    "QuOCS.C72_refine_and_back",
    "QuOCS.C72_columns"
   ],
   "note": "Exact arithmetic; scipy interp1d with kind nearest is modelled."
  },
  {
   "property": "C73",
   "status": "partial",
   "theorems": [
    "QuOCS.C73_round_trip_partial",
    "QuOCS.C73_error_code",
    "QuOCS.C73_failed_write_loses_file",
    "QuOCS.C73_not_opened",
    "QuOCS.C73_function_not_written"
   ],
   "note": "Proved for dictionaries without functions and unsupported objects. Violated by functions, which are not written as None (C73_function_not_written), and by a failed write, which leaves an unreadable file (C73_failed_write_loses_file). The text is a list of JSON tokens: the spelling of numbers and strings and keys that are no strings are not modelled."
  },
  {
   "property": "C74",
   "status": "partial",
   "theorems": [
    "QuOCS.C74_value_of_this_call_partial",
    "QuOCS.C74_fresh_dictionaries",
    "QuOCS.C74_remembered_dictionary",
    "QuOCS.C74_changed_controls_dumped"
   ],
   "note": "Proved for programs that put the value in the dictionary in every call and do not change the controls. Violated by programs that return a remembered dictionary in a maximization (C74_remembered_dictionary) and by programs that change the control arrays in place (C74_changed_controls_dumped). Objects are dictionaries and control arrays on a heap; newly built arrays do not alias older ones."
  },
  {
   "property": "C75",
   "status": "partial",
   "theorems": [
    "QuOCS.C75_numbers_of_the_seed_partial",
    "QuOCS.C75_same_run_partial",
    "QuOCS.C75_default_seed",
    "QuOCS.C75_bad_seed_stops",
    "QuOCS.C75_direct_search_ignores_seed",
    "QuOCS.C75_cmaes_ignores_seed"
   ],
   "note": "Proved for dCRAB, GRAPE and AD with methods that draw no numbers themselves. Violated by DirectSearch (C75_direct_search_ignores_seed), by CMA-ES (C75_cmaes_ignores_seed) and by negative seeds and, in GRAPE, seeds of a wrong type (C75_bad_seed_stops). The numbers of basis vectors and control parameters are inputs; NumPy 1.17 or later."
  },
  {
   "property": "C76",
   "status": "partial",
   "theorems": [
    "QuOCS.C76_budget_for_life",
    "QuOCS.C76_stopped_for_life",
    "QuOCS.C76_time_limit_per_execution",
    "QuOCS.C76_best_of_life",
    "QuOCS.C76_results_reported_partial",
    "QuOCS.C76_failed_run_reports_nothing",
    "QuOCS.C76_stopped_before_first_evaluation",
    "QuOCS.C76_stored_without_reason",
    "QuOCS.C76_stopped_handle"
   ],
   "note": "Budget, stop and best value proved for every number of executions; the time limit holds for each execution. Results are reported if the run ends normally (C76_results_reported_partial); violated by runs that raise (C76_failed_run_reports_nothing), by a direct search stopped before its first evaluation (C76_stopped_before_first_evaluation) and, for the reason, by the stored file (C76_stored_without_reason)."
  },
  {
   "property": "C77",
   "status": "proved",
   "theorems": [
    "QuOCS.C77_settings_used",
    "QuOCS.C77_run_settings",
    "QuOCS.C77_configured_budget"
   ],
   "note": "For the classes of the library; bases, distributions, search methods and algorithms written by users are not modelled. C77_configured_budget follows the entry max_eval_total to the number of calls of a run."
  },
  {
   "property": "C78",
   "status": "proved",
   "theorems": [
    "QuOCS.C78_entries_kept",
    "QuOCS.C78_containers_kept"
   ],
   "note": "Every entry that is not a dictionary or list keeps its value; dictionaries and lists stay what they are, lists keep their length."
  },
  {
   "property": "C79",
   "status": "partial",
   "theorems": [
    "QuOCS.C79_create_twice",
    "QuOCS.C79_sweep_partial",
    "QuOCS.C79_sigma_sweep_fails",
    "QuOCS.C79_switch_algorithm_fails"
   ],
   "note": "Creating twice is proved; sweeps are proved for all assignments except to the entries that select classes and to sigma. Violated for sigma of the bases SigmoidTimeDep, SigmoidSigmas and SigmoidAllParas (C79_sigma_sweep_fails) and for the algorithm (C79_switch_algorithm_fails)."
  },
  {
   "property": "C80",
   "status": "partial",
   "theorems": [
    "QuOCS.C80_documented_defaults_partial",
    "QuOCS.C80_max_eval_total_fails",
    "QuOCS.C80_max_eval_fails",
    "QuOCS.C80_initial_value_fails",
    "QuOCS.C80_pulse_name_fails",
    "QuOCS.C80_parameter_name_fails",
    "QuOCS.C80_time_name_fails",
    "QuOCS.C80_bins_number_fails"
   ],
   "note": "Violated for max_eval_total, max_eval, initial_value of a parameter, the names of pulses, parameters and times, and bins_number of a piecewise pulse (theorems C80_..._fails); proved for all other documented defaults of single values. shaping_options is in C18."
  },
  {
   "property": "C81",
   "status": "partial",
   "theorems": [
    "QuOCS.C81_extra_entries_partial",
    "QuOCS.C81_comment_in_parameter_fails",
    "QuOCS.C81_reserved_names_fail"
   ],
   "note": "Proved for the dictionary, algorithm_settings and pulses. Violated for parameters and times (C81_comment_in_parameter_fails) and for three names in pulses (C81_reserved_names_fail)."
  },
  {
   "property": "C82",
   "status": "proved",
   "theorems": [
    "QuOCS.C82_run_admissible",
    "QuOCS.C82_from_dictionary"
   ],
   "note": "For the whole run (C82_run_admissible) and from the dictionary (C82_from_dictionary)."
  },
  {
   "property": "C83",
   "status": "partial",
   "theorems": [
    "QuOCS.C83_run_rows",
    "QuOCS.C83_run_admissible_partial",
    "QuOCS.C83_same_parameters",
    "QuOCS.C83_best_rows_reproduced_partial",
    "QuOCS.C83_shorter_pulse_filled"
   ],
   "note": "Proved up to the filling with zeros (C83_run_rows), and completely for pulses with the same number of bins. Violated for pulses with different numbers of bins (C83_shorter_pulse_filled)."
  },
  {
   "property": "C84",
   "status": "partial",
   "theorems": [
    "QuOCS.C84_creation",
    "QuOCS.C84_only_user_errors_nelder_mead_partial",
    "QuOCS.C84_only_user_errors_cmaes_partial",
    "QuOCS.C84_completes_nelder_mead_partial",
    "QuOCS.C84_completes_cmaes_partial",
    "QuOCS.C84_direct_search_with_pulses",
    "QuOCS.C84_reevaluation_without_budget",
    "QuOCS.C84_direct_search_raises",
    "QuOCS.C84_only_user_errors_grape_partial",
    "QuOCS.C84_completes_grape_partial",
    "QuOCS.C84_grape_without_budget",
    "QuOCS.C84_grape_interrupt"
   ],
   "note": "Proved for dCRAB and for DirectSearch without pulses, with Nelder-Mead and CMA-ES. Violated by DirectSearch with pulses (C84_direct_search_with_pulses, C84_direct_search_raises) and by re-evaluation or drift compensation in a run stopped before its first call (C84_reevaluation_without_budget). Proved for GRAPE with any search method that only asks for figures of merit, a propagator function that does not raise, no Ctrl-C and at least one figure of merit better than the start value; violated by GRAPE otherwise (C84_grape_without_budget, C84_grape_interrupt). NumPy arithmetic raises no exceptions (it yields infinities and NaN). Saving the best controls is assumed to succeed; C110_completes* show it."
  },
  {
   "property": "C85",
   "status": "partial",
   "theorems": [
    "QuOCS.C85_boundary_kept_cut",
    "QuOCS.C85_boundary_kept_shrink_partial",
    "QuOCS.C85_shrink_moves_boundary",
    "QuOCS.C85_guess_beyond_limits_moves_boundary"
   ],
   "note": "Proved for cut limits, and for shrinking if the scaled update fits the limits or has one sign. Violated by shrinking an update with both signs (C85_shrink_moves_boundary). The guess must fit the limits (C85_guess_beyond_limits_moves_boundary)."
  },
  {
   "property": "C86",
   "status": "partial",
   "theorems": [
    "QuOCS.C86_one_entry_per_parameter_partial",
    "QuOCS.C86_wrong_number_of_entries",
    "QuOCS.C86_derivative_of_parameters_partial",
    "QuOCS.C86_scaling_ignored"
   ],
   "note": "Proved for one piecewise pulse without parameters and scaling function 1, inside the limits, with a control Hamiltonian that commutes with the drift (otherwise the gradient is of first order in the time step, C57) and a state-transfer problem. Violated by a second pulse or a parameter (C86_wrong_number_of_entries) and by any other scaling function (C86_scaling_ignored)."
  },
  {
   "property": "C87",
   "status": "proved",
   "theorems": [
    "QuOCS.C87_fourier",
    "QuOCS.C87_piecewise",
    "QuOCS.C87_sinc",
    "QuOCS.C87_chebyshev",
    "QuOCS.C87_sigmoid"
   ],
   "note": "Sinc and Chebyshev up to the stated errors (10^-40 and 3*10^-5, relative to the coefficients), which come from constants in the code. The bases not in the documented table (SigmoidTimeDep, SigmoidSigmas, SigmoidAllParas; Walsh) are in C101 and C106."
  },
  {
   "property": "C88",
   "status": "partial",
   "theorems": [
    "QuOCS.C88_sigmoid_ends_partial",
    "QuOCS.C88_sigmoid_starts_above_zero"
   ],
   "note": "Bound for both ends proved (C88_sigmoid_ends_partial). Zero is violated, with the documented defaults by more than 5% of the first step (C88_sigmoid_starts_above_zero)."
  },
  {
   "property": "C89",
   "status": "partial",
   "theorems": [
    "QuOCS.C89_super_iteration_starts_at_best_partial",
    "QuOCS.C89_first_call_is_initial_guess_partial",
    "QuOCS.C89_optimized_time_restarts_elsewhere"
   ],
   "note": "The start of a super-iteration at the best controls is proved for any shaping options, the first call at the initial guess for the default ones; fixed times and bases without update at zero coefficients (every basis of the library, C41_zero_update_every_basis); with any limits, scaling, overwriting, re-evaluation, drift compensation after super-iterations. Both search methods (Nelder-Mead and CMA-ES) are covered. Violated with an optimized time (C89_optimized_time_restarts_elsewhere)."
  },
  {
   "property": "C90",
   "status": "proved",
   "theorems": [
    "QuOCS.C90_smaller_budget",
    "QuOCS.C90_earlier_stop",
    "QuOCS.C90_larger_budget_not_worse"
   ],
   "note": "Exact for budgets (C90_smaller_budget); prefix for time limits, goals and stop requests (C90_earlier_stop). Readings of the clock are numbered, so both runs must have the check of the total time or both must not."
  },
  {
   "property": "C91",
   "status": "partial",
   "theorems": [
    "QuOCS.C91_order_decides_partial",
    "QuOCS.C91_change_of_unit_partial",
    "QuOCS.C91_reevaluation_scale",
    "QuOCS.C91_drift_average_scale"
   ],
   "note": "Nelder-Mead and CMA-ES in direct search and dCRAB, without re-evaluation, with drift compensation after super-iterations by a single measurement, for values better than the initial record (10^10). Violated with re-evaluation (C91_reevaluation_scale: a standard deviation of zero is replaced by 1 in any unit) and for runs stopped during an averaging drift compensation (C91_drift_average_scale). Exact arithmetic: rounding in the spread and slope of the stopping criteria is not modelled."
  },
  {
   "property": "C92",
   "status": "proved",
   "theorems": [
    "QuOCS.C92_follows_publication",
    "QuOCS.C92_reference_length",
    "QuOCS.C92_rates",
    "QuOCS.C92_step_size",
    "QuOCS.C92_direct_search"
   ],
   "note": "Exact real arithmetic; sorting and eigenvalue decomposition of the library are assumed to do what they say. If the covariance matrix becomes singular (possible only for populations so large that the rank-mu learning rate is capped) nothing is claimed about the inverse square root."
  },
  {
   "property": "C93",
   "status": "partial",
   "theorems": [
    "QuOCS.C93_announcement",
    "QuOCS.C93_values_follow",
    "QuOCS.C93_uniform_drift_compensated",
    "QuOCS.C93_announced_becomes_best_partial",
    "QuOCS.C93_interrupted_compensation_loses_best"
   ],
   "note": "The time of a compensation, the measurements, the announced mean, the shift of the known values and the invisibility of a uniform drift are proved for all searches. The report is partial: if the run is stopped (budget, goal, time) right before or during a compensation the placeholder 1e10 is averaged in, announced and kept as the best figure of merit (C93_interrupted_compensation_loses_best). Exact arithmetic; the sorting function is assumed not to depend on a common offset."
  },
  {
   "property": "C94",
   "status": "proved",
   "theorems": [
    "QuOCS.C94_common_unit_cmaes",
    "QuOCS.C94_user_function",
    "QuOCS.C94_units_nelder_mead",
    "QuOCS.C94_origin_nelder_mead",
    "QuOCS.C94_common_unit_nelder_mead",
    "QuOCS.C94_any_units_nelder_mead",
    "QuOCS.C94_origin_cmaes"
   ],
   "note": "Exact arithmetic. Evolution times are not optimized (optimized times share slots with pulses, see C21). CMA-ES is covered for any origins and, without pulses, for one common unit of all parameters, given a square root and an eigenvalue decomposition that follow the unit (CmaLib.Scales, met by a library that does what its names say)."
  },
  {
   "property": "C95",
   "status": "partial",
   "theorems": [
    "QuOCS.C95_first_call_is_earlier_controls_partial",
    "QuOCS.C95_continued_run_partial",
    "QuOCS.C95_continuing_never_worse_partial",
    "QuOCS.C95_scaled_pulses_are_scaled_again",
    "QuOCS.C95_continued_optimization_partial",
    "QuOCS.C95_optimization_never_worse_partial"
   ],
   "note": "Scaling one, default shaping options, fixed times, every basis of the library, at least two bins. C95_continued_optimization_partial and C95_optimization_never_worse_partial state it for two whole optimizations in terms of the entries of both dictionaries; there the first may have a scaling function and the second another basis. With another scaling in the second run the property is violated: the samples are scaled again."
  },
  {
   "property": "C96",
   "status": "proved",
   "theorems": [
    "QuOCS.C96_best_mean_drift",
    "QuOCS.C96_first_call",
    "QuOCS.C96_calls",
    "QuOCS.C96_budget",
    "QuOCS.C96_goal",
    "QuOCS.C96_best",
    "QuOCS.C96_completes",
    "QuOCS.C96_limits",
    "QuOCS.C96_best_controls",
    "QuOCS.C96_best_mean",
    "QuOCS.C96_only_user_errors",
    "QuOCS.C96_completes_repeated",
    "QuOCS.C96_samples",
    "QuOCS.C96_follows_nelder_mead",
    "QuOCS.C96_follows_cmaes"
   ],
   "note": "All hypotheses are about entries of the dictionary (Spec/Program.lean), about the answers of the user function and about the random numbers. The limits hold for pulses with the default shaping. The theorems C96_follows_* are about direct searches with parameters only, since a direct search with pulses fails at its start (C84). The end without exception, the first call and the best controls: guess and scaling missing, lists with one number per bin or lambda functions of the time grid (PlainControls), fixed times, dCRAB or no pulses (C84 and C37 have the general versions). C96_best_mean is the statement about the best controls with re-evaluation and drift compensation after super-iterations. C96_best_mean_drift is the one for every drift compensation, without re-evaluation. C96_samples: every pulse shown comes with one value per bin on the equidistant grid of its duration. Saving the best controls is assumed to succeed; C110_completes* show it."
  },
  {
   "property": "C97",
   "status": "proved",
   "theorems": [
    "QuOCS.C97_accepted",
    "QuOCS.C97_required",
    "QuOCS.C97_runs",
    "QuOCS.C97_completes",
    "QuOCS.C97_no_parameters"
   ],
   "note": "The documented form is defined in Spec/Documented.lean by the entries only. Where the code is stricter than the documentation (names map_index, rng, is_AD; other entries in parameters and times; bins_number with PiecewiseBasis; different limits of optimized times; GRAPE needs a pulse; cbs_funct_evals and cbs_change both present) the form says so. The end of the run for plain controls only (C84 has the general version)."
  },
  {
   "property": "C98",
   "status": "proved",
   "theorems": [
    "QuOCS.C98_follows",
    "QuOCS.C98_follows_shaped",
    "QuOCS.C98_calls",
    "QuOCS.C98_budget",
    "QuOCS.C98_goal",
    "QuOCS.C98_best",
    "QuOCS.C98_limits",
    "QuOCS.C98_failures",
    "QuOCS.C98_completes",
    "QuOCS.C98_best_controls",
    "QuOCS.C98_runs",
    "QuOCS.C98_samples"
   ],
   "note": "C98_follows is for one plain pulse without guess and scaling (the pulse is the vector within the limits); C98_follows_shaped allows guess and scaling. L-BFGS-B is an arbitrary program that asks for values and gradients and does not raise; the gradient has as many entries as the search vector (one piecewise constant pulse, no parameters) and depends on the controls only. Where GRAPE fails although the user function succeeded (Ctrl-C, no allowed or no better call) the theorem C98_failures names the case; these are the violations recorded for C84. Saving the best controls is assumed to succeed; C110_completes* show it."
  },
  {
   "property": "C99",
   "status": "partial",
   "theorems": [
    "QuOCS.C99_follows_partial",
    "QuOCS.C99_follows_many_partial",
    "QuOCS.C99_calls",
    "QuOCS.C99_budget_partial",
    "QuOCS.C99_goal_partial",
    "QuOCS.C99_best",
    "QuOCS.C99_limits",
    "QuOCS.C99_limits_same_bins",
    "QuOCS.C99_failures",
    "QuOCS.C99_completes",
    "QuOCS.C99_best_controls_partial",
    "QuOCS.C99_runs",
    "QuOCS.C99_gradients_exceed_budget",
    "QuOCS.C99_gradients_after_goal",
    "QuOCS.C99_samples",
    "QuOCS.C99_samples_same_bins",
    "QuOCS.C99_best_evaluation_partial"
   ],
   "note": "Budget and goal hold for the calls for figures of merit; the calls for gradients are not counted and go on after the stop (C99_gradients_exceed_budget, C99_gradients_after_goal). The best controls are those of a call for one super-iteration; with more they are not (C62). C99_follows_many_partial is for piecewise constant pulses (any number, with guess and scaling) and parameters, and one super-iteration (more and other bases: C114); C99_follows_partial is the case of one plain pulse. Saving the best controls is assumed to succeed; this holds with the format npz (C110_completes_ad_partial) and fails with json (C110_json_ad)."
  },
  {
   "property": "C100",
   "status": "proved",
   "theorems": [
    "QuOCS.C100_super_iterations"
   ],
   "note": "The scope (no re-evaluation, no drift compensation, fixed times, default shaping, documented bases, no shrinking) is part of the statement. Sinc and Chebyshev updates are the documented sums up to the stated tolerances (see C87)."
  },
  {
   "property": "C101",
   "status": "proved",
   "theorems": [
    "QuOCS.C101_time_dep",
    "QuOCS.C101_sigmas",
    "QuOCS.C101_all_parameters",
    "QuOCS.C101_ends"
   ],
   "note": "The statement about the ends needs, for steps whose times are not optimized, that the random times are between offset and total time minus offset. Over the real numbers with the functions of real analysis."
  },
  {
   "property": "C102",
   "status": "partial",
   "theorems": [
    "QuOCS.C102_user_function",
    "QuOCS.C102_creation",
    "QuOCS.C102_delivered_partial",
    "QuOCS.C102_time_unit_partial",
    "QuOCS.C102_switched_off_in_seconds",
    "QuOCS.C102_step_widths_in_seconds"
   ],
   "note": "Violated where SigmoidSigmas and SigmoidAllParas compare a time with 1e-10: problems with durations in seconds silently lose the optimization of the step times (C102_switched_off_in_seconds) or the limit of the step widths (C102_step_widths_in_seconds). Proved for all other bases and for these two when the comparison gives the same in both units. dCRAB and DirectSearch with any search method; exact arithmetic. Of a basis written by the user it is assumed that it depends on the time only in relation to the duration."
  },
  {
   "property": "C103",
   "status": "partial",
   "theorems": [
    "QuOCS.C103_user_function",
    "QuOCS.C103_creation",
    "QuOCS.C103_delivered_partial",
    "QuOCS.C103_amplitude_units_partial",
    "QuOCS.C103_common_unit_partial",
    "QuOCS.C103_any_units_partial",
    "QuOCS.C103_chebyshev_phase",
    "QuOCS.C103_step_widths",
    "QuOCS.C103_common_unit_cmaes_partial"
   ],
   "note": "Violated for the Chebyshev basis (half of its coefficients are phases, but their first step is the amplitude variation: C103_chebyshev_phase, for the real cosine) and for SigmoidSigmas (the change of the step widths is not divided by the amplitude variation: C103_step_widths). Proved for all other bases and for every homogeneous basis written by the user, for Nelder-Mead with fixed times, dCRAB and DirectSearch, and for CMA-ES when all amplitudes get the same factor and there are no parameters; exact arithmetic. Missing: CMA-ES with different factors and optimized times (whose step would have its own unit)."
  },
  {
   "property": "C104",
   "status": "partial",
   "theorems": [
    "QuOCS.C104_trace_preserved",
    "QuOCS.C104_closed_partial",
    "QuOCS.C104_wrong_sign",
    "QuOCS.C104_figure_of_merit_unbounded",
    "QuOCS.C104_settings"
   ],
   "note": "Violated by one sign (line 49): with any decay rate the coherence grows, and the figure of merit to be maximized is unbounded (C104_wrong_sign, C104_figure_of_merit_unbounded). Proved: the trace is always kept; without decay the full statement. Exact arithmetic and the exact matrix exponential."
  },
  {
   "property": "C105",
   "status": "partial",
   "theorems": [
    "QuOCS.C105_density",
    "QuOCS.C105_dephasing_ring_partial",
    "QuOCS.C105_two_qubits_wrong",
    "QuOCS.C105_last_sample_ignored",
    "QuOCS.C105_settings"
   ],
   "note": "Violated for two qubits, the default (the coupling of next-nearest neighbours becomes a field: C105_two_qubits_wrong, as in C66) and for the last sample of the pulse, which has no effect (C105_last_sample_ignored). Proved for three or more qubits, and for all sizes that the state is a density matrix, the solution unique and the figure of merit between 0 and 1. The solver odeint is assumed to be without error (ExactSolver; such solvers exist), the derivative is the one from the right because the pulse jumps; exact arithmetic."
  },
  {
   "property": "C106",
   "status": "partial",
   "theorems": [
    "QuOCS.C106_walsh_is_fourier_partial",
    "QuOCS.C106_not_square_waves"
   ],
   "note": "Violated: the class is an unfinished copy of the Fourier basis (C106_not_square_waves). Proved: inside the limits the update is the Fourier sum with the same coefficients, for a guess given by samples."
  },
  {
   "property": "C107",
   "status": "partial",
   "theorems": [
    "QuOCS.C107_ring_partial",
    "QuOCS.C107_range",
    "QuOCS.C107_noise_bounded",
    "QuOCS.C107_automatic_differentiation_partial",
    "QuOCS.C107_variants_agree_partial",
    "QuOCS.C107_short_pulse_partial",
    "QuOCS.C107_settings",
    "QuOCS.C107_settings_automatic_differentiation"
   ],
   "note": "Proved for three or more qubits (two qubits: same defect as in C66 and C105; C107_range holds for two as well). C107_short_pulse_partial says what a pulse with too few samples does: it raises, and the propagators of its samples are stored. The reported standard deviation is a constant of the settings. Exact arithmetic, exact matrix exponential; sqrtm as in C67."
  },
  {
   "property": "C108",
   "status": "partial",
   "theorems": [
    "QuOCS.C108_dcrab",
    "QuOCS.C108_simplified",
    "QuOCS.C108_grape",
    "QuOCS.C108_ad",
    "QuOCS.C108_ad_lindblad",
    "QuOCS.C108_ad_fourier",
    "QuOCS.C108_lindblad",
    "QuOCS.C108_grape_uses_whole_pulse_partial",
    "QuOCS.C108_ad_uses_whole_pulse_partial",
    "QuOCS.C108_dcrab_ignores_samples",
    "QuOCS.C108_ad_lindblad_ignores_last_sample",
    "QuOCS.C108_lindblad_uses_whole_pulse_partial",
    "QuOCS.C108_dcrab_few_slices_raise"
   ],
   "note": "Violated by execute_dCRAB.py, which passes the number of slices under a name that the figure of merit does not read (C108_dcrab_ignores_samples; for fewer than 100 slices every call raises, C108_dcrab_few_slices_raise), and by execute_AD_Lindblad.py, where the last sample has no effect and the Hamiltonian of two spins is wrong (C108_ad_lindblad_ignores_last_sample). The whole pulse is used in the other scripts (the theorems with suffix _partial). Plots and text files written by the scripts are not modelled."
  },
  {
   "property": "C109",
   "status": "partial",
   "theorems": [
    "QuOCS.C109_iteration_numbers",
    "QuOCS.C109_fom_list_partial",
    "QuOCS.C109_fom_list_length",
    "QuOCS.C109_signals",
    "QuOCS.C109_signals_order",
    "QuOCS.C109_plot_is_list",
    "QuOCS.C109_ad",
    "QuOCS.C109_plot_wrong_sign",
    "QuOCS.C109_plot_not_list",
    "QuOCS.C109_program_numbers",
    "QuOCS.C109_program_length",
    "QuOCS.C109_program_partial",
    "QuOCS.C109_program_best",
    "QuOCS.C109_program_grape",
    "QuOCS.C109_program_ad"
   ],
   "note": "The numbers hold for every run. The values hold without repeated measurements (C109_fom_list_partial; with them the list has one entry per call, but the means are wrong, C36_displayed_average_wrong). The order of the signals holds for every run. C109_program_* say the same of whole optimizations from the dictionary. Violated: in a maximization the plot shows the negated values (C109_plot_wrong_sign), and in a direct search with repeated measurements the plot does not show the values of the list (C109_plot_not_list)."
  },
  {
   "property": "C110",
   "status": "partial",
   "theorems": [
    "QuOCS.C110_file_partial",
    "QuOCS.C110_file_grape",
    "QuOCS.C110_final_partial",
    "QuOCS.C110_final_grape",
    "QuOCS.C110_names_violated",
    "QuOCS.C110_file_ad_partial",
    "QuOCS.C110_final_ad_partial",
    "QuOCS.C110_json_ad",
    "QuOCS.C110_best_controls_partial",
    "QuOCS.C110_best_controls_grape_partial",
    "QuOCS.C110_best_controls_ad_partial",
    "QuOCS.C110_saved",
    "QuOCS.C110_saved_grape",
    "QuOCS.C110_completes",
    "QuOCS.C110_completes_repeated",
    "QuOCS.C110_completes_grape",
    "QuOCS.C110_completes_ad_partial"
   ],
   "note": "Proved for pulses and parameters with different names that QuOCS does not use itself, the content without re-evaluation and drift compensation (with them the file can lag behind, C10). With automatic differentiation also plain controls (PlainControls). The run is modelled as if saving succeeded; C110_saved and C110_completes* show that it does succeed, also with re-evaluation and drift compensation. C110_best_controls_partial: at the end the file shows the controls returned by get_best_controls (completed dCRAB, GRAPE and, with one super-iteration, AD runs with plain and standard controls and status codes zero). Violated: a pulse named FoM is not in the file and one named file makes saving fail (C110_names_violated); with automatic differentiation and the format json saving always fails (C110_json_ad). The entry super_it is not followed."
  },
  {
   "property": "C111",
   "status": "proved",
   "theorems": [
    "QuOCS.C111_program",
    "QuOCS.C111_follows_publication",
    "QuOCS.C111_result",
    "QuOCS.C111_evaluations_per_iteration"
   ],
   "note": "The sorting function of the library is assumed to sort (ties in any order), and the stopping criteria to go on saying that the search has converged once they said so (proved for the modelled ones, and no assumption in the theorem about whole programs). The theorem about whole programs is for parameters only, without re-evaluation and drift compensation."
  },
  {
   "property": "C112",
   "status": "proved",
   "theorems": [
    "QuOCS.C112_nelder_mead",
    "QuOCS.C112_cma_es"
   ],
   "note": "The scope (no re-evaluation, no drift compensation, fixed times, default shaping, documented bases, no shrinking) is part of the statement, as in C100. Nelder-Mead: the sorting function sorts, and the first random number of each start simplex is not the exceptional one of C43. CMA-ES: population at least two, amplitude variations not zero, exact real functions of the library. The random numbers are those of the super-iteration, arbitrary otherwise."
  },
  {
   "property": "C113",
   "status": "partial",
   "theorems": [
    "QuOCS.C113_bare_controls_partial",
    "QuOCS.C113_bare_controls_always_zero",
    "QuOCS.C113_bare_controls_always_zero_grape",
    "QuOCS.C113_bare_is_not_best"
   ],
   "note": "Violated by every run of dCRAB and GRAPE (C113_bare_controls_always_zero, _grape, concrete run C113_bare_is_not_best): the returned pulses are zero in all bins, because the update is computed at the start point (coefficients zero) and the base pulse, which holds what was found, is not added. Proved: get_bare_controls_lists is right for every search vector until the first super-iteration ends, with fixed times, default shaping and limits by cutting. Not treated: the AD algorithm."
  },
  {
   "property": "C114",
   "status": "partial",
   "theorems": [
    "QuOCS.C114_super_iterations_partial",
    "QuOCS.C114_update_added_twice"
   ],
   "note": "C114_super_iterations_partial describes all runs; what is included after a super-iteration is the vector with the best figure of merit of all super-iterations so far. If the last one found nothing better, the update of an earlier one is therefore added once more, in the new frequencies (C114_update_added_twice); dCRAB includes nothing in this case (C100). Stated for the algorithm with its settings, not for a dictionary; optimized times are not treated."
  },
  {
   "property": "C115",
   "status": "proved",
   "theorems": [
    "QuOCS.C115_measures_best_controls",
    "QuOCS.C115_program",
    "QuOCS.C115_nelder_mead",
    "QuOCS.C115_cma_es"
   ],
   "note": "For Nelder-Mead (without its own drift compensation) and CMA-ES. What the run reports if it is stopped during the measurements is not described here; C04_drift_compensation_loses_best shows that it can be the placeholder."
  },
  {
   "property": "C116",
   "status": "partial",
   "theorems": [
    "QuOCS.C116_ising",
    "QuOCS.C116_ising_automatic_differentiation",
    "QuOCS.C116_ising_dictionary_can_be_used_again",
    "QuOCS.C116_one_qubit",
    "QuOCS.C116_two_fields",
    "QuOCS.C116_rosenbrock_partial",
    "QuOCS.C116_rosenbrock_needs_dictionary",
    "QuOCS.C116_dictionary_can_be_used_again",
    "QuOCS.C116_one_qubit_without_arguments"
   ],
   "note": "Violated by the Rosenbrock problem, which raises without a dictionary (C116_rosenbrock_needs_dictionary). eval of the state texts is an arbitrary function; only for the default texts its value is assumed (ReadsDefaults)."
  },
  {
   "property": "C117",
   "status": "proved",
   "theorems": [
    "QuOCS.C117_stops_exactly_if_met",
    "QuOCS.C117_proper_entries",
    "QuOCS.C117_without_evaluations",
    "QuOCS.C117_without_change",
    "QuOCS.C117_switched_off",
    "QuOCS.C117_unusable_entries",
    "QuOCS.C117_entry_of_dictionary"
   ],
   "note": "An integer and a float with the same value are the same number here (Python rejects 3.0 as a length of a slice; the check then fails with a message). Arrays as entries count as objects of a wrong type. The message always names cbs_funct_evals, also if only cbs_change is missing."
  }
 ]
}