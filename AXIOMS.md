# Axioms of the claimed theorems

Generated with `#print axioms`.

| theorem | axioms |
|---|---|
| `Sloth.unit_mul_adds_exponents` | propext, Classical.choice, Quot.sound |
| `Sloth.unit_number_operand` | propext, Classical.choice, Quot.sound |
| `Sloth.unit_div_subtracts_exponents_partial` | propext, Classical.choice, Quot.sound |
| `Sloth.unit_div_subtracts_exponents_si` | propext, Classical.choice, Quot.sound |
| `Sloth.unit_div_drops_custom_dimension` | propext, Classical.choice, Quot.sound |
| `Sloth.unit_pow_scales_exponents` | propext, Classical.choice, Quot.sound |
| `Sloth.unit_expr_denotes_vector` | propext, Classical.choice, Quot.sound |
| `Sloth.unit_expr_coherent_iff` | propext, Classical.choice, Quot.sound |
| `Sloth.unit_group_laws` | propext, Classical.choice, Quot.sound |
| `Sloth.unit_add_sub_gate` | propext, Classical.choice, Quot.sound |
| `Sloth.unit_coherence_equivalence` | propext, Classical.choice, Quot.sound |
| `Sloth.unit_coherence_custom_asymmetric` | propext, Classical.choice, Quot.sound |
| `Sloth.unit_table_wellformed` | propext, Classical.choice, Quot.sound |
| `Sloth.unit_si_check_never_raises` | propext, Classical.choice, Quot.sound |
| `Sloth.unit_dimensionless_iff` | propext, Classical.choice, Quot.sound |
| `Sloth.unit_str_lists_nonzero` | propext, Classical.choice, Quot.sound |
| `Sloth.unit_str_empty_iff_dimensionless` | propext, Classical.choice, Quot.sound |
| `Sloth.template_units_dimension` | propext, Classical.choice, Quot.sound |
| `Sloth.setValue_gate_partial` | propext, Classical.choice, Quot.sound |
| `Sloth.setValue_float_ignores_unit` | propext, Classical.choice, Quot.sound |
| `Sloth.setValue_history` | propext, Classical.choice, Quot.sound |
| `Sloth.constructed_history` | propext, Classical.choice, Quot.sound |
| `Sloth.expr_dimension_partial` | propext, Classical.choice, Quot.sound |
| `Sloth.expr_unit_si` | propext, Classical.choice, Quot.sound |
| `Sloth.expr_sum_gate` | propext, Classical.choice, Quot.sound |
| `Sloth.expr_refused_partial` | propext, Classical.choice, Quot.sound |
| `Sloth.expr_power_dimension_wrong` | propext, Classical.choice, Quot.sound |
| `Sloth.expr_value` | propext, Classical.choice, Quot.sound |
| `Sloth.expr_repr_value` | propext, Classical.choice, Quot.sound |
| `Sloth.reflected_operators` | propext, Classical.choice, Quot.sound |
| `Sloth.expr_maps_partial` | propext, Classical.choice, Quot.sound |
| `Sloth.expr_names_partial` | propext, Classical.choice, Quot.sound |
| `Sloth.diff_omits_independent_variable` | propext, Classical.choice, Quot.sound |
| `Sloth.expr_one_class` | propext, Classical.choice, Quot.sound |
| `Sloth.linear_is_affine_partial` | propext, Classical.choice, Quot.sound |
| `Sloth.linear_everywhere_partial` | propext, Classical.choice, Quot.sound |
| `Sloth.linear_flag_on_reciprocal` | propext, Classical.choice, Quot.sound |
| `Sloth.linear_flag_on_min` | propext, Classical.choice, Quot.sound |
| `Sloth.differential_only_with_derivative` | propext, Classical.choice, Quot.sound |
| `Sloth.derivative_is_differential_partial` | propext, Classical.choice, Quot.sound |
| `Sloth.derivative_not_flagged` | propext, Classical.choice, Quot.sound |
| `Sloth.function_arguments` | propext, Classical.choice, Quot.sound |
| `Sloth.function_of_number_raises` | propext, Quot.sound |
| `Sloth.minmax_partial` | propext, Classical.choice, Quot.sound |
| `Sloth.minmax_of_nodes_raises` | propext, Classical.choice, Quot.sound |
| `Sloth.minmax_mixes_dimensions` | propext, Classical.choice, Quot.sound |
| `Sloth.diff_node_properties` | propext, Classical.choice, Quot.sound |
| `Sloth.equation_residual` | propext, Classical.choice, Quot.sound |
| `Sloth.equation_sides` | propext, Classical.choice, Quot.sound |
| `Sloth.equation_call` | propext, Classical.choice, Quot.sound |
| `Sloth.equation_coherent` | propext, Classical.choice, Quot.sound |
| `Sloth.generated_names_partial` | propext, Classical.choice, Quot.sound |
| `Sloth.generated_names_clash_across_threads` | propext, Quot.sound |
| `Sloth.genRndStr_is_run` | propext, Quot.sound |
| `Sloth.equation_kind` | propext, Classical.choice, Quot.sound |
| `Sloth.equation_rename_partial` | propext, Classical.choice, Quot.sound |
| `Sloth.rename_chain_merges_variables` | propext, Classical.choice, Quot.sound |
| `Sloth.rename_numeric_side_raises` | propext, Classical.choice, Quot.sound |
| `Sloth.restated_equation_partial` | propext, Classical.choice, Quot.sound |
| `Sloth.restated_equation_is_stale` | propext, Classical.choice, Quot.sound |
| `Sloth.compiled_function` | propext, Classical.choice, Quot.sound |
| `Sloth.unknown_mechanism` | propext, Classical.choice, Quot.sound |
| `Sloth.accepted_equations_declared_partial` | propext, Classical.choice, Quot.sound |
| `Sloth.equation_check_iff` | propext, Classical.choice, Quot.sound |
| `Sloth.undeclared_independent_variable` | propext, Classical.choice, Quot.sound |
| `Sloth.rejected_equation_changes_nothing` | propext, Classical.choice, Quot.sound |
| `Sloth.rejected_equation_in_body` | propext, Classical.choice, Quot.sound |
| `Sloth.declared_names_partial` | propext, Classical.choice, Quot.sound |
| `Sloth.names_of_different_models` | propext, Classical.choice, Quot.sound |
| `Sloth.names_of_models_clash` | propext, Classical.choice, Quot.sound |
| `Sloth.variable_and_parameter_share_name` | propext, Classical.choice, Quot.sound |
| `Sloth.incorporate_copies_partial` | propext, Classical.choice, Quot.sound |
| `Sloth.handed_copy_partial` | propext, Classical.choice, Quot.sound |
| `Sloth.incorporate_exposed_raises` | propext, Classical.choice, Quot.sound |
| `Sloth.incorporate_exposed_leaves_copies` | propext, Classical.choice, Quot.sound |
| `Sloth.incorporate_unnamed_source` | propext, Classical.choice, Quot.sound |
| `Sloth.incorporate_merges_variables` | propext, Classical.choice, Quot.sound |
| `Sloth.incorporate_overwrites_own_variable` | propext, Classical.choice, Quot.sound |
| `Sloth.exposed_recorded` | propext, Classical.choice, Quot.sound |
| `Sloth.exposed_bad_type` | propext, Classical.choice, Quot.sound |
| `Sloth.inlets_registered_partial` | propext, Classical.choice, Quot.sound |
| `Sloth.inlets_leak_between_models` | propext |
| `Sloth.inlets_set_twice_duplicate` | propext |
| `Sloth.connection_balances` | propext, Classical.choice, Quot.sound |
| `Sloth.connection_explicit` | propext, Classical.choice, Quot.sound |
| `Sloth.connection_expressions` | propext, Classical.choice, Quot.sound |
| `Sloth.connection_requires_exposed` | propext, Classical.choice, Quot.sound |
| `Sloth.connection_not_exposed` | propext, Classical.choice, Quot.sound |
| `Sloth.connection_succeeds` | propext, Classical.choice, Quot.sound |
| `Sloth.connection_empty` | propext, Classical.choice, Quot.sound |
| `Sloth.connection_not_exposed_lists` | propext, Classical.choice, Quot.sound |
| `Sloth.connection_not_model` | propext, Classical.choice, Quot.sound |
| `Sloth.connection_not_model_leaves` | propext, Classical.choice, Quot.sound |
| `Sloth.connections_accumulate_partial` | propext, Classical.choice, Quot.sound |
| `Sloth.connections_of_expressions_overwrite` | propext, Classical.choice, Quot.sound |
| `Sloth.groups_partition` | propext, Quot.sound |
| `Sloth.resolved_groups` | propext, Classical.choice, Quot.sound |
| `Sloth.problem_kind` | propext, Classical.choice, Quot.sound |
| `Sloth.resolved_kind` | propext, Classical.choice, Quot.sound |
| `Sloth.createSolver_kind` | propext, Quot.sound |
| `Sloth.solver_class` | propext, Classical.choice, Quot.sound |
| `Sloth.block_variables` | propext, Classical.choice, Quot.sound |
| `Sloth.variables_declared_late_missing` | propext, Classical.choice, Quot.sound |
| `Sloth.dof_square_partial` | propext, Classical.choice, Quot.sound |
| `Sloth.dof_counts_fixed_variables` | propext, Classical.choice, Quot.sound |
| `Sloth.dof_time_by_substring` | propext, Classical.choice, Quot.sound |
| `Sloth.dof_time_missed` | propext, Classical.choice, Quot.sound |
| `Sloth.dof_needs_time_name` | propext, Classical.choice, Quot.sound |
| `Sloth.solved_system_partial` | propext, Classical.choice, Quot.sound |
| `Sloth.handed_expression` | propext, Classical.choice, Quot.sound |
| `Sloth.solved_system_drops_left_sides` | propext, Classical.choice, Quot.sound |
| `Sloth.compiled_block` | propext, Quot.sound |
| `Sloth.root_function` | propext, Classical.choice, Quot.sound |
| `Sloth.models_flattened` | propext, Classical.choice, Quot.sound |
| `Sloth.models_snapshot` | propext, Classical.choice, Quot.sound |
| `Sloth.initial_last_write_wins` | propext, Classical.choice, Quot.sound |
| `Sloth.resolve_twice_partial` | propext, Classical.choice, Quot.sound |
| `Sloth.resolve_twice_bare_partial` | propext, Classical.choice, Quot.sound |
| `Sloth.resolve_twice_adds_equations` | propext, Classical.choice, Quot.sound |
| `Sloth.resolve_twice_exposes_again` | propext, Classical.choice, Quot.sound |
| `Sloth.resolve_loses_values` | propext, Classical.choice, Quot.sound |
| `Sloth.model_with_inlets_never_resolves` | propext, Classical.choice, Quot.sound |
| `Sloth.domain_keeps_rows_partial` | propext, Classical.choice, Quot.sound |
| `Sloth.register_twice` | propext, Quot.sound |
| `Sloth.register_twice_loses_names` | propext, Quot.sound |
| `Sloth.register_twice_refused` | propext, Quot.sound |
| `Sloth.settings_from_dict` | propext, Quot.sound |
| `Sloth.settings_from_args` | propext, Quot.sound |
| `Sloth.settings_unknown_refused` | propext, Quot.sound |
| `Sloth.settings_file_drops_defaults` | propext, Quot.sound |
| `Sloth.settings_argument_beats_dict` | propext, Quot.sound |
| `Sloth.solver_called_only_if_square` | propext, Classical.choice, Quot.sound |
| `Sloth.sanity_ok` | propext, Classical.choice, Quot.sound |
| `Sloth.create_keeps_problem_partial` | propext, Quot.sound |
| `Sloth.create_changes_at_most_tail` | propext, Quot.sound |
| `Sloth.dae_solver_changes_group` | propext, Quot.sound |
| `Sloth.configured_type_partial` | propext, Classical.choice, Quot.sound |
| `Sloth.configured_type_refused` | propext, Classical.choice, Quot.sound |
| `Sloth.unresolved_run_refused` | propext, Classical.choice, Quot.sound |
| `Sloth.configured_type_ignored` | propext, Quot.sound |
| `Sloth.results_under_names` | propext, Classical.choice, Quot.sound |
| `Sloth.run_reports` | propext, Classical.choice, Quot.sound |
| `Sloth.failed_solve_raises` | propext, Classical.choice, Quot.sound |
| `Sloth.sympy_failure_is_index_error` | propext, Classical.choice, Quot.sound |
| `Sloth.status_partial` | propext, Classical.choice, Quot.sound |
| `Sloth.status_of_no_results` | propext, Classical.choice, Quot.sound |
| `Sloth.results_dict_and_list` | propext, Classical.choice, Quot.sound |
| `Sloth.results_order_differs` | propext, Classical.choice, Quot.sound |
| `Sloth.run_leaves_others_partial` | propext, Classical.choice, Quot.sound |
| `Sloth.simulations_share_arguments` | propext, Classical.choice, Quot.sound |
| `Sloth.run_keeps_problem_partial` | propext, Classical.choice, Quot.sound |
| `Sloth.ode_run_extends_unknowns` | propext, Classical.choice, Quot.sound |
| `Sloth.run_again_partial` | propext, Classical.choice, Quot.sound |
| `Sloth.run_after_reset_partial` | propext, Classical.choice, Quot.sound |
| `Sloth.second_dynamic_run_refused` | propext, Classical.choice, Quot.sound |
| `Sloth.ode_function_partial` | propext, Classical.choice, Quot.sound |
| `Sloth.ode_solution_partial` | propext, Classical.choice, Quot.sound |
| `Sloth.ode_run_partial` | propext, Classical.choice, Quot.sound |
| `Sloth.created_sides` | propext, Classical.choice, Quot.sound |
| `Sloth.ode_fixed_variable` | propext, Classical.choice, Quot.sound |
| `Sloth.ode_time_missed` | propext, Classical.choice, Quot.sound |
| `Sloth.ode_time_substring` | propext, Classical.choice, Quot.sound |
| `Sloth.ode_unspecified_parameter` | propext, Classical.choice, Quot.sound |
| `Sloth.ode_left_side_ignored` | propext, Classical.choice, Quot.sound |
| `Sloth.Pkg.add_union` | propext, Classical.choice, Quot.sound |
| `Sloth.Pkg.union_nodup` | propext, Classical.choice, Quot.sound |
| `Sloth.Pkg.add_idempotent` | propext, Quot.sound |
| `Sloth.Pkg.add_twice` | propext, Classical.choice, Quot.sound |
| `Sloth.Pkg.add_assoc` | propext, Classical.choice, Quot.sound |
| `Sloth.Pkg.session_add` | propext, Classical.choice, Quot.sound |
| `Sloth.Pkg.session_calculate` | propext, Classical.choice, Quot.sound |
| `Sloth.Pkg.default_list_shared` | propext, Classical.choice, Quot.sound |
| `Sloth.Pkg.add_changes_left` | propext, Classical.choice, Quot.sound |
| `Sloth.Pkg.add_keeps_count` | propext, Classical.choice, Quot.sound |
| `Sloth.Pkg.add_shares_chemicals` | propext, Classical.choice, Quot.sound |
| `Sloth.Opt.direction_partial` | propext, Classical.choice, Quot.sound |
| `Sloth.Opt.best_within_constraints` | propext, Classical.choice, Quot.sound |
| `Sloth.Opt.direction_and_problem_bounds_unused` | propext, Classical.choice, Quot.sound |
| `Sloth.Opt.direction_argument_ignored` | propext, Classical.choice, Quot.sound |
| `Sloth.Opt.other_constraints_never_run` | propext, Classical.choice, Quot.sound |
| `Sloth.Opt.maximization_returns_minimum` | propext, Classical.choice, Quot.sound |
| `Sloth.Opt.problem_bounds_ignored` | propext, Classical.choice, Quot.sound |
| `Sloth.Opt.results_recorded` | propext, Classical.choice, Quot.sound |
| `Sloth.Opt.results_before_run` | propext, Classical.choice, Quot.sound |
| `Sloth.Opt.run_ok_answers` | propext, Classical.choice, Quot.sound |
| `Sloth.Opt.unready_rejected` | propext, Classical.choice, Quot.sound |
| `Sloth.Opt.unnamed_rejected` | propext, Quot.sound |
| `Sloth.Opt.failed_run_has_results` | propext, Classical.choice, Quot.sound |
| `Sloth.Opt.opt_settings` | propext, Classical.choice, Quot.sound |
| `Sloth.Opt.opt_algorithm_partial` | propext, Classical.choice, Quot.sound |
| `Sloth.Opt.unknown_optimizer_accepted` | propext, Classical.choice, Quot.sound |
| `Sloth.Opt.no_mechanism_never_runs` | propext, Classical.choice, Quot.sound |
| `Sloth.Opt.neighborhood_and_elitism_unused` | propext, Classical.choice, Quot.sound |
| `Sloth.Opt.optimizer_needs_settings` | propext, Classical.choice, Quot.sound |
| `Sloth.Opt.optimizer_defaults_suffice` | propext, Classical.choice, Quot.sound |
| `Sloth.Lib.pump_balances` | propext, Classical.choice, Quot.sound |
| `Sloth.Lib.mixer_balances` | propext, Classical.choice, Quot.sound |
| `Sloth.Lib.mixed_last` | propext, Quot.sound |
| `Sloth.Lib.valve_balances_partial` | propext, Classical.choice, Quot.sound |
| `Sloth.Lib.heater_balances_partial` | propext, Classical.choice, Quot.sound |
| `Sloth.Lib.stream_conversion` | propext, Classical.choice, Quot.sound |
| `Sloth.Lib.heater_phases_never` | propext, Classical.choice, Quot.sound |
| `Sloth.Lib.call_never` | propext, Classical.choice, Quot.sound |
| `Sloth.Lib.valve_phases_refused` | propext, Classical.choice, Quot.sound |
| `Sloth.Lib.tank_call_never` | propext, Classical.choice, Quot.sound |
| `Sloth.Lib.unit_without_package` | propext, Classical.choice, Quot.sound |
| `Sloth.Lib.mixer_of_sum_leaks` | propext, Classical.choice, Quot.sound |
| `Sloth.Lib.mixer_fluxes_independent` | propext, Classical.choice, Quot.sound |
| `Sloth.Lib.fracVars_refused` | propext, Classical.choice, Quot.sound |
| `Sloth.Lib.library_coherent` | propext, Classical.choice, Quot.sound |
| `Sloth.Lib.streams_coherent` | propext, Classical.choice, Quot.sound |
| `Sloth.Lib.unitop_resolve_raises` | propext, Classical.choice, Quot.sound |
| `Sloth.Lib.totalizeInlets_never` | propext, Classical.choice, Quot.sound |
| `Sloth.Lib.unitop_lists_replaced` | none |
| `Sloth.domain_read` | propext, Quot.sound |
| `Sloth.domain_read_unknown` | propext, Quot.sound |
| `Sloth.domain_read_session` | propext, Classical.choice, Quot.sound |
| `Sloth.renamed_columns` | propext |
| `Sloth.renamed_read` | propext, Quot.sound |
| `Sloth.start_linear` | propext, Classical.choice, Quot.sound |
| `Sloth.start_nonlinear` | propext, Classical.choice, Quot.sound |
| `Sloth.start_incomplete` | propext, Classical.choice, Quot.sound |
| `Sloth.run_needs_initial_time` | propext, Classical.choice, Quot.sound |
| `Sloth.initial_time_missing` | propext, Classical.choice, Quot.sound |
| `Sloth.dae_time_from_problem` | propext, Classical.choice, Quot.sound |
| `Sloth.dae_initial_values` | propext, Quot.sound |
| `Sloth.Pkg.new_chemicals` | propext, Classical.choice, Quot.sound |
| `Sloth.Pkg.set_conditions` | propext |
| `Sloth.Pkg.calculated_conditions` | propext, Classical.choice, Quot.sound |
| `Sloth.Pkg.set_conditions_unused` | propext, Classical.choice, Quot.sound |
| `Sloth.quantity_arithmetic_raises` | propext, Classical.choice, Quot.sound |
| `Sloth.solver_asked_for` | propext, Classical.choice, Quot.sound |
| `Sloth.unknown_solver_refused` | propext, Classical.choice, Quot.sound |
| `Sloth.arg_names_after` | propext, Classical.choice, Quot.sound |
| `Sloth.dynamic_results` | propext, Classical.choice, Quot.sound |
| `Sloth.reported_values_solve_partial` | propext, Classical.choice, Quot.sound |
| `Sloth.reported_values_violate_equalities` | propext, Classical.choice, Quot.sound |
| `Sloth.Opt.study_settings` | propext, Classical.choice, Quot.sound |
| `Sloth.Opt.study_without_settings` | propext, Classical.choice, Quot.sound |
| `Sloth.model_report` | propext, Classical.choice, Quot.sound |
| `Sloth.report_of_statement_partial` | propext, Classical.choice, Quot.sound |
| `Sloth.problem_report` | propext, Classical.choice, Quot.sound |
| `Sloth.problem_report_unresolved` | propext |
| `Sloth.sim_report` | propext, Classical.choice, Quot.sound |
| `Sloth.report_omits_independent_variable` | propext, Classical.choice, Quot.sound |
| `Sloth.design_freedom_partial` | propext, Classical.choice, Quot.sound |
| `Sloth.design_freedom_sign` | propext, Classical.choice, Quot.sound |
| `Sloth.design_freedom_counts_specified` | propext, Classical.choice, Quot.sound |
| `Sloth.overview_partial` | propext, Classical.choice, Quot.sound |
| `Sloth.overview_repeats` | propext, Classical.choice, Quot.sound |
| `Sloth.shown_after_run_partial` | propext, Classical.choice, Quot.sound |
| `Sloth.shown_series` | propext, Quot.sound |
| `Sloth.shown_before_run` | propext, Quot.sound |
| `Sloth.dynamic_results_not_shown` | propext, Classical.choice, Quot.sound |
| `Sloth.dump_iff` | propext, Quot.sound |
| `Sloth.dump_load` | propext, Classical.choice, Quot.sound |
| `Sloth.broken_file_refused` | propext, Quot.sound |
| `Sloth.dump_destroys_saved` | propext, Classical.choice, Quot.sound |
| `Sloth.plot_columns` | propext, Classical.choice, Quot.sound |
| `Sloth.plot_unknown` | propext, Classical.choice, Quot.sound |
| `Sloth.plot_without_labels` | propext, Classical.choice, Quot.sound |
| `Sloth.dae_function_partial` | propext, Classical.choice, Quot.sound |
| `Sloth.dae_system_partial` | propext, Classical.choice, Quot.sound |
| `Sloth.dae_aligned_partial` | propext, Classical.choice, Quot.sound |
| `Sloth.dae_run_partial` | propext, Classical.choice, Quot.sound |
| `Sloth.dae_compiles_iff` | propext, Quot.sound |
| `Sloth.dae_unplaced_fails` | propext, Quot.sound |
| `Sloth.dae_ignores_time` | propext, Classical.choice, Quot.sound |
| `Sloth.dae_coefficient_fails` | propext, Quot.sound |
| `Sloth.dae_never_solved` | propext, Classical.choice, Quot.sound |
| `Sloth.dae_derivatives_misplaced` | propext, Classical.choice, Quot.sound |
| `Sloth.dae_repeated_derivative` | propext, Classical.choice, Quot.sound |
| `Sloth.linear_problem_affine_partial` | propext, Classical.choice, Quot.sound |
| `Sloth.linear_system_partial` | propext, Classical.choice, Quot.sound |
| `Sloth.linear_problem_not_linear` | propext, Classical.choice, Quot.sound |
| `Sloth.refused_expression_told_partial` | propext, Classical.choice, Quot.sound |
| `Sloth.power_error_unprintable` | propext, Classical.choice, Quot.sound |
| `Sloth.setValue_message` | propext, Classical.choice, Quot.sound |
| `Sloth.setValue_message_same` | propext, Classical.choice, Quot.sound |
| `Sloth.other_operand_message` | propext, Classical.choice, Quot.sound |
| `Sloth.printing_harmless_partial` | propext, Classical.choice, Quot.sound |
| `Sloth.quiet_run_same` | propext, Classical.choice, Quot.sound |
| `Sloth.printing_loses_results` | propext, Classical.choice, Quot.sound |
| `Sloth.expr_scales_partial` | propext, Classical.choice, Quot.sound |
| `Sloth.equation_units_partial` | propext, Classical.choice, Quot.sound |
| `Sloth.literal_depends_on_units` | propext, Classical.choice, Quot.sound |
| `Sloth.power_depends_on_units` | propext, Classical.choice, Quot.sound |
| `Sloth.differential_residual_form` | propext, Classical.choice, Quot.sound |
| `Sloth.nameless_equations_differ` | propext, Classical.choice, Quot.sound |
| `Sloth.nameless_connections_differ` | propext, Classical.choice, Quot.sound |
| `Sloth.numeric_sides_differ` | propext, Classical.choice, Quot.sound |
| `Sloth.createEquation_names` | propext, Classical.choice, Quot.sound |
| `Sloth.inlet_variables_declared` | propext, Classical.choice, Quot.sound |
| `Sloth.ensureInlet_step` | propext, Classical.choice, Quot.sound |
| `Sloth.other_problems_kept` | propext, Classical.choice, Quot.sound |
| `Sloth.resolve_unaffected_partial` | propext, Classical.choice, Quot.sound |
| `Sloth.problem_calls_independent_partial` | propext, Classical.choice, Quot.sound |
| `Sloth.connection_reaches_other_problem` | propext, Classical.choice, Quot.sound |
| `Sloth.shared_values_partial` | propext, Classical.choice, Quot.sound |
| `Sloth.run_determined` | propext, Classical.choice, Quot.sound |
| `Sloth.run_determined_own` | propext, Classical.choice, Quot.sound |
| `Sloth.called_with_usable_settings` | propext, Classical.choice, Quot.sound |
| `Sloth.residual_form_refused` | propext, Classical.choice, Quot.sound |
| `Sloth.residual_raises` | propext, Classical.choice, Quot.sound |
| `Sloth.values_reach_solver` | propext, Classical.choice, Quot.sound |
| `Sloth.values_reach_solver_use` | propext, Classical.choice, Quot.sound |
| `Sloth.outside_values_ignored` | propext, Classical.choice, Quot.sound |
| `Sloth.declared_quantity` | propext, Classical.choice, Quot.sound |
| `Sloth.declared_value_ignored` | propext, Classical.choice, Quot.sound |
| `Sloth.zero_division_undefined` | propext, Classical.choice, Quot.sound |
| `Sloth.accepted_arithmetic_defined` | propext, Classical.choice, Quot.sound |
| `Sloth.zero_divisor_accepted` | propext, Classical.choice, Quot.sound |
| `Sloth.ratEval_sound` | propext, Classical.choice, Quot.sound |
| `Sloth.model_order_partial` | propext, Classical.choice, Quot.sound |
| `Sloth.model_order_called_partial` | propext, Classical.choice, Quot.sound |
| `Sloth.model_order_matters` | propext, Classical.choice, Quot.sound |
| `Sloth.reading_order_matters` | propext, Classical.choice, Quot.sound |
| `Sloth.model_modular` | propext, Classical.choice, Quot.sound |
| `Sloth.modular_unnamed` | propext, Classical.choice, Quot.sound |
| `Sloth.texts_and_bounds_irrelevant` | propext, Classical.choice, Quot.sound |
| `Sloth.report_texts` | propext, Classical.choice, Quot.sound |
| `Sloth.raises_only` | propext, Classical.choice, Quot.sound |
| `Sloth.raises_only_listed` | propext, Classical.choice, Quot.sound |
| `Sloth.Lib.stream_quantities` | propext, Classical.choice, Quot.sound |
| `Sloth.Lib.outlet_equations` | propext, Classical.choice, Quot.sound |
| `Sloth.Lib.inlets_fixed` | propext, Classical.choice, Quot.sound |
| `Sloth.Lib.fluxes_fixed` | propext, Classical.choice, Quot.sound |
| `Sloth.Lib.foreign_outlet_refused` | propext, Classical.choice, Quot.sound |
| `Sloth.run_ends_as_solver` | propext, Classical.choice, Quot.sound |
| `Sloth.standard_settings` | propext, Quot.sound |
| `Sloth.wellposed_run` | propext, Classical.choice, Quot.sound |
| `Sloth.residuals_of_number_raise` | propext, Classical.choice, Quot.sound |
| `Sloth.run_ends_as_integrator` | propext, Classical.choice, Quot.sound |
| `Sloth.timed_settings` | propext, Quot.sound |
| `Sloth.fresh_domain` | propext, Quot.sound |
| `Sloth.configure_args` | propext, Quot.sound |
| `Sloth.expr_accepted` | propext, Classical.choice, Quot.sound |
| `Sloth.call_accepted` | propext, Classical.choice, Quot.sound |
| `Sloth.resolve_accepted` | propext, Classical.choice, Quot.sound |
| `Sloth.careful_sessions_return` | propext, Classical.choice, Quot.sound |
| `Sloth.careful_run_reports` | propext, Classical.choice, Quot.sound |
| `Sloth.register_refused_iff` | propext, Quot.sound |
| `Sloth.rename_refused_iff` | propext |
| `Sloth.read_refused_iff` | propext, Classical.choice, Quot.sound |
| `Sloth.results_refused_iff` | propext, Classical.choice, Quot.sound |
| `Sloth.Pkg.package_refused_iff` | propext, Classical.choice, Quot.sound |
| `Sloth.Pkg.sum_refused_iff` | propext, Quot.sound |
| `Sloth.Pkg.sum_other_refused` | propext |
| `Sloth.Pkg.calculate_refused_iff` | propext, Classical.choice, Quot.sound |
| `Sloth.Pkg.chemical_refused_iff` | propext |
| `Sloth.Pkg.condition_refused_iff` | propext |
| `Sloth.Opt.study_refused_iff` | propext, Classical.choice, Quot.sound |
| `Sloth.Opt.params_refused_iff` | propext, Classical.choice, Quot.sound |
| `Sloth.Opt.bounds_refused_iff` | propext, Classical.choice, Quot.sound |
| `Sloth.Opt.run_refused_iff` | propext, Classical.choice, Quot.sound |
| `Sloth.bystanders_no_influence` | propext, Classical.choice, Quot.sound |
| `Sloth.meddling_influences` | propext, Classical.choice, Quot.sound |
| `Sloth.numeric_functions_partial` | propext, Quot.sound |
| `Sloth.numeric_functions_refuse_all` | propext, Quot.sound |
| `Sloth.graph_lists_partial` | propext |
| `Sloth.refused_edge_listed` | propext |
| `Sloth.headings_stay_hidden` | propext |
| `Sloth.sessions_linked` | propext, Classical.choice, Quot.sound |
| `Sloth.never_dangling` | propext, Classical.choice, Quot.sound |
| `Sloth.simulations_linked` | propext, Classical.choice, Quot.sound |
| `Sloth.simulations_raise_only` | propext, Classical.choice, Quot.sound |
| `Sloth.simulations_never_dangling` | propext, Classical.choice, Quot.sound |
| `Sloth.Opt.every_evaluation` | propext, Classical.choice, Quot.sound |
| `Sloth.Opt.study_finds_best_solution_partial` | propext, Classical.choice, Quot.sound |
| `Sloth.Opt.studies_linked` | propext, Classical.choice, Quot.sound |
| `Sloth.Opt.studies_raise_only` | propext, Classical.choice, Quot.sound |
| `Sloth.Opt.script_studies_raise_only` | propext, Classical.choice, Quot.sound |
| `Sloth.Opt.results_raise_only` | propext, Quot.sound |
| `Sloth.line_text_partial` | propext, Classical.choice, Quot.sound |
| `Sloth.tex_text_partial` | propext, Classical.choice, Quot.sound |
| `Sloth.sum_times_text` | propext, Classical.choice, Quot.sound |
| `Sloth.text_ambiguous` | propext, Classical.choice, Quot.sound |
| `Sloth.extremum_texts` | propext, Classical.choice, Quot.sound |
| `Sloth.one_problem_view` | propext, Classical.choice, Quot.sound |
| `Sloth.problem_names` | propext, Classical.choice, Quot.sound |
| `Sloth.several_raise_only` | propext, Classical.choice, Quot.sound |
| `Sloth.several_never_dangling` | propext, Classical.choice, Quot.sound |
| `Sloth.several_raise_listed` | propext, Classical.choice, Quot.sound |
| `Sloth.call_leaves` | propext, Classical.choice, Quot.sound |
| `Sloth.runs_independent` | propext, Classical.choice, Quot.sound |
| `Sloth.shared_domain_disturbs` | propext, Classical.choice, Quot.sound |
| `Sloth.run_without_problem` | propext, Classical.choice, Quot.sound |
| `Sloth.configure_without_problem` | propext, Classical.choice, Quot.sound |
| `Sloth.results_survive_problem` | propext, Classical.choice, Quot.sound |
| `Sloth.one_problem_sessions` | propext, Classical.choice, Quot.sound |
| `Sloth.several_simulations_raise` | propext, Classical.choice, Quot.sound |
| `Sloth.run_solves` | propext, Classical.choice, Quot.sound |
| `Sloth.Lib.solved_pump` | propext, Classical.choice, Quot.sound |
| `Sloth.Lib.solved_heater` | propext, Classical.choice, Quot.sound |
| `Sloth.Lib.unit_stating` | propext, Classical.choice, Quot.sound |
| `Sloth.Lib.solved_pump_use` | propext, Classical.choice, Quot.sound |
| `Sloth.Lib.solved_mixer` | propext, Classical.choice, Quot.sound |
| `Sloth.stored_solved` | propext, Classical.choice, Quot.sound |
| `Sloth.Lib.solved_mixer_use` | propext, Classical.choice, Quot.sound |
| `Sloth.Lib.mixer_ignores_values` | propext, Classical.choice, Quot.sound |
| `Sloth.Lib.unit_ports` | propext, Classical.choice, Quot.sound |
| `Sloth.Lib.unit_names_partial` | propext, Classical.choice, Quot.sound |
| `Sloth.Lib.bad_phase` | propext, Classical.choice, Quot.sound |
| `Sloth.Lib.flash_fractions_confused` | propext, Classical.choice, Quot.sound |
| `Sloth.connection_states` | propext, Classical.choice, Quot.sound |
| `Sloth.entry_solved` | propext, Classical.choice, Quot.sound |
| `Sloth.connected_agree` | propext, Classical.choice, Quot.sound |
| `Sloth.connected_equal` | propext, Classical.choice, Quot.sound |
| `Sloth.connected_equal_use` | propext, Classical.choice, Quot.sound |
| `Sloth.Ex.tardyLib_sound` | propext, Classical.choice, Quot.sound |
| `Sloth.connected_value_ignored` | propext, Classical.choice, Quot.sound |
| `Sloth.Lib.unit_passes` | propext, Classical.choice, Quot.sound |
| `Sloth.Lib.linked_unit` | propext, Classical.choice, Quot.sound |
| `Sloth.Lib.link_passes` | propext, Classical.choice, Quot.sound |
| `Sloth.Lib.line_conserves` | propext, Classical.choice, Quot.sound |
| `Sloth.Lib.line_energy` | propext, Classical.choice, Quot.sound |
| `Sloth.Lib.Ex.lineLib_sound` | propext, Classical.choice, Quot.sound |
| `Sloth.Lib.line_conserves_use` | propext, Classical.choice, Quot.sound |
| `Sloth.Lib.given_fluxes_unchecked` | propext, Classical.choice, Quot.sound |
| `Sloth.Lib.stream_fluxes` | propext, Classical.choice, Quot.sound |
| `Sloth.Lib.fluxes_agree_partial` | propext, Classical.choice, Quot.sound |
| `Sloth.Lib.changed_flux_not_converted` | propext, Classical.choice, Quot.sound |
| `Sloth.Lib.fluxes_agree_use` | propext, Classical.choice, Quot.sound |
| `Sloth.table_times_partial` | propext, Classical.choice, Quot.sound |
| `Sloth.dae_times_disagree` | propext, Classical.choice, Quot.sound |
| `Sloth.d_recorded` | propext, Classical.choice, Quot.sound |
| `Sloth.dae_recorded` | propext, Quot.sound |
| `Sloth.asked_times_partial` | propext, Classical.choice, Quot.sound |
| `Sloth.equallySpaced_covers` | propext, Classical.choice, Quot.sound |
| `Sloth.run_covers` | propext, Classical.choice, Quot.sound |
| `Sloth.dae_times_ignored` | propext, Classical.choice, Quot.sound |
| `Sloth.no_steps` | propext, Classical.choice, Quot.sound |
| `Sloth.d_asked` | propext, Classical.choice, Quot.sound |
| `Sloth.default_run_covers` | propext, Classical.choice, Quot.sound |
| `Sloth.run_appends` | propext, Classical.choice, Quot.sound |
| `Sloth.run_keeps_rows` | propext, Classical.choice, Quot.sound |
| `Sloth.runs_keep_rows` | propext, Classical.choice, Quot.sound |
| `Sloth.record_appends` | propext, Quot.sound |
| `Sloth.d_records` | propext, Classical.choice, Quot.sound |
| `Sloth.dae_records` | propext, Quot.sound |
