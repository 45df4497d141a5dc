{
 "claims": [
  {
   "property": "C01",
   "status": "proved",
   "theorems": [
    "Sloth.unit_mul_adds_exponents",
    "Sloth.unit_number_operand"
   ],
   "note": "All dimension names, all reachable units."
  },
  {
   "property": "C02",
   "status": "partial",
   "theorems": [
    "Sloth.unit_div_subtracts_exponents_partial",
    "Sloth.unit_div_subtracts_exponents_si",
    "Sloth.unit_div_drops_custom_dimension"
   ],
   "note": "Holds for every SI unit and for every dimension name of the denominator. The full claim is false of the code: a user-defined dimension that only the numerator has is dropped (negation proved by witness)."
  },
  {
   "property": "C03",
   "status": "proved",
   "theorems": [
    "Sloth.unit_pow_scales_exponents"
   ],
   "note": ""
  },
  {
   "property": "C04",
   "status": "proved",
   "theorems": [
    "Sloth.unit_expr_denotes_vector",
    "Sloth.unit_expr_coherent_iff",
    "Sloth.unit_group_laws"
   ],
   "note": ""
  },
  {
   "property": "C05",
   "status": "proved",
   "theorems": [
    "Sloth.unit_add_sub_gate",
    "Sloth.unit_coherence_equivalence",
    "Sloth.unit_coherence_custom_asymmetric"
   ],
   "note": "Proved for SI units as stated; the third theorem shows the restriction to SI is needed."
  },
  {
   "property": "C06",
   "status": "proved",
   "theorems": [
    "Sloth.unit_table_wellformed",
    "Sloth.unit_si_check_never_raises"
   ],
   "note": ""
  },
  {
   "property": "C07",
   "status": "proved",
   "theorems": [
    "Sloth.unit_dimensionless_iff",
    "Sloth.unit_str_lists_nonzero",
    "Sloth.unit_str_empty_iff_dimensionless"
   ],
   "note": ""
  },
  {
   "property": "C56",
   "status": "proved",
   "theorems": [
    "Sloth.template_units_dimension"
   ],
   "note": "Finite table, computed by the kernel."
  },
  {
   "property": "C08",
   "status": "partial",
   "theorems": [
    "Sloth.setValue_gate_partial",
    "Sloth.setValue_float_ignores_unit"
   ],
   "note": "The gate holds for quantities and integers; a float with an explicit unit is stored without any check (negation proved by witness)."
  },
  {
   "property": "C09",
   "status": "proved",
   "theorems": [
    "Sloth.setValue_history",
    "Sloth.constructed_history"
   ],
   "note": ""
  },
  {
   "property": "C10",
   "status": "partial",
   "theorems": [
    "Sloth.expr_dimension_partial",
    "Sloth.expr_unit_si",
    "Sloth.expr_sum_gate",
    "Sloth.expr_refused_partial",
    "Sloth.expr_power_dimension_wrong"
   ],
   "note": "All expressions whose powers are plain numbers. The full claim is false of the code for powers with a node exponent (negation proved)."
  },
  {
   "property": "C11",
   "status": "proved",
   "theorems": [
    "Sloth.expr_value",
    "Sloth.expr_repr_value"
   ],
   "note": ""
  },
  {
   "property": "C12",
   "status": "proved",
   "theorems": [
    "Sloth.reflected_operators"
   ],
   "note": ""
  },
  {
   "property": "C13",
   "status": "partial",
   "theorems": [
    "Sloth.expr_maps_partial",
    "Sloth.expr_names_partial",
    "Sloth.diff_omits_independent_variable"
   ],
   "note": "Every quantity of the expression except the independent variable of a derivative, which the code leaves out (negation proved)."
  },
  {
   "property": "C14",
   "status": "proved",
   "theorems": [
    "Sloth.expr_one_class"
   ],
   "note": ""
  },
  {
   "property": "C15",
   "status": "partial",
   "theorems": [
    "Sloth.linear_is_affine_partial",
    "Sloth.linear_everywhere_partial",
    "Sloth.linear_flag_on_reciprocal",
    "Sloth.linear_flag_on_min"
   ],
   "note": "Fails in the code for a specified quantity divided by an unspecified one and for Min/Max (negations proved)."
  },
  {
   "property": "C16",
   "status": "partial",
   "theorems": [
    "Sloth.differential_only_with_derivative",
    "Sloth.derivative_is_differential_partial",
    "Sloth.derivative_not_flagged"
   ],
   "note": "One direction in full. The other fails in the code for products of a derivative with an unknown and for functions of a derivative (negation proved)."
  },
  {
   "property": "C17",
   "status": "partial",
   "theorems": [
    "Sloth.function_arguments",
    "Sloth.function_of_number_raises"
   ],
   "note": "All node arguments. A plain number argument raises NameError in the code."
  },
  {
   "property": "C18",
   "status": "partial",
   "theorems": [
    "Sloth.minmax_partial",
    "Sloth.minmax_of_nodes_raises",
    "Sloth.minmax_mixes_dimensions"
   ],
   "note": "Calls with at least one number. Calls with nodes only always raise (negation proved), and mixed calls accept different dimensions (negation proved)."
  },
  {
   "property": "C19",
   "status": "proved",
   "theorems": [
    "Sloth.diff_node_properties"
   ],
   "note": ""
  },
  {
   "property": "C20",
   "status": "proved",
   "theorems": [
    "Sloth.equation_residual",
    "Sloth.equation_sides",
    "Sloth.equation_call"
   ],
   "note": ""
  },
  {
   "property": "C21",
   "status": "proved",
   "theorems": [
    "Sloth.equation_coherent"
   ],
   "note": "Units reachable from SI base units."
  },
  {
   "property": "C22",
   "status": "partial",
   "theorems": [
    "Sloth.generated_names_partial",
    "Sloth.generated_names_clash_across_threads",
    "Sloth.genRndStr_is_run"
   ],
   "note": "Within a thread all generated names differ, for every interleaving. Across threads two equations can get the same name (negation proved)."
  },
  {
   "property": "C23",
   "status": "proved",
   "theorems": [
    "Sloth.equation_kind"
   ],
   "note": ""
  },
  {
   "property": "C24",
   "status": "partial",
   "theorems": [
    "Sloth.equation_rename_partial",
    "Sloth.rename_chain_merges_variables",
    "Sloth.rename_numeric_side_raises"
   ],
   "note": "Renamings without chains. A chained renaming merges two variables and an equation with a numeric side cannot be renamed (negations proved)."
  },
  {
   "property": "C57",
   "status": "partial",
   "theorems": [
    "Sloth.restated_equation_partial",
    "Sloth.restated_equation_is_stale"
   ],
   "note": "Holds when the second statement is an equality. Restating an equality by an expression leaves the old right side in place (negation proved)."
  },
  {
   "property": "C58",
   "status": "proved",
   "theorems": [
    "Sloth.compiled_function",
    "Sloth.unknown_mechanism"
   ],
   "note": ""
  },
  {
   "property": "C25",
   "status": "partial",
   "theorems": [
    "Sloth.accepted_equations_declared_partial",
    "Sloth.equation_check_iff",
    "Sloth.undeclared_independent_variable"
   ],
   "note": "Every quantity of the statement except the independent variable of a derivative, which the code does not check (negation proved)."
  },
  {
   "property": "C26",
   "status": "proved",
   "theorems": [
    "Sloth.rejected_equation_changes_nothing",
    "Sloth.rejected_equation_in_body"
   ],
   "note": ""
  },
  {
   "property": "C27",
   "status": "partial",
   "theorems": [
    "Sloth.declared_names_partial",
    "Sloth.names_of_different_models",
    "Sloth.names_of_models_clash",
    "Sloth.variable_and_parameter_share_name"
   ],
   "note": "One dictionary of one model. Two models can clash through underscores, and a variable and a parameter can share a name (negations proved)."
  },
  {
   "property": "C28",
   "status": "partial",
   "theorems": [
    "Sloth.incorporate_copies_partial",
    "Sloth.handed_copy_partial",
    "Sloth.incorporate_exposed_raises",
    "Sloth.incorporate_exposed_leaves_copies",
    "Sloth.incorporate_unnamed_source",
    "Sloth.incorporate_merges_variables",
    "Sloth.incorporate_overwrites_own_variable"
   ],
   "note": "Sources without exposed variables and names without underscore chains. Exposed variables raise and leave the copies made before, a source without a name raises when it has equations, chained names merge variables and own variables of the same name are replaced (negations proved)."
  },
  {
   "property": "C29",
   "status": "proved",
   "theorems": [
    "Sloth.exposed_recorded",
    "Sloth.exposed_bad_type"
   ],
   "note": ""
  },
  {
   "property": "C30",
   "status": "partial",
   "theorems": [
    "Sloth.inlets_registered_partial",
    "Sloth.inlets_leak_between_models",
    "Sloth.inlets_set_twice_duplicate"
   ],
   "note": "First call on a model with its own ports. The default ports dictionary is shared between models and a second call duplicates (negations proved)."
  },
  {
   "property": "C31",
   "status": "proved",
   "theorems": [
    "Sloth.connection_balances",
    "Sloth.connection_explicit",
    "Sloth.connection_expressions"
   ],
   "note": ""
  },
  {
   "property": "C32",
   "status": "partial",
   "theorems": [
    "Sloth.connection_requires_exposed",
    "Sloth.connection_not_exposed",
    "Sloth.connection_succeeds",
    "Sloth.connection_empty",
    "Sloth.connection_not_exposed_lists",
    "Sloth.connection_not_model",
    "Sloth.connection_not_model_leaves"
   ],
   "note": "Single variables; the source must be a model. For lists of variables an unexposed one gives AttributeError instead of ExposedVariableError (negation proved); no variables at all are refused with UnexpectedValueError."
  },
  {
   "property": "C33",
   "status": "partial",
   "theorems": [
    "Sloth.connections_accumulate_partial",
    "Sloth.connections_of_expressions_overwrite"
   ],
   "note": "Connections of variables, no two with the same names on both sides. For connections of expressions the second replaces the first (negation proved)."
  },
  {
   "property": "C34",
   "status": "proved",
   "theorems": [
    "Sloth.groups_partition",
    "Sloth.resolved_groups"
   ],
   "note": ""
  },
  {
   "property": "C35",
   "status": "proved",
   "theorems": [
    "Sloth.problem_kind",
    "Sloth.resolved_kind",
    "Sloth.createSolver_kind",
    "Sloth.solver_class"
   ],
   "note": ""
  },
  {
   "property": "C36",
   "status": "partial",
   "theorems": [
    "Sloth.block_variables",
    "Sloth.variables_declared_late_missing"
   ],
   "note": "Exact description of the variable list in terms of the dictionary the problem collected when models were added; variables declared after that are missing (negation proved)."
  },
  {
   "property": "C37",
   "status": "partial",
   "theorems": [
    "Sloth.dof_square_partial",
    "Sloth.dof_counts_fixed_variables",
    "Sloth.dof_time_by_substring",
    "Sloth.dof_time_missed",
    "Sloth.dof_needs_time_name"
   ],
   "note": "Exact verdict in terms of what the code counts. Fixed variables are counted as unknowns and time is searched for by text (negations proved)."
  },
  {
   "property": "C49",
   "status": "partial",
   "theorems": [
    "Sloth.solved_system_partial",
    "Sloth.handed_expression",
    "Sloth.handed_copy_partial",
    "Sloth.solved_system_drops_left_sides",
    "Sloth.compiled_block",
    "Sloth.root_function"
   ],
   "note": "Problems whose equations are stated as residuals, in all sessions, copied equations included. For equalities the left side is dropped (negation proved)."
  },
  {
   "property": "C38",
   "status": "proved",
   "theorems": [
    "Sloth.models_flattened",
    "Sloth.models_snapshot"
   ],
   "note": ""
  },
  {
   "property": "C39",
   "status": "proved",
   "theorems": [
    "Sloth.initial_last_write_wins"
   ],
   "note": ""
  },
  {
   "property": "C53",
   "status": "partial",
   "theorems": [
    "Sloth.resolve_twice_partial",
    "Sloth.resolve_twice_bare_partial",
    "Sloth.resolve_twice_adds_equations",
    "Sloth.resolve_twice_exposes_again",
    "Sloth.resolve_loses_values"
   ],
   "note": "Names of declarations for models with named equations and no inlets; nothing at all changes for models declared from outside. Unnamed equations and exposure lists grow and values are lost (negations proved)."
  },
  {
   "property": "C59",
   "status": "proved",
   "theorems": [
    "Sloth.model_with_inlets_never_resolves"
   ],
   "note": ""
  },
  {
   "property": "C43",
   "status": "partial",
   "theorems": [
    "Sloth.domain_keeps_rows_partial",
    "Sloth.register_twice",
    "Sloth.register_twice_loses_names",
    "Sloth.register_twice_refused"
   ],
   "note": "Proved for all call sequences with at most one registration per variable between two settings of the domain; a further registration is refused or loses the column names (exact characterisation and witnesses proved)."
  },
  {
   "property": "C40",
   "status": "partial",
   "theorems": [
    "Sloth.settings_from_dict",
    "Sloth.settings_from_args",
    "Sloth.settings_unknown_refused",
    "Sloth.settings_file_drops_defaults",
    "Sloth.settings_argument_beats_dict"
   ],
   "note": "Settings from arguments and from a dictionary are described key by key. A configuration file drops all defaults and one argument beats the dictionary (negations proved)."
  },
  {
   "property": "C42",
   "status": "proved",
   "theorems": [
    "Sloth.solver_called_only_if_square",
    "Sloth.sanity_ok"
   ],
   "note": ""
  },
  {
   "property": "C51",
   "status": "partial",
   "theorems": [
    "Sloth.create_keeps_problem_partial",
    "Sloth.create_changes_at_most_tail",
    "Sloth.dae_solver_changes_group"
   ],
   "note": "Creating a solver leaves the problem unchanged except for the implicit class, which appends to the linear group (negation proved)."
  },
  {
   "property": "C54",
   "status": "partial",
   "theorems": [
    "Sloth.configured_type_partial",
    "Sloth.configured_type_refused",
    "Sloth.unresolved_run_refused",
    "Sloth.configured_type_ignored"
   ],
   "note": "Unknown types are refused, resolved or not. A configured type equal to the kind of the problem. Any other configured type is ignored in the choice of the solver (negation proved)."
  },
  {
   "property": "C41",
   "status": "partial",
   "theorems": [
    "Sloth.results_under_names",
    "Sloth.run_reports",
    "Sloth.failed_solve_raises",
    "Sloth.sympy_failure_is_index_error"
   ],
   "note": "All mechanisms for returned results; failure of the numerical library raises NumericalError. SymPy's solver without solution raises IndexError instead (negation proved)."
  },
  {
   "property": "C52",
   "status": "partial",
   "theorems": [
    "Sloth.status_partial",
    "Sloth.status_of_no_results"
   ],
   "note": "Status is returned exactly if results are available; it is 0 even for empty results (negation proved)."
  },
  {
   "property": "C55",
   "status": "proved",
   "theorems": [
    "Sloth.results_dict_and_list",
    "Sloth.results_order_differs"
   ],
   "note": "Algebraic problems (differential ones return the tables of the domain). The list is in the order of the output, not of the sorted dictionary."
  },
  {
   "property": "C60",
   "status": "partial",
   "theorems": [
    "Sloth.run_leaves_others_partial",
    "Sloth.simulations_share_arguments"
   ],
   "note": "Everything but the shared default list of argument names (negation proved)."
  },
  {
   "property": "C61",
   "status": "partial",
   "theorems": [
    "Sloth.run_keeps_problem_partial",
    "Sloth.ode_run_extends_unknowns"
   ],
   "note": "Everything but the list of unknowns and the linear group; for algebraic problems everything (negations proved, see also C51)."
  },
  {
   "property": "C62",
   "status": "partial",
   "theorems": [
    "Sloth.run_again_partial",
    "Sloth.run_after_reset_partial",
    "Sloth.second_dynamic_run_refused"
   ],
   "note": "Algebraic problems. For differential problems the second run is refused by the domain (negation proved); after a reset it repeats the first, if the first recorded in a domain without tables of its own and did not extend the list of unknowns."
  },
  {
   "property": "C50",
   "status": "partial",
   "theorems": [
    "Sloth.ode_function_partial",
    "Sloth.ode_solution_partial",
    "Sloth.ode_run_partial",
    "Sloth.created_sides",
    "Sloth.ode_fixed_variable",
    "Sloth.ode_time_missed",
    "Sloth.ode_time_substring",
    "Sloth.ode_unspecified_parameter",
    "Sloth.ode_left_side_ignored"
   ],
   "note": "Function, integration and whole run for closed explicit systems, compiled or interpreted. Fixed variables (compiled), time alone on a right side and names containing the name of time break it (negations proved)."
  },
  {
   "property": "C44",
   "status": "partial",
   "theorems": [
    "Sloth.Pkg.add_union",
    "Sloth.Pkg.union_nodup",
    "Sloth.Pkg.add_idempotent",
    "Sloth.Pkg.add_twice",
    "Sloth.Pkg.add_assoc",
    "Sloth.Pkg.session_add",
    "Sloth.Pkg.session_calculate",
    "Sloth.Pkg.default_list_shared",
    "Sloth.Pkg.add_changes_left",
    "Sloth.Pkg.add_keeps_count",
    "Sloth.Pkg.add_shares_chemicals"
   ],
   "note": "Union, idempotence and associativity for packages that do not share a list of names. Packages made without names share the default list (negation proved); addition changes its left operand."
  },
  {
   "property": "C45",
   "status": "partial",
   "theorems": [
    "Sloth.Opt.direction_partial",
    "Sloth.Opt.best_within_constraints",
    "Sloth.Opt.direction_and_problem_bounds_unused",
    "Sloth.Opt.direction_argument_ignored",
    "Sloth.Opt.other_constraints_never_run",
    "Sloth.Opt.maximization_returns_minimum",
    "Sloth.Opt.problem_bounds_ignored"
   ],
   "note": "The bounds used are the constraints of the study in every run. The comparison follows the attribute once it is assigned, but the arguments asking for maximization are ignored, the comparison is never used, and bounds of the problem are overwritten (proved for all sessions, with witnesses)."
  },
  {
   "property": "C46",
   "status": "proved",
   "theorems": [
    "Sloth.Opt.results_recorded",
    "Sloth.Opt.results_before_run",
    "Sloth.Opt.run_ok_answers",
    "Sloth.Opt.unready_rejected",
    "Sloth.Opt.unnamed_rejected",
    "Sloth.Opt.failed_run_has_results"
   ],
   "note": "A run that raises after the optimizer has answered leaves results (shown)."
  },
  {
   "property": "C63",
   "status": "partial",
   "theorems": [
    "Sloth.Opt.opt_settings",
    "Sloth.Opt.opt_algorithm_partial",
    "Sloth.Opt.unknown_optimizer_accepted",
    "Sloth.Opt.no_mechanism_never_runs",
    "Sloth.Opt.neighborhood_and_elitism_unused",
    "Sloth.Opt.optimizer_needs_settings",
    "Sloth.Opt.optimizer_defaults_suffice"
   ],
   "note": "Every setting but the neighbourhood of particle swarms and elitism, which are ignored (negation proved). Unknown optimizers are accepted and then never run (proved)."
  },
  {
   "property": "C47",
   "status": "partial",
   "theorems": [
    "Sloth.Lib.pump_balances",
    "Sloth.Lib.mixer_balances",
    "Sloth.Lib.mixed_last",
    "Sloth.Lib.valve_balances_partial",
    "Sloth.Lib.heater_balances_partial",
    "Sloth.Lib.stream_conversion",
    "Sloth.Lib.heater_phases_never",
    "Sloth.Lib.call_never",
    "Sloth.Lib.valve_phases_refused",
    "Sloth.Lib.tank_call_never",
    "Sloth.Lib.unit_without_package",
    "Sloth.Lib.mixer_of_sum_leaks",
    "Sloth.Lib.mixer_fluxes_independent",
    "Sloth.Lib.fracVars_refused"
   ],
   "note": "Solutions of the equations of pumps and mixers are exactly the balances, for any phases; valves, heaters and coolers with one phase. With more phases, and for tanks, fermenters and flash drums, creating or calling always raises (proved). Mass and molar fluxes are only tied in streams, and a mixer of added packages leaks (negations proved)."
  },
  {
   "property": "C48",
   "status": "proved",
   "theorems": [
    "Sloth.Lib.library_coherent",
    "Sloth.Lib.streams_coherent"
   ],
   "note": ""
  },
  {
   "property": "C64",
   "status": "proved",
   "theorems": [
    "Sloth.Lib.unitop_resolve_raises",
    "Sloth.Lib.totalizeInlets_never",
    "Sloth.Lib.unitop_lists_replaced"
   ],
   "note": ""
  },
  {
   "property": "C65",
   "status": "proved",
   "theorems": [
    "Sloth.domain_read",
    "Sloth.domain_read_unknown",
    "Sloth.domain_read_session",
    "Sloth.renamed_columns",
    "Sloth.renamed_read"
   ],
   "note": "Sessions with at most one registration per variable between two settings of the domain (see C43 for others)."
  },
  {
   "property": "C66",
   "status": "proved",
   "theorems": [
    "Sloth.start_linear",
    "Sloth.start_nonlinear",
    "Sloth.start_incomplete",
    "Sloth.root_function"
   ],
   "note": "An unknown polisher is silently ignored (part of the statement of start_nonlinear)."
  },
  {
   "property": "C67",
   "status": "partial",
   "theorems": [
    "Sloth.run_needs_initial_time",
    "Sloth.initial_time_missing",
    "Sloth.dae_time_from_problem"
   ],
   "note": "For implicit systems whose name of time is taken from the problem the run always raises, whatever the initial values (negation proved); the exception is then TypeError."
  },
  {
   "property": "C68",
   "status": "proved",
   "theorems": [
    "Sloth.dae_initial_values"
   ],
   "note": "A 0 is appended to the initial derivatives (part of the statement)."
  },
  {
   "property": "C69",
   "status": "partial",
   "theorems": [
    "Sloth.Pkg.new_chemicals",
    "Sloth.Pkg.set_conditions",
    "Sloth.Pkg.calculated_conditions",
    "Sloth.Pkg.set_conditions_unused"
   ],
   "note": "Everything but the use of the conditions set: removing all set_T and set_P calls from any session changes no chemical (negation proved)."
  },
  {
   "property": "C70",
   "status": "proved",
   "theorems": [
    "Sloth.quantity_arithmetic_raises"
   ],
   "note": ""
  },
  {
   "property": "C71",
   "status": "proved",
   "theorems": [
    "Sloth.solver_asked_for",
    "Sloth.unknown_solver_refused"
   ],
   "note": ""
  },
  {
   "property": "C72",
   "status": "proved",
   "theorems": [
    "Sloth.arg_names_after"
   ],
   "note": ""
  },
  {
   "property": "C73",
   "status": "proved",
   "theorems": [
    "Sloth.dynamic_results"
   ],
   "note": ""
  },
  {
   "property": "C74",
   "status": "partial",
   "theorems": [
    "Sloth.reported_values_solve_partial",
    "Sloth.reported_values_violate_equalities"
   ],
   "note": "Holds for equations written as expressions understood to be zero. For equalities only the right side is solved for; a run with an exact library reports values that violate x == 2*y (negation proved)."
  },
  {
   "property": "C75",
   "status": "proved",
   "theorems": [
    "Sloth.Opt.study_settings",
    "Sloth.Opt.study_without_settings"
   ],
   "note": ""
  },
  {
   "property": "C76",
   "status": "partial",
   "theorems": [
    "Sloth.model_report",
    "Sloth.report_of_statement_partial",
    "Sloth.problem_report",
    "Sloth.problem_report_unresolved",
    "Sloth.sim_report",
    "Sloth.report_omits_independent_variable"
   ],
   "note": "The independent variable of a derivative is not listed (negation proved)."
  },
  {
   "property": "C77",
   "status": "partial",
   "theorems": [
    "Sloth.design_freedom_partial",
    "Sloth.design_freedom_sign",
    "Sloth.design_freedom_counts_specified"
   ],
   "note": "The exact relation is proved; the sign is wrong and specified quantities are counted (negations proved)."
  },
  {
   "property": "C78",
   "status": "partial",
   "theorems": [
    "Sloth.overview_partial",
    "Sloth.overview_repeats"
   ],
   "note": "A variable declared again is listed again (negation proved)."
  },
  {
   "property": "C79",
   "status": "partial",
   "theorems": [
    "Sloth.shown_after_run_partial",
    "Sloth.shown_series",
    "Sloth.shown_before_run",
    "Sloth.dynamic_results_not_shown"
   ],
   "note": "Results of dynamic problems are not shown with the default headers (negation proved)."
  },
  {
   "property": "C80",
   "status": "partial",
   "theorems": [
    "Sloth.dump_iff",
    "Sloth.dump_load",
    "Sloth.broken_file_refused",
    "Sloth.dump_destroys_saved"
   ],
   "note": "The round trip is proved. Settings with a domain cannot be saved, and trying destroys settings saved before (negation proved)."
  },
  {
   "property": "C81",
   "status": "partial",
   "theorems": [
    "Sloth.plot_columns",
    "Sloth.plot_unknown",
    "Sloth.plot_without_labels"
   ],
   "note": "Without labels, the default, no curve is ever drawn (negation proved for all inputs)."
  },
  {
   "property": "C82",
   "status": "partial",
   "theorems": [
    "Sloth.dae_function_partial",
    "Sloth.dae_system_partial",
    "Sloth.dae_aligned_partial",
    "Sloth.dae_run_partial",
    "Sloth.dae_compiles_iff",
    "Sloth.dae_unplaced_fails",
    "Sloth.dae_ignores_time",
    "Sloth.dae_coefficient_fails",
    "Sloth.dae_never_solved",
    "Sloth.dae_derivatives_misplaced",
    "Sloth.dae_repeated_derivative"
   ],
   "note": "The function is proved to be the stated system, with derivatives placed in the order of their occurrence. Derivatives in another order than the unknowns, repeated ones, coefficients, the dependence on time and the lengths of the vectors go wrong (negations proved)."
  },
  {
   "property": "C83",
   "status": "partial",
   "theorems": [
    "Sloth.linear_problem_affine_partial",
    "Sloth.linear_system_partial",
    "Sloth.linear_problem_not_linear"
   ],
   "note": "The whole system handed on, copied equations included, is a linear system that is zero exactly at its solutions. Holds for equations without quotients of a closed by an open expression and without Min/Max of an open one. A problem with the single equation p/x - 1 is called linear though it is not (negation proved)."
  },
  {
   "property": "C84",
   "status": "partial",
   "theorems": [
    "Sloth.refused_expression_told_partial",
    "Sloth.power_error_unprintable",
    "Sloth.setValue_message",
    "Sloth.setValue_message_same",
    "Sloth.other_operand_message"
   ],
   "note": "Sums, differences, functions and values given without a unit. The error of a power with a dimensional exponent cannot be printed, and setting a quantity with a quantity and a unit says that a dimension differs from itself (negations proved for all such powers and calls)."
  },
  {
   "property": "C85",
   "status": "partial",
   "theorems": [
    "Sloth.printing_harmless_partial",
    "Sloth.quiet_run_same",
    "Sloth.printing_loses_results"
   ],
   "note": "Holds when the headers are different names, one for time and one per state. Missing: other headers; by default there are none, and then every dynamic run that is asked to print raises after the numerical solution and keeps nothing (negation proved for all such runs)."
  },
  {
   "property": "C86",
   "status": "partial",
   "theorems": [
    "Sloth.expr_scales_partial",
    "Sloth.equation_units_partial",
    "Sloth.literal_depends_on_units",
    "Sloth.power_depends_on_units"
   ],
   "note": "Holds for expressions that add numbers only to pure numbers (or add zero), with literal powers of dimensional expressions. The package lets numbers take the dimension of what they are added to or equated with, and non-literal powers keep the dimension of the base; such equations depend on the units (negations proved for all of the first kind)."
  },
  {
   "property": "C87",
   "status": "proved",
   "theorems": [
    "Sloth.differential_residual_form"
   ],
   "note": "Nothing in the package calls the conversion."
  },
  {
   "property": "C88",
   "status": "proved",
   "theorems": [
    "Sloth.nameless_equations_differ",
    "Sloth.nameless_connections_differ",
    "Sloth.numeric_sides_differ",
    "Sloth.createEquation_names"
   ],
   "note": "For one thread; across threads see C22. An equation given by hand the name of a number can still coincide with a generated one."
  },
  {
   "property": "C89",
   "status": "proved",
   "theorems": [
    "Sloth.inlet_variables_declared",
    "Sloth.ensureInlet_step"
   ],
   "note": ""
  },
  {
   "property": "C90",
   "status": "partial",
   "theorems": [
    "Sloth.other_problems_kept",
    "Sloth.resolve_unaffected_partial",
    "Sloth.problem_calls_independent_partial",
    "Sloth.connection_reaches_other_problem",
    "Sloth.shared_values_partial"
   ],
   "note": "The claim is false: createConnection stores the connection as an equation of the second model, so other problems with that model get it too (`connection_reaches_other_problem`). Proved: the problem objects themselves are never changed by calls on others; resolving gives the same if the models of the problem are as before and are declared from outside (no declaration methods, no inlets); making problems, adding models, setting conditions and resolving leave the heap of models alone when all models are so declared. For models with methods that state equations (quantities declared elsewhere), whatever problems are made and resolved and whatever models are called in between, a problem resolved afterwards hands on the same values (shared_values_partial). Missing: models that declare quantities in their methods, which are replaced on every resolve (see C53, C93)."
  },
  {
   "property": "C91",
   "status": "proved",
   "theorems": [
    "Sloth.run_determined",
    "Sloth.run_determined_own"
   ],
   "note": "Relative to the solver libraries being functions of their arguments (the parameter `ext`)."
  },
  {
   "property": "C92",
   "status": "proved",
   "theorems": [
    "Sloth.called_with_usable_settings",
    "Sloth.residual_form_refused",
    "Sloth.residual_raises"
   ],
   "note": "The call log of the model records every call of a library routine."
  },
  {
   "property": "C93",
   "status": "partial",
   "theorems": [
    "Sloth.values_reach_solver",
    "Sloth.values_reach_solver_use",
    "Sloth.outside_values_ignored",
    "Sloth.resolve_loses_values",
    "Sloth.declared_quantity",
    "Sloth.declared_value_ignored"
   ],
   "note": "Proved for models whose quantities are declared outside the declaration methods and whose methods only state equations with distinct non-empty names. It fails otherwise: statements made from outside keep the values of the moment they were made (outside_values_ignored), and quantities declared in the methods are replaced by new ones without value (resolve_loses_values). A value given in the declaration itself is stored but never used: the quantity stays an unknown (declared_quantity, declared_value_ignored)."
  },
  {
   "property": "C94",
   "status": "partial",
   "theorems": [
    "Sloth.zero_division_undefined",
    "Sloth.accepted_arithmetic_defined",
    "Sloth.zero_divisor_accepted",
    "Sloth.ratEval_sound"
   ],
   "note": "Raising is always justified, and accepted arithmetic of specified quantities (no functions, literal integer powers) always has a value. With an unspecified quantity in the dividend a known zero divisor is accepted (zero_divisor_accepted): the expression never has a value."
  },
  {
   "property": "C95",
   "status": "partial",
   "theorems": [
    "Sloth.model_order_partial",
    "Sloth.model_order_called_partial",
    "Sloth.model_order_matters",
    "Sloth.reading_order_matters"
   ],
   "note": "proved for models whose declarations were all made from outside (model_order_partial) and for models whose bodies, run again by resolve, read only attributes of the model itself and name their equations (model_order_called_partial); models with inlets cannot be resolved at all (C59); fails for models that share a name (model_order_matters) and for bodies that read other models (reading_order_matters)"
  },
  {
   "property": "C96",
   "status": "partial",
   "theorems": [
    "Sloth.model_modular",
    "Sloth.modular_unnamed"
   ],
   "note": "model_modular covers all bodies that read only attributes of the model itself and name their equations; for unnamed equations the claim fails (modular_unnamed)"
  },
  {
   "property": "C97",
   "status": "proved",
   "theorems": [
    "Sloth.texts_and_bounds_irrelevant",
    "Sloth.report_texts"
   ],
   "note": "all sessions of the modelled calls, of whatever outcome; optimization studies are not among these calls"
  },
  {
   "property": "C98",
   "status": "proved",
   "theorems": [
    "Sloth.raises_only",
    "Sloth.raises_only_listed"
   ],
   "note": "calls of simulations and of optimization studies are C111 (their exceptions are those of the libraries); `noObject` stands for a reference to an object that does not exist, which a Python program cannot hold; raises_only_listed does without it for sessions that pass existing objects only (C108)"
  },
  {
   "property": "C99",
   "status": "proved",
   "theorems": [
    "Sloth.Lib.stream_quantities",
    "Sloth.Lib.outlet_equations",
    "Sloth.Lib.inlets_fixed",
    "Sloth.Lib.fluxes_fixed",
    "Sloth.Lib.foreign_outlet_refused"
   ],
   "note": "outlets: the case without phases (with phases the code raises after these equations, C64); inlets: streams whose quantities share a name share the equation, so the theorems ask for different names"
  },
  {
   "property": "C100",
   "status": "proved",
   "theorems": [
    "Sloth.run_ends_as_solver",
    "Sloth.standard_settings",
    "Sloth.wellposed_run",
    "Sloth.residuals_of_number_raise"
   ],
   "note": "the statement includes the defect that a successful run raises AttributeError when an equation mentions specified quantities only (residuals_of_number_raise is a concrete session)"
  },
  {
   "property": "C101",
   "status": "proved",
   "theorems": [
    "Sloth.run_ends_as_integrator",
    "Sloth.timed_settings",
    "Sloth.fresh_domain",
    "Sloth.configure_args"
   ],
   "note": "hypotheses on the integrator: it asks for right sides of states of the right length (Wellbehaved) and a successful answer is a table; systems outside Spec.OdeSystem and second runs on a filled domain behave otherwise (C50, C62)"
  },
  {
   "property": "C102",
   "status": "proved",
   "theorems": [
    "Sloth.expr_accepted",
    "Sloth.call_accepted",
    "Sloth.resolve_accepted",
    "Sloth.careful_sessions_return",
    "Sloth.careful_run_reports"
   ],
   "note": "sufficient conditions; models with inlets are outside (totalization always raises, C59), connections between two expressions (instead of variables) and incorporation are not covered"
  },
  {
   "property": "C103",
   "status": "proved",
   "theorems": [
    "Sloth.register_refused_iff",
    "Sloth.rename_refused_iff",
    "Sloth.read_refused_iff"
   ],
   "note": "equivalences: an exception is raised exactly in the cases of Spec.RegisterRefused (and the like). Rows are a table with at least one row, as in the model."
  },
  {
   "property": "C104",
   "status": "proved",
   "theorems": [
    "Sloth.results_refused_iff",
    "Sloth.Pkg.package_refused_iff",
    "Sloth.Pkg.sum_refused_iff",
    "Sloth.Pkg.sum_other_refused",
    "Sloth.Pkg.calculate_refused_iff",
    "Sloth.Pkg.chemical_refused_iff",
    "Sloth.Pkg.condition_refused_iff",
    "Sloth.Opt.study_refused_iff",
    "Sloth.Opt.params_refused_iff",
    "Sloth.Opt.bounds_refused_iff",
    "Sloth.Opt.run_refused_iff"
   ],
   "note": "equivalences; for studies the library may refuse the algorithm as well. What the optimizer itself raises is that of the library and of the objective function."
  },
  {
   "property": "C105",
   "status": "proved",
   "theorems": [
    "Sloth.bystanders_no_influence",
    "Sloth.meddling_influences"
   ],
   "note": "Spec.Bystander lists the calls; a body that is called assigns no values or domains, or its model is self-contained. meddling_influences shows that this condition is needed: a model whose body assigns a value to a parameter of a model of the problem changes the outcome of the test."
  },
  {
   "property": "C106",
   "status": "partial",
   "theorems": [
    "Sloth.numeric_functions_partial",
    "Sloth.numeric_functions_refuse_all"
   ],
   "note": "fails for every call that does not ignore dimensions: Unit has no method `_isDimless_`, AttributeError. With ignore_dimensions=True the claim holds."
  },
  {
   "property": "C107",
   "status": "partial",
   "theorems": [
    "Sloth.graph_lists_partial",
    "Sloth.refused_edge_listed",
    "Sloth.headings_stay_hidden"
   ],
   "note": "nodes are listed after the graph has taken them, edges before it is asked, so a refused edge is listed; drawing without headings blanks the texts of all later drawings."
  },
  {
   "property": "C108",
   "status": "proved",
   "theorems": [
    "Sloth.sessions_linked",
    "Sloth.never_dangling",
    "Sloth.raises_only_listed"
   ],
   "note": "Spec.Uses says which references of a call have to exist (a failing statement of a body must not itself raise the marker of a missing object). Simulations are C109; studies are C111."
  },
  {
   "property": "C109",
   "status": "proved",
   "theorems": [
    "Sloth.simulations_linked",
    "Sloth.simulations_raise_only",
    "Sloth.simulations_never_dangling"
   ],
   "note": "Spec.SMayRaise is the table; LibErr says what the libraries can raise. Each entry of the table is shown to occur by an example (at least for one kind of problem). Studies are not covered."
  },
  {
   "property": "C110",
   "status": "partial",
   "theorems": [
    "Sloth.Opt.every_evaluation",
    "Sloth.Opt.study_finds_best_solution_partial"
   ],
   "note": "for equations written as expressions understood to be zero; of equalities only the right side is solved for (C74: reported_values_violate_equalities)"
  },
  {
   "property": "C111",
   "status": "proved",
   "theorems": [
    "Sloth.Opt.studies_linked",
    "Sloth.Opt.studies_raise_only",
    "Sloth.Opt.script_studies_raise_only",
    "Sloth.Opt.results_raise_only"
   ],
   "note": "each exception of the lists is shown to occur in an example, but for those that only libraries or models bring"
  },
  {
   "property": "C112",
   "status": "partial",
   "theorems": [
    "Sloth.line_text_partial",
    "Sloth.tex_text_partial",
    "Sloth.sum_times_text",
    "Sloth.text_ambiguous",
    "Sloth.extremum_texts"
   ],
   "note": "Holds exactly for the expressions whose writing needs no brackets (for LaTeX: and no exponent of more than one letter), up to numbers on the left of an operator being brought to its right. The code never writes brackets, so (a+b)*c and a+b*c have the same texts, and no reading of the texts can be right (negation proved). Texts of Min/Max join the arguments without separator."
  },
  {
   "property": "C113",
   "status": "proved",
   "theorems": [
    "Sloth.one_problem_view",
    "Sloth.problem_names",
    "Sloth.several_raise_only",
    "Sloth.several_never_dangling",
    "Sloth.several_raise_listed"
   ],
   "note": "The program found for one problem replaces calls made on the others by the calls on models they amount to. Consequence: every theorem about reachable sessions with one problem holds for each of several problems."
  },
  {
   "property": "C114",
   "status": "proved",
   "theorems": [
    "Sloth.call_leaves",
    "Sloth.runs_independent",
    "Sloth.shared_domain_disturbs",
    "Sloth.run_without_problem",
    "Sloth.configure_without_problem",
    "Sloth.results_survive_problem",
    "Sloth.one_problem_sessions",
    "Sloth.several_simulations_raise"
   ],
   "note": "runs_independent allows any calls in between on simulations of other problems, or of none, that record in other domains. Findings: with a shared domain a run is refused because of the run of another problem (shared_domain_disturbs); results survive setProblem, so that a simulation reports success for a problem it was never run on (results_survive_problem)."
  },
  {
   "property": "C115",
   "status": "proved",
   "theorems": [
    "Sloth.run_solves",
    "Sloth.Lib.solved_pump",
    "Sloth.Lib.solved_heater",
    "Sloth.Lib.unit_stating",
    "Sloth.Lib.solved_pump_use",
    "Sloth.Lib.solved_mixer",
    "Sloth.stored_solved",
    "Sloth.Lib.solved_mixer_use",
    "Sloth.Lib.mixer_ignores_values"
   ],
   "note": "For pumps, heaters and mixers (the equations of a mixer are stated by its constructor and must not be replaced by others of the same names). Libraries that do not solve what they are given are outside the claim (see C97). Finding: values given to the quantities of a mixer do not enter its equations (mixer_ignores_values)."
  },
  {
   "property": "C116",
   "status": "partial",
   "theorems": [
    "Sloth.Lib.unit_ports",
    "Sloth.Lib.unit_names_partial",
    "Sloth.Lib.bad_phase",
    "Sloth.Lib.flash_fractions_confused"
   ],
   "note": "Finding: in flash drums the mass fractions of a phase in the liquid and in the vapour are variables of one name, so that the second replaces the first in the dictionary, and ndot_L_out is named ndo_L_out; unit_names_partial excludes the two classes of flash drums."
  },
  {
   "property": "C117",
   "status": "proved",
   "theorems": [
    "Sloth.connection_states",
    "Sloth.entry_solved",
    "Sloth.connected_agree",
    "Sloth.connected_equal",
    "Sloth.connected_equal_use",
    "Sloth.Ex.tardyLib_sound",
    "Sloth.connected_value_ignored"
   ],
   "note": "The hypothesis that the equation is still there is needed: connections of variables of the same names replace each other (C33). Values given to the variables after the connection do not reach its equation (connected_value_ignored, see also C93)."
  },
  {
   "property": "C118",
   "status": "proved",
   "theorems": [
    "Sloth.Lib.unit_passes",
    "Sloth.Lib.linked_unit",
    "Sloth.Lib.link_passes",
    "Sloth.Lib.line_conserves",
    "Sloth.Lib.line_energy",
    "Sloth.Lib.Ex.lineLib_sound",
    "Sloth.Lib.line_conserves_use"
   ],
   "note": "By induction over the line from C115 and C117. linked_unit shows that pumps and heaters never restate the equation of a connection. The connections must still be there when the problem is resolved (C33), and connected variables must not have got values since (C93)."
  },
  {
   "property": "C119",
   "status": "partial",
   "theorems": [
    "Sloth.Lib.given_fluxes_unchecked",
    "Sloth.Lib.stream_fluxes",
    "Sloth.Lib.fluxes_agree_partial",
    "Sloth.Lib.changed_flux_not_converted",
    "Sloth.Lib.fluxes_agree_use"
   ],
   "note": "stream_fluxes and multistream_fluxes refine every sequence of settings and calls, including failing ones, to an account of one optional number per quantity. Agreement is proved when one flux is set once; changed_flux_not_converted and given_fluxes_unchecked show that the full claim fails in the code."
  },
  {
   "property": "C120",
   "status": "partial",
   "theorems": [
    "Sloth.table_times_partial",
    "Sloth.dae_times_disagree",
    "Sloth.d_recorded",
    "Sloth.dae_recorded"
   ],
   "note": "Proved for explicit systems with any integrator and for implicit systems with integrators that answer at the times asked for; dae_times_disagree shows that it fails for other integrators."
  },
  {
   "property": "C121",
   "status": "partial",
   "theorems": [
    "Sloth.asked_times_partial",
    "Sloth.equallySpaced_covers",
    "Sloth.run_covers",
    "Sloth.dae_times_ignored",
    "Sloth.no_steps",
    "Sloth.d_asked",
    "Sloth.default_run_covers"
   ],
   "note": "Proved for explicit systems with listed times or equally spaced ones; for implicit systems when no times are listed. CVODE is trusted to answer at the times asked for. dae_times_ignored shows that listed times are ignored for implicit systems, no_steps that a run without steps stays at the initial time."
  },
  {
   "property": "C122",
   "status": "proved",
   "theorems": [
    "Sloth.run_appends",
    "Sloth.run_keeps_rows",
    "Sloth.runs_keep_rows",
    "Sloth.record_appends",
    "Sloth.d_records",
    "Sloth.dae_records"
   ],
   "note": "Nothing is assumed of the domain. Rows are kept by any number of runs, also by those that raise. Runs over a filled table that are refused do not return (C62); their column names are lost when accepted (C43)."
  }
 ]
}