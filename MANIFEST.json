{
 "claims": [
  {
   "property": "C01",
   "status": "partial",
   "theorems": [
    "Verif.Props.c01_operators_partial",
    "Verif.Props.c01_rsub_is_addition",
    "Verif.Props.c01_rsub_violated",
    "Verif.Props.c01_no_empty_sum"
   ],
   "note": "Proved for every operator and operand side except number - expression, which the code computes as a sum (violation proved by witness, exact behaviour proved)."
  },
  {
   "property": "C02",
   "status": "proved",
   "theorems": [
    "Verif.Props.c02_copy_value",
    "Verif.Props.c02_copy_flat_idempotent"
   ],
   "note": "For all expressions and contexts."
  },
  {
   "property": "C03",
   "status": "proved",
   "theorems": [
    "Verif.Props.c03_exact",
    "Verif.Props.c03_tolerant",
    "Verif.Props.c03_tolerant_not_transitive"
   ],
   "note": "Exact for NaN-free trees; tolerant equality reflexive, symmetric, monotone; shown not transitive."
  },
  {
   "property": "C04",
   "status": "proved",
   "theorems": [
    "Verif.Props.c04_resolve_parameters"
   ],
   "note": "For all expressions and providers."
  },
  {
   "property": "C05",
   "status": "proved",
   "theorems": [
    "Verif.Props.c05_degree_zero",
    "Verif.Props.c05_degree_one",
    "Verif.Props.c05_degree_two_not_affine"
   ],
   "note": "Degree 0 constant; degree <= 1 affine for finite literals and parameters."
  },
  {
   "property": "C06",
   "status": "proved",
   "theorems": [
    "Verif.Props.c06_linear_never_rejected",
    "Verif.Props.c06_constant_no_term"
   ],
   "note": "For all expressions, contexts and data."
  },
  {
   "property": "C07",
   "status": "proved",
   "theorems": [
    "Verif.Props.c07_time_value",
    "Verif.Props.c07_scenario_value",
    "Verif.Props.c07_time_linear",
    "Verif.Props.c07_scenario_linear"
   ],
   "note": "Meaning and linear expression, both dimensions."
  },
  {
   "property": "C08",
   "status": "partial",
   "theorems": [
    "Verif.Props.c08_sum_union_partial",
    "Verif.Props.c08_sum_permutation_partial",
    "Verif.Props.c08_binary_union_partial",
    "Verif.Props.c08_port_field_order_dependent"
   ],
   "note": "Union and order independence when every operand has an indexing; rejection of port fields depends on the order (violation proved by witness)."
  },
  {
   "property": "C09",
   "status": "partial",
   "theorems": [
    "Verif.Props.c09_expansion_value_partial",
    "Verif.Props.c09_shift_of_evaluation",
    "Verif.Props.c09_nested_expectation"
   ],
   "note": "For well-nested expressions; both excluded nestings are proved to be computed wrongly."
  },
  {
   "property": "C10",
   "status": "proved",
   "theorems": [
    "Verif.Props.c10_expanded_form",
    "Verif.Props.c10_linearization_errors",
    "Verif.Props.c10_linear_linearizes"
   ],
   "note": "Grammar of the output and classification of all linearization errors."
  },
  {
   "property": "C11",
   "status": "proved",
   "theorems": [
    "Verif.Props.c11_linearization_exact",
    "Verif.Props.c11_linearization_value",
    "Verif.Props.c11_pipeline_exact"
   ],
   "note": "Exact coefficients, for every assignment."
  },
  {
   "property": "C12",
   "status": "proved",
   "theorems": [
    "Verif.Props.c12_canonical",
    "Verif.Props.c12_no_small",
    "Verif.Props.c12_product_stores_small"
   ],
   "note": "canonical form after any sequence of operations; c12_no_small covers what is stored by + and -; c12_product_stores_small shows products may store a coefficient below the threshold, which the statement does not exclude"
  },
  {
   "property": "C13",
   "status": "partial",
   "theorems": [
    "Verif.Props.c13_add",
    "Verif.Props.c13_sub",
    "Verif.Props.c13_neg",
    "Verif.Props.c13_inplace",
    "Verif.Props.c13_mul_rejected",
    "Verif.Props.c13_mul_const_right_partial",
    "Verif.Props.c13_mul_const_left_partial",
    "Verif.Props.c13_mul_tiny_factor",
    "Verif.Props.c13_div_rejected",
    "Verif.Props.c13_div"
   ],
   "note": "factors within 1e-16 of 0 or 1 are replaced by 0 or 1: c13_mul_tiny_factor is the witness that exact scaling fails there"
  },
  {
   "property": "C14",
   "status": "partial",
   "theorems": [
    "Verif.Props.c14_operation_partial",
    "Verif.Props.c14_later_updates_partial",
    "Verif.Props.c14_mul_changes_right_operand",
    "Verif.Props.c14_mul_shares_right_operand"
   ],
   "note": "proved for every history of operations whose products do not have a non-null constant left operand; for those the code mutates or aliases the right operand, which the two last theorems prove"
  },
  {
   "property": "C15",
   "status": "proved",
   "theorems": [
    "Verif.Props.c15_meaning",
    "Verif.Props.c15_accepted_iff",
    "Verif.Props.c15_other_nodes",
    "Verif.Props.c15_instantiate"
   ],
   "note": "for every list of accepted connections and every expression"
  },
  {
   "property": "C16",
   "status": "proved",
   "theorems": [
    "Verif.Props.c16_meaning",
    "Verif.Props.c16_evaluate",
    "Verif.Props.c16_symbols",
    "Verif.Props.c16_accepted_iff"
   ],
   "note": ""
  },
  {
   "property": "C17",
   "status": "proved",
   "theorems": [
    "Verif.Props.c17_comparison",
    "Verif.Props.c17_comparison_stored",
    "Verif.Props.c17_accepted_iff",
    "Verif.Props.c17_replicate"
   ],
   "note": "a comparison with an infinite bound of the wrong sign is accepted: the declared bounds are then replaced by those of the comparison"
  },
  {
   "property": "C18",
   "status": "proved",
   "theorems": [
    "Verif.Props.c18_bounds_constant",
    "Verif.Props.c18_bounds_constant_in_component",
    "Verif.Props.c18_meaning_constant",
    "Verif.Props.c18_variable_shift_accepted"
   ],
   "note": "the value read by the code never depends on variables; c18_variable_shift_accepted: a bound shifted by a variable amount is accepted but can never be evaluated"
  },
  {
   "property": "C19",
   "status": "partial",
   "theorems": [
    "Verif.Props.c19_accepted",
    "Verif.Props.c19_builds_partial",
    "Verif.Props.c19_value_partial",
    "Verif.Props.c19_port_field_nonlinear"
   ],
   "note": "proved for contributions without port references; c19_port_field_nonlinear is a witness that the claim fails with them"
  },
  {
   "property": "C20",
   "status": "partial",
   "theorems": [
    "Verif.Props.c20_definition_partial",
    "Verif.Props.c20_anywhere_partial",
    "Verif.Props.c20_amounts_not_checked"
   ],
   "note": "the checker does not look inside shift and time-index amounts: c20_amounts_not_checked is the witness; the other theorems cover everything outside amounts"
  },
  {
   "property": "C21",
   "status": "proved",
   "theorems": [
    "Verif.Props.c21_accepted_iff",
    "Verif.Props.c21_master",
    "Verif.Props.c21_registration",
    "Verif.Props.c21_models_are_keyed"
   ],
   "note": ""
  },
  {
   "property": "C22",
   "status": "partial",
   "theorems": [
    "Verif.Props.c22_lookup",
    "Verif.Props.c22_listing",
    "Verif.Props.c22_listing_once_partial",
    "Verif.Props.c22_id_listed_twice",
    "Verif.Props.c22_replicate",
    "Verif.Props.c22_connections"
   ],
   "note": "an id added both as a node and as a component is listed twice (c22_id_listed_twice)"
  },
  {
   "property": "C23",
   "status": "partial",
   "theorems": [
    "Verif.Props.c23_reads_partial",
    "Verif.Props.c23_accepts",
    "Verif.Props.c23_nodes_not_checked"
   ],
   "note": "proved for components; c23_nodes_not_checked is a witness that data of nodes are not checked"
  },
  {
   "property": "C24",
   "status": "partial",
   "theorems": [
    "Verif.Props.c24_entry_partial",
    "Verif.Props.c24_ignores",
    "Verif.Props.c24_missing_index",
    "Verif.Props.c24_tree",
    "Verif.Props.c24_negative_timestep",
    "Verif.Props.c24_nested_tree"
   ],
   "note": "proved for non-negative timesteps and trees of plain data; witnesses of failures for a negative timestep and a nested tree"
  },
  {
   "property": "C25",
   "status": "proved",
   "theorems": [
    "Verif.Props.c25_last_write"
   ],
   "note": ""
  },
  {
   "property": "C26",
   "status": "partial",
   "theorems": [
    "Verif.Props.c26_builder",
    "Verif.Props.c26_parameters_partial",
    "Verif.Props.c26_group_leaks",
    "Verif.Props.c26_nodes_ignored"
   ],
   "note": "builder file fully proved; parameters proved when no earlier parameter of the component has a group; witnesses: a group leaks to later parameters, nodes are ignored"
  },
  {
   "property": "C27",
   "status": "proved",
   "theorems": [
    "Verif.Props.c27_terminates",
    "Verif.Props.c27_success",
    "Verif.Props.c27_bad_dependencies",
    "Verif.Props.c27_succeeds_iff"
   ],
   "note": "for every order in which Python may go through its sets"
  },
  {
   "property": "C28",
   "status": "partial",
   "theorems": [
    "Verif.Props.c28_content",
    "Verif.Props.c28_order_independent_partial",
    "Verif.Props.c28_order_dependent",
    "Verif.Props.c28_preloaded"
   ],
   "note": "content proved; order independence proved when ids of port types are not ambiguous; c28_order_dependent is a witness that it fails otherwise"
  },
  {
   "property": "C29",
   "status": "proved",
   "theorems": [
    "Verif.Props.c29_wrap",
    "Verif.Props.c29_period",
    "Verif.Props.c29_absolute",
    "Verif.Props.c29_ignore_not_supported"
   ],
   "note": "every integer timestep; the other border mode always raises"
  },
  {
   "property": "C30",
   "status": "partial",
   "theorems": [
    "Verif.Props.c30_instances",
    "Verif.Props.c30_columns_partial",
    "Verif.Props.c30_crossed_bounds_raise",
    "Verif.Props.c30_boolean_bounds_ignored",
    "Verif.Props.c30_shared_id"
   ],
   "note": "bijection columns/instances, type and bounds proved; booleans ignore their declared bounds and a node and component sharing an id give an unregistered column (witnesses)"
  },
  {
   "property": "C31",
   "status": "partial",
   "theorems": [
    "Verif.Props.c31_names_partial",
    "Verif.Props.c31_bookkeeping",
    "Verif.Props.c31_collisions",
    "Verif.Props.c31_short_names"
   ],
   "note": "injective for prefix-free ids and variable names that do not end like an index; collisions otherwise (witnesses)"
  },
  {
   "property": "C32",
   "status": "proved",
   "theorems": [
    "Verif.Props.c32_row",
    "Verif.Props.c32_accepted_iff"
   ],
   "note": "any finite linear expression, any (possibly infinite) bounds, any number of terms on the same column"
  },
  {
   "property": "C33",
   "status": "partial",
   "theorems": [
    "Verif.Props.c33_rows_partial",
    "Verif.Props.c33_written_partial",
    "Verif.Props.c33_bound_not_enforced"
   ],
   "note": "c33_rows_partial: equivalence with all constraints at all timesteps and scenarios; a bound that varies in time under a constant expression is enforced at the first timestep only (witness). c33_written_partial: exactly at which indices constraints are enforced, for any bounds. Coefficients below 1e-16 are excluded (see C84 for the problem with them)."
  },
  {
   "property": "C34",
   "status": "partial",
   "theorems": [
    "Verif.Props.c34_objective_partial"
   ],
   "note": "coefficients below 1e-16 excluded"
  },
  {
   "property": "C35",
   "status": "partial",
   "theorems": [
    "Verif.Props.c35_build_partial",
    "Verif.Props.c35_tiny_coefficient",
    "Verif.Props.c35_optimum_partial"
   ],
   "note": "feasible set and cost of the whole problem; deviations excluded by hypotheses have witnesses (C30, C33, tiny coefficients)"
  },
  {
   "property": "C36",
   "status": "proved",
   "theorems": [
    "Verif.Props.c36_selection",
    "Verif.Props.c36_cover",
    "Verif.Props.c36_objectives",
    "Verif.Props.c36_risk"
   ],
   "note": ""
  },
  {
   "property": "C37",
   "status": "partial",
   "theorems": [
    "Verif.Props.c37_path_probability",
    "Verif.Props.c37_rejected",
    "Verif.Props.c37_check_iff",
    "Verif.Props.c37_accepted",
    "Verif.Props.c37_exact",
    "Verif.Props.c37_tree_exists",
    "Verif.Props.c37_tree_proper",
    "Verif.Props.c37_rejected_stays",
    "Verif.Props.c37_root_not_one",
    "Verif.Props.c37_children_not_scaled",
    "Verif.Props.c37_nan_accepted"
   ],
   "note": "path products, rejection, exact content of the check and sum of the leaves proved for all trees built from the root down; fails for a root with probability other than one, children= (not rescaled), nan, and a rejected node stays in its parent (witnesses)"
  },
  {
   "property": "C38",
   "status": "partial",
   "theorems": [
    "Verif.Props.c38_history",
    "Verif.Props.c38_refused",
    "Verif.Props.c38_meaning",
    "Verif.Props.c38_names_match",
    "Verif.Props.c38_variables_distinct_partial",
    "Verif.Props.c38_variables_mixed_up",
    "Verif.Props.c38_trees_share",
    "Verif.Props.c38_empty_id"
   ],
   "note": "one constraint per accepted declaration, under a new name, and its meaning, for all histories; trees built with the default coupling information share it, variable names coincide for identifiers with underscores, and an empty tree identifier gives names that match no solver variable (witnesses)"
  },
  {
   "property": "C39",
   "status": "partial",
   "theorems": [
    "Verif.Props.c39_merged_partial",
    "Verif.Props.c39_lossless",
    "Verif.Props.c39_single",
    "Verif.Props.c39_built",
    "Verif.Props.c39_integrality_lost",
    "Verif.Props.c39_constant_lost",
    "Verif.Props.c39_coupler_bounds_lost",
    "Verif.Props.c39_coupler_lost",
    "Verif.Props.c39_empty_row_lost",
    "Verif.Props.c39_shared_name"
   ],
   "note": "The full statement is false of the code: integrality, constants of the objectives, bounds of the coupler, rows without coefficients and (with a single master) the coupler itself are lost; each loss has a witness. What the merge does mean is proved exactly, and the full statement is proved when nothing is lost."
  },
  {
   "property": "C40",
   "status": "partial",
   "theorems": [
    "Verif.Props.c40_lines_partial",
    "Verif.Props.c40_file_partial",
    "Verif.Props.c40_no_subproblem",
    "Verif.Props.c40_same_name",
    "Verif.Props.c40_names_collide",
    "Verif.Props.c40_long_name"
   ],
   "note": "Exact set of lines and read-back of the file, for problems with distinct names and registered columns; witnesses show the hypotheses are needed and that the decomposition can give two subproblems the same name."
  },
  {
   "property": "C41",
   "status": "partial",
   "theorems": [
    "Verif.Props.c41_round_trip_partial",
    "Verif.Props.c41_read",
    "Verif.Props.c41_problem",
    "Verif.Props.c41_ragged_lost",
    "Verif.Props.c41_ragged_raises",
    "Verif.Props.c41_stale_values",
    "Verif.Props.c41_reading_changes"
   ],
   "note": "Round trip for rectangular values set on a fresh variable, reading, and extraction from a solved problem. The full statement is false: ragged lists lose values or make reading raise, setting a smaller value keeps stale entries, and reading an unknown component creates it (witnesses)."
  },
  {
   "property": "C42",
   "status": "proved",
   "theorems": [
    "Verif.Props.c42_meaning",
    "Verif.Props.c42_laws",
    "Verif.Props.c42_ignored",
    "Verif.Props.c42_benders",
    "Verif.Props.c42_not_transitive",
    "Verif.Props.c42_negative_tolerance"
   ],
   "note": "For tolerances that are not negative; reflexivity for outputs without NaN (NaN differs from itself, as for Python floats). Equality is not transitive because of ignored values (witness)."
  },
  {
   "property": "C43",
   "status": "partial",
   "theorems": [
    "Verif.Props.c43_parse_partial",
    "Verif.Props.c43_tokens_unique",
    "Verif.Props.c43_unambiguous",
    "Verif.Props.c43_errors",
    "Verif.Props.c43_known_names",
    "Verif.Props.c43_unrecognised_ignored",
    "Verif.Props.c43_bad_text_accepted",
    "Verif.Props.c43_postfix_none",
    "Verif.Props.c43_shift_not_left_assoc"
   ],
   "note": "Parsing gives exactly the reading of a stratified grammar, and a parse error when there is none, for texts made of tokens without `)[`. The full statement is false: characters that start no token are ignored (`x != 50%` is read as `x = 50`), a shift or index after a parenthesis gives None, and a quotient just after `t` in a shift is read from the right (witnesses)."
  },
  {
   "property": "C44",
   "status": "partial",
   "theorems": [
    "Verif.Props.c44_units_partial",
    "Verif.Props.c44_units_min",
    "Verif.Props.c44_previous",
    "Verif.Props.c44_variation_partial",
    "Verif.Props.c44_file",
    "Verif.Props.c44_null_capacity",
    "Verif.Props.c44_first_hour",
    "Verif.Props.c44_scenarios_merged",
    "Verif.Props.c44_other_scenarios_fail"
   ],
   "note": "Proved for positive capacities and periods and finite series. The full statement is false: a null capacity gives numbers of units that are not numbers, the first hour is its own previous hour, the minimum is shared by all scenarios, and reading it for another scenario than the first one raises an error (witnesses)."
  },
  {
   "property": "C45",
   "status": "partial",
   "theorems": [
    "Verif.Props.c45_clamp",
    "Verif.Props.c45_clamp_range",
    "Verif.Props.c45_convert",
    "Verif.Props.c45_accepts",
    "Verif.Props.c45_names",
    "Verif.Props.c45_names_partial",
    "Verif.Props.c45_connections",
    "Verif.Props.c45_files",
    "Verif.Props.c45_changes_network",
    "Verif.Props.c45_nan_kept",
    "Verif.Props.c45_same_name",
    "Verif.Props.c45_missing_bus",
    "Verif.Props.c45_inactive_storage",
    "Verif.Props.c45_unknown_carrier",
    "Verif.Props.c45_quota_kept"
   ],
   "note": "Proved for all networks with the tables that PyPSA makes: the study is exactly the specified one, acceptance is characterised, every connection ends at a component of the study if the buses exist, files have the right series. Violated by the code: ids are distinct only if user names do not clash (c45_same_name), missing buses are not detected (c45_missing_bus), NaN and quotas are not brought into the range (c45_nan_kept, c45_unknown_carrier, c45_quota_kept), inactive storage is converted (c45_inactive_storage)."
  },
  {
   "property": "C46",
   "status": "partial",
   "theorems": [
    "Verif.Props.c46_network_partial",
    "Verif.Props.c46_unknown_rejected",
    "Verif.Props.c46_data_partial",
    "Verif.Props.c46_duplicate_component"
   ],
   "note": "proved for distinct ids; witness: a duplicated component id is silently dropped"
  },
  {
   "property": "C47",
   "status": "partial",
   "theorems": [
    "Verif.Props.c47_model_partial",
    "Verif.Props.c47_duplicate_port_rejected",
    "Verif.Props.c47_duplicate_variable"
   ],
   "note": "proved for distinct ids; witness: a duplicated variable id is silently dropped"
  },
  {
   "property": "C48",
   "status": "proved",
   "theorems": [
    "Verif.Props.c48_traverse_depth",
    "Verif.Props.c48_traverse_all",
    "Verif.Props.c48_level_order",
    "Verif.Props.c48_size",
    "Verif.Props.c48_each_once"
   ],
   "note": "c48_each_once relates the traversal to the numbered objects of any history of creations."
  },
  {
   "property": "C49",
   "status": "proved",
   "theorems": [
    "Verif.Props.c49_time_bound"
   ],
   "note": "Shape of accepted bounds, and equality with the value at every timestep and scenario (border management CYCLE, the default; the other modes raise)."
  },
  {
   "property": "C50",
   "status": "proved",
   "theorems": [
    "Verif.Props.c50_accepted",
    "Verif.Props.buildData_entry"
   ],
   "note": "Acceptance for rectangular tables, with any scenarization; the values read are in C46 (c46_data_partial, buildData_entry)."
  },
  {
   "property": "C51",
   "status": "proved",
   "theorems": [
    "Verif.Props.c51_consistency"
   ],
   "note": ""
  },
  {
   "property": "C52",
   "status": "proved",
   "theorems": [
    "Verif.Props.c52_kinds"
   ],
   "note": ""
  },
  {
   "property": "C53",
   "status": "partial",
   "theorems": [
    "Verif.Props.c53_variables_partial",
    "Verif.Props.c53_constraints_partial",
    "Verif.Props.c53_models_partial",
    "Verif.Props.c53_components_partial",
    "Verif.Props.c53_context_ignored",
    "Verif.Props.c53_objective_ignored",
    "Verif.Props.c53_definition_ignored",
    "Verif.Props.c53_objective_raises"
   ],
   "note": "False as stated: contexts, objectives and port field definitions are not compared, and comparing a model with an objective with one without raises TypeError (proved by witnesses). Proved: exactly which fields decide the comparison."
  },
  {
   "property": "C54",
   "status": "proved",
   "theorems": [
    "Verif.Props.c54_created",
    "Verif.Props.c54_duplicate_dropped"
   ],
   "note": ""
  },
  {
   "property": "C55",
   "status": "partial",
   "theorems": [
    "Verif.Props.c55_equal",
    "Verif.Props.c55_is_zero",
    "Verif.Props.c55_limits"
   ],
   "note": "Proved for expressions without negligible terms. The full statement is false: products can keep negligible terms, which makes equal expressions different, and the comparison is not transitive (witnesses)."
  },
  {
   "property": "C56",
   "status": "partial",
   "theorems": [
    "Verif.Props.c56_nodes",
    "Verif.Props.c56_components",
    "Verif.Props.c56_thermal_files",
    "Verif.Props.c56_accepts",
    "Verif.Props.c56_connected_partial",
    "Verif.Props.c56_wind_dangling",
    "Verif.Props.c56_loads_merged",
    "Verif.Props.demo_wind_useless"
   ],
   "note": "Nodes, components, files and acceptance proved for all studies. Connections proved for studies without wind and solar series of areas; with them the full statement is false, because connections start at names that no component has (c56_wind_dangling), and the loads of several areas share one id (c56_loads_merged)."
  },
  {
   "property": "C57",
   "status": "partial",
   "theorems": [
    "Verif.Props.c57_batteries_partial",
    "Verif.Props.c57_history",
    "Verif.Props.c57_later_lost",
    "Verif.Props.c57_field",
    "Verif.Props.c57_operation_ignored",
    "Verif.Props.c57_weight_by_parameter"
   ],
   "note": "Proved up to the first area without a battery, that earlier conversions have no effect, and for any template which fields of clusters it can name (c57_field). The full statement is false: the batteries of areas after it are lost while their clusters are left out (c57_later_lost, with a study). In other templates, operations on fields are ignored (c57_operation_ignored), and weights cannot be changed by parameters (c57_weight_by_parameter)."
  },
  {
   "property": "C58",
   "status": "proved",
   "theorems": [
    "Verif.Props.c58_comparisons",
    "Verif.Props.c58_shift_eval",
    "Verif.Props.c58_time_sum",
    "Verif.Props.c58_scenarios",
    "Verif.Props.c58_sum_connections"
   ],
   "note": "The method variance is only shown never to become a linear expression."
  },
  {
   "property": "C59",
   "status": "partial",
   "theorems": [
    "Verif.Props.c59_antares",
    "Verif.Props.c59_andromede",
    "Verif.Props.c59_pypsa",
    "Verif.Props.c59_storage_dispatch_partial",
    "Verif.Props.c59_storage_dispatch"
   ],
   "note": "All 17 models stand for the rules of Spec/Shipped.lean. The dispatched power of a PyPSA storage unit is limited by its nominal power only when the latter is fixed (constraint p_dispatch_upper constrains p_store): c59_storage_dispatch. The YAML files are transcribed by a script (reading YAML itself is not modelled)."
  },
  {
   "property": "C60",
   "status": "partial",
   "theorems": [
    "Verif.Props.c60_study_partial",
    "Verif.Props.c60_optimum_partial"
   ],
   "note": "Meaning read directly from the file in Spec/ShippedStudy.lean. Missing: coefficients below 1e-16 (dropped, see c35_tiny_coefficient), and files with repeated ids (see c46_duplicate_component). Reading tables from disk is C74, reading YAML documents C72."
  },
  {
   "property": "C61",
   "status": "proved",
   "theorems": [
    "Verif.Props.c61_builds",
    "Verif.Props.c61_problem",
    "Verif.Props.c61_refused"
   ],
   "note": "Conditions on the study alone in Spec/Buildable.lean. c61_problem adds the hypotheses of C35 for the meaning. c61_refused shows that crossed bounds, missing data and zero divisors are refused. The creation of the solver object is not modelled."
  },
  {
   "property": "C62",
   "status": "partial",
   "theorems": [
    "Verif.Props.c62_links",
    "Verif.Props.c62_no_loop",
    "Verif.Props.c62_created",
    "Verif.Props.c62_tree_exists",
    "Verif.Props.c62_refused_partial",
    "Verif.Props.c62_refused_moves"
   ],
   "note": "Proved for all histories, except the part on refused calls: it fails when the refusal is due to a loop (c62_refused_moves): children given before the refused one have become roots. anytree is modelled from its documentation and source as the code uses it."
  },
  {
   "property": "C63",
   "status": "partial",
   "theorems": [
    "Verif.Props.c63_builds",
    "Verif.Props.c63_study_partial",
    "Verif.Props.c63_bounds_needed"
   ],
   "note": "That every stage succeeds is proved without restriction (c63_builds). The meaning of the result is proved for studies without coefficients smaller than 1e-16, as in C35 and C60. c63_bounds_needed: the demands on bounds exclude only studies without any solution."
  },
  {
   "property": "C64",
   "status": "partial",
   "theorems": [
    "Verif.Props.c64_decomposition_partial",
    "Verif.Props.c64_optimum_partial",
    "Verif.Props.c64_probabilities",
    "Verif.Props.c64_time_unlinked",
    "Verif.Props.c64_scenario_lost",
    "Verif.Props.c64_expectation_fails",
    "Verif.Props.c64_single_node_coupling_lost"
   ],
   "note": "Proved for well-formed trees where what is decided with the investments depends neither on time nor on the scenario; with several nodes decision variables are continuous and investment costs have no constant (what the merge of masters loses, C39). The witnesses show that the code violates the property otherwise: investments that depend on time are not linked, those that depend on the scenario are lost, an expected investment cost cannot be decomposed, and a tree of one node loses its coupling constraints."
  },
  {
   "property": "C65",
   "status": "partial",
   "theorems": [
    "Verif.Props.c65_builds",
    "Verif.Props.c65_actual",
    "Verif.Props.c65_problem_partial",
    "Verif.Props.c65_relaxation",
    "Verif.Props.c65_extendable_storage",
    "Verif.Props.c65_storage_charge"
   ],
   "note": "c65_builds and c65_actual hold for all supported networks: c65_actual says exactly which problem the solver gets. It is the problem of the network when storage units have a given and symmetric capacity (c65_problem_partial). The witnesses show that otherwise the code violates the property: the chosen capacity of an extendable storage unit does not limit what it dispatches, and p_min_pu does not limit what it stores. Coefficients smaller than 1e-16 are excluded (C35)."
  },
  {
   "property": "C66",
   "status": "partial",
   "theorems": [
    "Verif.Props.c66_chain",
    "Verif.Props.c66_refused",
    "Verif.Props.c66_duplicate",
    "Verif.Props.c66_terminates",
    "Verif.Props.c66_check_never_refuses",
    "Verif.Props.c66_no_tables",
    "Verif.Props.c66_order_partial",
    "Verif.Props.c66_shipped_partial"
   ],
   "note": "Partial because of the order of files: it does not matter when an id never designates two port types in a library (c66_order_partial), otherwise it may (c28_order_dependent). Coefficients smaller than 1e-16 are excluded from the meaning in c66_shipped_partial (C35). c66_check_never_refuses shows that the consistency check made by the program can never fail. Reading tables is C74, reading YAML documents C72; solving is not modelled."
  },
  {
   "property": "C67",
   "status": "partial",
   "theorems": [
    "Verif.Props.c67_files_last",
    "Verif.Props.c67_files_partial",
    "Verif.Props.c67_frame",
    "Verif.Props.c67_master_name",
    "Verif.Props.c67_outcome",
    "Verif.Props.c67_no_subproblem",
    "Verif.Props.c67_directory_partial",
    "Verif.Props.c67_kind_partial",
    "Verif.Props.c67_missing_solver",
    "Verif.Props.c67_lost_directory",
    "Verif.Props.c67_kind_kept",
    "Verif.Props.c67_overwritten"
   ],
   "note": "c67_outcome is exact for every solver that is there and starts. The code violates the rest of the property: a missing solver gives True, with any result left in the folder (c67_missing_solver); a solver that cannot be started leaves the program in the folder, so that the next run does not find the solver and returns True (c67_lost_directory); after a merged run all solutions are presented as merged (c67_kind_kept); of problems with the same name only the last is written (c67_overwritten). The _partial theorems exclude these cases. Failures of the file system are not modelled."
  },
  {
   "property": "C68",
   "status": "partial",
   "theorems": [
    "Verif.Props.c68_print_partial",
    "Verif.Props.c68_comparison_partial",
    "Verif.Props.c68_determined",
    "Verif.Props.c68_unreadable",
    "Verif.Props.c68_scenario_misread",
    "Verif.Props.c68_component_misread",
    "Verif.Props.c68_sum_connections",
    "Verif.Props.c68_empty_sum",
    "Verif.Props.c68_small_number"
   ],
   "note": "Proved for arithmetic (numbers, variables, parameters, port fields, sums, differences, products, quotients) and inequalities, with plain decimal numbers and names. The code violates the rest: texts with time operators or == are refused at any depth (c68_unreadable), scenario operators and component variables read as port fields (c68_scenario_misread, c68_component_misread), sums over connections, empty sums and numbers with an exponent are refused."
  },
  {
   "property": "C69",
   "status": "partial",
   "theorems": [
    "Verif.Props.c69_builds",
    "Verif.Props.c69_actual",
    "Verif.Props.c69_problem_partial",
    "Verif.Props.c69_first_hour",
    "Verif.Props.c69_first_hour_infeasible",
    "Verif.Props.c69_renewable",
    "Verif.Props.c69_wind",
    "Verif.Props.c69_scenarios",
    "Verif.Props.c63_missing_parameter"
   ],
   "note": "Proved for studies without renewable clusters, wind and solar power of areas, with one load and one scenario when there is a thermal cluster, batteries in the first areas, and no coefficient below 1e-16; for these c69_actual says exactly what the solver problem is. It is the problem of the study when the hours belong to one period and as many units are available at the first hour as at the last one. The code violates the rest: the first hour is compared with itself, so that a study that can be operated may have a solver problem without solution (c69_first_hour_infeasible); studies with renewable clusters, wind or solar power, or several scenarios cannot be used (c69_renewable, c69_wind, c69_scenarios)."
  },
  {
   "property": "C70",
   "status": "partial",
   "theorems": [
    "Verif.Props.c70_written_read",
    "Verif.Props.c70_written_twice",
    "Verif.Props.c70_distinct",
    "Verif.Props.c70_antares_partial",
    "Verif.Props.c70_pypsa_partial"
   ],
   "note": "The file round trip is proved for all systems. The chain up to the solver is partial where c69_problem_partial and c65_problem_partial are. Text of YAML is not modelled: files are the trees that they describe."
  },
  {
   "property": "C71",
   "status": "partial",
   "theorems": [
    "Verif.Props.c71_system_partial",
    "Verif.Props.c71_library_partial",
    "Verif.Props.c71_known_keys",
    "Verif.Props.c71_same",
    "Verif.Props.c71_errors",
    "Verif.Props.c71_shipped",
    "Verif.Props.c71_repeated_key",
    "Verif.Props.c71_beside_ignored"
   ],
   "note": "Proved for all files without repeated keys. The code violates the rest: of a repeated key the earlier values are dropped unseen (c71_repeated_key), and what stands beside `system` or `library` is ignored (c71_beside_ignored). Booleans given as numbers or texts are whatever pydantic makes of them (a parameter). c71_shipped: the three library files of the code are read as the libraries of C59."
  },
  {
   "property": "C72",
   "status": "partial",
   "theorems": [
    "Verif.Props.c72_bounds_partial",
    "Verif.Props.c72_exponent",
    "Verif.Props.c72_constraint_refused"
   ],
   "note": "Proved for bounds of variables: all integers, and floats that Python writes with plain digits. The code violates the rest: numbers that Python writes with an exponent, and infinite ones, make the library unusable (c72_exponent); constraints with a number as bound or expression are refused (c72_constraint_refused)."
  },
  {
   "property": "C73",
   "status": "partial",
   "theorems": [
    "Verif.Props.c73_study_partial",
    "Verif.Props.c73_config_partial",
    "Verif.Props.c73_escape",
    "Verif.Props.c73_reference",
    "Verif.Props.c73_refused",
    "Verif.Props.c73_output_ignored",
    "Verif.Props.c73_percent_refused",
    "Verif.Props.c73_percent_other",
    "Verif.Props.c73_current_directory",
    "Verif.Props.c73_log",
    "Verif.Props.c73_refused_creates"
   ],
   "note": "Which study is converted is proved for all commands without faults and folders without '%'. The code violates the rest: the options for the output are never used (c73_output_ignored), folders with '%' are refused (c73_percent_refused) or another study is converted (c73_percent_other), with the shipped configuration the current directory is converted (c73_current_directory), '.log' is added to names of log files (c73_log), and refused commands create the log file (c73_refused_creates). The text of configuration files is not modelled."
  },
  {
   "property": "C74",
   "status": "partial",
   "theorems": [
    "Verif.Props.c74_read",
    "Verif.Props.c74_every_text",
    "Verif.Props.c74_written_read_partial",
    "Verif.Props.c74_iff",
    "Verif.Props.c74_nan",
    "Verif.Props.c74_hour_lost",
    "Verif.Props.c74_empty",
    "Verif.Props.c74_antares_partial",
    "Verif.Props.c74_null_capacity",
    "Verif.Props.c74_antares_problem_partial",
    "Verif.Props.c74_pypsa_problem_partial",
    "Verif.Props.c74_file"
   ],
   "note": "Reading is proved for all texts (c74_read, c74_every_text). Tables without nan or with one column are read back; c74_iff says exactly which other ones are. The code violates the rest: nan shifts numbers to other scenarios (c74_nan), hours without number vanish (c74_hour_lost), empty tables (c74_empty) and the tables of clusters without capacity (c74_null_capacity) cannot be read. The chains up to the solver are partial where C69 and C65 are. Texts of single numbers are a parameter that is read back exactly; quoting is not modelled. c74_file is the same for a file on disk."
  },
  {
   "property": "C75",
   "status": "partial",
   "theorems": [
    "Verif.Props.c75_read_partial",
    "Verif.Props.c75_scenario_partial",
    "Verif.Props.c75_long_line",
    "Verif.Props.c75_number_names",
    "Verif.Props.c75_boolean_names",
    "Verif.Props.c75_missing_names",
    "Verif.Props.c75_one_line",
    "Verif.Props.c75_fourth"
   ],
   "note": "Proved for texts whose groups are not all numbers or all booleans and do not stand for missing values. The code violates the rest: groups that are all numbers (c75_number_names), all booleans (c75_boolean_names) or are called NA, null, None... (c75_missing_names) are lost, one line with a wrong or missing number makes all groups unusable without an error when it is read (c75_one_line), and so does a fourth column (c75_fourth). Quoted words, and integers beyond 64 bits, are not modelled."
  },
  {
   "property": "C76",
   "status": "partial",
   "theorems": [
    "Verif.Props.c76_shipped_partial",
    "Verif.Props.c76_antares_partial",
    "Verif.Props.c76_pypsa_partial",
    "Verif.Props.c76_no_solution",
    "Verif.Props.c76_error",
    "Verif.Props.c76_cost_of_nothing"
   ],
   "note": "Proved for a solver that is right in exact arithmetic (hypothesis RightSolver, met by idealSolver). The code violates the last part: without a solution the command ends normally and prints the cost 0 (c76_no_solution), also for an Antares study that can be operated and costs at least 500 (c76_cost_of_nothing). Tiny coefficients and the other limits of C66, C69, C65 and C74 remain."
  },
  {
   "property": "C77",
   "status": "partial",
   "theorems": [
    "Verif.Props.c77_words",
    "Verif.Props.c77_refused",
    "Verif.Props.wordsSay_unique",
    "Verif.Props.c77_order",
    "Verif.Props.c77_command",
    "Verif.Props.c77_command_refused",
    "Verif.Props.c77_last_models",
    "Verif.Props.c77_repeated_models",
    "Verif.Props.c77_no_hours"
   ],
   "note": "The accepted words and their meaning are characterised exactly (c77_words, c77_refused), the order does not matter when no option is used twice (c77_order). The code violates the last two parts: only the files of the last --models are read (c77_last_models, c77_repeated_models), and a duration of 0 or less is accepted and gives the cost 0 with the status of a best solution (c77_no_hours). Words beginning with @ are plain values as no fromfile_prefix_chars is set; only ASCII digits and white space are modelled in int()."
  },
  {
   "property": "C78",
   "status": "proved",
   "theorems": [
    "Verif.Props.c78_same_study",
    "Verif.Props.c78_command"
   ],
   "note": "For studies (c78_same_study) and for what the command prints (c78_command), on the shipped libraries. Tiny coefficients are not excluded: they are dropped alike (C84)."
  },
  {
   "property": "C79",
   "status": "proved",
   "theorems": [
    "Verif.Props.c79_same_study",
    "Verif.Props.c79_command"
   ],
   "note": "For studies (c79_same_study) and for what the command prints (c79_command), on the shipped libraries. Tiny coefficients are not excluded: they are dropped alike (C84)."
  },
  {
   "property": "C80",
   "status": "proved",
   "theorems": [
    "Verif.Props.c80_same_study",
    "Verif.Props.c80_command"
   ],
   "note": "For studies (c80_same_study) and for what the command prints (c80_command), on the shipped libraries. Tiny coefficients are not excluded: they are dropped alike (C84)."
  },
  {
   "property": "C81",
   "status": "partial",
   "theorems": [
    "Verif.Props.c81_any_models",
    "Verif.Props.c81_one_scenario",
    "Verif.Props.c81_same_study",
    "Verif.Props.c81_bound",
    "Verif.Props.c81_average",
    "Verif.Props.c81_kept",
    "Verif.Props.c81_problem_partial",
    "Verif.Props.c81_command_partial",
    "Verif.Props.c81_tiny_prices"
   ],
   "note": "For studies without restriction on sizes and data (c81_any_models for any models; c81_same_study, c81_bound, c81_average for the shipped libraries), and c81_one_scenario shows that a study whose data are read in the column of one scenario is the study in this scenario alone. c81_command_partial is what the command prints when no coefficient of the cost is below 1e-16 (c81_kept is the same for any models, and c81_problem_partial for the problem given to the solver): coefficients of the constraints may be. Missing: cost coefficients below 1e-16, for which the property is false of the code: in c81_tiny_prices the command prints 7.5e-16 for one scenario, and 0 for two scenarios that are both this one."
  },
  {
   "property": "C82",
   "status": "partial",
   "theorems": [
    "Verif.Props.c82_same_study",
    "Verif.Props.c82_problem_partial"
   ],
   "note": "The mathematical study for all networks (c82_same_study), and the problem given to the solver with what a right solver answers (c82_problem_partial). Partial: expressions that are not covered are missing (Expressible: literals and data that are finite, objectives as the check of models accepts them, also with port fields, operators nested as in C09); tiny coefficients, bounds of booleans and any bounds of constraints are covered."
  },
  {
   "property": "C83",
   "status": "partial",
   "theorems": [
    "Verif.Props.c83_same_study",
    "Verif.Props.c83_problem_partial"
   ],
   "note": "The mathematical study for all networks (c83_same_study), and the problem given to the solver with what a right solver answers (c83_problem_partial). Partial: expressions that are not covered are missing (Expressible: literals and data that are finite, objectives as the check of models accepts them, also with port fields, operators nested as in C09); tiny coefficients, bounds of booleans and any bounds of constraints are covered."
  },
  {
   "property": "C84",
   "status": "partial",
   "theorems": [
    "Verif.Props.c84_exact_partial",
    "Verif.Props.c84_regular_partial",
    "Verif.Props.c84_difference_partial",
    "Verif.Props.c84_command_partial"
   ],
   "note": "The kept study is specified by the reading of expressions itself (the coefficient of an instance is what the value becomes when this instance is one instead of zero), not by the linearizer. Partial: expressions that are not covered are missing (Expressible: literals and data that are finite, objectives as the check of models accepts them, also with port fields, operators nested as in C09); tiny coefficients, bounds of booleans and any bounds of constraints are covered."
  },
  {
   "property": "C85",
   "status": "proved",
   "theorems": [
    "Verif.Props.c85_same_study",
    "Verif.Props.c85_timesteps",
    "Verif.Props.c85_shipped_study",
    "Verif.Props.c85_kept",
    "Verif.Props.c85_command",
    "Verif.Props.c85_storage",
    "Verif.Props.c85_first_timestep",
    "Verif.Props.c85_mixed"
   ],
   "note": "c85_same_study is for any models, c85_shipped_study for the shipped libraries, and c85_timesteps shows that reordering the timesteps of the block is such a change; c85_kept is the same for what the program keeps (tiny coefficients dropped), and c85_command is for what the command prints, without restriction on coefficients. c85_storage shows that short-term storages must be excluded. For the problems of any models as built by the library, c85_problem_partial and c85_kept_problem_partial give it for the expressions that C35 covers; c85_first_timestep and c85_mixed show that it fails for problems when a bound of a constraint varies and its expression does not, and when an expression with tiny coefficients adds to a sum over the block what is read at another timestep."
  },
  {
   "property": "C86",
   "status": "partial",
   "theorems": [
    "Verif.Props.c86_study",
    "Verif.Props.c86_any_models",
    "Verif.Props.c86_command_partial",
    "Verif.Props.c86_tiny_prices"
   ],
   "note": "c86_any_models is for models whose costs are sums of terms proportional to the prices and whose other expressions do not read them; c86_study is the shipped libraries; c86_command_partial is what the command prints when no coefficient of the cost (in either run) is below 1e-16: coefficients of the constraints may be. Missing: cost coefficients below 1e-16, for which the property is false of the code: c86_tiny_prices is a study for which the command prints 5000, and 0 once all prices are divided by 10^21."
  },
  {
   "property": "C87",
   "status": "proved",
   "theorems": [
    "Verif.Props.c87_any_models",
    "Verif.Props.c87_study",
    "Verif.Props.c87_command",
    "Verif.Props.c87_any_solved",
    "Verif.Props.c87_study_solved",
    "Verif.Props.c87_command_solved"
   ],
   "note": "c87_any_models is for any models, with and without tiny coefficients; c87_study and c87_command are for the shipped libraries, and c87_command covers commands whose coefficients below 1e-16 are dropped. c87_problem_partial also gives it for the problems of any models as built by the library, for the expressions that C35 covers. With C93: the looser problem is solved when the other one is."
  },
  {
   "property": "C88",
   "status": "proved",
   "theorems": [
    "Verif.Props.c88_any_models",
    "Verif.Props.c88_timesteps",
    "Verif.Props.c88_same_study",
    "Verif.Props.c88_sum",
    "Verif.Props.c88_kept",
    "Verif.Props.c88_command",
    "Verif.Props.c88_battery"
   ],
   "note": "c88_any_models is for any models, c88_same_study and c88_sum for the shipped libraries; c88_timesteps shows that a block of one timestep is the study at this timestep; c88_kept is the same for what the program keeps (tiny coefficients dropped), and c88_command is for what the command prints, without restriction on coefficients. c88_battery shows that models that link timesteps must be excluded. c88_problem_partial also gives it for the problems of any models as built by the library, for the expressions that C35 covers."
  },
  {
   "property": "C89",
   "status": "partial",
   "theorems": [
    "Verif.Props.c89_any_models",
    "Verif.Props.c89_study",
    "Verif.Props.c89_command",
    "Verif.Props.c89_command_partial",
    "Verif.Props.c89_tiny"
   ],
   "note": "c89_any_models is for any models with consistent powers; c89_study for all studies on the shipped libraries. c89_command is what the command prints for systems without thermal clusters, even with tiny coefficients; c89_command_partial for all systems when no coefficient is below 1e-16. Missing: thermal clusters with coefficients below 1e-16, for which the property is false of the code (c89_tiny: a unit of size 1e-17 that must run has no solution)."
  },
  {
   "property": "C90",
   "status": "partial",
   "theorems": [
    "Verif.Props.c89_any_models",
    "Verif.Props.c90_study",
    "Verif.Props.c90_command_partial",
    "Verif.Props.c90_tiny"
   ],
   "note": "c90_study is for all studies on the shipped libraries, c89_any_models for any models with consistent powers; c90_command_partial is what the command prints when no coefficient is below 1e-16. Missing: coefficients below 1e-16, for which the property is false of the code (c90_tiny: the command prints 5 in one unit and 0 in another one)."
  },
  {
   "property": "C91",
   "status": "proved",
   "theorems": [
    "Verif.Props.c91_any_models",
    "Verif.Props.c91_study",
    "Verif.Props.c91_command",
    "Verif.Props.c91_units",
    "Verif.Props.c91_any_solved",
    "Verif.Props.c91_command_solved"
   ],
   "note": "c91_any_models is for any models in which amounts are not multiplied by variables and no variable is whole, and covers tiny coefficients; c91_study for all studies on the shipped libraries without thermal clusters; c91_command is what three commands print when the three are solved. c91_units shows why thermal clusters are excluded. With C93: the problem between two solved problems is solved."
  },
  {
   "property": "C92",
   "status": "partial",
   "theorems": [
    "Verif.Props.c92_any_models",
    "Verif.Props.c92_study",
    "Verif.Props.c92_command_partial",
    "Verif.Props.c92_tiny",
    "Verif.Props.c92_any_solved",
    "Verif.Props.c92_command_solved_partial"
   ],
   "note": "c92_any_models is for any models whose costs are proportional to prices; c92_study for all studies on the shipped libraries, with thermal clusters; c92_command_partial is what three commands print when the three are solved and no coefficient of their costs is below 1e-16. Missing: cost coefficients below 1e-16, for which the property is false of the code (c92_tiny: costs 10 and 0 are printed at two prices, and 0 at their mean). With C93: the problem at the added prices is solved when the two others are."
  },
  {
   "property": "C93",
   "status": "proved",
   "theorems": [
    "Verif.Props.c93_any_models",
    "Verif.Props.c93_amounts",
    "Verif.Props.c93_study",
    "Verif.Props.c93_command",
    "Verif.Props.c93_two_commands",
    "Verif.Props.c93_unbounded",
    "Verif.Props.c93_plant"
   ],
   "note": "c93_any_models is for problems of any models whose expressions are linear in the variables, whole variables included, and for what is left of them when tiny coefficients are dropped; c93_amounts for other amounts; c93_study for all studies on the shipped libraries; c93_command and c93_two_commands are about the printed status, whatever the solver and the order of sets. c93_unbounded shows that the lower bound is needed. Trusted, as everywhere: the solver says that there is an optimum exactly when there is one (RightSolver)."
  },
  {
   "property": "C94",
   "status": "partial",
   "theorems": [
    "Verif.Props.c94_bounded",
    "Verif.Props.c94_study",
    "Verif.Props.c94_areas",
    "Verif.Props.c94_rest",
    "Verif.Props.c94_command_partial",
    "Verif.Props.c94_tiny"
   ],
   "note": "c94_bounded and c94_study are for all studies on the three shipped libraries, c94_areas and c94_rest for all studies on antares-historic and andromede-v1-models; c94_command_partial is the printed status when no coefficient is below 1e-16. Missing: commands with such coefficients, for which the property is false of the code (c94_tiny). c93_unbounded shows that the condition on prices is needed."
  },
  {
   "property": "C95",
   "status": "partial",
   "theorems": [
    "Verif.Props.c95_study",
    "Verif.Props.c95_absent",
    "Verif.Props.c95_command_partial",
    "Verif.Props.c95_file_partial"
   ],
   "note": "c95_study and c95_absent are about all studies on the three shipped libraries and their least costs; c95_command_partial and c95_file_partial are about what is printed when no coefficient is below 1e-16. Missing: commands with such coefficients, which are dropped (Spec/Kept.lean)."
  },
  {
   "property": "C96",
   "status": "partial",
   "theorems": [
    "Verif.Props.c96_study",
    "Verif.Props.c96_both",
    "Verif.Props.c96_command_partial",
    "Verif.Props.c96_tiny"
   ],
   "note": "c96_study and c96_both are about all studies on the three shipped libraries, with any other components and connections, and prices of any sign; c96_command_partial is about what is printed when no coefficient is below 1e-16. Missing: commands with such coefficients, for which the property is false of the code (c96_tiny: tiny prices are dropped, and the command prints no gain)."
  },
  {
   "property": "C97",
   "status": "proved",
   "theorems": [
    "Verif.Props.c97_study",
    "Verif.Props.c97_command",
    "Verif.Props.c97_merged"
   ],
   "note": "c97_command is about what is printed, also with coefficients below 1e-16, which are dropped in both; c97_study is about the plans themselves, and c97_merged leaves out a load that has become 0."
  },
  {
   "property": "C98",
   "status": "partial",
   "theorems": [
    "Verif.Props.c98_same_text_partial",
    "Verif.Props.c98_layout",
    "Verif.Props.c98_digit_names_violated",
    "Verif.Props.c98_points_violated"
   ],
   "note": "c98_same_text_partial is an equivalence, for finite numbers, identifiers of components without points that do not start like the end of a number, and names of variables without `[`. Missing: other names, for which the property is false of the code (c98_digit_names_violated, c98_points_violated), and infinite or undefined coefficients. How Python writes a number with {:+g} is a parameter of which only the shape is assumed."
  },
  {
   "property": "C99",
   "status": "partial",
   "theorems": [
    "Verif.Props.c99_same_text_partial",
    "Verif.Props.c99_accepted",
    "Verif.Props.c99_problem",
    "Verif.Props.c99_lines_violated"
   ],
   "note": "c99_same_text_partial is an equivalence, for identifiers of components that are not empty, do not start with a blank and have no colon nor end of line, and names of variables without colon nor end of line. Missing: other names; with an end of line in an identifier the property is false of the code (c99_lines_violated). How Python writes a float is a parameter: different floats have different texts, without blanks, brackets, commas, parentheses nor ends of line."
  },
  {
   "property": "C100",
   "status": "partial",
   "theorems": [
    "Verif.Props.c100_same_text_partial",
    "Verif.Props.c100_shown",
    "Verif.Props.c100_accepted",
    "Verif.Props.c100_blank_violated",
    "Verif.Props.c100_equal_differ"
   ],
   "note": "c100_same_text_partial is an equivalence, for names of candidates without end of line and without blank at their end; c100_shown and c100_accepted hold for all names. Missing: other names; with a blank at the end of a name the property is false of the code (c100_blank_violated). c100_equal_differ: solutions that compare equal may have different texts. How Python writes a float is a parameter, as in C99."
  }
 ]
}
