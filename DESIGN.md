# Formal model of andromede-modeling-prototype

Model and proofs: Lean 4.33.0 with Mathlib, in `/verif/lean`.  Source modelled: `/repo` (python, read as text, never run).

Contents: 1 conventions, 2 trusted base, 3 what is modelled and what is not, 4 the properties and how each is proved, 5 where the code
breaks a property, 6 how the theorems were tested.

## 1. Conventions

* Python functions become total, computable Lean functions, branch by branch.  A raised exception is a value `Except.error` of type `Err`, with
  one constructor per exception class that the code raises or that Python raises implicitly (`ValueError`, `KeyError`, `IndexError`,
  `TypeError`, `AttributeError`, `ZeroDivisionError`, ...).
* Objects mutated in place become returned values.  Where a property is about aliasing (C14, C38, C41) the store is explicit.
* Dictionaries are association lists in insertion order, as in Python; a second write to a key keeps its place.
* Loops over Python *sets* have no fixed order in Python: the model takes the order as an argument and the theorems quantify over it (C27, C28).
* Every definition of the model carries a comment with the file and lines it models and says where it simplifies.
* Layout: `Verif/Model` the model; `Verif/Spec` specifications, small and written without the helpers of the model; `Verif/Lemmas` lemmas;
  `Verif/Props` the theorems of the properties, each with an `example` that meets its hypotheses.
* A theorem named `_partial` proves part of a property; what is missing is said beside it and in `MANIFEST.json`.  When the code violates a
  property, the violation is a theorem with a concrete witness, and the partial theorem has the hypothesis that excludes it.

The two specifications on which most theorems rest:

* `mden M e t s` (`Spec/Meaning.lean`): the mathematical value of a model expression at timestep `t` in scenario `s`, read in a component.
* `MathFeasible`, `mathCost` (`Spec/Problem.lean`): the values of the variables that a study accepts and what they cost, without
  any reference to how the solver problem is built.

## 2. Trusted base

* Lean's kernel.  Each theorem depends at most on `propext`, `Classical.choice` and `Quot.sound`.  No axiom is added; no `sorry`, `admit`,
  `native_decide`, `bv_decide`, `implemented_by` or `unsafe` is used.  `decide +kernel` is used on closed goals only (witnesses,
  examples, and reading the three shipped libraries); it is evaluated by the kernel.
* The reading of the Python source.  Nothing is extracted or run; section 3 says what was read and what is assumed about what was not.
* The statements: `Spec/*.lean` and the theorems in `Props/*.lean`.

Assumptions about Python and libraries, all made explicit in the definitions that use them:

* **Numbers.**  A float is a `Num`: an exact rational, `inf`, `-inf` or `nan`, with the IEEE rules for the last three.  Rounding, overflow to
  infinity, signed zero and NaN payloads are not modelled.  So `1e-16` thresholds are exact comparisons.
* **Recursion depth and memory** are unbounded.
* **Strings** are lists of Unicode characters, compared exactly.
* **ANTLR.**  The lexer takes the longest match, first rule first; a character that starts no token is skipped with an error message on
  stderr (`Lexer.recover`).  The parser of `Expr.g4` is modelled as precedence climbing over tokens, the way the generated `ExprParser.py` is
  written; `adaptivePredict` is taken to decide as the grammar says, and an ambiguity to be resolved by continuing the current loop.
  The error strategy is the one that the code installs (`BailErrorStrategy`: the first syntax error raises).
* **YAML and pydantic.**  A file is the tree that its YAML text describes (`Model/Document.lean`); going from text to tree is not modelled.
  The checks of pydantic are modelled class by class: aliases (`populate_by_name`), unknown keys, types, defaults, fields that are set.
  What pydantic makes of a boolean given as a number or text, and Python's `str` of a float, are parameters.  The three shipped library
  files are transcribed by a script as trees (`Model/ShippedFiles.lean`); the kernel reads them (`c71_shipped`).
* **pandas and numpy.**  A table is a `Frame` (a width and rows of numbers); reading files is a function from names to tables, with an error if the file
  is absent or malformed.
* **PyPSA and antares.craft.**  A network or a study is a record of the tables and attributes that the converters read.  What a network means (`Spec/PypsaProblem.lean`, C65) is written from the attributes that the converter accepts; PyPSA itself is not in the repository, so the limits that PyPSA adds on its own (for example of spilled energy) are not in it.  In the same way, what an Antares study means (`Spec/AntaresProblem.lean`, C69) is written from the objects and attributes that the converter reads: adequacy, hurdle costs, hydro reservoirs and binding constraints other than those of batteries are not in it.
* **OR-Tools.**  A solver is a list of columns (bounds, integrality, name), rows (bounds, coefficients) and an objective (coefficients, offset).
  `SetCoefficient` overwrites, `NumVar`/`IntVar`/`BoolVar` append a column.  Solving is not modelled: theorems about solutions quantify
  over every point.
* **anytree, the file system and subprocesses** are not modelled beyond parent and children lists with their checks (duplicates, loops), the text written, and exit codes.

## 3. What is modelled

| source (under `src/andromede`) | model | not modelled |
|---|---|---|
| `expression/expression.py`, `visitor.py`, `port_operator.py`, `scenario_operator.py` | `Model/Expr.lean`: the AST, every operator and method | `__str__`, dataclass hashing |
| `expression/evaluate.py`, `degree.py`, `indexing.py`, `indexing_structure.py`, `equality.py` | `Model/Visitors.lean` | |
| `expression/copy.py`, `context_adder.py`, `evaluate_parameters.py`, `port_resolver.py` | `Model/Copy.lean` | |
| `expression/operators_expansion.py` | `Model/Copy.lean`, `Model/Expand.lean` | |
| `expression/parsing/parse_expression.py`, `antlr/*` | `Model/Parse.lean`: lexer, parser, visitor | ANTLR's prediction tables (see above) |
| `expression/print.py` | `Model/Print.lean` | `str` of a float (a parameter) |
| `model/*.py` | `Model/Model.lean`, `Model/Library.lean` | `probability_law.py` (never used by the rest of the code) |
| `libs/*.yml` | `Model/ShippedFiles.lean`, `Model/Shipped.lean` (generated by scripts) | |
| `study/network.py`, `data.py`, `resolve_components.py` | `Model/Network.lean`, `Model/Data.lean`, `Model/System.lean`; tables as texts in `Model/Tables.lean` | text of a single number (pandas may differ in the last digit), quoted words |
| `study/parsing.py`, `model/parsing.py`, `utils.py` (`ModifiedBaseModel`), `transform_to_yaml` | `Model/Document.lean`, `Model/BuilderText.lean` | text of YAML, quoted words of a scenario builder |
| `simulation/linear_expression.py`, `linearize.py` | `Model/LinExpr.lean`, `Model/LinHeap.lean`, `Model/Linearize.lean`; texts in `Model/LinText.lean` | text of a single number |
| `simulation/optimization.py`, `strategy.py`, `time_block.py` | `Model/Instantiate.lean`, `Model/Optim.lean` | `export_as_mps`, `export_as_lp` (OR-Tools) |
| `simulation/benders_decomposed.py` | `Model/Benders.lean`: decomposition, merge, structure file; `Model/Runner.lean`: files and runs | the solver program itself |
| `simulation/decision_tree.py` | `Model/Tree.lean` | |
| `simulation/output_values.py` | `Model/Output.lean`; texts in `Model/OutputText.lean`, `Model/BendersText.lean` | text of a single number |
| `input_converter/src/data_preprocessing/thermal.py` | `Model/Thermal.lean`; writing in `Model/Tables.lean` | text of a single number |
| `input_converter/src/converter.py`, `data_preprocessing/binding_constraints.py`, `dataclasses.py`, `utils.py` | `Model/Antares.lean` | the package `antares-craft` that reads studies |
| `input_converter/src/main.py`, `logger.py` | `Model/ConverterCli.lean` | argparse itself, the text of configuration files, messages |
| `pypsa_converter/pypsa_converter.py`, `utils.py` | `Model/Pypsa.lean` | reading networks |
| `main/main.py`, `parse_cli` | `Model/Cli.lean`, `Model/CliOutput.lean`, `Model/CliWords.lean` (argparse on words) | text of YAML; digits and white space outside ASCII in `int`; ways to write the same path; the solver is a parameter, assumed right (`RightSolver`); layout of printed floats; negative `--scenario` |
| `simulation/runner.py`, `serialize`, `read_json` | `Model/Runner.lean` | failures of the file system; the solver is any function on files |

## 4. Properties

Each line: what is modelled, how it is proved, and what the theorems are (all in namespace `Verif.Props`).  Nothing in the list is
inexpressible in the model; run-time parts (solver, files, orders of sets) are parameters of it.

| id | property | modelled | proof | status and theorems |
|---|---|---|---|---|
| C01 | Operators on expressions denote arithmetic | AST, operator overloads, `evaluate` | laws of `Num` and case analysis | partial: `c01_operators_partial`, `c01_rsub_is_addition`, `c01_rsub_violated`, `c01_no_empty_sum` |
| C02 | Copying an expression preserves its value and is idempotent | `CopyVisitor` as a fold with leaf hooks | induction on expressions | proved: `c02_copy_value`, `c02_copy_flat_idempotent` |
| C03 | Expression equality is exact structural equality, tolerant equality is symmetric and monotone | `EqualityVisitor` with tolerances | simultaneous induction on two trees | proved: `c03_exact`, `c03_tolerant`, `c03_tolerant_not_transitive` |
| C04 | Substituting parameter values commutes with evaluation | `ParameterResolver` | instance of the value theorem for hook folds | proved: `c04_resolve_parameters` |
| C05 | Degree analysis is sound for evaluation | degree visitor, `evaluate` | induction; affine = combination law along lines | proved: `c05_degree_zero`, `c05_degree_one`, `c05_degree_two_not_affine` |
| C06 | An expression accepted as linear never fails linearization for non-linearity | degree, expansion, linearization | degree is preserved by expansion; degree 0 gives no term | proved: `c06_linear_never_rejected`, `c06_constant_no_term` |
| C07 | Indexing analysis is sound | indexing visitor, expansion, linearization | induction, against `den` | proved: `c07_time_value`, `c07_scenario_value`, `c07_time_linear`, `c07_scenario_linear` |
| C08 | Indexing analysis does not depend on operand order | `_combine` with its short circuit | join semantics when there is no error | partial: `c08_sum_union_partial`, `c08_sum_permutation_partial`, `c08_binary_union_partial`, `c08_port_field_order_dependent` |
| C09 | Operator expansion preserves the mathematical meaning | operator expansion | induction under a well-nesting predicate, against `den` | partial: `c09_expansion_value_partial`, `c09_shift_of_evaluation`, `c09_nested_expectation` |
| C10 | Expansion output is directly linearizable | expansion, linearization | grammar of the output, induction | proved: `c10_expanded_form`, `c10_linearization_errors`, `c10_linear_linearizes` |
| C11 | Linearization is exact | linearization, `build` | induction, sums over dictionaries | proved: `c11_linearization_exact`, `c11_linearization_value`, `c11_pipeline_exact` |
| C12 | Linear expressions keep a canonical form | `LinearExpression` as an association list | invariant over all sequences of operations | proved: `c12_canonical`, `c12_no_small`, `c12_product_stores_small` |
| C13 | Arithmetic on linear expressions is coefficient-wise exact | `LinearExpression` operators | coefficient functions | partial: `c13_add`, `c13_sub`, `c13_neg`, `c13_inplace`, `c13_mul_rejected`, `c13_mul_const_right_partial`, `c13_mul_const_left_partial`, `c13_mul_tiny_factor`, `c13_div_rejected`, `c13_div` |
| C14 | Binary operators on linear expressions leave their operands unchanged | heap of `LinearExpression` objects and their dictionaries | invariant on the heap, history induction | partial: `c14_operation_partial`, `c14_later_updates_partial`, `c14_mul_changes_right_operand`, `c14_mul_shares_right_operand` |
| C15 | Port references stand for the connected definitions | port resolver, registration of connections | induction on connections and expressions, against `mden` | proved: `c15_meaning`, `c15_accepted_iff`, `c15_other_nodes`, `c15_instantiate` |
| C16 | Component instantiation renames exactly the model's own symbols | `ContextAdder` | instance of the hook-fold theorem | proved: `c16_meaning`, `c16_evaluate`, `c16_symbols`, `c16_accepted_iff` |
| C17 | A constraint means its comparison | `Constraint` constructor | equivalence of solution sets | proved: `c17_comparison`, `c17_comparison_stored`, `c17_accepted_iff`, `c17_replicate` |
| C18 | Accepted bounds never depend on variables | `Variable`, `Constraint` constructors | the value does not change with the values of variables | proved: `c18_bounds_constant`, `c18_bounds_constant_in_component`, `c18_meaning_constant`, `c18_variable_shift_accepted` |
| C19 | An accepted objective can always be instantiated once | `model`, whole pipeline | C06 and C07 | partial: `c19_accepted`, `c19_builds_partial`, `c19_value_partial`, `c19_port_field_nonlinear` |
| C20 | An accepted port field definition refers only to its own component | port field definition checker | induction | partial: `c20_definition_partial`, `c20_anywhere_partial`, `c20_amounts_not_checked` |
| C21 | A connection is accepted exactly when each field has one definition | `connect`, `PortsConnection` | decision table, iff | proved: `c21_accepted_iff`, `c21_master`, `c21_registration`, `c21_models_are_keyed` |
| C22 | The network behaves like a map of components | `Network` | refinement to a map | partial: `c22_lookup`, `c22_listing`, `c22_listing_once_partial`, `c22_id_listed_twice`, `c22_replicate`, `c22_connections` |
| C23 | A passed data consistency check guarantees every later value lookup | `DataBase.requirements_consistency`, lookups | iff; every later lookup succeeds | partial: `c23_reads_partial`, `c23_accepts`, `c23_nodes_not_checked` |
| C24 | Data structures return the entry for the requested index | `study/data.py` | case analysis per data structure | partial: `c24_entry_partial`, `c24_ignores`, `c24_missing_index`, `c24_tree`, `c24_negative_timestep`, `c24_nested_tree` |
| C25 | The database is last-write-wins | `DataBase` | history induction | proved: `c25_last_write` |
| C26 | Scenario builder assigns each parameter its own group | scenario builder | list induction | partial: `c26_builder`, `c26_parameters_partial`, `c26_group_leaks`, `c26_nodes_ignored` |
| C27 | Library resolution terminates, orders dependencies and detects cycles | `resolve_library` loop, any set order | well-founded measure, invariant | proved: `c27_terminates`, `c27_success`, `c27_bad_dependencies`, `c27_succeeds_iff` |
| C28 | Resolved libraries see exactly the port types of their dependencies | `resolve_library` loop, any set order | invariant; equality over all orders | partial: `c28_content`, `c28_order_independent_partial`, `c28_order_dependent`, `c28_preloaded` |
| C29 | Block timesteps wrap around inside the block | `BlockBorderManagement.CYCLE` | integer arithmetic | proved: `c29_wrap`, `c29_period`, `c29_absolute`, `c29_ignore_not_supported` |
| C30 | One solver variable per instance, with its bounds and type | creation of solver variables | bijection between columns and instances | partial: `c30_instances`, `c30_columns_partial`, `c30_crossed_bounds_raise`, `c30_boolean_bounds_ignored`, `c30_shared_id` |
| C31 | Solver variable names identify variable instances | solver variable names | injectivity on strings | partial: `c31_names_partial`, `c31_bookkeeping`, `c31_collisions`, `c31_short_names` |
| C32 | A solver row is equivalent to the bounded linear expression | `_create_constraint` row construction | equivalence of solution sets | proved: `c32_row`, `c32_accepted_iff` |
| C33 | Every constraint is enforced at every index it depends on | constraints over the block and scenarios | composition of C09, C11, C15, C16, C17, C32 | partial: `c33_rows_partial`, `c33_written_partial`, `c33_bound_not_enforced` |
| C34 | The solver objective is the sum of all contributions | objective construction | same composition | partial: `c34_objective_partial` |
| C35 | The built problem has the feasible set and cost of the mathematical model | `build_problem` | composition of C30, C33, C34 | partial: `c35_build_partial`, `c35_tiny_coefficient`, `c35_optimum_partial` |
| C36 | Problem-splitting strategies cover the model | `strategy.py` | list lemmas | proved: `c36_selection`, `c36_cover`, `c36_objectives`, `c36_risk` |
| C37 | Decision tree probabilities | `DecisionTreeNode` | tree induction | partial: `c37_path_probability`, `c37_rejected`, `c37_check_iff`, `c37_accepted`, `c37_exact`, `c37_tree_exists`, `c37_tree_proper`, `c37_rejected_stays`, `c37_root_not_one`, `c37_children_not_scaled`, `c37_nan_accepted` |
| C38 | Coupling constraints are never lost or mixed up | `InterDecisionTimeScenarioConfig`, coupling constraints | history induction | partial: `c38_history`, `c38_refused`, `c38_meaning`, `c38_names_match`, `c38_variables_distinct_partial`, `c38_variables_mixed_up`, `c38_trees_share`, `c38_empty_id` |
| C39 | Merging master problems preserves feasible points and cost | `_merge_masters` | equivalence of feasible sets | partial: `c39_merged_partial`, `c39_lossless`, `c39_single`, `c39_built`, `c39_integrality_lost`, `c39_constant_lost`, `c39_coupler_bounds_lost`, `c39_coupler_lost`, `c39_empty_row_lost`, `c39_shared_name` |
| C40 | The exported structure lists exactly the shared candidates | structure file | list lemmas, read-back of the text | partial: `c40_lines_partial`, `c40_file_partial`, `c40_no_subproblem`, `c40_same_name`, `c40_names_collide`, `c40_long_name` |
| C41 | Output values round trip | `OutputValues` | round trip on shapes, store | partial: `c41_round_trip_partial`, `c41_read`, `c41_problem`, `c41_ragged_lost`, `c41_ragged_raises`, `c41_stale_values`, `c41_reading_changes` |
| C42 | Output comparison is reflexive and symmetric | `OutputValues`, `BendersSolution` comparison | meaning of the comparison, then its laws | proved: `c42_meaning`, `c42_laws`, `c42_ignored`, `c42_benders`, `c42_not_transitive`, `c42_negative_tolerance` |
| C43 | Parsed expressions follow the documented grammar | lexer, parser, visitor | equivalence with a stratified grammar (`Spec/Grammar.lean`), both ways | partial: `c43_parse_partial`, `c43_tokens_unique`, `c43_unambiguous`, `c43_errors`, `c43_known_names`, `c43_unrecognised_ignored`, `c43_bad_text_accepted`, `c43_postfix_none`, `c43_shift_not_left_assoc` |
| C44 | Thermal preprocessing yields consistent unit counts | `ThermalDataPreprocessing` | integer and rational arithmetic over series | partial: `c44_units_partial`, `c44_units_min`, `c44_previous`, `c44_variation_partial`, `c44_file`, `c44_null_capacity`, `c44_first_hour`, `c44_scenarios_merged`, `c44_other_scenarios_fail` |
| C45 | PyPSA conversion clamps and connects consistently | PyPSA conversion | equality with a specified study (`Spec/Pypsa.lean`), iff for acceptance | partial: `c45_clamp`, `c45_clamp_range`, `c45_convert`, `c45_accepts`, `c45_names`, `c45_names_partial`, `c45_connections`, `c45_files`, `c45_changes_network`, `c45_nan_kept`, `c45_same_name`, `c45_missing_bus`, `c45_inactive_storage`, `c45_unknown_carrier`, `c45_quota_kept` |
| C46 | Resolving a system keeps its content | `resolve_system`, `build_network`, `build_data_base` | list induction | partial: `c46_network_partial`, `c46_unknown_rejected`, `c46_data_partial`, `c46_duplicate_component` |
| C47 | Resolving a library model keeps its declared content | `_resolve_model` | list induction | partial: `c47_model_partial`, `c47_duplicate_port_rejected`, `c47_duplicate_variable` |
| C48 | Traversing a decision tree visits every node once, level by level | tree traversal | tree induction | proved: `c48_traverse_depth`, `c48_traverse_all`, `c48_level_order`, `c48_size`, `c48_each_once` |
| C49 | Time shifts and bounds of time sums are constants of the study | bounds of time operators | induction | proved: `c49_time_bound` |
| C50 | Data declarations are accepted exactly when their shape is the announced one | `_build_data` | decision table, iff | proved: `c50_accepted`, `buildData_entry` |
| C51 | The consistency check finds every component with an unknown model | `consistency_check` | iff | proved: `c51_consistency` |
| C52 | Kinds of variables have their bounds | `float_variable`, `int_variable`, `bool_var` | equality of accepted values | proved: `c52_kinds` |
| C53 | Comparing model definitions | `model/*.py` equality | iff on fields | partial: `c53_variables_partial`, `c53_constraints_partial`, `c53_models_partial`, `c53_components_partial`, `c53_context_ignored`, `c53_objective_ignored`, `c53_definition_ignored`, `c53_objective_raises` |
| C54 | Accepted models have exactly the declared content | `model` | equality of contents | proved: `c54_created`, `c54_duplicate_dropped` |
| C55 | Comparing linear expressions | `LinearExpression.__eq__`, `is_zero` | iff on coefficient functions | partial: `c55_equal`, `c55_is_zero`, `c55_limits` |
| C56 | What converting an Antares study gives | Antares conversion | equality with a specified study (`Spec/Antares.lean`), iff for acceptance | partial: `c56_nodes`, `c56_components`, `c56_thermal_files`, `c56_accepts`, `c56_connected_partial`, `c56_wind_dangling`, `c56_loads_merged`, `demo_wind_useless` |
| C57 | Batteries of Antares studies | Antares conversion of batteries | list induction, history | partial: `c57_batteries_partial`, `c57_history`, `c57_later_lost`, `c57_field`, `c57_operation_ignored`, `c57_weight_by_parameter` |
| C58 | Methods on expressions denote comparisons, time operators and sums over connections | methods of expressions | equality of meanings | proved: `c58_comparisons`, `c58_shift_eval`, `c58_time_sum`, `c58_scenarios`, `c58_sum_connections` |
| C59 | The libraries that come with the code are read and say what they are documented to say | the three library files, parser, `resolve_library` | the kernel reads the files; each model against hand-written rules (`Spec/Shipped.lean`) for all values | partial: `c59_antares`, `c59_andromede`, `c59_pypsa`, `c59_storage_dispatch_partial`, `c59_storage_dispatch` |
| C60 | From a system file using the shipped libraries to the solver: the problem means what the file says | system files over the shipped libraries, all stages up to the solver | C46 (network, data), C59 (models) and C35 (problem) composed; meaning read from the file in `Spec/ShippedStudy.lean` | partial: `c60_study_partial`, `c60_optimum_partial` |
| C61 | A well-formed study is always turned into a problem | `build_problem` on any study that satisfies `Spec/Buildable.lean` | each stage (ports, instantiation, expansion, linearization, columns, rows, objective) succeeds and keeps what the next one needs; induction on expressions and loops | proved: `c61_builds`, `c61_problem`, `c61_refused` |
| C62 | Parents and children of decision tree nodes always agree | the constructor of decision tree nodes with the parent and children setters of anytree | invariant of all histories: the links agree and have no loop; the walk to the root is complete by counting nodes | partial: `c62_links`, `c62_no_loop`, `c62_created`, `c62_tree_exists`, `c62_refused_partial`, `c62_refused_moves` |
| C63 | Complete studies over the shipped libraries are always turned into the problem that the files mean | the whole chain from system files over the shipped libraries to the solver problem | a checked predicate on the shipped models gives the hypotheses of C61 from conditions on the files (`Spec/ShippedComplete.lean`); C60 gives the meaning | partial: `c63_builds`, `c63_study_partial`, `c63_bounds_needed` |
| C64 | Decomposing a study on a decision tree keeps its meaning | the decision tree, `build_problem` for masters and subproblems, the coupler and the merge, against a study on the tree written without any of them (`Spec/Decomposition.lean`) | meaning of each node's master and subproblems from C35, of the coupler from C38, of the merge from C39; columns of the same name are the same decision; sums over the nodes and blocks rearranged | partial: `c64_decomposition_partial`, `c64_optimum_partial`, `c64_probabilities`, `c64_time_unlinked`, `c64_scenario_lost`, `c64_expectation_fails`, `c64_single_node_coupling_lost` |
| C65 | A PyPSA network is turned into the optimisation problem that its tables mean | the PyPSA conversion, the shipped PyPSA library and all stages up to the solver, against a problem written directly from the tables (`Spec/PypsaProblem.lean`) | C45 (converted study), C63 (the study is complete) and C60 (its meaning) composed; each rule of the library rewritten over the tables, sums over connected ports into sums over the lines of the tables; small coefficients bounded below by the data | partial: `c65_builds`, `c65_actual`, `c65_problem_partial`, `c65_relaxation`, `c65_extendable_storage`, `c65_storage_charge` |
| C66 | The command line solves the study that the named files describe, whatever their order | `main.py` and `parse_cli`, up to the call of the solver, over any contents of the files | the chain as an iff; the order of the files by C27 and C28 on permuted declarations; the shipped libraries by C63 | partial: `c66_chain`, `c66_refused`, `c66_duplicate`, `c66_terminates`, `c66_check_never_refuses`, `c66_no_tables`, `c66_order_partial`, `c66_shipped_partial` |
| C67 | Running a decomposed problem writes every problem, reports what the solver did and reads its result | `initialise`, `read_solution`, `run` and the runners as a machine on files, working directory and object, for any solver | exact outcome of one run, then invariants of all histories of runs; each violation for all problems and machines that meet its condition | partial: `c67_files_last`, `c67_files_partial`, `c67_frame`, `c67_master_name`, `c67_outcome`, `c67_no_subproblem`, `c67_directory_partial`, `c67_kind_partial`, `c67_missing_solver`, `c67_lost_directory`, `c67_kind_kept`, `c67_overwritten` |
| C68 | The printed text of an expression means the expression | `print.py`, against the expression parser of C43 | the tokens of each text by induction on the expression, a reading of them in the grammar of C43 and its value; tokens that never follow each other in the grammar for the texts that are refused | partial: `c68_print_partial`, `c68_comparison_partial`, `c68_determined`, `c68_unreadable`, `c68_scenario_misread`, `c68_component_misread`, `c68_sum_connections`, `c68_empty_sum`, `c68_small_number` |
| C69 | An Antares study is turned into the optimisation problem that its objects mean | the conversion of Antares studies (C44, C56, C57), the shipped libraries and all stages up to the solver, against a problem written directly from the objects of the study and the tables on the disk (`Spec/AntaresProblem.lean`) | the files that are written and read back, C56 and C57 (converted study), C63 (the study is complete) and C60 (its meaning) composed; each rule of the libraries rewritten over the objects; small coefficients by forms whose changes are bounded below | partial: `c69_builds`, `c69_actual`, `c69_problem_partial`, `c69_first_hour`, `c69_first_hour_infeasible`, `c69_renewable`, `c69_wind`, `c69_scenarios`, `c63_missing_parameter` |
| C70 | A study file written by a converter is read back as the converted study | writing of system files, reading them, and the chains of C65, C66 and C69 | what is written for each class is read back by its reader, by cases on the fields that are set; then C66 composed with C65 and C69 | partial: `c70_written_read`, `c70_written_twice`, `c70_distinct`, `c70_antares_partial`, `c70_pypsa_partial` |
| C71 | Nothing in a library or system file is ignored or taken for something else | reading of library and system files as trees, with the base class of the schemas | iff with what a tree says (`Spec/Document.lean`), class by class; order and spelling by a relation between trees that each reader respects | partial: `c71_system_partial`, `c71_library_partial`, `c71_known_keys`, `c71_same`, `c71_errors`, `c71_shipped`, `c71_repeated_key`, `c71_beside_ignored` |
| C72 | A bound of a library file that is written as a number means that number | reading of variables and constraints, then `_to_variable` with the parser of C43 | digits of an integer as a token, its value by induction; refusal of constraints from C71 | partial: `c72_bounds_partial`, `c72_exponent`, `c72_constraint_refused` |
| C74 | A table of series means the same numbers when it is written by a converter and read by a study | reading and writing of tables as texts, and the chains of C65, C66 and C69 | layouts of texts as inductive relations (`Spec/Tables.lean`), each text has exactly one; what is written has a layout; then the names of files in converted studies, and C66 composed with C65 and C69 | partial: `c74_read`, `c74_every_text`, `c74_written_read_partial`, `c74_iff`, `c74_nan`, `c74_hour_lost`, `c74_empty`, `c74_antares_partial`, `c74_null_capacity`, `c74_antares_problem_partial`, `c74_pypsa_problem_partial`, `c74_file` |
| C73 | The converter command converts the study it is told to, and writes where it is told to | command line of the Antares converter: options, configuration file, log file, with a file system as a parameter; `%` in values as in `configparser` | induction on the options with what each of them leaves; induction on texts for `%` | partial: `c73_study_partial`, `c73_config_partial`, `c73_escape`, `c73_reference`, `c73_refused`, `c73_output_ignored`, `c73_percent_refused`, `c73_percent_other`, `c73_current_directory`, `c73_log`, `c73_refused_creates` |
| C75 | The text of a scenario builder means its lines | `parse_scenario_builder` on texts (`Model/BuilderText.lean`): words of lines, types of columns as pandas finds them, groups | induction on texts and digits; the loop over cells simulates the one over lines (C26) | partial: `c75_read_partial`, `c75_scenario_partial`, `c75_long_line`, `c75_number_names`, `c75_boolean_names`, `c75_missing_names`, `c75_one_line`, `c75_fourth` |
| C76 | The cost that the command prints is the least average cost of the study | end of `main_cli` with the solver as a parameter (`Model/CliOutput.lean`) | the contract of the solver carried over to plans: columns of different variables are different, so plans and points correspond, with C66, C69, C65 and C74 | partial: `c76_shipped_partial`, `c76_antares_partial`, `c76_pypsa_partial`, `c76_no_solution`, `c76_error`, `c76_cost_of_nothing` |
| C77 | The words of the command mean their options | `argparse` for the options of `parse_cli`, on lists of texts (`Model/CliWords.lean`) | induction on the words with the option whose values are being read; the reading of words is unique; integers by induction on digits | partial: `c77_words`, `c77_refused`, `wordsSay_unique`, `c77_order`, `c77_command`, `c77_command_refused`, `c77_last_models`, `c77_repeated_models`, `c77_no_hours` |
| C78 | The order in which a system file is written does not matter | the command on two system files (`Model/Cli.lean`, `Model/CliOutput.lean`), the relation in `Spec/Rearranged.lean` | a study that is a part of another one up to names keeps its rules, parameters and what its ports carry (`StudyInput.Part`); its network is a renaming of the other (C82), so what is kept of it is the same (C84) | proved: `c78_same_study`, `c78_command` |
| C79 | The names of components do not matter | as C78, names go through a function that is injective on the components | as C78 | proved: `c79_same_study`, `c79_command` |
| C80 | Independent studies can be solved together | as C78, for a system file that is two others side by side | each of the two is a part of the whole (`StudyInput.Part`); its network is the two others side by side (C83) | proved: `c80_same_study`, `c80_command` |
| C81 | Scenarios are weighed equally and do not leak into each other | the command on a study and on the same study with the tables of one scenario (`Spec/Scenarios.lean`; `Spec/ScenariosAny.lean` for any models) | for any models by induction on expressions (`mden_perScenario`, `Expected.value`); every shipped rule reads one scenario only (`Rules.Local`, rule by rule); values for all scenarios are glued from values for each; for the command, coefficients of the constraints in a scenario are those of the problem of this scenario alone (`InScenario.kept`), so the same ones are dropped | partial: `c81_any_models`, `c81_one_scenario`, `c81_same_study`, `c81_bound`, `c81_average`, `c81_kept`, `c81_problem_partial`, `c81_command_partial`, `c81_tiny_prices` |
| C82 | The way a network is built does not matter | two networks related by a renaming, in any order (`Spec/SameProblem.lean`) | each expression reads the same in both, port sums up to order, also with one instance set to one and the others to zero, so that coefficients and what is kept of them are the same; then C84 | partial: `c82_same_study`, `c82_problem_partial` |
| C83 | Networks that are not connected do not influence each other | two networks and their union (`Spec/SameProblem.lean`) | as C82 with each part inside the whole; components of the other part have coefficient zero | partial: `c83_same_study`, `c83_problem_partial` |
| C84 | The problem given to the solver is the study, without tiny coefficients, bounds of booleans and bounds that vary alone | the reading of a study without tiny coefficients and bounds of booleans (`Spec/Kept.lean`), with constraints at the indices that their expression depends on (`Spec/Dependence.lean`) | the linearizer merges terms before it drops small ones, so its terms are the coefficients of the reading (`linearize_affine`, `linearize_kept`); the indexing that the program computes is the dependence of the specification (`indexing_dependence`), and the check of models tells it for objectives (`accepted_indexed`); then as C35 | partial: `c84_exact_partial`, `c84_regular_partial`, `c84_difference_partial`, `c84_command_partial` |
| C85 | No timestep of a cyclic block is special | a study and the same study with all series read `r` timesteps later (`Spec/Rotated.lean`) | the value of every expression at `t` is the value in the first study at `t + r`, by induction on expressions (`mden_later`); values are periodic, so all timesteps are visited; for the shipped libraries rule by rule (`Rules.Timeless`); with tiny coefficients, each coefficient is that of the instance `r` timesteps later (`Lemmas/RotatedKept.lean`), unless an expression mixes a sum over the block with shifts | proved: `c85_same_study`, `c85_timesteps`, `c85_shipped_study`, `c85_kept`, `c85_command`, `c85_storage`, `c85_first_timestep`, `c85_mixed` |
| C86 | Prices may be given in any currency | two studies with the same parts and prices that differ by a factor (`Spec/Compared.lean`); for any models, expressions proportional to the prices (`Spec/RepricedAny.lean`) | rule by rule of the shipped models: prices do not occur in what is accepted, and each cost is linear in them (`Rules.Priced`); for any models by induction on the expressions, and for what is kept because multiplying coefficients none of which is tiny drops none of them; then C76 for both commands | partial: `c86_study`, `c86_any_models`, `c86_command_partial`, `c86_tiny_prices` |
| C87 | Looser limits never cost more | two studies with the same parts, one with looser limits (`Spec/Compared.lean`, which lists the limits of each shipped model; `Spec/ComparedAny.lean` for any models) | rule by rule: what is accepted is monotone in the limits and the cost does not depend on them (`Rules.Loose`); for the command the same is proved of what is left of each expression when tiny coefficients are dropped: each written expression is changed by a constant of known sign (`Moved.shift`), so its coefficients, and what is dropped, are the same | proved: `c87_any_models`, `c87_study`, `c87_command`, `c87_any_solved`, `c87_study_solved`, `c87_command_solved` |
| C88 | Timesteps that nothing links can be solved one by one | a study and, for each of its timesteps, the study with this timestep alone (`Spec/Steps.lean` for the shipped libraries, `Spec/StepsAny.lean` for any models) | for any models by induction on expressions (`mden_instant`, `Summed.value`); for the shipped libraries rule by rule: what is accepted at a timestep reads this timestep only, and costs are sums over timesteps (`Rules.Instant`); values for each timestep can be joined; for the command, coefficients at a timestep are those of the problem of this timestep alone (`AtStep.kept`, `Summed.kept`), so the same ones are dropped | proved: `c88_any_models`, `c88_timesteps`, `c88_same_study`, `c88_sum`, `c88_kept`, `c88_command`, `c88_battery` |
| C89 | A system that is k times as large costs k times as much | a study and the same one with everything `k` times as large (`Spec/Units.lean`, which lists the parameters that are sizes); for any models, powers of `k` for parameters, variables and port fields (`Spec/UnitsAny.lean`) | by induction on expressions: an expression of power `w` is multiplied by `k ^ w` (`inUnits_value`), hence so are bounds, constraints and costs; the shipped models are checked to be consistent (`shipped_sizes`); for the command, coefficients do not change when variables and constraints have the same power, so the same ones are dropped | partial: `c89_any_models`, `c89_study`, `c89_command`, `c89_command_partial`, `c89_tiny` |
| C90 | The unit of energy does not matter | a study and the same one in another unit of energy (`Spec/Units.lean`, which lists energies and prices per unit of energy) | as C89, with power 0 for costs and power -1 for prices (`shipped_energyUnit`) | partial: `c89_any_models`, `c90_study`, `c90_command_partial`, `c90_tiny` |
| C91 | A system between two systems costs at most the mean | three studies, the energies of one of which lie between those of the others (`Spec/Between.lean`), and problems of any models with amounts (`Spec/BetweenAny.lean`) | expressions are affine in variables, ports and amounts together (`mixed_value`), so mixed values satisfy the mixed problem; a check of all shipped models but thermal clusters (`shipped_mixed`); coefficients do not depend on amounts, so what is dropped is the same in the three problems | proved: `c91_any_models`, `c91_study`, `c91_command`, `c91_units`, `c91_any_solved`, `c91_command_solved` |
| C92 | Costs add up as prices do | three studies, the prices of one of which are made of those of the others (`Spec/PricesBetween.lean`), and problems of any models with prices (`Spec/RepricedAny.lean`) | limits do not depend on prices (`otherPrices_feasible`), costs are proportional to them (`proportional_added`, `shipped_priced`) | partial: `c92_any_models`, `c92_study`, `c92_command_partial`, `c92_tiny`, `c92_any_solved`, `c92_command_solved_partial` |
| C93 | A study that can be satisfied at bounded cost is solved | problems that differ by numbers added to bounds, constraints and costs, and studies that differ by amounts (`Spec/Solved.lean`) | Fourier-Motzkin elimination over the rationals (`solvable_iff`), with a common denominator for what whole variables contribute: a linear problem in finitely many variables, some of them whole, whose values have a lower bound reaches its least value, and whether there is a lower bound does not depend on right-hand sides (`Lemmas/LinearPrograms.lean`); the problems of models are such problems (`mixed_feasible`, `mixed_kept`, `affine_mathCost`, `affine_keptCost`) | proved: `c93_any_models`, `c93_amounts`, `c93_study`, `c93_command`, `c93_two_commands`, `c93_unbounded`, `c93_plant` |
| C94 | Areas balance everything, at a price | the conditions on prices, and what a component can do on its own (`Spec/Served.lean`), on the meaning of studies (`Spec/ShippedStudy.lean`) | rule by rule: each price is the factor of a value that is bounded by parameters, or of spilled or unsupplied energy (`Rules.named_low`); only areas mention what they receive (`rules_alone`), and their two variables balance any value (`balanced`); C93 gives the printed status | partial: `c94_bounded`, `c94_study`, `c94_areas`, `c94_rest`, `c94_command_partial`, `c94_tiny` |
| C95 | A component that can rest never costs more, and one that must rest may be left out | removing a component from a study and from a system file, and components at rest (`Spec/Without.lean`), on the meaning of studies (`Spec/ShippedStudy.lean`) | a connection of a component at rest carries zero (`carried_rest`), so what every other port receives does not change (`received_rest`); rules only mention what ports receive in the block (`Rules.named_received`); the values of the removed component can be chosen freely (`withValues`) | partial: `c95_study`, `c95_absent`, `c95_command_partial`, `c95_file_partial` |
| C96 | An additional load costs at most the price of unsupplied energy | two studies that differ by the series of a load, and the price of the difference (`Spec/Reloaded.lean`), on the meaning of studies (`Spec/ShippedStudy.lean`) | only the connection of the load carries something else (`reloaded_carried`, `load_carried`), so only the area receives something else (`reloaded_received`), and its two variables take the difference (`unsupplied`); C93 gives the status | partial: `c96_study`, `c96_both`, `c96_command_partial`, `c96_tiny` |
| C97 | Only the total load of an area matters | two studies that differ by the series of loads of one area with the same total (`Spec/Redistributed.lean`), on the meaning of studies (`Spec/ShippedStudy.lean`) and on the problems that the program builds | what each connection carries (`redistributed_other`, `redistributed_load`) gives the same sum at the area (`redistributed_balance`) and the same values elsewhere (`redistributed_attached`); so each problem is looser than the other (`redistributed_context`), and C87 on any models gives both inclusions, also of what is kept of the problems | proved: `c97_study`, `c97_command`, `c97_merged` |
| C98 | The text of a linear expression tells its terms | `__repr__` of terms and linear expressions (`Model/LinText.lean`); what is said, and which names are readable (`Spec/LinText.lean`) | unique reading from left to right: where a signed number stops (`number_unique`), then up to each separator (`until_unique`); induction on the terms (`body_unique`) | partial: `c98_same_text_partial`, `c98_layout`, `c98_digit_names_violated`, `c98_points_violated` |
| C99 | The text of output values tells all of them | `__str__` of output values, components and variables (`Model/OutputText.lean`); which names are plain, and when contents are the same (`Spec/OutputText.lean`) | unique reading: lines (`linesText_unique`), then lines of variables up to the next component (`span_of`), names up to the colon, lists up to commas and brackets (`listText_unique`); problems: C41 | partial: `c99_same_text_partial`, `c99_accepted`, `c99_problem`, `c99_lines_violated` |
| C100 | The text of a Benders solution tells its costs and its investments | `__str__` of Benders solutions, with absent entries (`Model/BendersText.lean`); which names are plain, and what it is to show a line (`Spec/BendersText.lean`) | unique reading: lines (`linesText_unique`), then each line from its end: the number up to the first blank, its padding, the colon, and the name up to its padding | partial: `c100_same_text_partial`, `c100_shown`, `c100_accepted`, `c100_blank_violated`, `c100_equal_differ` |

## 5. Where the code breaks a property

Each line is proved, with a concrete witness, by the theorem named.

* `c01_rsub_violated`: `1 - x` is computed as `1 + x`.
* `c08_port_field_order_dependent`: whether a sum with a port field is accepted depends on the order of its operands.
* `c09_shift_of_evaluation`: a shift of an expression evaluated at a timestep moves that timestep.
* `c09_nested_expectation`: nested expectations are divided twice.
* `c13_mul_tiny_factor`: factors within 1e-16 of 0 or 1 are replaced by 0 or 1.
* `c14_mul_changes_right_operand`: a product whose left operand is a constant changes its right operand.
* `c14_mul_shares_right_operand`: a product whose left operand is 1 shares the terms of its right operand.
* `c18_variable_shift_accepted`: a bound shifted by a variable amount is accepted and can never be evaluated.
* `c19_port_field_nonlinear`: an accepted objective with a port field can be non-linear.
* `c20_amounts_not_checked`: port field definitions are not checked inside shift amounts.
* `c22_id_listed_twice`: an id added as a node and as a component is listed twice.
* `c23_nodes_not_checked`: data of nodes are not checked.
* `c24_negative_timestep`: a negative timestep reads from the end of a series.
* `c24_nested_tree`: a tree of trees cannot be read.
* `c26_group_leaks`: the scenario group of a parameter leaks to the next parameters of its component.
* `c26_nodes_ignored`: parameters of nodes are ignored by the scenario builder.
* `c28_order_dependent`: which port type is used depends on the order of a set.
* `c30_boolean_bounds_ignored`: bounds of booleans are ignored.
* `c30_shared_id`: a node and a component with the same id give a column that nothing refers to.
* `c31_collisions`: two variables can have the same solver name.
* `c33_bound_not_enforced`: a bound that depends on time under a constant expression is enforced at the first timestep only.
* `c35_tiny_coefficient`: coefficients below 1e-16 are dropped.
* `c37_root_not_one`: the probabilities of the leaves sum to that of the root, which may be anything.
* `c37_children_not_scaled`: children given at construction are not rescaled.
* `c37_nan_accepted`: a NaN probability is accepted.
* `c37_rejected_stays`: a rejected node stays in its parent.
* `c38_trees_share`: trees share their default coupling information.
* `c38_variables_mixed_up`: coupling variables of different trees can have the same name.
* `c38_empty_id`: an empty tree id gives coupling names that match no solver variable.
* `c39_integrality_lost`: merging masters loses integrality.
* `c39_constant_lost`: merging masters loses constants of the objectives.
* `c39_coupler_bounds_lost`: merging masters loses bounds of the coupler.
* `c39_coupler_lost`: with one master the coupler is lost.
* `c39_empty_row_lost`: merging masters loses rows without coefficients.
* `c40_same_name`: two problems with the same name make the structure file ambiguous.
* `c40_names_collide`: the decomposition can give two subproblems the same name.
* `c41_ragged_lost`: ragged values are lost or make reading raise.
* `c41_stale_values`: setting a smaller value keeps stale entries.
* `c41_reading_changes`: reading an unknown component creates it.
* `c43_unrecognised_ignored`: characters that start no token are ignored: `x != 50%` is read as `x = 50`.
* `c43_postfix_none`: a shift after a parenthesis gives `None`.
* `c43_shift_not_left_assoc`: a quotient just after `t` in a shift is read from the right.
* `c44_null_capacity`: a null unit capacity gives numbers of units that are not numbers.
* `c44_scenarios_merged`: the minimum number of units is shared by all scenarios.
* `c44_other_scenarios_fail`: reading it for another scenario than the first raises.
* `c45_same_name`: components of a converted PyPSA network can share an id.
* `c45_missing_bus`: a missing bus is not detected.
* `c45_nan_kept`: NaN is not brought into the range.
* `c45_inactive_storage`: inactive storage is converted.
* `c45_unknown_carrier`: an unknown carrier has NaN emissions.
* `c46_duplicate_component`: a duplicated component id is silently dropped.
* `c47_duplicate_variable`: a duplicated variable id is silently dropped.
* `c53_objective_ignored`: comparing models ignores objectives.
* `c53_objective_raises`: or raises.
* `c53_definition_ignored`: and ignores port field definitions.
* `c55_limits`: comparison of linear expressions is not transitive and depends on negligible terms.
* `c56_wind_dangling`: connections of wind and solar series start at names that no component has.
* `c56_loads_merged`: the loads of several areas share one id.
* `c57_later_lost`: batteries after the first area without one are lost.
* `c59_storage_dispatch`: nominal power does not limit the power that a PyPSA storage unit dispatches.
* `c62_refused_moves`: a node creation refused because of a loop leaves some of the given children without parent.
* `c64_time_unlinked`: investments that depend on time have different columns in the master and the subproblems.
* `c64_scenario_lost`: investments that depend on the scenario have no column in the master.
* `c64_expectation_fails`: an expected investment cost makes the decomposition divide by zero.
* `c64_single_node_coupling_lost`: the coupling constraints of a tree with one node are lost.
* `c65_extendable_storage`: the solver accepts a dispatched power above the chosen capacity of a PyPSA storage unit.
* `c65_storage_charge`: `p_min_pu` of PyPSA storage units does not limit the stored power.
* `c67_missing_solver`: a run without the solver program returns True, with any result left in the folder.
* `c67_lost_directory`: a solver that cannot be started changes the working directory for good; the next run returns True without solving.
* `c67_kind_kept`: after a merged run, all later solutions are presented as merged ones.
* `c67_overwritten`: of two subproblems of the same name only the last one is written.
* `c68_unreadable`: printed time operators and equalities are not texts of the expression language.
* `c68_scenario_misread`: a printed expectation or variance reads as a port field.
* `c68_component_misread`: printed variables of components read as port fields.
* `c69_first_hour`: no unit of a thermal cluster is ever taken to fail at the first hour of a study.
* `c69_first_hour_infeasible`: a study that can be operated is converted to a problem without solution.
* `c69_renewable`: a study with a renewable cluster is converted to one whose problem cannot be built.
* `c69_wind`: a study with wind or solar power of an area is converted to one that cannot be read.
* `c69_scenarios`: a study with a thermal cluster is converted to one whose problem can be built for one scenario only.
* `c71_repeated_key`: of a key that is given twice in a library or system file the first value is dropped unseen.
* `c71_beside_ignored`: whatever stands beside `system` or `library` in a file is ignored.
* `c72_exponent`: bounds such as `1.0e-5` or `.inf` of a library file make the library unusable.
* `c72_constraint_refused`: a constraint whose bound is written as a number is refused.
* `c74_nan`: in a written table with several scenarios a missing number makes the later numbers of the hour those of other scenarios.
* `c74_hour_lost`: an hour without number vanishes from a written table, so that later hours are shifted.
* `c74_empty`: a series without hours is written to a file that cannot be read.
* `c74_null_capacity`: a thermal cluster of capacity 0 with several scenarios is converted to a table that cannot be read.
* `c73_output_ignored`: the output directory of the converter command, and the one of its configuration file, are never used.
* `c73_percent_refused`: the converter command refuses studies in folders with a `%` in their name.
* `c73_percent_other`: for a folder with `%%` in its name, the converter command converts the study in the folder with a single `%`.
* `c73_current_directory`: with the shipped configuration file, and no study on the command line, the current directory is converted.
* `c73_log`: a log file whose name does not end with `.log` is created but stays empty: another file is written.
* `c73_refused_creates`: a command that is refused creates the log file.
* `c57_operation_ignored`: operations on fields of clusters in templates are ignored.
* `c57_weight_by_parameter`: weights in templates cannot be multiplied or divided by known parameters.
* `c75_number_names`: groups of a scenario builder that are all called by numbers cannot be used.
* `c75_boolean_names`: groups of a scenario builder that are all called `true` or `false` cannot be used.
* `c75_missing_names`: groups of a scenario builder called `NA`, `null`, `None`, `nan`... cannot be used.
* `c75_one_line`: one line of a scenario builder with a wrong or missing number (for example a line of titles) makes all groups unusable, without an error when it is read.
* `c75_fourth`: a fourth column in a scenario builder shifts the others, so that no group can be used.
* `c76_cost_of_nothing`: without a solution the command ends normally and prints the cost 0; it does so for an Antares study whose best plan costs 500.
* `c77_repeated_models`: files named by an earlier `--models` are dropped without a word.
* `c77_no_hours`: a duration of 0 or less is accepted: the command then prints the cost 0 with the status of a best solution.
* `c85_first_timestep`: a constraint whose bounds depend on time and whose expression does not is enforced at the first timestep of the block only, so that the answer changes when the block is started at another timestep.
* `c85_mixed`: the terms of a sum over the block and of a shifted variable are merged before the end of the block and not after it, so that tiny coefficients may be kept at one timestep and dropped at another one.
* `c86_tiny_prices`: prices so small that the coefficients of the cost are below 1e-16 are dropped by the linearizer, so that the printed cost is 0 instead of the same multiple of the cost.
* `c81_tiny_prices`: prices are divided by the number of scenarios before coefficients below 1e-16 are dropped, so that a cost may be dropped with two scenarios and not with one.
* `c85_storage`: with a short-term storage the first timestep of a block is special: the same cyclic block started at another timestep may have no solution.
* `c89_tiny`: a thermal unit whose size is below 1e-16 cannot generate, since the coefficient of the number of units is dropped: the problem has no solution, although it has one when everything is larger.
* `c90_tiny`: in a unit of energy so small that prices per unit are below 1e-16, prices are dropped and the printed cost is 0.
* `c92_tiny`: prices of 1e-16 and 0 give costs 10 and 0, and their mean, which is dropped, gives 0 instead of 5.
* `c94_tiny`: a thermal unit of size 1e-17 can generate what it has to, but the size is dropped and the command finds no solution.
* `c96_tiny`: prices of unsupplied energy below 1e-16 are dropped, so that an additional load does not change the printed cost by its price.
* `c98_digit_names_violated`: 3 times variable v of component x and 1 times variable v of component 3x are written alike.
* `c98_points_violated`: variable c of component a.b and variable b.c of component a are written alike.
* `c99_lines_violated`: with an end of line in an identifier, the output values of one component and of two components are written alike.
* `c100_blank_violated`: with a blank at the end of the name of a candidate, different solutions of Benders are written alike.

## 6. How the theorems were tested

`seeded/LOG.jsonl` has one line per wrong program: the model was edited in a scratch copy the way a bug would change the program, and
rebuilt.  When everything still proved although the claim was false of the edited program, the theorem was tightened, and the line says
which.  `vcheck` rebuilds every commit from a clean copy, and checks the axioms of every theorem.
