{"id": "C01", "title": "Operators on expressions denote arithmetic", "statement": "Building an expression with +, -, unary -, *, / (an expression on either side, a Python number on the other) yields an expression whose evaluation equals the same arithmetic applied to the evaluations of the operands, whatever flattening of sums happens.", "quantifier": "all pairs of expressions (any nesting of sums), all numbers, all variable and parameter values", "why_tests_cant": "Flattening depends on the shape of both operands; tests only sample a few shapes and never the reflected subtraction.", "anchors": ["src/andromede/expression/expression.py:ExpressionNode.__add__", "src/andromede/expression/expression.py:ExpressionNode.__sub__", "src/andromede/expression/expression.py:ExpressionNode.__rsub__", "src/andromede/expression/expression.py:ExpressionNode.__mul__", "src/andromede/expression/evaluate.py:EvaluationVisitor"]}
{"id": "C02", "title": "Copying an expression preserves its value and is idempotent", "statement": "copy_expression(e) evaluates to the same number, or raises whenever e does, in every context; copying a copy changes nothing; a copy contains no sum nested directly in a sum.", "quantifier": "all expressions, all evaluation contexts", "why_tests_cant": "Copying goes through the + operator and re-associates sums; the claim is over all tree shapes.", "anchors": ["src/andromede/expression/copy.py:CopyVisitor", "src/andromede/expression/copy.py:copy_expression", "src/andromede/expression/visitor.py:ExpressionVisitorOperations"]}
{"id": "C03", "title": "Expression equality is exact structural equality, tolerant equality is symmetric and monotone", "statement": "expressions_equal with zero tolerances is true exactly when the two trees are identical (finite or infinite literals), hence an equivalence; with tolerances it is reflexive, symmetric and only grows with the tolerances; negative tolerances are rejected.", "quantifier": "all pairs/triples of expressions without NaN literals, all tolerances", "why_tests_cant": "Universally quantified over trees; symmetry of a tolerance comparison over all pairs cannot be enumerated.", "anchors": ["src/andromede/expression/equality.py:EqualityVisitor", "src/andromede/expression/equality.py:expressions_equal", "src/andromede/expression/equality.py:expressions_equal_if_present"]}
{"id": "C04", "title": "Substituting parameter values commutes with evaluation", "statement": "resolve_parameters(e, provider) followed by evaluation equals evaluating e with the provider's values for the parameters, and the resulting expression contains no parameter any more.", "quantifier": "all expressions, providers and variable values", "why_tests_cant": "Quantifies over all expressions and value providers.", "anchors": ["src/andromede/expression/evaluate_parameters.py:ParameterResolver", "src/andromede/expression/evaluate_parameters.py:resolve_parameters"]}
{"id": "C05", "title": "Degree analysis is sound for evaluation", "statement": "If the reported degree of an expression is 0 its value does not depend on the values of the variables; if the reported degree is at most 1 its value is an affine function of the variables' values.", "quantifier": "all expressions for which degree and evaluation are defined, all variable assignments", "why_tests_cant": "A semantic statement over all assignments; tests compare the integer degree on a few expressions.", "anchors": ["src/andromede/expression/degree.py:ExpressionDegreeVisitor", "src/andromede/expression/degree.py:is_constant", "src/andromede/expression/degree.py:is_linear"]}
{"id": "C06", "title": "An expression accepted as linear never fails linearization for non-linearity", "statement": "If an instantiated expression has degree at most 1 then expanding its operators and linearizing it at any timestep and scenario never fails because of a product or quotient of variable terms; degree 0 gives a linear expression with no term.", "quantifier": "all expressions, all block lengths, scenario counts, timesteps, scenarios and data", "why_tests_cant": "Combines two independent recursive analyses over unbounded trees.", "anchors": ["src/andromede/expression/degree.py:ExpressionDegreeVisitor", "src/andromede/expression/operators_expansion.py:OperatorsExpansion", "src/andromede/simulation/linearize.py:LinearExpressionBuilder"]}
{"id": "C07", "title": "Indexing analysis is sound", "statement": "If an expression is reported independent of time (resp. scenario), its mathematical value and the linear expression built for it are the same at every timestep (resp. scenario), and it can be linearized without giving a timestep (resp. scenario).", "quantifier": "all expressions, structures of variables and parameters, data, timesteps, scenarios", "why_tests_cant": "Constraints are instantiated once only when independent: soundness must hold for every expression and every index.", "anchors": ["src/andromede/expression/indexing.py:TimeScenarioIndexingVisitor", "src/andromede/expression/indexing.py:compute_indexation", "src/andromede/simulation/linearize.py:LinearExpressionBuilder"]}
{"id": "C08", "title": "Indexing analysis does not depend on operand order", "statement": "The indexing of a sum, product, quotient or comparison is the union of the indexing of all its operands, whatever their order, and an expression with an unresolved port field is always rejected.", "quantifier": "all expressions and permutations of sum operands", "why_tests_cant": "The implementation stops early; whether that is observable depends on operand order.", "anchors": ["src/andromede/expression/indexing.py:TimeScenarioIndexingVisitor._combine", "src/andromede/expression/indexing_structure.py:IndexingStructure"]}
{"id": "C09", "title": "Operator expansion preserves the mathematical meaning", "statement": "The expression obtained by expanding time shifts, time evaluations, time sums, sums over the block and expectations has, at each timestep and scenario, the value given by the mathematical definition of these operators.", "quantifier": "all expressions with arbitrarily nested operators, all block lengths, numbers of scenarios, values", "why_tests_cant": "Nesting of operators is unbounded and interactions between them (shift of an evaluated term, nested expectations) are easily missed.", "anchors": ["src/andromede/expression/operators_expansion.py:OperatorsExpansion", "src/andromede/expression/operators_expansion.py:ApplyTimeShift", "src/andromede/expression/operators_expansion.py:ApplyTimeStep", "src/andromede/expression/operators_expansion.py:ApplyScenario"]}
{"id": "C10", "title": "Expansion output is directly linearizable", "statement": "A successfully expanded expression contains only problem-level variables and parameters and no time, scenario or component-level node; linearizing it cannot fail because of an unexpanded operator or an uninstantiated variable.", "quantifier": "all component-level expressions without ports and comparisons", "why_tests_cant": "Structural claim over all expressions.", "anchors": ["src/andromede/expression/operators_expansion.py:OperatorsExpansion", "src/andromede/simulation/linearize.py:LinearExpressionBuilder"]}
{"id": "C11", "title": "Linearization is exact", "statement": "The linear expression obtained from an expanded expression takes, for every assignment of the variables, the value of the expression; each variable instance appears once with the total of its coefficients; only coefficients below 1e-16 in absolute value are dropped.", "quantifier": "all expanded expressions, timesteps, scenarios, parameter data and variable assignments", "why_tests_cant": "Equality of functions over all assignments.", "anchors": ["src/andromede/simulation/linearize.py:LinearExpressionBuilder", "src/andromede/simulation/linearize.py:LinearExpressionData.build", "src/andromede/simulation/linearize.py:linearize_expression"]}
{"id": "C12", "title": "Linear expressions keep a canonical form", "statement": "Any linear expression obtained by any sequence of constructions and arithmetic operations has at most one term per variable instance, each stored under its own key, and no stored coefficient is below 1e-16 in absolute value, wherever the operation is documented to drop them.", "quantifier": "all sequences of operations on linear expressions", "why_tests_cant": "Invariant over histories of operations.", "anchors": ["src/andromede/simulation/linear_expression.py:LinearExpression", "src/andromede/simulation/linear_expression.py:_merge_dicts"]}
{"id": "C13", "title": "Arithmetic on linear expressions is coefficient-wise exact", "statement": "Sum, difference, negation, product by a constant and division by a constant of linear expressions have the expected coefficient for each variable instance and the expected constant (coefficients under 1e-16 may be dropped); a product of two non-constant expressions and a division by a non-constant or null expression are rejected.", "quantifier": "all pairs of linear expressions", "why_tests_cant": "Dictionary merging with overlapping and disjoint keys has unboundedly many shapes.", "anchors": ["src/andromede/simulation/linear_expression.py:LinearExpression.__iadd__", "src/andromede/simulation/linear_expression.py:LinearExpression.__isub__", "src/andromede/simulation/linear_expression.py:LinearExpression.__imul__", "src/andromede/simulation/linear_expression.py:LinearExpression.__itruediv__"]}
{"id": "C14", "title": "Binary operators on linear expressions leave their operands unchanged", "statement": "After a + b, a - b, a * b, a / b or -a on linear expressions, a and b still have the value they had before, and later in-place updates of the result do not alter them.", "quantifier": "all pairs of linear expressions and all subsequent in-place updates", "why_tests_cant": "Aliasing is a property of every history of operations on shared objects, tests look at results only.", "anchors": ["src/andromede/simulation/linear_expression.py:LinearExpression.__imul__", "src/andromede/simulation/linear_expression.py:LinearExpression._copy_expression", "src/andromede/simulation/linear_expression.py:LinearExpression.__mul__"]}
{"id": "C15", "title": "Port references stand for the connected definitions", "statement": "After connecting components, sum_connections(port.field) evaluates to the sum, over all connections attached to that port, of the defining side's expression for the field; a plain port field is replaced by its definition exactly when there is one connection and is rejected otherwise; other nodes are unchanged.", "quantifier": "all networks, connections and expressions", "why_tests_cant": "Number of connections and shape of expressions are unbounded.", "anchors": ["src/andromede/expression/port_resolver.py:PortResolver", "src/andromede/simulation/optimization.py:OptimizationProblem._register_connection_fields_definitions", "src/andromede/simulation/optimization.py:OptimizationContext.register_connection_fields_expressions"]}
{"id": "C16", "title": "Component instantiation renames exactly the model's own symbols", "statement": "Adding the component context to a model expression replaces every variable and parameter by the one of that component, evaluates to the same number as the model expression read with the component's values, and refuses an expression that already carries a component.", "quantifier": "all model expressions, component ids and values", "why_tests_cant": "Quantified over all expressions.", "anchors": ["src/andromede/expression/context_adder.py:ContextAdder", "src/andromede/simulation/optimization.py:_instantiate_model_expression"]}
{"id": "C17", "title": "A constraint means its comparison", "statement": "Declaring a constraint from a comparison lhs <= rhs, lhs >= rhs or lhs == rhs (without bounds) stores an expression and bounds satisfied by exactly the same values as the comparison; inconsistent declarations (comparison with bounds, infinite lower bound of the wrong sign, variable bounds) are rejected; replicating a constraint gives an equal one.", "quantifier": "all comparisons and all values of variables and parameters", "why_tests_cant": "Equivalence of solution sets over all assignments.", "anchors": ["src/andromede/model/constraint.py:Constraint.__post_init__", "src/andromede/model/constraint.py:Constraint.replicate"]}
{"id": "C18", "title": "Accepted bounds never depend on variables", "statement": "A variable or constraint that is accepted has bounds whose value does not change with the values of decision variables.", "quantifier": "all bound expressions, all assignments", "why_tests_cant": "Semantic claim over all assignments.", "anchors": ["src/andromede/model/variable.py:Variable.__post_init__", "src/andromede/model/constraint.py:Constraint.__post_init__", "src/andromede/expression/degree.py:is_constant"]}
{"id": "C19", "title": "An accepted objective can always be instantiated once", "statement": "If a model is accepted then each objective contribution is linear and independent of time and scenario, and building it never fails with a missing timestep or scenario or with a non-linearity error.", "quantifier": "all accepted models, all expressions, block lengths, scenario counts", "why_tests_cant": "Needs the agreement of three recursive analyses on all expressions.", "anchors": ["src/andromede/model/model.py:Model.__post_init__", "src/andromede/simulation/optimization.py:_create_objective", "src/andromede/expression/indexing.py:compute_indexation"]}
{"id": "C20", "title": "An accepted port field definition refers only to its own component", "statement": "A port field definition accepted in a model contains no other port reference, no comparison and no symbol of another component, anywhere in the expression.", "quantifier": "all definition expressions", "why_tests_cant": "The checker must visit every sub-expression of every operator.", "anchors": ["src/andromede/model/port.py:PortFieldDefinition.__post_init__", "src/andromede/model/port.py:_PortFieldExpressionChecker"]}
{"id": "C21", "title": "A connection is accepted exactly when each field has one definition", "statement": "Connecting two ports succeeds if and only if both ports exist, have the same type and every field of the type is defined on exactly one side; then the recorded master side is that side, it is recorded for every field, and the later lookup of the definition always succeeds.", "quantifier": "all pairs of models, ports and field sets", "why_tests_cant": "All combinations of definitions over unbounded field sets.", "anchors": ["src/andromede/study/network.py:PortsConnection.__post_init__", "src/andromede/study/network.py:PortsConnection.__validate_ports", "src/andromede/simulation/optimization.py:OptimizationProblem._register_connection_fields_definitions"]}
{"id": "C22", "title": "The network behaves like a map of components", "statement": "After any sequence of additions, looking up an id returns the last component added under it (components before nodes) or fails if none was added; listing yields each id once; replicating the network gives the same content.", "quantifier": "all histories of add_node, add_component, connect", "why_tests_cant": "Refinement over all histories.", "anchors": ["src/andromede/study/network.py:Network"]}
{"id": "C23", "title": "A passed data consistency check guarantees every later value lookup", "statement": "If requirements_consistency succeeds for a network, then reading any parameter at the indices its declared structure provides never fails with a missing time or scenario index or a missing data entry, for every component and node.", "quantifier": "all networks, databases, data kinds, block timesteps and scenarios", "why_tests_cant": "Relates a one-off check to all later reads of all parameters.", "anchors": ["src/andromede/study/data.py:DataBase.requirements_consistency", "src/andromede/study/data.py:AbstractDataStructure", "src/andromede/simulation/optimization.py:_get_parameter_value"]}
{"id": "C24", "title": "Data structures return the entry for the requested index", "statement": "Each kind of data (constant, time series, scenario series, time-scenario series, tree) returns the entry stored for the requested time and scenario (through the scenarization when there is one), ignores indices it does not depend on, and rejects missing ones.", "quantifier": "all data, indices and scenarizations", "why_tests_cant": "All index combinations.", "anchors": ["src/andromede/study/data.py:TimeSeriesData", "src/andromede/study/data.py:ScenarioSeriesData", "src/andromede/study/data.py:TimeScenarioSeriesData", "src/andromede/study/data.py:TreeData", "src/andromede/study/data.py:Scenarization"]}
{"id": "C25", "title": "The database is last-write-wins", "statement": "After any sequence of add_data, get_data returns the last data added for that component and parameter and raises if none was.", "quantifier": "all histories of additions", "why_tests_cant": "Refinement over all histories.", "anchors": ["src/andromede/study/data.py:DataBase"]}
{"id": "C26", "title": "Scenario builder assigns each parameter its own group", "statement": "Building a database with a scenario builder gives each parameter the scenarization of its own group if it has one, else of its component's group, else none; duplicate (group, year) lines are rejected.", "quantifier": "all systems, groups and scenario builder files", "why_tests_cant": "Depends on the order of parameters inside a component.", "anchors": ["src/andromede/study/resolve_components.py:build_scenarized_data_base", "src/andromede/study/resolve_components.py:_resolve_scenarization", "src/andromede/study/data.py:Scenarization.add_year"]}
{"id": "C27", "title": "Library resolution terminates, orders dependencies and detects cycles", "statement": "Resolving any set of libraries terminates; on success every requested library is resolved after all its dependencies and the dependency graph is acyclic; a cyclic or dangling dependency raises an error; an acyclic, closed, well-formed set always succeeds.", "quantifier": "all finite dependency graphs and all iteration orders of sets", "why_tests_cant": "Graphs are unbounded and set iteration order is arbitrary.", "anchors": ["src/andromede/model/resolve_library.py:resolve_library"]}
{"id": "C28", "title": "Resolved libraries see exactly the port types of their dependencies", "statement": "A resolved library exposes its own port types and those of all its direct and transitive dependencies; the result does not depend on the iteration order of sets.", "quantifier": "all dependency graphs and iteration orders", "why_tests_cant": "Order-independence over all orders.", "anchors": ["src/andromede/model/resolve_library.py:_resolve_lib", "src/andromede/model/resolve_library.py:resolve_library"]}
{"id": "C29", "title": "Block timesteps wrap around inside the block", "statement": "With cyclic borders any (possibly negative or beyond the end) block timestep designates a timestep of the block, shifting by the block length is the identity, and the absolute timestep read in the data is the block's entry at that position.", "quantifier": "all integers and all block lengths >= 1", "why_tests_cant": "All integers.", "anchors": ["src/andromede/simulation/optimization.py:OptimizationContext.get_actual_block_timestep", "src/andromede/simulation/optimization.py:OptimizationContext.block_timestep_to_absolute_timestep"]}
{"id": "C30", "title": "One solver variable per instance, with its bounds and type", "statement": "Each selected variable of each component gets exactly one solver variable per timestep (if time-dependent) and per scenario (if scenario-dependent), with the value of its bounds at that index, integer exactly when declared so; crossed bounds raise.", "quantifier": "all networks, structures, block lengths, scenario counts", "why_tests_cant": "Unbounded products of indices and components.", "anchors": ["src/andromede/simulation/optimization.py:OptimizationProblem._create_variables", "src/andromede/simulation/optimization.py:OptimizationContext.register_component_variable"]}
{"id": "C31", "title": "Solver variable names identify variable instances", "statement": "Two different variable instances (component, variable, timestep, scenario) of a problem have different solver names, so name-indexed bookkeeping and the recorded column number refer to the right column.", "quantifier": "all networks, ids and names", "why_tests_cant": "Injectivity over all strings.", "anchors": ["src/andromede/simulation/optimization.py:OptimizationProblem._solver_variable_name", "src/andromede/simulation/optimization.py:SolverVariableInfo"]}
{"id": "C32", "title": "A solver row is equivalent to the bounded linear expression", "statement": "The row added for a linear expression and bounds is satisfied by an assignment of the solver variables exactly when lower <= expression <= upper, including when several terms designate the same solver variable after wrapping around the block.", "quantifier": "all linear expressions, bounds (possibly infinite) and assignments", "why_tests_cant": "Equivalence over all assignments.", "anchors": ["src/andromede/simulation/optimization.py:make_constraint"]}
{"id": "C33", "title": "Every constraint is enforced at every index it depends on", "statement": "For each constraint the rows of the problem enforce lower(t,s) <= expression(t,s) <= upper(t,s) for every timestep and scenario of the block.", "quantifier": "all constraints, structures, block lengths, scenario counts, data", "why_tests_cant": "The dimension of instantiation is computed; its adequacy concerns all expressions and bounds.", "anchors": ["src/andromede/simulation/optimization.py:_create_constraint", "src/andromede/simulation/optimization.py:_compute_indexing"]}
{"id": "C34", "title": "The solver objective is the sum of all contributions", "statement": "For every assignment, the value of the solver objective is the sum of the values of all selected objective contributions of all components, weighted by the risk strategy.", "quantifier": "all networks and assignments", "why_tests_cant": "Equality of functions on all assignments; coefficients accumulate across components.", "anchors": ["src/andromede/simulation/optimization.py:_create_objective", "src/andromede/simulation/optimization.py:OptimizationProblem._create_objectives"]}
{"id": "C35", "title": "The built problem has the feasible set and cost of the mathematical model", "statement": "An assignment of variable instances is feasible for the problem built by build_problem exactly when it satisfies all bounds and all model constraints read mathematically (with cyclic time), and its objective value is the mathematical cost.", "quantifier": "all networks, data, block lengths, scenario counts and assignments", "why_tests_cant": "End-to-end semantic equivalence.", "anchors": ["src/andromede/simulation/optimization.py:build_problem", "src/andromede/simulation/optimization.py:OptimizationProblem"]}
{"id": "C36", "title": "Problem-splitting strategies cover the model", "statement": "The merged strategy keeps all variables and constraints; the investment and operational strategies each keep exactly their own and the coupling ones, so their union is everything and their intersection the coupling part; objectives are split without loss or duplication.", "quantifier": "all models", "why_tests_cant": "All models and contexts.", "anchors": ["src/andromede/simulation/strategy.py:MergedProblemStrategy", "src/andromede/simulation/strategy.py:InvestmentProblemStrategy", "src/andromede/simulation/strategy.py:OperationalProblemStrategy"]}
{"id": "C37", "title": "Decision tree probabilities", "statement": "In a decision tree accepted by the probability check the leaves' probabilities sum to one; node probabilities are the product of the conditional probabilities along the path; out-of-range probabilities are rejected.", "quantifier": "all trees", "why_tests_cant": "Trees of any shape.", "anchors": ["src/andromede/simulation/decision_tree.py:DecisionTreeNode"]}
{"id": "C38", "title": "Coupling constraints are never lost or mixed up", "statement": "Each successful declaration of a coupling constraint adds exactly one constraint under a new name and leaves the previous ones in place; a rejected declaration changes nothing; declarations on one tree do not affect another tree.", "quantifier": "all histories of declarations on all trees", "why_tests_cant": "Names are generated from lengths; claim over all histories.", "anchors": ["src/andromede/simulation/decision_tree.py:DecisionTreeNode.define_coupling_constraint", "src/andromede/simulation/decision_tree.py:DecisionTreeNode._add_coupling_constraints"]}
{"id": "C39", "title": "Merging master problems preserves feasible points and cost", "statement": "The problem obtained by merging masters with the coupler is satisfied exactly by the assignments satisfying every master and the coupler, with the same integrality and the sum of objectives.", "quantifier": "all lists of masters and couplers, all assignments", "why_tests_cant": "Equivalence over all assignments.", "anchors": ["src/andromede/simulation/optimization.py:fusion_problems"]}
{"id": "C40", "title": "The exported structure lists exactly the shared candidates", "statement": "The structure file has, for the master, one line per master variable with its column, and for each subproblem one line per variable whose name is a master candidate, with that subproblem's own column number.", "quantifier": "all masters and subproblems", "why_tests_cant": "All problems and names.", "anchors": ["src/andromede/simulation/benders_decomposed.py:BendersDecomposedProblem.export_structure"]}
{"id": "C41", "title": "Output values round trip", "statement": "Setting a variable's value to a scalar, a list over time or a list of lists over scenarios and reading it back yields the same values; reading output does not change it.", "quantifier": "all values and all histories of set/get", "why_tests_cant": "Histories and shapes are unbounded.", "anchors": ["src/andromede/simulation/output_values.py:OutputValues.Variable"]}
{"id": "C42", "title": "Output comparison is reflexive and symmetric", "statement": "Equality and closeness of output values are reflexive and symmetric, closeness with zero tolerance is equality, ignored variables never affect the result.", "quantifier": "all pairs of outputs, tolerances", "why_tests_cant": "All pairs.", "anchors": ["src/andromede/simulation/output_values.py:OutputValues.__eq__", "src/andromede/simulation/output_values.py:OutputValues.is_close", "src/andromede/simulation/output_values.py:_are_mappings_close"]}
{"id": "C43", "title": "Parsed expressions follow the documented grammar", "statement": "Parsing the textual form of an expression yields the expression with conventional precedence and left associativity, and every construct of the grammar is either turned into the corresponding node or rejected with a parse error.", "quantifier": "all expression texts of the grammar", "why_tests_cant": "Infinite language.", "anchors": ["src/andromede/expression/parsing/parse_expression.py:ExpressionNodeBuilderVisitor", "src/andromede/expression/parsing/parse_expression.py:parse_expression", "grammar/Expr.g4"]}
{"id": "C44", "title": "Thermal preprocessing yields consistent unit counts", "statement": "The computed minimum number of units never exceeds the maximum at any hour, the allowed variations are non-negative and consistent with the difference to the previous hour of the same period, and previous-hour indices never leave the series or the period.", "quantifier": "all series, periods, unit counts and capacities", "why_tests_cant": "All hours and all data.", "anchors": ["src/andromede/input_converter/src/data_preprocessing/thermal.py:ThermalDataPreprocessing"]}
{"id": "C45", "title": "PyPSA conversion clamps and connects consistently", "statement": "Converted numbers are within +-1e20 and the conversion is monotone and idempotent; each converted component gets one connection per bus attribute to an existing bus; component ids are distinct.", "quantifier": "all PyPSA networks of the supported kind", "why_tests_cant": "All networks and names.", "anchors": ["src/andromede/pypsa_converter/pypsa_converter.py:PyPSAStudyConverter", "src/andromede/pypsa_converter/utils.py:any_to_float"]}
{"id": "C46", "title": "Resolving a system keeps its content", "statement": "The network and database built from a parsed system contain one component per declared component and node with the declared model, one connection per declared connection between declared components, and one data entry per declared parameter with the declared kind and value; unknown ids are rejected.", "quantifier": "all systems and libraries", "why_tests_cant": "All systems.", "anchors": ["src/andromede/study/resolve_components.py:resolve_system", "src/andromede/study/resolve_components.py:build_network", "src/andromede/study/resolve_components.py:build_data_base", "src/andromede/study/resolve_components.py:consistency_check"]}
{"id": "C47", "title": "Resolving a library model keeps its declared content", "statement": "A model read from a library has exactly the parameters, variables, ports, port field definitions, constraints and objective that its declaration lists, each with the declared indexing, type, bounds and expression; a declaration that uses the same id twice for the same kind of item is refused.", "quantifier": "every model declaration, every set of visible port types, every expression parser", "why_tests_cant": "tests resolve a few fixed libraries; the claim ranges over all declarations, including the ones with repeated ids or absent bounds", "anchors": ["src/andromede/model/resolve_library.py:_resolve_model", "src/andromede/model/resolve_library.py:_to_variable", "src/andromede/model/resolve_library.py:_to_constraint", "src/andromede/model/model.py:model"]}
{"id": "C48", "title": "Traversing a decision tree visits every node once, level by level", "statement": "Traversing a decision tree terminates and yields every node of the tree exactly once, a level after the levels above it and each level from the first branch to the last; with a depth it yields exactly the nodes of the first levels; the size of the tree is the number of nodes traversed.", "quantifier": "all trees of any shape, all depths", "why_tests_cant": "Trees of any shape and depth.", "anchors": ["src/andromede/simulation/decision_tree.py:DecisionTreeNode.traverse"]}
{"id": "C49", "title": "Time shifts and bounds of time sums are constants of the study", "statement": "When a time shift or an end of a sum over time is accepted, it only involves numbers and parameters declared independent of time and scenario, and the integer used equals the value of the expression at every timestep and scenario.", "quantifier": "all studies, all time bound expressions, all timesteps and scenarios", "why_tests_cant": "Expressions of any shape over any data; a bound read at one timestep could silently differ at another.", "anchors": ["src/andromede/simulation/optimization.py:_compute_expression_value", "src/andromede/simulation/optimization.py:OptimizationContext", "src/andromede/simulation/linear_expression.py", "src/andromede/expression/evaluate.py"]}
{"id": "C50", "title": "Data declarations are accepted exactly when their shape is the announced one", "statement": "A parameter of a component is accepted exactly when it is a number declared constant, or the name of a loadable file declared time or scenario dependent, with a single column if it does not depend on the scenario and a single line if it does not depend on time; other declarations raise a ValueError.", "quantifier": "all declarations and all loaded tables", "why_tests_cant": "Tables of any size and all combinations of flags.", "anchors": ["src/andromede/study/resolve_components.py:_build_data", "src/andromede/study/data.py:dataframe_to_time_series", "src/andromede/study/data.py:dataframe_to_scenario_series"]}
{"id": "C51", "title": "The consistency check finds every component with an unknown model", "statement": "The consistency check returns True exactly when every component of the study has a model whose identifier is among the given models, and raises a ValueError otherwise.", "quantifier": "all studies and model dictionaries", "why_tests_cant": "Any number of components, the faulty one at any position.", "anchors": ["src/andromede/study/resolve_components.py:consistency_check"]}
{"id": "C52", "title": "Kinds of variables have their bounds", "statement": "A boolean variable ranges over 0..1; integer and continuous variables have exactly the given bounds, and are accepted exactly when these do not depend on variables.", "quantifier": "all names, bound expressions, structures and contexts", "why_tests_cant": "Bound expressions of any shape.", "anchors": ["src/andromede/model/variable.py:bool_var", "src/andromede/model/variable.py:int_variable", "src/andromede/model/variable.py:float_variable"]}
{"id": "C53", "title": "Comparing model definitions", "statement": "Two variables, constraints, models or components are equal exactly when all their fields are.", "quantifier": "all variables, constraints, models, components", "why_tests_cant": "Definitions of any size; a missed field shows only on the definitions that differ by it.", "anchors": ["src/andromede/model/variable.py:Variable.__eq__", "src/andromede/model/constraint.py:Constraint.__eq__", "src/andromede/model/model.py:Model", "src/andromede/study/network.py:Component"]}
{"id": "C54", "title": "Accepted models have exactly the declared content", "statement": "Creating a model succeeds exactly when its objective contributions do not depend on ports or raise, and every port field definition targets a port and a field of the model; the accepted model then lists each declared parameter, variable, constraint, binding constraint, port and definition under its name.", "quantifier": "all names, lists of parameters, variables, constraints, ports, definitions and objective contributions", "why_tests_cant": "Declarations of any size; the faulty declaration can be anywhere.", "anchors": ["src/andromede/model/model.py:model", "src/andromede/model/model.py:Model.__post_init__"]}
{"id": "C55", "title": "Comparing linear expressions", "statement": "Two linear expressions are equal exactly when they have the same terms, up to the numerical tolerance, and the same constant; an expression is reported null exactly when it has no term and its constant is null, up to the tolerance.", "quantifier": "all linear expressions that the operations build", "why_tests_cant": "Expressions of any size; a missed coefficient shows only on the expressions that differ by it.", "anchors": ["src/andromede/simulation/linear_expression.py:LinearExpression.__eq__", "src/andromede/simulation/linear_expression.py:LinearExpression.is_zero"]}
{"id": "C56", "title": "What converting an Antares study gives", "statement": "Converting a study gives one node per area other than z_batteries, and one component with the numbers and series of the study, connected to its areas, for each renewable, thermal and storage cluster, each load, wind and solar series that has data, and each link; the clusters and links that stand for batteries are left out. Every connection of the result joins a component and a node of the result.", "quantifier": "all studies: any areas, clusters, links, series and period lengths", "why_tests_cant": "Studies of any size; an omitted or misconnected object shows only on studies that have it.", "anchors": ["src/andromede/input_converter/src/converter.py:AntaresStudyConverter.convert_study_to_input_study", "src/andromede/input_converter/src/converter.py:AntaresStudyConverter._convert_thermal_to_component_list", "src/andromede/input_converter/src/converter.py:AntaresStudyConverter._convert_link_to_component_list"]}
{"id": "C57", "title": "Batteries of Antares studies", "statement": "Each area whose clusters, link and binding constraint stand for a battery gets one battery component, with capacities, efficiencies and series computed from these artefacts, and connected to the area. Nothing else depends on the order of areas or on what was converted before.", "quantifier": "all studies, all orders of areas and all earlier conversions of the process", "why_tests_cant": "Values are kept in a dictionary of the class across studies, and one exception ends the loop over areas: only an argument over all histories and orders shows what reaches the result.", "anchors": ["src/andromede/input_converter/src/converter.py:AntaresStudyConverter._convert_cc_to_component_list", "src/andromede/input_converter/src/data_preprocessing/binding_constraints.py:BindingConstraintsPreprocessing", "src/andromede/input_converter/src/data_preprocessing/dataclasses.py:Operation"]}
{"id": "C58", "title": "Methods on expressions denote comparisons, time operators and sums over connections", "statement": "A constraint made from l <= r, l >= r or l == r holds exactly when the values compare so; shift, eval, time_sum and expec read the operand at the right timesteps and scenarios; time_sum with one bound and sum_connections on anything but a port field raise ValueError.", "quantifier": "all expressions, amounts, values, timesteps, scenarios and connections", "why_tests_cant": "A swapped bound or comparator shows only on values that tell them apart; the claim is over all expressions and values.", "anchors": ["src/andromede/expression/expression.py:ExpressionNode.__le__", "src/andromede/expression/expression.py:ExpressionNode.time_sum", "src/andromede/expression/expression.py:ExpressionNode.sum_connections", "src/andromede/expression/expression.py:ExpressionNode.shift"]}
{"id": "C59", "title": "The libraries that come with the code are read and say what they are documented to say", "statement": "The files antares_historic.yml, andromede_v1_models.yml and pypsa_models.yml are read without error, and each of their 17 models accepts exactly the points its rules describe (power balance, capacities, unit commitment, storage levels, emission quotas), at the described cost, and sends the described values on its ports.  In particular the power dispatched by a PyPSA storage unit is at most its availability times its nominal power.", "quantifier": "all values of the variables, parameters and connected components, all timesteps, scenarios and sizes of the block", "why_tests_cant": "Tests solve a few studies; a wrong sign, bound or time index in a model shows only on the data for which it matters.", "anchors": ["src/andromede/libs/antares_historic/antares_historic.yml", "src/andromede/libs/reference_models/andromede_v1_models.yml", "src/andromede/libs/pypsa_models/pypsa_models.yml", "src/andromede/model/parsing.py:parse_yaml_library", "src/andromede/model/resolve_library.py:resolve_library"]}
{"id": "C60", "title": "From a system file using the shipped libraries to the solver: the problem means what the file says", "statement": "For a system file whose components use models of the shipped libraries, a point of the built problem is feasible exactly when it obeys, for every declared component, timestep and scenario, the rules of the named model with the declared parameter values and with the sum of what the declared connections bring to its ports; its objective is the sum of the costs of these rules; and the optima are the same.", "quantifier": "all system files with distinct ids, all tables, blocks, numbers of scenarios, and all points", "why_tests_cant": "Tests solve a few studies and compare one optimum; an error in any stage (resolution, data, ports, expansion, linearization, rows, columns) may show only on other systems, data or points.", "anchors": ["src/andromede/study/resolve_components.py:resolve_system", "src/andromede/study/resolve_components.py:build_network", "src/andromede/study/resolve_components.py:build_data_base", "src/andromede/simulation/optimization.py:build_problem", "src/andromede/libs/antares_historic/antares_historic.yml", "src/andromede/libs/reference_models/andromede_v1_models.yml", "src/andromede/libs/pypsa_models/pypsa_models.yml"]}
{"id": "C61", "title": "A well-formed study is always turned into a problem", "statement": "If components, ports and connections are consistent, every parameter has data for all timesteps and scenarios, expressions are linear in the selected variables with divisors that are never zero, time shifts are constant whole numbers, bounds are not crossed and objectives do not depend on time or scenario, then building the problem raises no exception; and the problem has the mathematical meaning of the study.", "quantifier": "all networks, models, data bases, blocks, numbers of scenarios and modeling strategies", "why_tests_cant": "A test shows that one study is built; an exception may depend on any combination of operators, ports, indices and data in the study.", "anchors": ["src/andromede/simulation/optimization.py:build_problem", "src/andromede/simulation/optimization.py:OptimizationProblem", "src/andromede/simulation/linearize.py:linearize_expression", "src/andromede/expression/operators_expansion.py:expand_operators", "src/andromede/expression/port_resolver.py:resolve_port"]}
{"id": "C62", "title": "Parents and children of decision tree nodes always agree", "statement": "Whatever nodes are created with whatever parents and children, a node is among the children of exactly the node that is its parent, once, and no node is above itself; a call that returns a node gives it the parent and the children asked for, takes these children away from their previous parents and changes nothing else; a call that is refused leaves the links between the other nodes as they were.", "quantifier": "all histories of node creations, accepted or refused", "why_tests_cant": "Nodes can be moved any number of times between trees of any shape; the claim is about all histories.", "anchors": ["src/andromede/simulation/decision_tree.py:DecisionTreeNode.__init__"]}
{"id": "C63", "title": "Complete studies over the shipped libraries are always turned into the problem that the files mean", "statement": "Take a system file whose components name models of the libraries that come with the code, which declares every parameter with data that can be read and cover the block, whose connections join ports with the same fields and one sender each, and whose values make sense (minima below maxima, whole durations, divisors that are not zero). Then resolving it, building the network and the data base, and building the solver problem all succeed, and the problem has exactly the solutions and costs that the file means.", "quantifier": "all system files, tables, blocks of timesteps and numbers of scenarios that meet these conditions", "why_tests_cant": "Tests run a few studies; that none of the many checks and exceptions on the way refuses a correct study is a claim about all studies.", "anchors": ["src/andromede/study/resolve_components.py:resolve_system", "src/andromede/study/resolve_components.py:build_network", "src/andromede/study/resolve_components.py:build_data_base", "src/andromede/simulation/optimization.py:build_problem", "src/andromede/libs"]}
{"id": "C64", "title": "Decomposing a study on a decision tree keeps its meaning", "statement": "Take a decision tree with a network on each node and coupling constraints declared between nodes. The master problem and the subproblems built from it, when they share the values of the variables of the same name, can obtain exactly the expected costs that the study itself can obtain: investments decided once per node and linked by the accepted declarations, operations decided in each block of each node, all constraints of the node satisfied in each block, investment costs paid once per node, operational costs in each block, all weighted by the probability of the node. So both have the same minimal cost. A decomposition is only built when the probabilities of the branches add up.", "quantifier": "all trees, networks, data, blocks, numbers of scenarios and histories of coupling declarations that meet the stated conditions", "why_tests_cant": "Tests compare the optimum of one or two small trees; that nothing is lost, counted twice or left unlinked is a claim about all trees, models and declarations.", "anchors": ["src/andromede/simulation/benders_decomposed.py:build_benders_decomposed_problem", "src/andromede/simulation/benders_decomposed.py:BendersDecomposedProblem", "src/andromede/simulation/optimization.py:build_problem", "src/andromede/simulation/optimization.py:fusion_problems", "src/andromede/study/network.py", "src/andromede/simulation/decision_tree.py:DecisionTreeNode.define_coupling_constraint"]}
{"id": "C65", "title": "A PyPSA network is turned into the optimisation problem that its tables mean", "statement": "Take a PyPSA network of the supported kind whose data can be read and make sense, whose names do not clash and whose components use its buses. Converting it, reading the converted study with the shipped PyPSA library and building the solver problem all succeed. The points that the solver accepts are exactly the admissible decisions on the network (capacities, limits per unit, sums of energy, cyclic storage, balance of each bus, limits of emissions), the objective is their cost (capital cost of what can be extended, marginal, storage and spill costs), and the solutions of the solver are the cheapest admissible decisions.", "quantifier": "all networks, tables, time series and numbers of snapshots that meet these conditions", "why_tests_cant": "Tests compare the optimum with PyPSA's on a few networks; that no component, attribute, time series or default is lost or exchanged between the tables and the solver is a claim about all networks.", "anchors": ["src/andromede/pypsa_converter/pypsa_converter.py:PyPSAStudyConverter", "src/andromede/libs/pypsa_models/pypsa_models.yml", "src/andromede/study/resolve_components.py:resolve_system", "src/andromede/study/resolve_components.py:build_network", "src/andromede/study/resolve_components.py:build_data_base", "src/andromede/simulation/optimization.py:build_problem"]}
{"id": "C66", "title": "The command line solves the study that the named files describe, whatever their order", "statement": "A command names library files, a system file and tables, either one by one or through the directory of a study; any other combination of options is refused. The program always ends. It hands a problem to the solver exactly when all these files can be read, the libraries have distinct ids and can be resolved, the system refers to their models, and the problem of the first timesteps can be built, and then it is that problem. Two libraries with the same id are refused with a ValueError. The problem does not depend on the order of the library files. For complete studies over the shipped libraries the program reaches the solver, with a problem that has exactly the solutions and costs that the files mean.", "quantifier": "all options, contents of the files, orders of directories and of sets", "why_tests_cant": "Tests run the program on a few studies in one order of files; os.listdir and sets have no defined order, and that every correct command reaches the solver with the right problem is a claim about all files.", "anchors": ["src/andromede/main/main.py:main_cli", "src/andromede/main/main.py:input_libs", "src/andromede/main/main.py:input_study", "src/andromede/main/main.py:input_database", "src/andromede/study/parsing.py:parse_cli", "src/andromede/study/parsing.py:ParsedArguments", "src/andromede/study/resolve_components.py:consistency_check", "src/andromede/study/data.py:load_ts_from_txt"]}
{"id": "C67", "title": "Running a decomposed problem writes every problem, reports what the solver did and reads its result", "statement": "Running a decomposed problem writes each problem in its own file, the structure file and the options, which name the master, the structure file and the result file; nothing else is written. The result is True exactly when the solver ran and ended with code 0, and then the solution is the one that the solver wrote during this run, of the kind (merged or decomposed) of this run. When the solver fails the solution is kept. After any history of runs, failed ones included, the working directory is the same as before.", "quantifier": "all decomposed problems, contents of the folder, behaviours of the solver (including its absence and exceptions) and histories of runs", "why_tests_cant": "Tests run once, with the real solver or without it, in a fresh folder; histories, leftovers of earlier runs and failures of the solver are not enumerable.", "anchors": ["src/andromede/simulation/benders_decomposed.py:BendersDecomposedProblem.initialise", "src/andromede/simulation/benders_decomposed.py:read_solution", "src/andromede/simulation/benders_decomposed.py:run", "src/andromede/simulation/benders_decomposed.py:export_options", "src/andromede/simulation/runner.py:CommandRunner", "src/andromede/utils.py:serialize", "src/andromede/utils.py:serialize_json", "src/andromede/utils.py:read_json"]}
{"id": "C68", "title": "The printed text of an expression means the expression", "statement": "The text printed for an expression, read back by the expression parser, is an expression of the same value whatever the values of its variables and parameters, for the evaluation of expressions and for their meaning in a component; a printed inequality reads back as the same inequality; and two expressions with the same text have the same value.", "quantifier": "all expressions of any depth and size, all number formats, all sets of known names", "why_tests_cant": "Tests compare the texts of four expressions; parentheses, signs and nesting have unboundedly many combinations.", "anchors": ["src/andromede/expression/print.py:PrinterVisitor", "src/andromede/expression/print.py:print_expr", "src/andromede/expression/parsing/parse_expression.py:parse_expression"]}
{"id": "C69", "title": "An Antares study is turned into the optimisation problem that its objects mean", "statement": "Take an Antares study with areas, thermal clusters, short-term storages, loads, links and batteries (given as artefacts of the area z_batteries), whose data can be read and make sense and whose names do not clash. Converting it, reading the converted study with the shipped libraries and building the solver problem of the first hours all succeed. The points that the solver accepts are exactly the admissible decisions on the study (balance of each area, availability, minimal power and unit commitment of clusters, rule curves and cyclic levels of storages and batteries, capacities of links), the objective is their mean cost, and the solutions of the solver are the cheapest admissible decisions.", "quantifier": "all studies, tables on the disk, numbers of hours and scenarios, and periods of comparison that meet these conditions", "why_tests_cant": "Tests compare the converted files, or the optimum of a few small studies; the claim is about every set of areas, objects and series, through all stages.", "anchors": ["src/andromede/input_converter/src/converter.py:AntaresStudyConverter", "src/andromede/input_converter/src/data_preprocessing/thermal.py:ThermalDataPreprocessing", "src/andromede/libs/antares_historic/antares_historic.yml", "src/andromede/libs/reference_models/andromede_v1_models.yml", "src/andromede/simulation/optimization.py:build_problem"]}
{"id": "C70", "title": "A study file written by a converter is read back as the converted study", "statement": "The system file that the Antares or the PyPSA converter writes is read back by the study reader as exactly the system that the converter made, whichever fields were set or left to their default. Two different systems are never written as the same file. So converting a study, writing the file and running the command line on this file and the shipped libraries hands the solver the problem of the study.", "quantifier": "all systems, all Antares studies and PyPSA networks that the converters accept, all library and system paths", "why_tests_cant": "Tests read back a few converted studies; field omission, aliases, nulls and numbers interact for every system.", "anchors": ["src/andromede/input_converter/src/utils.py:transform_to_yaml", "src/andromede/pypsa_converter/utils.py:transform_to_yaml", "src/andromede/study/parsing.py:parse_yaml_components", "src/andromede/utils.py:ModifiedBaseModel", "src/andromede/main/main.py:main_cli"]}
{"id": "C71", "title": "Nothing in a library or system file is ignored or taken for something else", "statement": "A library or system file is accepted exactly when it describes a library or system: every key at any depth is known in the place where it stands, the needed ones are there, every value is of the type of its field. What is read is what the file describes, with the documented default values for the rest. The order of keys and their spelling (time-dependent or time_dependent) make no difference, not even for errors.", "quantifier": "all trees that a YAML file can describe", "why_tests_cant": "Tests read a few correct files; the claim is about all misspellings, misplaced keys, types and omissions.", "anchors": ["src/andromede/model/parsing.py:parse_yaml_library", "src/andromede/study/parsing.py:parse_yaml_components", "src/andromede/utils.py:ModifiedBaseModel"]}
{"id": "C72", "title": "A bound of a library file that is written as a number means that number", "statement": "If the lower or upper bound of a variable is given as a number in the library file (an integer of any size and sign, or a decimal number), the variable of the resolved library has a constant bound with exactly this value, whatever the names of the model. The same for the bounds of constraints.", "quantifier": "all numbers, variables, constraints and names", "why_tests_cant": "The number goes through Python's text of it and the expression grammar; tests try 0 and a few others.", "anchors": ["src/andromede/model/parsing.py:InputVariable", "src/andromede/model/parsing.py:InputConstraint", "src/andromede/model/resolve_library.py:_to_variable", "src/andromede/expression/parsing/parse_expression.py:parse_expression"]}
{"id": "C74", "title": "A table of series means the same numbers when it is written by a converter and read by a study", "statement": "A text of numbers in lines is read as the table with these numbers at their hours and scenarios, however the words are spaced and whatever lines are left blank; texts with a word that is not a number or a line longer than the first one are refused. Every table that the Antares or the PyPSA converter writes is read back as the same table, so that converting a study, writing its files and running the command line on them hands the solver the problem of the study.", "quantifier": "all texts, all tables, all Antares studies and PyPSA networks that the converters accept, all directories of tables", "why_tests_cant": "Tests read a few correct tables; the claim is about all layouts, sizes, missing numbers and names of files.", "anchors": ["src/andromede/study/data.py:load_ts_from_txt", "src/andromede/input_converter/src/data_preprocessing/thermal.py:generate_component_parameter", "src/andromede/input_converter/src/data_preprocessing/binding_constraints.py:convert_param_value", "src/andromede/pypsa_converter/pypsa_converter.py:_write_and_register_timeseries"]}
{"id": "C73", "title": "The converter command converts the study it is told to, and writes where it is told to", "statement": "The command that converts Antares studies converts the study named by its last option -i, else the one named in the configuration file, writes the result into the directory named by -o, else by the configuration file, and writes its messages to the file named by -l. A command that is refused changes nothing.", "quantifier": "all lists of options, all contents of the configuration file, all states of the file system", "why_tests_cant": "No test runs the command; the claim is about every combination of options, every name of a folder and every configuration file.", "anchors": ["src/andromede/input_converter/src/main.py:parse_commandline", "src/andromede/input_converter/src/main.py:CreateFileIfMissing", "src/andromede/input_converter/src/logger.py:Logger", "src/andromede/input_converter/src/converter.py:process_all"]}
{"id": "C75", "title": "The text of a scenario builder means its lines", "statement": "Reading a scenario builder file gives, for every group, each year the scenario of its line `group,year,scenario`, however the numbers are spaced and whatever lines are left blank; texts with other lines are refused, or do not affect the other lines.", "quantifier": "all texts, all groups and years", "why_tests_cant": "The tests read one file; the claim is about all names of groups, layouts and faulty lines.", "anchors": ["src/andromede/study/parsing.py:parse_scenario_builder", "src/andromede/study/resolve_components.py:_resolve_scenarization", "src/andromede/study/data.py:get_scenario_for_year"]}
{"id": "C76", "title": "The cost that the command prints is the least average cost of the study", "statement": "When the command that runs a study prints the status 0, the cost on the next line is the least cost, averaged over the scenarios, of a solution of the study; it prints another status only if the study has no best solution; and a cost is printed only for a solution that exists. This goes for studies written by hand over the shipped libraries and for studies converted from Antares and PyPSA.", "quantifier": "all complete studies over the shipped libraries, all supported Antares studies and PyPSA networks, all ways to name the files, all solvers that are right", "why_tests_cant": "The tests compare one printed value, or none; the claim is about all studies and goes through every step of the program.", "anchors": ["src/andromede/main/main.py:main_cli", "src/andromede/simulation/optimization.py:build_problem"]}
{"id": "C77", "title": "The words of the command mean their options", "statement": "The command that runs a study accepts exactly the words that are options with their values (an option may be shortened to a beginning that no other option has, may be joined to its value by =, and --models takes one or more values), with whole numbers for the duration and the number of scenarios. The order of the options does not matter. Every file named after --models is read. A duration is accepted only if it is positive.", "quantifier": "all lists of words", "why_tests_cant": "The tests give one or two command lines; options, abbreviations and values combine without end.", "anchors": ["src/andromede/study/parsing.py:parse_cli", "src/andromede/main/main.py:main_cli"]}
{"id": "C78", "title": "The order in which a system file is written does not matter", "statement": "Writing the components of a system file in another order, under nodes or under components, with their parameters in another order, and writing connections in another order or from the other end, changes neither whether a study has a best solution nor its cost: the command prints the same cost.", "quantifier": "all studies on the shipped libraries and all reorderings of their system file", "why_tests_cant": "Each test has one order; orders are as many as permutations.", "anchors": ["src/andromede/study/resolve_components.py:build_network", "src/andromede/study/resolve_components.py:build_data_base", "src/andromede/main/main.py:main_cli"]}
{"id": "C79", "title": "The names of components do not matter", "statement": "Giving other distinct names to the components of a system file, everywhere, changes the solutions only by the names: the study has a best solution or not as before, with the same cost, and the command prints the same cost.", "quantifier": "all studies on the shipped libraries and all injective renamings", "why_tests_cant": "Names are arbitrary texts; a test uses a few.", "anchors": ["src/andromede/study/resolve_components.py:resolve_system", "src/andromede/study/resolve_components.py:build_network", "src/andromede/simulation/optimization.py:build_problem", "src/andromede/main/main.py:main_cli"]}
{"id": "C80", "title": "Independent studies can be solved together", "statement": "When a system file is two others side by side, without common component or connection between them, the solutions are exactly the pairs of solutions, the study has a best solution exactly when both have, and the cost printed is the sum of the two costs.", "quantifier": "all pairs of studies on the shipped libraries with disjoint components", "why_tests_cant": "It relates three runs on every pair of studies.", "anchors": ["src/andromede/study/resolve_components.py:build_network", "src/andromede/simulation/optimization.py:build_problem", "src/andromede/main/main.py:main_cli"]}
{"id": "C81", "title": "Scenarios are weighed equally and do not leak into each other", "statement": "The values of the variables that a study with several scenarios accepts are those whose values in each scenario are accepted by the study with this scenario alone, and their cost is the average of these costs. So the cost printed for several scenarios is never below the average of the costs printed for each scenario alone, and is equal to it when every choice depends on the scenario.", "quantifier": "all networks of any models whose bounds, constraints and port fields have no expectation and whose costs are expectations or do not depend on the scenario, all numbers of scenarios, all values of the variables; all studies on the shipped libraries", "why_tests_cant": "The tests have one or two scenarios and fixed series.", "anchors": ["src/andromede/simulation/optimization.py:build_problem", "src/andromede/study/data.py:TimeScenarioSeriesData", "src/andromede/expression/scenario_operator.py:Expectation", "src/andromede/main/main.py:main_cli"]}
{"id": "C82", "title": "The way a network is built does not matter", "statement": "Take a network built with the API and the same network built in another way: components added in another order, as nodes or not, ports connected in another order or from the other end, components named otherwise. Both problems have the same feasible values, under the other names, at the same cost, and a solver finds the same least cost.", "quantifier": "all models, networks, data bases, strategies and risks, all renamings that keep distinct names distinct, all orders", "why_tests_cant": "Each test builds its network once, in one order, with one set of names.", "anchors": ["src/andromede/study/network.py:Network", "src/andromede/simulation/optimization.py:build_problem", "src/andromede/simulation/optimization.py:_register_connection_fields_definitions"]}
{"id": "C83", "title": "Networks that are not connected do not influence each other", "statement": "Put two networks without a common component side by side in one network. Its problem has a solution if and only if both have, and its least cost is the sum of theirs.", "quantifier": "all pairs of networks of any models, data, strategies and risks; any order of components and connections in the whole", "why_tests_cant": "Tests compare the cost of a few fixed networks with fixed numbers.", "anchors": ["src/andromede/study/network.py:Network", "src/andromede/simulation/optimization.py:build_problem"]}
{"id": "C84", "title": "The problem given to the solver is the study, without tiny coefficients, bounds of booleans and bounds that vary alone", "statement": "The program drops the coefficients below 1e-16 of each constraint and contribution to the objective, after all terms of the same variable instance are added; it ignores the declared bounds of booleans; and it enforces a constraint whose expression does not depend on time (on the scenario) at the first timestep (in the first scenario) only, even if its bounds depend on it. It changes nothing else: a point of the built problem is feasible if and only if its values satisfy the rest, and its objective value is the sum of the contributions without their tiny coefficients. What is lost in an expression is at most 1e-16 times the sum of the absolute values of the dropped instances.", "quantifier": "all models, networks, data, strategies and risks, all values of the variables", "why_tests_cant": "No test has a tiny coefficient, a bounded boolean or a bound that varies alone, and a test checks one optimum, not all feasible points.", "anchors": ["src/andromede/simulation/optimization.py:build_problem", "src/andromede/simulation/linear_expression.py:LinearExpression", "src/andromede/simulation/optimization.py:_create_variables"]}
{"id": "C85", "title": "No timestep of a cyclic block is special", "statement": "In a block, the timestep after the last one is the first one. If no expression names a fixed timestep, then the same study with its block started at another timestep (all time series read r timesteps later) accepts the same values of the variables, read r timesteps later, at the same cost. So it has the same least cost, and the command prints the same status and cost. The only shipped model that names a timestep is the short-term storage, whose level is given at the first one.", "quantifier": "all networks of any models, blocks, rotations, data and values of the variables; all studies on the shipped libraries without short-term storages", "why_tests_cant": "Tests have fixed series and check one optimum; the boundary of a block is crossed by shifts and sums of any length.", "anchors": ["src/andromede/simulation/optimization.py:_manage_border_timesteps", "src/andromede/simulation/optimization.py:BlockBorderManagement", "src/andromede/simulation/optimization.py:build_problem", "src/andromede/libs", "src/andromede/main/main.py:main_cli"]}
{"id": "C86", "title": "Prices may be given in any currency", "statement": "When all prices of a study (on the shipped models: costs of generation, start-up, fixed costs, spillage, unsupplied energy, curtailment, storage, investment; on any models: the parameters that the costs are proportional to and that nothing else reads) are multiplied by the same positive number, the same values of the variables are accepted, the cost of each is multiplied by this number, and so is the least cost; the command prints the same status and the multiplied cost.", "quantifier": "all studies on the shipped libraries, or on any models whose costs are proportional to the prices, with any components, connections, series, blocks and scenarios, and all positive factors", "why_tests_cant": "Tests check the cost of one study with one set of prices; one price left out of, or used outside, an objective would break the claim for some study only.", "anchors": ["src/andromede/libs", "src/andromede/simulation/optimization.py:build_problem", "src/andromede/simulation/linearize.py:linearize_expression", "src/andromede/main/main.py:main_cli"]}
{"id": "C87", "title": "Looser limits never cost more", "statement": "When limits of a study on the shipped models are loosened (larger link capacities, maximum powers, numbers of units, storage curves, emission quotas, lower minimum powers and so on) and nothing else changes, then the values of the variables that were accepted still are, at the same cost, so that the least cost does not increase; when both commands find a solution, the second one does not print a higher cost.", "quantifier": "all pairs of studies on the shipped libraries that differ by limits only, each limit changed by any amount at any timestep in any scenario", "why_tests_cant": "Tests compare a few optima; a limit with the wrong sign or side shows for some values of the other parameters only.", "anchors": ["src/andromede/libs", "src/andromede/simulation/optimization.py:build_problem", "src/andromede/simulation/optimization.py:_create_constraint", "src/andromede/main/main.py:main_cli"]}
{"id": "C88", "title": "Timesteps that nothing links can be solved one by one", "statement": "In a network where nothing links the timesteps of a block (variables have one value for each timestep, bounds, constraints and port fields have no time operator, and costs are sums over the block), values of the variables are accepted exactly when at each timestep they are accepted by the study with this timestep alone, and their cost is the sum of the costs at the timesteps; so the least cost is the sum of the least costs. This holds for shipped areas, buses, loads, links, renewable sources, demand response and electrolysers, so that the command on the whole block prints the sum of what it prints for each timestep.", "quantifier": "all networks of any such models, with any components, connections, series, number of timesteps and scenarios, and all values of the variables; all studies on the shipped libraries made of the listed models", "why_tests_cant": "Tests solve short blocks and compare one optimum; data of one timestep used at another would show for some series only.", "anchors": ["src/andromede/libs", "src/andromede/simulation/optimization.py:build_problem", "src/andromede/simulation/optimization.py:get_time_indices", "src/andromede/expression/operators_expansion.py:expand_operators", "src/andromede/main/main.py:main_cli"]}
{"id": "C89", "title": "A system that is k times as large costs k times as much", "statement": "When everything in a study on the shipped models is k times as large (loads, capacities, sizes of units and the costs of starting and running one, stored energy, inflows, emission quotas) and nothing else changes (costs per unit of energy, efficiencies, relative limits, numbers of units, durations), the accepted values of the variables are the former ones with powers and energies k times as large and the same numbers of units, and cost k times as much: the least cost is multiplied by k, and the command prints the same status and k times the cost. For any models: if each parameter and variable is given a power of k such that sums and comparisons are between terms of the same power, then multiplying each parameter by its power of k multiplies the variables by theirs and the cost by its own.", "quantifier": "all studies on the shipped libraries and all problems of any models with consistent powers, with any components, connections, series, blocks and scenarios, and all positive factors", "why_tests_cant": "Tests solve a few studies of fixed sizes; a quantity that is added to one of another dimension, in a constraint, an objective or a port, would show for some sizes only.", "anchors": ["src/andromede/libs", "src/andromede/simulation/optimization.py:build_problem", "src/andromede/simulation/linearize.py:linearize_expression", "src/andromede/main/main.py:main_cli"]}
{"id": "C90", "title": "The unit of energy does not matter", "statement": "When a study on the shipped models is given in another unit of energy (powers, energies and emissions multiplied by k, costs per unit of energy divided by k, everything else unchanged), the accepted values of the variables are the former ones with powers and energies multiplied by k, at the same cost: the least cost is the same, and the command prints the same status and the same cost.", "quantifier": "all studies on the shipped libraries, with any components, connections, series, blocks and scenarios, and all positive factors", "why_tests_cant": "Tests use one unit; an absolute threshold or a term of another dimension changes the answer for some units only.", "anchors": ["src/andromede/libs", "src/andromede/simulation/optimization.py:build_problem", "src/andromede/simulation/linear_expression.py:EPS", "src/andromede/main/main.py:main_cli"]}
{"id": "C91", "title": "A system between two systems costs at most the mean", "statement": "When the loads, capacities, inflows and other energies of a study without thermal clusters are the weighted mean of those of two other studies that are otherwise the same, the values between values accepted by the two studies are accepted and cost the mean of what these cost. So the least cost is at most the mean of the two least costs: a command that solves this study prints at most the mean of what the commands on the two others print.", "quantifier": "all triples of studies on the shipped libraries without thermal clusters, with any components, connections, series, blocks and scenarios, and all weights between 0 and 1", "why_tests_cant": "Tests compare a few systems; the least cost must be convex in all loads and capacities at once, which is what cuts and interpolation between cases rely on.", "anchors": ["src/andromede/libs", "src/andromede/simulation/optimization.py:build_problem", "src/andromede/main/main.py:main_cli"]}
{"id": "C92", "title": "Costs add up as prices do", "statement": "When the prices of a study are a times those of a second study plus b times those of a third one, and the three studies are otherwise the same, they accept the same values of the variables, and any values cost a times what they cost in the second study plus b times what they cost in the third one. So, for a and b not negative, the least cost is at least a times the second one plus b times the third one (at prices between two prices the least cost is at least the mean), and the same is true of the costs that the commands print.", "quantifier": "all triples of studies on the shipped libraries that differ by prices only, with any components, connections, series, blocks and scenarios, and all weights", "why_tests_cant": "Tests use a few prices; a price used in a limit, a constant cost or a price that is not a factor would break this for some prices only.", "anchors": ["src/andromede/libs", "src/andromede/simulation/optimization.py:build_problem", "src/andromede/simulation/linear_expression.py:EPS", "src/andromede/main/main.py:main_cli"]}
{"id": "C93", "title": "A study that can be satisfied at bounded cost is solved", "statement": "The command prints status 0 exactly when the study can be satisfied and the costs of doing so have a lower bound: there is never an infimum that no solution reaches, with whole numbers of units on either. Loads, capacities, numbers of units and other amounts do not decide whether costs have a lower bound: once a study is solved, the same study with other amounts is solved exactly when it can be satisfied.", "quantifier": "all studies on the shipped libraries, with any components, connections, series, blocks and scenarios, all pairs of them that differ by amounts, and problems of any models that are linear in their variables", "why_tests_cant": "That an optimum is attained, and that it stays so for all amounts, quantifies over infinitely many values of the variables and of the data.", "anchors": ["src/andromede/simulation/optimization.py:build_problem", "src/andromede/simulation/linear_expression.py:EPS", "src/andromede/libs", "src/andromede/main/main.py:main_cli"]}
{"id": "C94", "title": "Areas balance everything, at a price", "statement": "When the prices of spilled and unsupplied energy of areas, and of energy spilled by storage units, are not negative, the costs of a study on the shipped libraries have a lower bound, whatever the signs of the other prices, so the command prints status 0 exactly when the study can be satisfied. On antares-historic and andromede-v1-models a study can be satisfied exactly when each component other than areas can work on its own, whatever it is connected to: areas spill or do not supply the difference. So a study of areas, loads, links, renewable sources, curtailable loads and electrolysers without negative capacities is always solved.", "quantifier": "all studies on the shipped libraries, with any components, connections, series, blocks and scenarios", "why_tests_cant": "Tests solve a few studies; a bound left out of a model or a sign changed in a balance makes some studies unbounded or without a solution, and which ones depends on all data.", "anchors": ["src/andromede/libs/antares_historic/antares_historic.yml", "src/andromede/libs", "src/andromede/simulation/optimization.py:build_problem", "src/andromede/main/main.py:main_cli"]}
{"id": "C95", "title": "A component that can rest never costs more, and one that must rest may be left out", "statement": "Take a study on the shipped libraries and remove from the system file a component that is not an area, a bus or a limit of emissions, with its connections. The command still ends without an error. If the component can send nothing at no cost, everything the study without it accepts is accepted with it at the same cost, so the command with the component does not print a higher cost. If it can do nothing else, for example because its capacities are zero, both commands print status 0 or none does, and they print the same cost.", "quantifier": "all studies on the shipped libraries, all components of them, any connections, series, blocks and scenarios", "why_tests_cant": "Tests run a few systems and never compare a system with the same system less a component; a component that leaks into the balance of a node it is not connected to, a port that is counted twice or a cost that does not depend on the variables would only show for some systems and data.", "anchors": ["src/andromede/study/resolve_components.py:resolve_system", "src/andromede/study/resolve_components.py:build_network", "src/andromede/simulation/optimization.py:build_problem", "src/andromede/libs", "src/andromede/main/main.py:main_cli"]}
{"id": "C96", "title": "An additional load costs at most the price of unsupplied energy", "statement": "Change the series of a load that is connected to an area, and nothing else. Whatever values of the variables were accepted, values that differ only in the unsupplied and spilled energy of this area are accepted now, and cost exactly the price of not supplying the additional load and of spilling what is not taken any more. So both studies are solved or none is, the cost that the command prints does not increase by more than this price, and does not decrease by more than the price of the opposite change.", "quantifier": "all studies on the shipped libraries with a load connected to an area, any other series of this load, any prices, blocks and scenarios", "why_tests_cant": "Tests compare costs for a few loads; a load that is also counted elsewhere, a price applied to another hour or scenario, or a mean over the wrong number of scenarios would break the bound for some series only.", "anchors": ["src/andromede/libs/antares_historic/antares_historic.yml", "src/andromede/simulation/optimization.py:build_problem", "src/andromede/study/data.py", "src/andromede/main/main.py:main_cli"]}
{"id": "C97", "title": "Only the total load of an area matters", "statement": "Take some loads that are connected to the same area and to nothing else, and give them other series with the same total at each timestep and in each scenario, and change nothing else. The same values of the variables are accepted, at the same cost, and the command prints the same status and the same cost. When one of these loads becomes 0, the study without it has the same least cost, so loads of an area can be merged.", "quantifier": "all studies on the shipped libraries with any number of loads connected to an area, in any order of ports, any other components, any other series with the same total, blocks and scenarios", "why_tests_cant": "Tests use one load per area; a connection that is counted twice or forgotten, a load that overwrites another one on the same port, or a series read at another hour would break the equality for some studies only.", "anchors": ["src/andromede/libs/antares_historic/antares_historic.yml", "src/andromede/expression/port_resolver.py:resolve_port", "src/andromede/simulation/optimization.py:build_problem", "src/andromede/study/network.py", "src/andromede/main/main.py:main_cli"]}
{"id": "C98", "title": "The text of a linear expression tells its terms", "statement": "Two linear expressions have the same text exactly when they have the same terms (component, variable, timestep, scenario) in the same order, with coefficients and constants that are written alike: 1 and -1 as a sign only, 0 as no constant, other numbers by their usual text. The text has the documented layout: each term as coefficient, component, variable, then timestep and scenario between brackets, then the constant; and 0 when there is nothing else.", "quantifier": "all linear expressions, any number of terms, names, timesteps (also absent or negative), scenarios and finite numbers, all ways to write numbers with a sign", "why_tests_cant": "Tests print five expressions with one term; that no two different expressions are written alike is a statement about all pairs, and it fails for some names.", "anchors": ["src/andromede/simulation/linear_expression.py:Term.__repr__", "src/andromede/simulation/linear_expression.py:_str_for_coeff", "src/andromede/simulation/linear_expression.py:LinearExpression.__repr__", "src/andromede/simulation/linear_expression.py:LinearExpression.str_for_constant"]}
{"id": "C99", "title": "The text of output values tells all of them", "statement": "Two output values have the same text exactly when they have the same components with the same variables, the same values (a number, one number per scenario, or one list per scenario) and the same marks, in the same order. The text exists exactly when each variable can be read, and always for the output values of a problem that was built, whatever the solution.", "quantifier": "all output values, any number of components, variables, scenarios and timesteps, all values, all problems and solutions, all ways to write floats", "why_tests_cant": "Tests print one output and do not look at the text; that no two different outputs are written alike is a statement about all pairs, and it fails for some names.", "anchors": ["src/andromede/simulation/output_values.py:OutputValues.__str__", "src/andromede/simulation/output_values.py:OutputValues.Component.__str__", "src/andromede/simulation/output_values.py:OutputValues.Variable.__str__", "src/andromede/simulation/output_values.py:OutputValues.Variable.value"]}
{"id": "C100", "title": "The text of a Benders solution tells its costs and its investments", "statement": "The text of a Benders solution has one line for each cost and for each candidate, with its name and its number, even when the name is longer than the column. Two solutions have the same text exactly when they have the same three costs and the same candidates with the same investments in the same order. The text exists exactly when the costs and the investments are in the data.", "quantifier": "all data of solutions, any number of candidates, all names, all numbers, all ways to write floats", "why_tests_cant": "Tests do not look at the text of a solution; that no two different solutions are written alike is a statement about all pairs, and it fails for some names.", "anchors": ["src/andromede/simulation/output_values.py:BendersSolution.__str__", "src/andromede/simulation/output_values.py:BendersSolution.candidates", "src/andromede/simulation/output_values.py:BendersSolution.overall_cost"]}
