{"id": "C01", "title": "Product of units adds exponents", "statement": "For units u, v the unit u*v has, for every dimension name d (SI or user defined), exponent(u,d)+exponent(v,d).", "quantifier": "all pairs of units with any dimension dictionaries, and all dimension names", "why_tests_cant": "Exponents are arbitrary numbers and dimension names arbitrary strings; a test samples a few.", "anchors": ["src/sloth/core/unit.py: Unit.__mul__", "src/sloth/core/unit.py: Unit._re_eval_dimensions"]}
{"id": "C02", "title": "Quotient of units subtracts exponents", "statement": "For units u, v the unit u/v has, for every dimension name d, exponent(u,d)-exponent(v,d).", "quantifier": "all pairs of units and all dimension names", "why_tests_cant": "Unbounded exponents and key sets; the failing case (a custom dimension only in the numerator) is not one a test on SI units would reach.", "anchors": ["src/sloth/core/unit.py: Unit.__truediv__", "src/sloth/core/unit.py: Unit.__div__"]}
{"id": "C03", "title": "Power of a unit scales exponents", "statement": "For a unit u and number n, u**n has exponent n*exponent(u,d) for every d; raising to a dimensionless unit leaves u's dimension unchanged; any other exponent is rejected.", "quantifier": "all units, all numeric powers, all dimension names", "why_tests_cant": "Unbounded numeric domain.", "anchors": ["src/sloth/core/unit.py: Unit.__pow__"]}
{"id": "C04", "title": "Unit expressions denote dimension vectors", "statement": "Any expression built from SI units with *, / and ** evaluates without error to a unit whose exponents are those of the expression's dimension vector; so two algebraically equal unit expressions are always dimensionally coherent, whatever their shape.", "quantifier": "all finite unit expressions over SI units", "why_tests_cant": "Structural induction over expression trees of unbounded size.", "anchors": ["src/sloth/core/unit.py: Unit.__mul__", "src/sloth/core/unit.py: Unit.__truediv__", "src/sloth/core/unit.py: Unit.__pow__", "src/sloth/core/unit.py: Unit._check_dimensional_coherence", "src/sloth/core/template_units.py: derived units"]}
{"id": "C05", "title": "Adding units is allowed exactly when dimensions agree", "statement": "For SI units u+v and u-v succeed iff every SI exponent of u equals that of v, the result has that same dimension, and otherwise DimensionalCoherenceError is raised; the relation is an equivalence (in particular symmetric).", "quantifier": "all pairs/triples of SI units", "why_tests_cant": "Exponents unbounded; equivalence laws are universally quantified.", "anchors": ["src/sloth/core/unit.py: Unit.__add__", "src/sloth/core/unit.py: Unit.__sub__", "src/sloth/core/unit.py: Unit._check_dimensional_coherence"]}
{"id": "C06", "title": "Every unit carries all seven SI dimensions", "statement": "Whatever sequence of constructors and operators produced it, a unit's dimension table has each key once and contains the seven SI keys, so coherence checks between SI units never raise KeyError.", "quantifier": "all histories of unit construction", "why_tests_cant": "Invariant over all operation sequences.", "anchors": ["src/sloth/core/unit.py: Unit.__init__", "src/sloth/core/unit.py: Unit._re_eval_dimensions"]}
{"id": "C07", "title": "Dimensionless test and printed form agree with exponents", "statement": "_is_dimensionless is true iff every exponent is zero; str(u) lists, in SI order, exactly the SI dimensions with non-zero exponent, so an SI unit prints as the empty string iff it is dimensionless.", "quantifier": "all units", "why_tests_cant": "Universal over exponent tables.", "anchors": ["src/sloth/core/unit.py: Unit._is_dimensionless", "src/sloth/core/unit.py: Unit.__str__"]}
{"id": "C08", "title": "setValue only accepts dimensionally coherent values", "statement": "q.setValue(v, unit) with an explicit unit that is not coherent with q's unit is rejected for every numeric v, and a Quantity argument is accepted only if its unit is coherent.", "quantifier": "all quantities, values and units", "why_tests_cant": "Case analysis over unbounded values and units; the failing float case needs the full decision table.", "anchors": ["src/sloth/core/quantity.py: Quantity.setValue", "src/sloth/core/parameter.py: Parameter.setValue", "src/sloth/core/constant.py: Constant.setValue"]}
{"id": "C09", "title": "A quantity holds its last accepted value", "statement": "After any sequence of setValue calls the quantity holds the value of the last accepted call, is specified iff constructed so or some call was accepted, and a rejected call changes nothing.", "quantifier": "all finite sequences of setValue calls", "why_tests_cant": "Quantifies over all histories.", "anchors": ["src/sloth/core/quantity.py: Quantity.setValue", "src/sloth/core/quantity.py: Quantity.__init__"]}
{"id": "C10", "title": "Expressions are dimension checked", "statement": "Building an arithmetic expression from quantities and numbers with + - * / ** succeeds only if the expression is dimensionally well formed, the resulting node then carries exactly the expression's dimension, and a sum or difference of differing dimensions or a dimensional exponent raises DimensionalCoherenceError.", "quantifier": "all finite expression trees over SI quantities and numbers", "why_tests_cant": "Structural induction over unbounded trees.", "anchors": ["src/sloth/core/expression_evaluation.py: EquationNode.__add__", "src/sloth/core/expression_evaluation.py: EquationNode.__sub__", "src/sloth/core/expression_evaluation.py: EquationNode.__mul__", "src/sloth/core/expression_evaluation.py: EquationNode.__div__", "src/sloth/core/expression_evaluation.py: EquationNode.__pow__"]}
{"id": "C11", "title": "Expressions keep their numeric meaning", "statement": "The symbolic expression of a built node evaluates, under every assignment to the unspecified quantities, to the arithmetic value of the source expression with specified quantities replaced by their values; the fully symbolic representation evaluates to the same when every quantity is assigned its own value.", "quantifier": "all expression trees, all assignments", "why_tests_cant": "Unbounded trees and real valued assignments.", "anchors": ["src/sloth/core/expression_evaluation.py: EquationNode.__add__", "src/sloth/core/quantity.py: Quantity.__call__"]}
{"id": "C12", "title": "Reflected operators compute the right value", "statement": "number + node, number - node, number * node and number / node evaluate to the corresponding arithmetic result and carry the dimension of (respectively) node, node, node and 1/node.", "quantifier": "all nodes, numbers and assignments", "why_tests_cant": "Universal over values, includes division by zero definedness.", "anchors": ["src/sloth/core/expression_evaluation.py: EquationNode.__radd__", "src/sloth/core/expression_evaluation.py: EquationNode.__rsub__", "src/sloth/core/expression_evaluation.py: EquationNode.__rmul__", "src/sloth/core/expression_evaluation.py: EquationNode.__rtruediv__"]}
{"id": "C13", "title": "Nodes know exactly the quantities they mention", "statement": "symbolic_map of a built node has as keys exactly the names of the quantities in the expression, variable_map exactly the names of the unspecified ones.", "quantifier": "all expression trees", "why_tests_cant": "Structural induction.", "anchors": ["src/sloth/core/expression_evaluation.py: EquationNode", "src/sloth/core/quantity.py: Quantity.__call__"]}
{"id": "C14", "title": "Exactly one equation class", "statement": "Every node built by any combination of operators and functions has exactly one of the flags linear, nonlinear, differential set.", "quantifier": "all expression trees", "why_tests_cant": "Invariant over all trees.", "anchors": ["src/sloth/core/expression_evaluation.py: EquationNode._checkEquationTypePrecedence", "src/sloth/core/equation_operators.py: wrapper"]}
{"id": "C15", "title": "Linear means affine", "statement": "A node flagged linear denotes an affine function of the unspecified quantities, so a linear-algebra solver may be used on it.", "quantifier": "all expression trees and assignments", "why_tests_cant": "Semantic property of every expression; the counterexample (constant / variable) is outside the repo's tests.", "anchors": ["src/sloth/core/expression_evaluation.py: EquationNode.__mul__", "src/sloth/core/expression_evaluation.py: EquationNode.__div__", "src/sloth/core/equation_operators.py: Min", "src/sloth/core/equation_operators.py: Max"]}
{"id": "C16", "title": "Derivatives make a node differential", "statement": "A node containing a time derivative is flagged differential.", "quantifier": "all expression trees", "why_tests_cant": "Structural claim over all trees.", "anchors": ["src/sloth/core/expression_evaluation.py: EquationNode.__mul__", "src/sloth/core/expression_evaluation.py: EquationNode.__div__", "src/sloth/core/equation_operators.py: _Diff", "src/sloth/core/equation_operators.py: wrapper"]}
{"id": "C17", "title": "Transcendental functions demand dimensionless arguments", "statement": "Log, Log10, Exp, Sin, Cos, Tan reject dimensional arguments and Abs/Sqrt style exemptions keep the argument's unit; the result applies the function to the argument's expression and keeps its maps.", "quantifier": "all argument nodes and functions", "why_tests_cant": "Universal over nodes.", "anchors": ["src/sloth/core/equation_operators.py: wrapper", "src/sloth/core/equation_operators.py: Log", "src/sloth/core/equation_operators.py: Sqrt"]}
{"id": "C18", "title": "Min/Max denote the minimum/maximum", "statement": "Min and Max of expressions evaluate to the least/greatest of the argument values, reject arguments of mixed dimension, and carry the common dimension.", "quantifier": "all argument lists", "why_tests_cant": "Universal over lists and values.", "anchors": ["src/sloth/core/equation_operators.py: Min", "src/sloth/core/equation_operators.py: Max"]}
{"id": "C19", "title": "Derivative nodes carry the quotient dimension", "statement": "Diff(x,t) has unit unit(x)/unit(t), is differential, and mentions x.", "quantifier": "all pairs of variables", "why_tests_cant": "Universal over units.", "anchors": ["src/sloth/core/equation_operators.py: _Diff", "src/sloth/core/variable.py: Variable.Diff"]}
{"id": "C20", "title": "An equation holds iff its residual is zero", "statement": "For an equation stated as lhs == rhs the residual evaluates to lhs - rhs, so it vanishes exactly on the assignments where both sides are equal. Calling an equation with a side returns that side.", "quantifier": "all expression pairs and assignments", "why_tests_cant": "Universal over expressions and assignments.", "anchors": ["src/sloth/core/equation.py: Equation.setResidual", "src/sloth/core/equation.py: Equation._getSymbolicObject", "src/sloth/core/expression_evaluation.py: EquationNode.__eq__", "src/sloth/core/equation.py: Equation.__call__"]}
{"id": "C21", "title": "Equations are dimensionally coherent", "statement": "setResidual(lhs == rhs) succeeds for node sides only if both sides have the same dimension; numeric right-hand sides take the left's dimension.", "quantifier": "all node pairs", "why_tests_cant": "Universal over nodes.", "anchors": ["src/sloth/core/equation.py: Equation.setResidual"]}
{"id": "C22", "title": "Generated names do not clash", "statement": "Names generated for unnamed equations/problems are pairwise distinct within a process for every interleaving of threads.", "quantifier": "all schedules of name requests by any number of threads", "why_tests_cant": "Schedules cannot be enumerated by tests; single thread tests miss the cross-thread clash.", "anchors": ["src/sloth/core/equation.py: gen_rnd_str", "src/sloth/problem.py: gen_rnd_str"]}
{"id": "C23", "title": "Equation kind follows its expression", "statement": "The declared kind (linear, nonlinear, differential) of an equation is the flag of its residual.", "quantifier": "all expressions", "why_tests_cant": "Universal.", "anchors": ["src/sloth/core/equation.py: Equation._getTypeFromExpression"]}
{"id": "C24", "title": "Renaming an equation preserves its meaning", "statement": "Rewriting an equation with an injective renaming of names gives an equation whose residual under the renamed assignment equals the original residual under the original assignment.", "quantifier": "all equations, all renamings, all assignments", "why_tests_cant": "Substitution lemma over all expressions.", "anchors": ["src/sloth/core/equation.py: Equation._convertEquationSymbolicExpression"]}
{"id": "C25", "title": "Accepted equations only mention declared objects", "statement": "After any sequence of declarations, every equation stored through createEquation with checking on only mentions names declared in the model's variables, parameters or constants.", "quantifier": "all operation histories of a model", "why_tests_cant": "Invariant over histories.", "anchors": ["src/sloth/model.py: Model.createEquation", "src/sloth/model.py: Model._checkEquation_"]}
{"id": "C26", "title": "A rejected equation leaves the model unchanged", "statement": "If createEquation raises, the model's variables, parameters, constants and equations are what they were before.", "quantifier": "all models and expressions", "why_tests_cant": "Universal failure atomicity.", "anchors": ["src/sloth/model.py: Model.createEquation"]}
{"id": "C27", "title": "Declared names are unique inside a model", "statement": "Distinct declared names of one model map to distinct global names; global names of different models are distinct.", "quantifier": "all names and model names", "why_tests_cant": "String injectivity over all strings; the cross model clash needs names containing underscores.", "anchors": ["src/sloth/model.py: Model.createVariable", "src/sloth/model.py: Model.createParameter", "src/sloth/model.py: Model.createConstant"]}
{"id": "C28", "title": "Incorporating a model copies all its content", "statement": "incorporateFromExternalModel adds a renamed copy of every variable, parameter, constant and equation of the source, leaves the source unchanged, and the copied equations mention only the copied names.", "quantifier": "all pairs of models", "why_tests_cant": "Universal over model contents.", "anchors": ["src/sloth/model.py: Model.incorporateFromExternalModel", "src/sloth/model.py: Model._addVariableDirectly", "src/sloth/model.py: Model._addEquationDirectly"]}
{"id": "C29", "title": "Exposed variables are recorded exactly", "statement": "A variable is listed as exposed input (output) iff it was created with is_exposed True and that type.", "quantifier": "all histories", "why_tests_cant": "Invariant over histories.", "anchors": ["src/sloth/model.py: Model.createVariable", "src/sloth/model.py: Model._addVariableDirectly"]}
{"id": "C30", "title": "Inlets are registered once per model", "statement": "After setting inlets, a model's inlet list is exactly the streams given to that model.", "quantifier": "all models and inlet lists", "why_tests_cant": "Aliasing across instances and histories.", "anchors": ["src/sloth/model.py: Model._setInlets", "src/sloth/model.py: Model.__init__", "src/sloth/unit_op.py: UnitOp._setInlets"]}
{"id": "C31", "title": "Model connections balance", "statement": "A connection between model variables adds one equation. Without explicit expressions its residual is the sum of the first list minus the sum of the second, so it vanishes iff the two sums are equal; with explicit expressions it is their difference.", "quantifier": "all lists of variables and assignments", "why_tests_cant": "Universal over lists/assignments.", "anchors": ["src/sloth/model.py: Model._createConnection"]}
{"id": "C32", "title": "Problem connections require exposed variables", "statement": "createConnection between models succeeds only for variables exposed with the right direction and adds the balance equation; otherwise ExposedVariableError.", "quantifier": "all models and variable lists", "why_tests_cant": "Universal.", "anchors": ["src/sloth/problem.py: Problem.createConnection"]}
{"id": "C33", "title": "Connections accumulate", "statement": "Creating several connections between two models keeps all of them.", "quantifier": "all sequences of connections", "why_tests_cant": "History property; fails only on the second connection of the same pair.", "anchors": ["src/sloth/problem.py: Problem.createConnection"]}
{"id": "C34", "title": "Equation groups partition the system", "statement": "Every equation given to an equation block is in exactly one of the linear, nonlinear, differential groups, in the original order.", "quantifier": "all equation lists", "why_tests_cant": "Universal over lists.", "anchors": ["src/sloth/core/equation_block.py: EquationBlock._assignEquationGroups"]}
{"id": "C35", "title": "Problem kind decides solver correctly", "statement": "The problem type is linear iff all equations linear, differential iff all differential, DAE iff differential mixed with algebraic, else nonlinear; the matching solver class is created.", "quantifier": "all equation blocks", "why_tests_cant": "Universal decision table.", "anchors": ["src/sloth/problem.py: Problem._getProblemType", "src/sloth/solvers.py: _createSolver"]}
{"id": "C36", "title": "Equation block variables are exactly those used", "statement": "The variable list handed to the solver contains exactly the problem variables mentioned in some equation, once each, in declaration order.", "quantifier": "all problems", "why_tests_cant": "Universal.", "anchors": ["src/sloth/problem.py: Problem._buildEquationBlock", "src/sloth/core/equation_block.py: EquationBlock._getVarList"]}
{"id": "C37", "title": "Degree of freedom test accepts exactly square systems", "statement": "The DOF check passes iff the number of unknowns equals the number of equations, reports OVER-specified iff fewer and UNDER-specified iff more.", "quantifier": "all systems", "why_tests_cant": "Universal arithmetic decision.", "anchors": ["src/sloth/analysis.py: DOF_Analysis._dofTest"]}
{"id": "C38", "title": "Adding models flattens and snapshots", "statement": "addModels of nested lists adds all models in order and the problem's variables are the union of theirs at that time (later models win).", "quantifier": "all nested lists", "why_tests_cant": "Recursion over unbounded nesting.", "anchors": ["src/sloth/problem.py: Problem.addModels"]}
{"id": "C39", "title": "Initial conditions are last-write-wins", "statement": "After any sequence of setInitialConditions calls each variable's condition is the last one given.", "quantifier": "all call sequences", "why_tests_cant": "History.", "anchors": ["src/sloth/problem.py: Problem.setInitialConditions"]}
{"id": "C40", "title": "Configuration precedence", "statement": "Effective simulation settings are the defaults overridden by exactly the user supplied keys.", "quantifier": "all configuration dictionaries", "why_tests_cant": "Universal over dictionaries.", "anchors": ["src/sloth/simulation.py: Simulation.setConfigurations", "src/sloth/optimization.py: Optimization.setConfigurations"]}
{"id": "C41", "title": "Solutions are reported under the right names", "statement": "The result of an algebraic solve maps each unknown's name to the corresponding component of the solver's vector; a failed solve raises NumericalError.", "quantifier": "all name lists and solver outputs", "why_tests_cant": "Universal over lists and solver behaviours (the external solver is arbitrary).", "anchors": ["src/sloth/solvers.py: LASolver", "src/sloth/solvers.py: NLASolver"]}
{"id": "C42", "title": "No simulation of an ill-posed system", "statement": "With the sanity check on, the numerical solver is only called when the DOF test passes.", "quantifier": "all problems and solver behaviours", "why_tests_cant": "Universal over external solver outcomes.", "anchors": ["src/sloth/simulation.py: Simulation.runSimulation"]}
{"id": "C43", "title": "Domains keep what is registered", "statement": "After registering data columns in a domain, the data frame holds the rows registered so far in order, under the independent then dependent names.", "quantifier": "all histories of register calls", "why_tests_cant": "History.", "anchors": ["src/sloth/core/domain.py: Domain._register", "src/sloth/core/domain.py: Domain._createDataFramePrototype"]}
{"id": "C44", "title": "Combining property packages is union", "statement": "Adding property packages yields the phases of both without duplicates in order; it is idempotent and associative.", "quantifier": "all packages", "why_tests_cant": "Universal over lists.", "anchors": ["src/sloth/core/property_package.py: PropertyPackage.__add__"]}
{"id": "C45", "title": "Optimization direction and bounds are honoured", "statement": "The fitness comparison prefers larger values iff is_maximization was requested and the bounds given are the ones used.", "quantifier": "all fitness values and settings", "why_tests_cant": "Universal over values.", "anchors": ["src/sloth/optimization.py: OptimizationProblem"]}
{"id": "C46", "title": "Optimization results only after a run", "statement": "getResults raises before runOptimization and afterwards returns the recorded result; sane tests reject unready problems.", "quantifier": "all call sequences", "why_tests_cant": "History.", "anchors": ["src/sloth/optimization.py: Optimization.getResults", "src/sloth/optimization.py: Optimization._performSaneTests"]}
{"id": "C47", "title": "Library streams conserve mass and moles", "statement": "The equations of stream/mixer/pump/heater unit operations force mass (mole) balance and consistent mass/mole conversion on every solution.", "quantifier": "all assignments satisfying the equations", "why_tests_cant": "Universal over real solutions.", "anchors": ["src/sloth/unit_op_library.py: MaterialStream", "src/sloth/unit_op_library.py: Mixer"]}
{"id": "C48", "title": "Library equations are dimensionally coherent", "statement": "Declaring the library unit operations never raises a dimensional error for any admissible parameter choice.", "quantifier": "all phase lists / inlet lists", "why_tests_cant": "Unbounded lists of inlets and phases.", "anchors": ["src/sloth/unit_op_library.py"]}
{"id": "C49", "title": "The solved system is the stated system", "statement": "An assignment makes every expression handed to the algebraic solver zero iff it satisfies every equation of the problem.", "quantifier": "all problems with algebraic equations and all assignments", "why_tests_cant": "Semantic equivalence over all assignments; a numerical test only sees one root.", "anchors": ["src/sloth/core/equation_block.py: EquationBlock._getEquationList", "src/sloth/core/equation.py: Equation._getSymbolicObject", "src/sloth/problem.py: Problem.resolve"]}
{"id": "C50", "title": "The ODE function computes the stated derivatives", "statement": "For a differential problem whose equations are Diff(y_i,t) == f_i, the function given to the integrator returns, for every time and state vector, the values f_i at that state in the order of the initial-condition vector.", "quantifier": "all systems of explicit ODEs, all states and times", "why_tests_cant": "Universal over systems, states and variable orderings.", "anchors": ["src/sloth/solvers.py: DSolver.solve", "src/sloth/solvers.py: DSolver._getDiffYinOrder", "src/sloth/solvers.py: DSolver.setUpDiffY", "src/sloth/core/equation_block.py: EquationBlock._getEquationBlockAsFunction"]}
{"id": "C51", "title": "Creating a solver leaves the problem unchanged", "statement": "Creating a solver for a problem does not change its equation groups or its equations, for every problem.", "quantifier": "all problems", "why_tests_cant": "Mutation through aliasing; must hold for every state.", "anchors": ["src/sloth/solvers.py: DaeSolver._setUpDaeSystem", "src/sloth/solvers.py: _createSolver"]}
{"id": "C52", "title": "Simulation status tells success from failure", "statement": "getStatus returns 0 exactly when results are available and non-empty.", "quantifier": "all outputs", "why_tests_cant": "Universal over outputs; the identity comparison bug is invisible to a success-path test.", "anchors": ["src/sloth/simulation.py: Simulation.getStatus"]}
{"id": "C53", "title": "Resolving twice changes nothing", "statement": "Calling resolve a second time yields the same equations, variables and exposure lists as the first.", "quantifier": "all models built from declarations", "why_tests_cant": "Idempotence over all declaration programs.", "anchors": ["src/sloth/problem.py: Problem.resolve", "src/sloth/problem.py: Problem._reloadModels", "src/sloth/model.py: Model.__call__"]}
{"id": "C54", "title": "The configured problem type selects the solver", "statement": "If the configuration names a problem type, the solver of that type is used.", "quantifier": "all problems and configurations", "why_tests_cant": "Universal decision table.", "anchors": ["src/sloth/simulation.py: Simulation.runSimulation", "src/sloth/solvers.py: _createSolver"]}
{"id": "C55", "title": "Result dictionary matches result list", "statement": "getResults('dict') contains exactly the solver's output pairs sorted by name and getResults('list') the same values.", "quantifier": "all outputs", "why_tests_cant": "Universal over outputs.", "anchors": ["src/sloth/simulation.py: Simulation.getResults"]}
{"id": "C56", "title": "Template units have their physical dimension", "statement": "The predefined derived units have the dimensions of the physical quantities they name and can be combined to the gas constant's dimension.", "quantifier": "every predefined unit and dimension name", "why_tests_cant": "Needs the exact exponent of every dimension, including absence of all others.", "anchors": ["src/sloth/core/template_units.py"]}
{"id": "C57", "title": "Restating an equation replaces it", "statement": "After a second setResidual the equation's sides, type and objects are exactly those of the second statement; nothing of the first remains.", "quantifier": "all pairs of statements", "why_tests_cant": "Needs every pair of statement forms; a stale field only shows for particular pairs.", "anchors": ["src/sloth/core/equation.py: Equation.setResidual", "src/sloth/core/equation.py: Equation._getTypeFromExpression"]}
{"id": "C58", "title": "The compiled function computes the residual", "statement": "With a compilation mechanism the compiler knows, the function an equation without derivatives compiles to, called with one number per quantity of the equation in the order of its argument list, returns left minus right side at these numbers; with another number of arguments it raises. A mechanism it does not know (the default 'llvm' among them) is refused.", "quantifier": "all equations without derivatives, all values of their quantities", "why_tests_cant": "Universal over expressions and valuations.", "anchors": ["src/sloth/core/equation.py: Equation._convertToFunction", "src/sloth/core/equation.py: Equation._convertToResidualForm"]}
{"id": "C59", "title": "Models with inlets cannot be resolved", "statement": "After _setInlets with a non-empty list and the default totalization function, every later call of the model raises, and so does resolve of a problem that contains it.", "quantifier": "all sessions before and after, all models and stream lists", "why_tests_cant": "Universal over sessions; a test shows one failing call, not that no sequence of calls avoids it.", "anchors": ["src/sloth/model.py: Model.__call__", "src/sloth/model.py: _totalizeInletsFunction_genericMaterialStreams", "src/sloth/core/equation_operators.py: Min"]}
{"id": "C60", "title": "Simulations do not influence each other", "statement": "Running one simulation leaves the settings, results and status of every other simulation as they were.", "quantifier": "all simulations, settings, problems and library behaviours", "why_tests_cant": "Interference goes through shared default objects and only shows for particular pairs of simulations and orders.", "anchors": ["src/sloth/simulation.py: Simulation.setConfigurations", "src/sloth/simulation.py: Simulation.runSimulation", "src/sloth/solvers.py: DSolver.__init__"]}
{"id": "C61", "title": "Running a simulation leaves the problem as it was", "statement": "A run changes nothing in the models, the equations, the quantities and the problem, whether it returns or raises.", "quantifier": "all problems, settings and library behaviours", "why_tests_cant": "Needs every exit path of every solver class with arbitrary library answers.", "anchors": ["src/sloth/simulation.py: Simulation.runSimulation", "src/sloth/solvers.py: DSolver.diffYinterfaceForScipySolvers", "src/sloth/solvers.py: DaeSolver._setUpDaeSystem"]}
{"id": "C62", "title": "Running again gives the same results", "statement": "A simulation that ran can be run again with the same results and leaves everything as it was after the first run.", "quantifier": "all problems, settings and library behaviours", "why_tests_cant": "Needs every problem and library behaviour; state left by the first run can matter only for some.", "anchors": ["src/sloth/simulation.py: Simulation.runSimulation", "src/sloth/core/domain.py: Domain._register"]}
{"id": "C63", "title": "Optimizers are created with the settings asked for", "statement": "Settings given for an optimization override the defaults key by key, every one of them that belongs to the chosen optimizer reaches the algorithm, and unknown optimizers are refused.", "quantifier": "all settings, optimizers and libraries", "why_tests_cant": "Universal over settings.", "anchors": ["src/sloth/optimization.py: Optimization.__init__", "src/sloth/optimization.py: Optimization._setOptimizer"]}
{"id": "C64", "title": "Unit operation objects with inlets never resolve", "statement": "Resolving a UnitOp object raises, in every state, unless its list of inlets was set to the empty list, and then still if it has exactly one outlet and its package has a phase or is missing.", "quantifier": "all unit operations, models, streams, packages and states", "why_tests_cant": "That a function never succeeds cannot be shown by running it.", "anchors": ["src/sloth/unit_op.py: UnitOp.resolve", "src/sloth/unit_op.py: UnitOp._totalizeInlets", "src/sloth/unit_op.py: UnitOp._totalizeOutlets"]}
{"id": "C65", "title": "Domain columns are read by name", "statement": "Reading a domain gives for each independent variable and each name asked for the entries of the rows registered at the position of that name; unknown names raise KeyError. Renaming headers keeps the rows and shows every column under its new name, where it reads as before.", "quantifier": "all domains, sessions of domain calls, names and rename maps", "why_tests_cant": "Universal over tables, sessions and rename maps.", "anchors": ["src/sloth/core/domain.py: Domain.__getitem__", "src/sloth/core/domain.py: Domain._renameHeaders"]}
{"id": "C66", "title": "Starting points reach the numerical solver", "statement": "Algebraic systems are solved from the configured initial guess in the order of the unknowns, 1 for each unknown if none is configured; for nonlinear systems the root found by the configured polisher replaces it when polishing succeeds; a guess that misses an unknown is refused before any routine is called.", "quantifier": "all systems, guesses, polishers and library behaviours", "why_tests_cant": "Needs arbitrary library behaviours (the polisher calls back any number of times) and arbitrary orders of unknowns.", "anchors": ["src/sloth/solvers.py: LASolver._symbolicSysSolveMechanism", "src/sloth/solvers.py: NLASolver._symbolicSysSolveMechanism", "src/sloth/solvers.py: Solver._polishRoot"]}
{"id": "C67", "title": "Dynamic runs need an initial value of time", "statement": "A dynamic simulation runs only if time has an initial value; otherwise AbsentRequiredObjectError is raised and nothing changes.", "quantifier": "all problems, settings and library behaviours", "why_tests_cant": "Needs every problem, setting and exit path.", "anchors": ["src/sloth/solvers.py: DSolver.__init__", "src/sloth/solvers.py: DaeSolver.__init__"]}
{"id": "C68", "title": "Implicit systems start from the initial conditions", "statement": "The integrator of implicit systems gets the initial values of the unknowns in order, the initial derivatives kept under the names with _d, and equally spaced times.", "quantifier": "all implicit problems, initial conditions and library behaviours", "why_tests_cant": "Universal over problems and orders of unknowns.", "anchors": ["src/sloth/solvers.py: DaeSolver.solve"]}
{"id": "C69", "title": "Chemicals of a property package and their conditions", "statement": "A new package has one chemical for each name, at 298.15 K and 101325 Pa, found under its name, the last one under '*'; set_T and set_P set the condition used afterwards; calculate puts exactly the chemicals of the package at the conditions given.", "quantifier": "all packages, names and sessions", "why_tests_cant": "Universal over name lists with duplicates and over sessions with shared chemicals.", "anchors": ["src/sloth/core/property_package.py: PropertyPackage.__init__", "src/sloth/core/property_package.py: PropertyPackage.set_T", "src/sloth/core/property_package.py: PropertyPackage.calculate", "src/sloth/core/property_package.py: PropertyPackage.__getitem__"]}
{"id": "C70", "title": "Arithmetic on quantities themselves never succeeds", "statement": "Adding, subtracting, multiplying or raising quantity objects (instead of calling them first) raises, for all quantities.", "quantifier": "all pairs of quantities", "why_tests_cant": "That a function never succeeds cannot be shown by running it.", "anchors": ["src/sloth/core/quantity.py: Quantity.__add__", "src/sloth/core/quantity.py: Quantity.__mul__", "src/sloth/core/quantity.py: Quantity.__pow__"]}
{"id": "C71", "title": "The solver asked for is the one called", "statement": "A run calls exactly the numerical routine that the setting for the kind of the problem names (after the root finder, if a better starting point is asked for); a name that stands for no routine is refused without calling any.", "quantifier": "all problems, settings and library behaviours, successful runs and failing ones", "why_tests_cant": "Needs every setting and exit path.", "anchors": ["src/sloth/solvers.py: LASolver.lookUpForSolver", "src/sloth/solvers.py: NLASolver.lookUpForSolver", "src/sloth/solvers.py: DSolver.solve", "src/sloth/solvers.py: DaeSolver.solve"]}
{"id": "C72", "title": "Time enters the argument names once", "statement": "A dynamic run puts the name of time into the configured list of argument names unless it is there already, and changes no other list.", "quantifier": "all problems, settings, lists and library behaviours", "why_tests_cant": "Needs arbitrary sequences of runs on shared lists.", "anchors": ["src/sloth/solvers.py: DSolver.__init__", "src/sloth/solvers.py: DaeSolver.__init__"]}
{"id": "C73", "title": "Results of dynamic simulations are the tables of the domain", "statement": "getResults gives for a dynamic problem the rows of every table of the domain as list, and every column under its label as dictionary.", "quantifier": "all problems, domains and tables", "why_tests_cant": "Universal over tables and labels.", "anchors": ["src/sloth/simulation.py: Simulation.getResults"]}
{"id": "C74", "title": "Reported results satisfy the stated equations", "statement": "If the algebraic libraries are right (up to a tolerance) whenever they report success, the values reported by a run satisfy (up to that tolerance) every equation stated in the models.", "quantifier": "all sessions stating equations and connections, all algebraic problems, all library behaviours and tolerances", "why_tests_cant": "End-to-end over all sessions and all libraries that keep their contract.", "anchors": ["src/sloth/simulation.py: Simulation.runSimulation", "src/sloth/core/equation_block.py: EquationBlock._getEquationList", "src/sloth/core/equation.py: Equation._getSymbolicObject"]}
{"id": "C75", "title": "A study evaluates with the settings it was created with", "statement": "An optimization study evaluates its objective with the simulation, the settings (given to it, or else those of the simulation at that time) and the parameters it was created with, whatever is called in between; without settings no study is created.", "quantifier": "all sessions of simulation and optimization calls, all optimizer behaviours", "why_tests_cant": "Universal over sessions interleaving studies and simulations.", "anchors": ["src/sloth/optimization.py: Optimization.__init__", "src/sloth/optimization.py: Optimization.runOptimization"]}
{"id": "C76", "title": "Reports say what the models hold", "statement": "The report on a model has one row per equation, in order, with its name, description, kind and exactly the variables, parameters and constants it was written with, specified ones marked; the report on a problem gives its type and its models' rows; reporting changes nothing.", "quantifier": "all sessions stating equations, all models and problems, all later states", "why_tests_cant": "A universal claim over all sessions and all expression trees.", "anchors": ["src/sloth/analysis.py: Analysis.modelReport", "src/sloth/analysis.py: Analysis.problemReport", "src/sloth/analysis.py: Analysis._inspectForObjects", "src/sloth/simulation.py: Simulation.report"]}
{"id": "C77", "title": "Reported degrees of freedom of a model", "statement": "The design-time degrees of freedom reported for a model are the number of its unspecified variables and parameters minus the number of its equations.", "quantifier": "all reachable states, all models", "why_tests_cant": "Needs the exact relation of the reported number and the true one in every state.", "anchors": ["src/sloth/model.py: Model._infoDegreesOfFreedom_"]}
{"id": "C78", "title": "The overview of a model lists its inputs and outputs", "statement": "The overview gives the model's name, its parameters, and each exposed input and output variable of the model once.", "quantifier": "all reachable states, all models", "why_tests_cant": "Quantifies over all sequences of declarations.", "anchors": ["src/sloth/model.py: Model._getModelOverviewForGraph", "src/sloth/model.py: Model._infoInputOutputVariables"]}
{"id": "C79", "title": "Results shown are the results computed", "statement": "After a successful run, showResults shows each computed value with the name and unit of its variable (or each time with the values at that time); before a run nothing is shown.", "quantifier": "all problems, library behaviours, settings and results", "why_tests_cant": "Universal over results and settings.", "anchors": ["src/sloth/simulation.py: Simulation.showResults"]}
{"id": "C80", "title": "Saved settings can be read back", "statement": "Settings saved to a file and read back by any simulation are the same settings; saving that fails leaves earlier saved settings readable.", "quantifier": "all settings, file contents, simulations and sessions", "why_tests_cant": "A round trip over all settings and a frame claim on failure.", "anchors": ["src/sloth/simulation.py: Simulation.dumpConfigurations", "src/sloth/simulation.py: Simulation.setConfigurations"]}
{"id": "C81", "title": "Plots draw the columns asked for", "statement": "Plotting names of a domain draws one curve per asked name, in order, of the abscissa's column against that name's column with the label and marker at its place; unknown names are refused; labels are optional.", "quantifier": "all domains, names, labels and markers", "why_tests_cant": "Universal over tables and requests.", "anchors": ["src/sloth/plotter.py: Plotter.plotTimeSeries", "src/sloth/simulation.py: Simulation.plotTimeSeries"]}
{"id": "C82", "title": "Systems of differential and algebraic equations reach the integrator as stated", "statement": "The residual function compiled for a problem with differential and algebraic equations gives, at every time, state and derivative of the state, the stated residuals of the problem's equations in order; the integrator starts from vectors of one length with the declared initial values.", "quantifier": "all sessions stating equations, all times, states and derivatives, all behaviours of the integrator", "why_tests_cant": "Universal over equations, states and sessions, and over the order in which unknowns and derivatives occur.", "anchors": ["src/sloth/core/equation_block.py: EquationBlock._getMapForRewriteSystemAsResidual", "src/sloth/core/equation_block.py: EquationBlock._getDiffList", "src/sloth/core/equation_block.py: EquationBlock._getEquationBlockAsFunction", "src/sloth/solvers.py: DaeSolver.solve"]}
{"id": "C83", "title": "Problems called linear are linear systems", "statement": "If resolve calls a problem linear, every expression handed to the linear solver is an affine function of the unspecified quantities of the equation, with coefficients that do not depend on the assignment; together they are a linear system, zero exactly at its solutions.", "quantifier": "all equations, copied ones included, all sessions before and after they are stated, all assignments", "why_tests_cant": "Universal over expressions and over sessions; a test checks one system at a few points.", "anchors": ["src/sloth/problem.py: Problem._getProblemType", "src/sloth/core/equation_block.py: EquationBlock._assignEquationGroups", "src/sloth/core/equation.py: Equation._getTypeFromExpression", "src/sloth/solvers.py: LASolver._getABfromEquations"]}
{"id": "C84", "title": "Messages of refused dimensions name what does not agree", "statement": "When an expression or a value is refused for its dimensions, the error can be printed and its message shows two dimensions that really do not agree: those of the operands of a sum or difference inside the expression, or of the quantity set and the value given. A function of a dimensional argument shows the dimension of the argument.", "quantifier": "all expressions over SI quantities, all quantities", "why_tests_cant": "Universal over expressions; which part is at fault depends on the whole expression.", "anchors": ["src/sloth/core/error_definitions.py: DimensionalCoherenceError.__str__", "src/sloth/core/expression_evaluation.py: EquationNode.__pow__", "src/sloth/core/unit.py: Unit.__add__", "src/sloth/core/quantity.py: Quantity.setValue", "src/sloth/core/equation_operators.py: wrapper"]}
{"id": "C85", "title": "Printing the results of a dynamic run does not lose them", "statement": "A dynamic run (ODE or DAE) whose configuration asks for printed output leaves the same results in the domain and gives the same answer as the run without printing.", "quantifier": "all problems, all configurations of dynamic runs, all solvers", "why_tests_cant": "Universal over configurations: printing pairs the given headers with the columns of whatever the solver returned.", "anchors": ["src/sloth/solvers.py: DSolver.solve", "src/sloth/solvers.py: DAESolver.solve"]}
{"id": "C86", "title": "Accepted equations do not depend on the choice of units", "statement": "Expressing all numbers in other units (multiplying every number of dimension d by a factor multiplicative in d) multiplies the value of an accepted expression by the factor of the dimension the package gives it; so an accepted equation holds in one system of units iff it holds in the other.", "quantifier": "all expressions and equations over SI quantities, all assignments, all changes of units", "why_tests_cant": "Universal over expressions, assignments and unit systems; tests evaluate in one system.", "anchors": ["src/sloth/core/expression_evaluation.py: EquationNode", "src/sloth/core/equation.py: Equation.setResidual", "src/sloth/core/unit.py: Unit"]}
{"id": "C87", "title": "Converting differential equations to residual form keeps their residuals", "statement": "After a problem is resolved, converting the differential equations of its block to residual form always returns, changes no other equation and nothing else, keeps kind, sides and residual of the converted ones, and makes the block collect the residuals of the stated equations for either side.", "quantifier": "all sessions of written equations, copied equations included, all assignments", "why_tests_cant": "The conversion subtracts sides that may have been renamed by copying; whether it raises or changes a residual depends on the whole history of the equation.", "anchors": ["src/sloth/core/equation_block.py: EquationBlock._convertDifferentialEquationsToResidualForm, _getEquationList", "src/sloth/core/equation.py: Equation._convertToResidualForm"]}
{"id": "C88", "title": "Equations left without a name never replace one another", "statement": "Within one thread, two equations created without a name never get the same name, whatever models they belong to and whatever is called in between, so creating the second never replaces the first in its model; neither do two connections of expressions from sources without a name; the nodes made for numeric right sides never have the same name either.", "quantifier": "all heaps, all sessions between the two calls, all models, expressions and numbers", "why_tests_cant": "The calls in between are arbitrary: incorporations, connections, resolutions and totalizations draw names from the same counter.", "anchors": ["src/sloth/core/equation.py: gen_rnd_str, Equation.__init__, Equation.setResidual", "src/sloth/model.py: Model.createEquation"]}
{"id": "C89", "title": "Inlet variables are declared before the totalization fails", "statement": "Calling a model that has inlets raises (C59), but once its own declarations are made the model has, from then on and whatever is done later, the attributes P_in, T_in, mdot_in, ndot_in and H_in; those it did not have before are variables of the model with the dimension of a pressure, temperature, mass flux, molar flux and molar enthalpy, exposed as inputs.", "quantifier": "all heaps, models, bodies and inlets, and all sessions after the call", "why_tests_cant": "The state after an exception, under arbitrary later calls, is not covered by tests of the failing call.", "anchors": ["src/sloth/model.py: _totalizeInletsFunction_genericMaterialStreams", "src/sloth/model.py: Model.__call__"]}
{"id": "C90", "title": "Problems that share models do not influence each other", "statement": "Calls on other problems do not change a problem, and resolving it afterwards gives the block it would have given before.", "quantifier": "all sessions with any number of problems over one heap of models", "why_tests_cant": "Tests build one problem per fixture; interference needs two problems over the same models and all interleavings of calls.", "anchors": ["src/sloth/problem.py: Problem.__init__, addModels, resolve, createConnection"]}
{"id": "C91", "title": "What a run does depends only on the problem, the domains and the settings", "statement": "Two states with the same problem, domains and settings of simulations (and as many argument lists) give, when the same simulation is run, the same outcome, the same problem, domains and settings afterwards, and the same results; the log, the results and statuses of earlier runs and the contents of argument lists have no influence.", "quantifier": "all states, all solvers, all settings and arguments of the run, successful or raising", "why_tests_cant": "Tests run one simulation in a fresh session; hidden dependence on earlier runs needs two histories that end in comparable states.", "anchors": ["src/sloth/simulation.py: Simulation.runSimulation, reset", "src/sloth/solver.py: createSolver, LaSolver, NLaSolver, DSolver, DaeSolver"]}
{"id": "C92", "title": "Numerical routines are only called with usable settings", "statement": "When a run calls a numerical routine at all, whatever its outcome, the settings and initial values that the kind of problem needs were present and valid: a time grid with numeric ends and a number of points, initial values for time and every differential unknown, an initial guess where a nonlinear routine wants one, a valid verbosity. A differential problem with an equation stated as a residual is refused before any integrator is called, and a residual function raises only for names that are not replaced or vectors that are too short.", "quantifier": "all states, problems, settings, run arguments and solver libraries, successful or raising runs", "why_tests_cant": "Tests give complete settings; every combination of missing or invalid settings with every kind of problem would have to be tried, and the absence of a library call observed.", "anchors": ["src/sloth/simulation.py: Simulation.runSimulation", "src/sloth/solvers.py: createSolver, DSolver, DAESolver, NLASolver", "tests/DONOTtest_differential_model_residual.py"]}
{"id": "C93", "title": "Values given to quantities reach the next solved system", "statement": "After a problem is resolved, what is handed to the solver for every named statement of every model is the statement with the values its quantities have at that moment, whatever values they had when the model was called before: giving a parameter a new value and resolving again is enough to solve the changed system.", "quantifier": "all worlds, problems over models whose methods only state equations, statements, values and interpretations of functions, unbounded numbers of models and equations", "why_tests_cant": "Tests set values once before the first resolve; that expressions built earlier are never reused after a change would need runs with every order of setting, calling and resolving.", "anchors": ["src/sloth/core/expression_evaluation.py: EquationNode", "src/sloth/core/quantity.py: Quantity.setValue", "src/sloth/problem.py: Problem.resolve, Problem._reloadModels", "src/sloth/model.py: Model.__call__, Model.createEquation"]}
{"id": "C94", "title": "Divisions by zero are refused exactly where there is no value", "statement": "ZeroDivisionError is raised while an expression is written only if the expression has no value, whatever the unspecified quantities are; and arithmetic of specified quantities that is accepted has a value. So no usable expression is lost to a division by zero and no unusable one of known numbers gets in.", "quantifier": "all expressions over SI units, assignments, interpretations over ordered fields", "why_tests_cant": "Tests divide by a handful of non-zero numbers; whether a divisor is zero depends on the values of all quantities in it.", "anchors": ["src/sloth/core/expression_evaluation.py: EquationNode.__div__, EquationNode.__pow__, EquationNode.__rtruediv__", "src/sloth/core/quantity.py: Quantity.__call__"]}
{"id": "C95", "title": "The order in which models are added to a problem does not matter", "statement": "For models that have no name in common, adding them to a problem in another order or grouping leads, after resolve(), to a block with the same equations, expressions, variables, parameters and groups up to their order, to the same problem type and to the same verdict of the degrees of freedom test.  For models that share a name this fails: the model added first is dropped without notice.", "quantifier": "all reachable sessions, all nested lists of models and all rearrangements of them", "why_tests_cant": "There are n! orders of n models, and the loss of a model with a repeated name raises nothing.", "anchors": ["src/sloth/problem.py:Problem.addModels", "src/sloth/problem.py:Problem._buildEquationBlock", "src/sloth/problem.py:Problem.resolve", "src/sloth/core/equation_block.py:EquationBlock", "src/sloth/analysis.py:Analysis._dofTest"]}
{"id": "C96", "title": "What a model declares depends only on its class and name", "statement": "Two models of the same name and the same class (up to descriptions, LaTeX texts and bounds) whose declarations only read attributes of the model itself and name their equations, called in any two sessions, end alike - with the same exception if any - and then declare the same constants, parameters, variables, exposed variables and equations in the same order; a first call leaves every other model, every earlier quantity and equation and the problem as they were.  For an equation without a name this fails: its generated name depends on what the session did before.", "quantifier": "all heaps (reachable or not), all pairs of models, all bodies", "why_tests_cant": "Whether a model behaves alike in every session cannot be sampled: the sessions before the call are unbounded.", "anchors": ["src/sloth/model.py:Model.__call__", "src/sloth/model.py:Model.createVariable", "src/sloth/model.py:Model.createParameter", "src/sloth/model.py:Model.createConstant", "src/sloth/model.py:Model.createEquation", "src/sloth/core/equation.py:Equation.__init__"]}
{"id": "C97", "title": "Descriptions, LaTeX texts and bounds have no influence", "statement": "Two sessions that differ only in descriptions, LaTeX texts and bounds of what is declared (and in the texts of expressions): every call returns or raises the same; the problem with its equation block, the simulations with their results, the domains and the numerical routines called are the same; quantities, equations and models agree but for these texts and bounds; the check of the degrees of freedom and the shown results are the same; reports on models differ in the descriptions only.  In particular bounds are never read: no value or result is compared with them.", "quantifier": "all pairs of sessions of arbitrary calls (successful or not), all libraries", "why_tests_cant": "A test compares two wordings of one session; independence for every session, including those whose calls fail, is a statement about all of them.", "anchors": ["src/sloth/model.py:Model.createVariable", "src/sloth/model.py:Model.createEquation", "src/sloth/core/variable.py:Variable.__init__", "src/sloth/core/quantity.py:Quantity.__init__", "src/sloth/core/expression_evaluation.py:ExpressionEvaluation", "src/sloth/problem.py:Problem.resolve", "src/sloth/simulation.py:Simulation.runSimulation"]}
{"id": "C98", "title": "Which exceptions a call can end with", "statement": "A call of the interface ends only with exceptions from the list belonging to it: creating models, parameters, constants and ports, setting inlets, registering models, initial conditions and the time variable raise nothing; creating a variable raises KeyError, and only when it is exposed with a type other than input and output; stating an equation raises what its form allows; calling a model raises what the statements of its declarations allow, plus the list of the totalization if inlets are set; resolving a problem raises what calling one of its registered models allows and nothing else, i.e. building and calling the equation block never raises.  Every list entry is attained.", "quantifier": "all heaps that occur, all calls with all arguments", "why_tests_cant": "A test sees the exceptions of the inputs it tries; that no other exception escapes for any input cannot be seen by trying.", "anchors": ["src/sloth/model.py:Model.createVariable", "src/sloth/model.py:Model.createEquation", "src/sloth/model.py:Model.incorporateFromExternalModel", "src/sloth/model.py:Model.__call__", "src/sloth/core/equation.py:Equation.setResidual", "src/sloth/core/quantity.py:Quantity.setValue", "src/sloth/problem.py:Problem.createConnection", "src/sloth/problem.py:Problem.resolve", "src/sloth/core/equation_block.py:EquationBlock.__call__"]}
{"id": "C99", "title": "What streams carry, what outlets receive, what inlets are fixed at", "statement": "Creating a stream of several phases for a package whose phase names are distinct and can stand in Python code succeeds, and the stream has mass and molar flux, pressure, enthalpy, temperature and one molar and one mass fraction per phase, each under its own name, of its dimension and without value.  When the outlet of a unit operation is set up without an exception, the operation's model has for each of the five stream quantities an equation of its own name that equates the stream's quantity with the operation's inlet quantity; a single outlet that is no material stream is refused before anything is done.  When fixing the inlets returns, the model has for each stream the equation that its quantity has its present value.", "quantifier": "all heaps, all names, all packages and stream lists, all assignments", "why_tests_cant": "A test looks at some phases and some streams; that nothing is missing or mixed up for any number of phases and streams needs a proof.", "anchors": ["src/sloth/unit_op_library.py:MultiphasicMaterialStream.__init__", "src/sloth/unit_op.py:UnitOp._totalizeOutlets", "src/sloth/unit_op.py:UnitOp._totalizeInlets", "src/sloth/model.py:Model._totalizeInlets"]}
{"id": "C100", "title": "An algebraic run ends as the numerical solver does", "statement": "A run of a linear or nonlinear problem with the solvers chosen by default, whose check of the degrees of freedom passes or is left out, ends exactly as the numerical solver it calls: with the solver's exception, with NumericalError if the solver reports no success, and otherwise with the solution stored under the names of the unknowns.  After that only the table of residuals can raise, and it does (AttributeError) exactly if it is asked for and an equation has become a plain Python number.  Keyword arguments that do not touch the choice of solvers give such settings.", "quantifier": "all heaps and sessions, all problems, all numerical libraries and their answers, all run arguments, all starting values", "why_tests_cant": "Tests run problems on which the solver succeeds; that nothing in the framework adds or hides a failure, for any problem and any answer, needs a proof.", "anchors": ["src/sloth/simulation.py:Simulation.runSimulation", "src/sloth/simulation.py:Simulation.setConfigurations", "src/sloth/solvers.py:LASolver.solve", "src/sloth/solvers.py:NLASolver.solve"]}
{"id": "C101", "title": "A dynamic run ends as the integrator does", "statement": "A run of a system of explicit differential equations, with a declared initial value for time and every unknown, a domain that waits for its table and a passing (or omitted) check of the degrees of freedom, ends exactly as the integrator: with the integrator's exception, and otherwise by returning, with the integrator's answer for the stated right sides at the equally spaced times stored as output and, row by row with the times in front, in the domain under the renamed columns.  The keyword arguments is_dynamic, domain and end_time give such settings, and a domain of time over which the unknowns were distributed is such a domain.", "quantifier": "all heaps, all explicit systems, all integrators and their answers, compiled or not, all run arguments", "why_tests_cant": "Tests run systems that integrate well; that the framework neither adds nor hides a failure needs a proof over all systems and answers.", "anchors": ["src/sloth/simulation.py:Simulation.runSimulation", "src/sloth/solvers.py:DSolver.__init__", "src/sloth/solvers.py:DSolver.solve", "src/sloth/domain.py:Domain._register", "src/sloth/domain.py:Domain._renameHeaders"]}
{"id": "C102", "title": "What a careful user writes does not raise", "statement": "An expression in SI units whose dimensions agree, whose exponents are plain numbers, that has a value for some values of its unspecified quantities and differentiates only with respect to unspecified quantities is accepted.  A model class whose methods declare a quantity before using it and state only such equations can be called, any number of times; a problem of such models can be resolved; and in a whole session that only creates such models, declares quantities (also as attributes), states such equations over declared quantities, sets numbers as values, connects exposed outputs to exposed inputs of the same dimension or by such an expression, adds existing models and resolves, no call raises.  A simulation of the problem of such a session then reports what the numerical solver found.", "quantifier": "all expressions, classes, worlds and sessions, all interpretations of functions under which negative powers of zero are undefined", "why_tests_cant": "Tests show that particular programs run; that the rules stated are sufficient for every program needs a proof by induction over expressions, methods and sessions.", "anchors": ["src/sloth/core/expression_evaluation.py:EquationNode", "src/sloth/model.py:Model.__call__", "src/sloth/model.py:Model.createEquation", "src/sloth/problem.py:Problem.resolve", "src/sloth/problem.py:Problem.createConnection", "src/sloth/problem.py:Problem.addModels"]}
{"id": "C103", "title": "A domain refuses exactly the calls that do not fit it", "statement": "Writing rows into a domain, renaming its columns and reading from it raise exactly in the listed situations (no variable to write to, domain not set, variable without table, first rows of another width than the columns, later rows of another width than the number of variables, later rows when the table already has rows not as many as they are wide, missing column), each with the listed exception; in every other situation the call returns.", "quantifier": "all domains in any state, all rows, names and renamings", "why_tests_cant": "tests exercise single calls on well-formed domains; the refusals and their order are not enumerated anywhere", "anchors": ["src/sloth/core/domain.py: Domain._register", "src/sloth/core/domain.py: Domain._renameHeaders", "src/sloth/core/domain.py: Domain.__getitem__"]}
{"id": "C104", "title": "Results, property packages and optimization studies refuse exactly the listed calls", "statement": "Reading the results of a simulation, creating, adding and calculating property packages, creating an optimization study and starting its run raise exactly in the listed situations, each with the listed exception; a run that is not refused reaches the optimizer.", "quantifier": "all states, arguments and libraries", "why_tests_cant": "each refusal depends on several attributes in a certain order; a test fixes all of them", "anchors": ["src/sloth/simulation.py: Simulation.getResults", "src/sloth/core/property_package.py: PropertyPackage", "src/sloth/optimization.py: Optimization.__init__", "src/sloth/optimization.py: Optimization._setOptimizer", "src/sloth/optimization.py: Optimization._performSaneTests", "src/sloth/optimization.py: Optimization.runOptimization"]}
{"id": "C105", "title": "Models outside a problem have no influence on it", "statement": "For a problem of self-contained models, any session of calls that concern other models (making models, declaring in them, incorporating into them, setting their inlets, calling them, setting values of their quantities) leaves resolving as it was: the same exception, or a block of the same equations, expressions, variables, parameters and groups in the same order, the same type and the same outcome of the test of the degrees of freedom; the quantities of the problem's models agree.", "quantifier": "all reachable heaps whose problem holds self-contained models, all sessions of calls concerning models of other names", "why_tests_cant": "all models live in one process and share counters, default arguments and references; a test compares one pair of scripts", "anchors": ["src/sloth/problem.py: Problem.resolve", "src/sloth/problem.py: Problem._reloadModels", "src/sloth/problem.py: Problem._buildEquationBlock", "src/sloth/model.py: Model.__call__", "src/sloth/model.py: Model._setInlets"]}
{"id": "C106", "title": "Functions on values give the function of the value", "statement": "`Log`, `Log10`, `Exp`, `Abs`, `Sin`, `Cos`, `Tan` of math_functions.py return, for a dimensionless quantity (or when dimensions are ignored), a copy of the quantity that differs in its value only, which is the function of the old value, and change nothing else.", "quantifier": "all functions, heaps and quantities, whatever NumPy computes", "why_tests_cant": "no test imports the file", "anchors": ["src/sloth/core/math_functions.py: Log", "src/sloth/core/math_functions.py: Exp", "src/sloth/core/unit.py: Unit._is_dimensionless"]}
{"id": "C107", "title": "A graph lists its nodes and edges", "statement": "The lists `nodes` and `edges` of a ConnectionGraph are those of the graph, in the order in which they were added, and drawing changes neither them nor what later drawings show.", "quantifier": "all sessions of calls, all graph libraries", "why_tests_cant": "no test uses the class", "anchors": ["src/sloth/graph_creator.py: ConnectionGraph.add_node", "src/sloth/graph_creator.py: ConnectionGraph.add_edge", "src/sloth/graph_creator.py: ConnectionGraph.draw"]}
{"id": "C108", "title": "Objects refer to existing objects only", "statement": "In a session whose calls only pass objects that exist, every reference kept in the heap leads to an object: the dictionaries, attributes, exposure lists, inlets and ports of models, the maps of equations and of their expressions, the dictionaries of the problem and of its equation block.  A further such call never meets a missing object, so that it ends only with the exceptions listed for it (C98).", "quantifier": "all sessions of calls, all arguments that exist", "why_tests_cant": "The model writes references as numbers; that no call of any session leaves a number without object behind is what makes it a model of Python objects.", "anchors": ["src/sloth/model.py: Model.createVariable", "src/sloth/model.py: Model.incorporateFromExternalModel", "src/sloth/core/equation.py: Equation._convertEquationSymbolicExpression", "src/sloth/problem.py: Problem._buildEquationBlock", "src/sloth/problem.py: Problem.createConnection"]}
{"id": "C109", "title": "Which exceptions simulations can end with", "statement": "In a session with simulations, domains and lists of argument names that passes existing objects only, every reference leads to an object, and a call ends only with the exceptions listed for it.  A run raises what the numerical libraries raise, or one of: TypeError, KeyError, AttributeError, UnexpectedValueError; the verdicts of the sanity check if it is asked for; IndexError and NumericalError for algebraic problems; AbsentRequiredObjectError and NameError except for linear ones; IndexError, ValueError and the message of the domain for dynamic ones.  Getting the status raises TypeError, KeyError, AttributeError or UnresolvedPanicError, resetting AttributeError, configuring TypeError (or KeyError with a file).", "quantifier": "all sessions, all settings, all numerical libraries (any function, any interaction with the function to be solved)", "why_tests_cant": "Libraries are arbitrary programs and the settings an arbitrary dictionary; tests try a few of them.", "anchors": ["src/sloth/simulation.py: Simulation.runSimulation", "src/sloth/simulation.py: Simulation.setConfigurations", "src/sloth/simulation.py: Simulation.getResults", "src/sloth/solvers.py: _createSolver", "src/sloth/solvers.py: DSolver.solve", "src/sloth/solvers.py: DaeSolver.solve", "src/sloth/core/domain.py: Domain._register"]}
{"id": "C110", "title": "A study of parameters finds the best of the solutions it tried", "statement": "Let the objective function of a study give the trial point to parameters, resolve the problem, run the simulation and return one of the results, as in the usage script.  If the algebraic libraries are right (up to a tolerance) whenever they report success and the optimizer answers with the best point it asked for, then the results of a study that returns are a point and the value of the chosen unknown in a solution of the equations stated in the models, with the point as values of the parameters and all other quantities as they were when the study was started.  Every other evaluation gave such a value for its point, however many came before it, and none is smaller.  Afterwards models, problem and simulations are as before.", "quantifier": "all sessions whose models state named equations in DeclareEquations, all parameters, results, optimizers and solver libraries", "why_tests_cant": "Evaluations share one copy of the simulation and change it; an error by a stale value shows only after some sequence of trial points, chosen by a random algorithm.", "anchors": ["src/sloth/teste_usage.py: opt_prob.DeclareObjectiveFunction", "src/sloth/optimization.py: Optimization.runOptimization", "src/sloth/simulation.py: Simulation.__getitem__", "src/sloth/simulation.py: Simulation.runSimulation", "src/sloth/problem.py: Problem.resolve"]}
{"id": "C111", "title": "Studies meet existing objects only and end with listed exceptions only", "statement": "In a session with optimization studies that passes existing objects only, every reference (from studies to problems, simulations and settings, from problems to simulations, and from simulations to domains, lists and models) leads to an object, and the settings of a study with a mechanism contain the number of individuals it needs later.  Each call ends only with the exceptions listed for it: creating a study with those of missing settings and of pygmo, running one with those of a problem that was not called, of constraints that are no box, of a missing mechanism, of the graph, of pygmo, and those the objective function raises.  With the objective function of the usage script these are the exceptions of the numerical libraries, of the declarations of the models in the problem, and twelve listed ones, however many evaluations came before.", "quantifier": "all sessions, all optimizers and libraries, all objective functions (and in detail the one of the script)", "why_tests_cant": "The evaluations of a study are chosen by a random algorithm and share one state; which exceptions can come out of a long run is a statement about all of them.", "anchors": ["src/sloth/optimization.py: Optimization.__init__", "src/sloth/optimization.py: Optimization.runOptimization", "src/sloth/optimization.py: Optimization.getResults", "src/sloth/optimization.py: Optimization._performSaneTests", "src/sloth/teste_usage.py: opt_prob.DeclareObjectiveFunction"]}
{"id": "C112", "title": "The text of an expression is the expression", "statement": "The text and the LaTeX text of a node are the usual writing of the expression it was built from, with brackets (and braces around exponents) where the reading would otherwise be another one.", "quantifier": "all expressions", "why_tests_cant": "Universal over expression trees of any depth; sample expressions without brackets look right.", "anchors": ["src/sloth/core/expression_evaluation.py: EquationNode.__add__, __sub__, __mul__, __div__, __pow__ and the reflected ones", "src/sloth/core/equation_operators.py: wrapper, Min, Max, _Diff", "src/sloth/core/quantity.py: Quantity.__call__"]}
{"id": "C113", "title": "Each of several problems is as in a program of its own", "statement": "In a program with several problems over shared models, each problem (but for its name) is exactly as in some program where it is the only one, with the same calls on it in the same order; further calls on it answer as there, and raise nothing that could not be raised with one problem. Problems keep the names given to them.", "quantifier": "all programs with any number of problems", "why_tests_cant": "Universal over interleavings of calls on any number of problems; tests use one problem.", "anchors": ["src/sloth/problem.py: Problem.__init__, addModels, resolve, createConnection", "src/sloth/core/model.py: Model"]}
{"id": "C114", "title": "Simulations of several problems do not disturb each other", "statement": "A simulation belongs to the problem last given to it. Its methods change no model, equation, quantity, other problem or other simulation; calls on simulations of other problems that record in other domains do not change the outcome, the results or the tables of a run. Without a problem a run and a status are always refused, with a determined exception and without effect, and configuring fails only if the name of time is needed. With one problem given to all simulations the program is a session with one problem, and a call ends only with exceptions it can end with for its problem alone.", "quantifier": "all programs with any number of problems and simulations, all settings, all answers of the numerical libraries", "why_tests_cant": "Universal over interleavings of calls on any number of simulations and problems; tests use one simulation of one problem each.", "anchors": ["src/sloth/simulation.py: Simulation.__init__, setProblem, setConfigurations, runSimulation, getStatus, getResults, reset", "src/sloth/problem.py: Problem.__init__"]}
{"id": "C115", "title": "The values of a solved pump, heater or mixer obey its balances", "statement": "Create a pump, a heater or a mixer in any session, do anything with it, resolve a problem it belongs to and run the problem with libraries that solve exactly what they are given. Then the values given or reported for the quantities of the unit operation obey its balances: the flows in and out agree, the pressure changes by the stated difference, the enthalpy flow is kept or changes by the heat, for a heater the temperature rises by the heat over flow times heat capacity, and for a mixer temperature and pressure are kept and the fractions sum to one.", "quantifier": "all sessions before and after the creation, all property packages and names, all numbers given, all numerical libraries that solve what they are given", "why_tests_cant": "Universal over sessions and numbers, and it spans the whole way from the constructor to the report; tests look at single runs and compare printed text.", "anchors": ["src/sloth/unit_op_library.py: SimplePump.__init__, SimplePump.DeclareEquations, Heater.__init__, Heater.DeclareEquations, Mixer.__init__", "src/sloth/problem.py: Problem.resolve", "src/sloth/simulation.py: Simulation.runSimulation"]}
{"id": "C116", "title": "Unit operations have the ports of their class, and names that follow their attributes", "statement": "Whatever happened before and whatever the property package, the inputs and outputs of a new unit operation are those of its class in a fixed order, each named after the unit operation, and every quantity is named after the attribute that holds it. A phase whose name is no part of an identifier ends the constructor with a SyntaxError.", "quantifier": "all sessions, all classes of the library, all names and all property packages", "why_tests_cant": "The list of ports must not depend on the package or on earlier objects, for any of infinitely many packages; tests create one unit of a class.", "anchors": ["src/sloth/unit_op_library.py: Mixer, Tank, Valve, SimplePump, Heater, Flash_Dynamic, Flash_SteadyState (__init__)", "src/sloth/model.py: Model.createVariable"]}
{"id": "C117", "title": "Connected variables agree in the results", "statement": "Connect variables of two models without giving an expression, do anything else, resolve the problem and run it with libraries that solve exactly what they are given. If the receiving model still has the equation of the connection and does not state another one of its name, the reported values make the sum of the connected outputs equal to the sum of the connected inputs; for two variables without values, the two reported values are the same.", "quantifier": "all sessions before and after the connection, all models, all lists of connected variables, all numerical libraries that solve what they are given", "why_tests_cant": "It joins the connection, anything done afterwards, the resolution and the run, for every session; tests connect two fixed models and look at the printed report.", "anchors": ["src/sloth/problem.py: Problem.createConnection, Problem.resolve", "src/sloth/model.py: Model.createEquation", "src/sloth/simulation.py: Simulation.runSimulation"]}
{"id": "C118", "title": "What goes into a line of pumps and heaters comes out of it", "statement": "Let pumps and heaters of a problem form a line in which the molar (or mass) flow out of each unit is connected to the flow into the next. Whatever else is done, after resolving and a run with libraries that solve exactly what they are given, the flow into the first unit is the flow out of the last one, as given or reported. If the enthalpies are connected too, the flow of enthalpy out of the last unit is that into the first one plus the heat of all heaters on the way.", "quantifier": "all lengths of the line, all sessions, names and property packages, all numerical libraries that solve what they are given", "why_tests_cant": "The length of the line is not bounded and the statement joins constructors, connections, resolution and run; tests build one small flowsheet.", "anchors": ["src/sloth/unit_op_library.py: SimplePump, Heater", "src/sloth/problem.py: Problem.createConnection, Problem.resolve", "src/sloth/simulation.py: Simulation.runSimulation"]}
{"id": "C119", "title": "The fluxes of a stream agree through the molar mass", "statement": "Whatever a user sets on a stream and however often it is called, after a call with a package of known molar mass the mass flux is the molar flux times that molar mass. In the code this only holds while a single flux is set, once: fluxes that are both given are never compared, and a flux changed after a call is not converted again. What the fluxes are after any sequence of settings and calls is proved in general.", "quantifier": "all sequences of settings and calls of a stream, all packages, numbers and behaviours of the external property library, from all reachable sessions", "why_tests_cant": "Sequences of settings and calls are not bounded, and calls that raise midway count as well; tests call a stream once.", "anchors": ["src/sloth/unit_op_library.py: MaterialStream.DeclareParameters", "src/sloth/model.py: Model.__call__"]}
{"id": "C120", "title": "The table of a domain holds the times of the run", "statement": "After a dynamic run the rows of the table kept in the domain are, one by one, a time of the solution that the simulation holds, followed by the values of the solution at that time. In the code this holds for explicit systems; for implicit systems the rows carry the times that were asked for, and these agree with the solution only if the integrator answers exactly there.", "quantifier": "all runs of all differential and differential-algebraic problems, configurations, integrators and domains that wait for a table", "why_tests_cant": "The integrator, the number of times and the unknowns are arbitrary; tests would have to compare the table with the solution for integrators that step on their own.", "anchors": ["src/sloth/solvers.py: DSolver.solve", "src/sloth/solvers.py: DaeSolver.solve", "src/sloth/core/domain.py: Domain._register"]}
{"id": "C121", "title": "A dynamic run answers at the times it is asked for", "statement": "After a dynamic run the times of the table are those the configuration lists, or else equally spaced times from the initial time to the end time, with one row more than there are steps. In the code listed times are ignored for implicit systems, and with no steps the end time is never reached.", "quantifier": "all runs of all differential and differential-algebraic problems, configurations, domains that wait for a table, and integrators", "why_tests_cant": "Lists of times, numbers of steps and integrators are arbitrary; tests use one interval.", "anchors": ["src/sloth/solvers.py: DSolver.solve", "src/sloth/solvers.py: DaeSolver.solve", "src/sloth/simulation.py: Simulation.setConfigurations"]}
{"id": "C122", "title": "A run only appends to the table of its domain", "statement": "No run, whether it returns or raises, loses rows of the table of any domain. A dynamic run that returns puts its own rows behind those of its domain, each a time followed by the values the simulation then holds.", "quantifier": "all runs of all differential and differential-algebraic problems over any domain in any state, with any configuration and integrator", "why_tests_cant": "Earlier tables, numbers of runs and integrators are arbitrary; tests use a fresh domain.", "anchors": ["src/sloth/solvers.py: DSolver.solve", "src/sloth/solvers.py: DaeSolver.solve", "src/sloth/core/domain.py: Domain._register"]}
