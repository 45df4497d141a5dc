# Design of the formal model

The code under study is the `sloth` package (`/repo/src/sloth`), an equation-oriented
process simulator: units with dimensional analysis, symbolic expression nodes,
equations, models, problems, degree-of-freedom analysis, solver dispatch, domains,
property packages, optimisation and a small unit-operation library.

The model is written in Lean 4 (4.33.0) with single Mathlib modules.  The sources are in
`lean/Verif/`:

* `Verif/Model/*.lean`  — the model, function by function, each definition citing file and lines;
* `Verif/Spec/*.lean`   — small specifications that do not use the model's helpers;
* `Verif/Lemmas/*.lean` — helper lemmas (not claims);
* `Verif/Props/*.lean`  — the property theorems with their non-vacuity examples;
* `Verif/Replay.lean`   — the repository's own tests, replayed on the model (see below).

## Trusted base

* Lean's kernel, and the axioms `propext`, `Classical.choice`, `Quot.sound` (at most these; no
  axiom is added, no `sorry`/`admit`, no `native_decide`/`bv_decide`).  The axioms of
  every claimed theorem are listed in `AXIOMS.md` (generated with `#print axioms`).
* The correspondence between the Python text and the Lean definitions (checked by reading only; the
  code is never run).
* What the model leaves out, below.

## Validation against the repository's tests

As the code cannot be run here, the correspondence between the Python text and the model rests on reading.  As a
check of that reading, `Verif/Replay.lean` replays the active tests of /repo/tests on the model: the same declarations,
the same calls, the same expected values, with small stand-ins for the numerical libraries (an explicit Euler
step, a solver that is told the answer, a search over given points).  Covered: `test_linear_model`, `test_nonlinear_model`,
`test_model_incorporation`, `test_differential_model`, `test_differential_algebraic_model`, `test_plotter`,
`test_optimization`, `test_variable`, `test_parameter`, `test_constant`.  All of them hold on the model as it stands.
`test_uop_ports` has no active test, and the files whose names start with `donot`/`DONOT` are not collected.
These are tests of the model by evaluation, not proofs, and no claim rests on them.

## Modelling conventions

* **Exceptions are values.** Every function that can raise returns `Except Err _`; an operation that can
  leave a half-updated object behind when it raises returns the new state next to the result (`PyM`, `PyS`).
* **Numbers.** Python `int`/`float` values are exact rationals.  Rounding, NaN and infinities are not
  modelled.  The int/float tag is kept where the code branches on it.
* **Dictionaries** are association lists in insertion order with Python's overwrite-in-place rule.
* **SymPy** is a syntax tree (`Sym`) with a partial evaluation function over an arbitrary linearly ordered field,
  an arbitrary interpretation of the functions (log, sin, ...) and of powers (only `x**-1 = 1/x`, undefined
  at 0, is assumed).  Automatic simplification is not modelled: SymPy is trusted to return an expression equal
  to the one asked for.  A Python number and a SymPy object are distinguished, as the code is sensitive to it.
  `subs` with several pairs is sequential, sorted by name.  `sp.symbols(name)` is taken to give one symbol of that
  name (it splits names at commas and blanks, and interprets colons); `subs` of a text gives the symbol of that name
  (SymPy parses the text).  The text of an expression (`srepr`) is an
  arbitrary function of the expression in the degree-of-freedom test (`Ext.sr`).
* **Object identity** is a natural number (index in a heap) where aliasing matters.  A `World` holds the quantities,
  models, equations, ports dictionaries and one problem; a `SimWorld` adds simulations, domains and lists of
  argument names.  One problem per world; several problems over the same models are `Many` (C90).
* **Sessions.** A user program is a list of calls (`Op`, `SOp`, `Opt.Op`, `Pkg.Op`, `DomOp`); `Reachable` states are those that some list
  of calls produces, where calls may raise and the program goes on (as in an interactive session).  The bodies of `DeclareEquations` and the
  like are arbitrary lists of commands (`Cmd`); `Cmd.fail` is a statement that raises without doing anything.
* **External numerical code** (SymPy's `solve`, SciPy, Assimulo, pyneqsys, pygmo, thermo) is an arbitrary function or an arbitrary
  program that may call back into the package any number of times (`Ext`, `Prog`, `Opt.Lib`): theorems hold for every behaviour of it.
  pygmo works on a deep copy of the problem.  Where a theorem assumes something of a library (C45 bounds, C74 soundness) it is a
  hypothesis in the statement.
* **Text of numbers** (`str(2.0)`) is the rational's text; only equality of texts matters anywhere.
* **Threads** (C22): `gen_rnd_str` is a program of atomic steps; all interleavings are considered.
* `exec`: names bound by one `exec` are visible to the next (Python before 3.13).

## What is modelled, file by file

| file | modelled | not modelled |
|------|----------|--------------|
| core/unit.py | everything | `__repr__` layout beyond `__str__`; the LaTeX text of a product or quotient of units (never read); `_reset_dimensions` (never called) |
| core/template_units.py | everything | |
| core/quantity.py, variable.py, parameter.py, constant.py | constructors, `setValue`, `convert`, `__call__`, arithmetic, `Diff`, `distributeOnDomain`, LaTeX texts | |
| core/expression_evaluation.py | all operators, maps, flags, units, both symbolic objects, names and LaTeX texts | printing |
| core/equation_operators.py | all functions | |
| core/equation.py | constructor, `setResidual`, forms and sides, sweep, renaming, compiled function, `__call__`, `eval` with a map of values, `gen_rnd_str` | `eval`/`getResidual` without a map (SymPy is handed quantity objects) |
| core/equation_block.py | everything; which parts of a sum contain a derivative (`Ext.diffTerms`) and whether SymPy accepts the text `y[0]` (`Ext.indexed`) are arbitrary | |
| core/domain.py | everything | pandas beyond tables of named columns; of several columns with the same label the first is read |
| core/property_package.py | constructor, `__add__`, `calculate`, `set_T`, `set_P`, `__getitem__` | `resolve_mixture`, `set_eos` (only store or call thermo) |
| core/error_definitions.py | the kinds of errors; error objects and their messages (`Model/Errors.lean`), raised by expressions and `setValue` | messages at the other places that raise |
| core/math_functions.py | everything | NumPy's types, NaN |
| core/parameter_array.py | — | does not parse |
| model.py | declarations, checks, incorporation, inlets, totalization, connections, `__call__`, reports | drawing of graphs, printing |
| connection.py | everything | |
| problem.py | everything but the connection graph (inside a string literal; `drawConnectionGraph` always raises) | |
| analysis.py | degree-of-freedom test, reports | table layout |
| solvers.py | all four solver classes, the table printed after dynamic runs; numerical libraries external | layout of what is printed, `configuration_args` other than as options handed on; "compilation_mechanism" is taken to be one `lambdify` knows; of the dynamic solvers other than ODEINT and CVODE only that they raise |
| simulation.py | settings, runs, status, results, reset, `__getitem__`, shown results, saved settings | plotting layout, `SimulationAsFunction` (only stores its arguments) |
| optimization.py | problems, studies, settings, optimizers, runs, results | DRTO (inside a string literal), printing |
| unit_op_library.py, unit_op.py | all classes with content | `HeatExchanger` and others are empty; lines after a statement that always raises |
| plotter.py | selection of the data | drawing |
| graph_creator.py | everything, over an arbitrary graph library | |
| print_headings.py | — | printing |
| teste_usage.py | the objective function (`Model/Usage.lean`) | the rest of the script |

Simplifications of single functions are stated in the comment of the definition.

## Plan per property

| id | what is modelled | how it is proved |
|----|------------------|------------------|
| C01 | `Unit.__mul__`, `_re_eval_dimensions` on association lists | exponent function of the result, induction on the dictionary |
| C02 | `Unit.__truediv__` | same; fails for a dimension only the numerator has: negation proved, `_partial` for SI units |
| C03 | `Unit.__pow__` | same, plus decision table for the argument |
| C04 | expression trees over units | structural induction, refinement to `Base → ℚ` vectors |
| C05 | `__add__`, `__sub__`, `_check_dimensional_coherence` | iff + equivalence laws on SI units; negation of symmetry for custom dimensions |
| C06 | all unit constructors | invariant over an inductive reachability predicate |
| C07 | `_is_dimensionless`, `__str__` | iff statements |
| C08 | `setValue` | decision table; negation for floats, `_partial` for ints and quantities |
| C09 | sequences of `setValue` | induction over histories |
| C10–C14 | `EquationNode` operators, `Quantity.__call__` | structural induction over expression trees against independent dimension/value/name specifications |
| C15, C16 | classification flags | negation by witness; `_partial` on the largest fragment for which it holds |
| C17–C19 | `equation_operators.py` | case analysis; negations where the code always raises |
| C20, C21, C23, C24 | `equation.py` | evaluation lemmas, substitution lemma |
| C22 | `gen_rnd_str` as a small-step thread program | invariant over all interleavings; negation across threads |
| C25–C33 | `model.py`, `problem.py`, `connection.py` over a heap | invariants over operation histories; negations for the aliasing/overwriting bugs |
| C34–C36, C49 | `equation_block.py`, `Problem._buildEquationBlock` | list lemmas; negation for equations written `lhs == rhs` |
| C37 | `analysis.py` | decision theorem |
| C38, C39, C53 | `problem.py` | induction over nested lists / histories |
| C40, C42, C52, C54, C55 | `simulation.py` | dictionary laws, trace property |
| C41, C50, C51 | `solvers.py` with an arbitrary external solver | list/zip lemmas and evaluation lemmas |
| C43 | `domain.py` | state machine |
| C44, C69 | `property_package.py` with shared lists and shared chemicals | list union laws; invariants over sessions; negations for the shared default list and unused conditions |
| C45, C46, C63, C75 | `optimization.py` over sessions | state machine; result = last answer, by induction over sessions; negations for direction and bounds |
| C47, C48, C64 | `unit_op_library.py`, `unit_op.py` as programs over the model operations | solutions of the declared equations are exactly the balances, induction on phase lists; typing of commands by dimensions; always-raises theorems |
| C56 | `template_units.py` | computed exponents for every dimension name |
| C57, C58 | `setResidual` called again, `_convertToFunction` | case analysis; evaluation lemma |
| C59 | `Model.__call__` with inlets | every path reaches `Min` of nodes, which raises |
| C60–C62 | `Simulation.runSimulation` on states with several simulations | frame theorems, induction over the library's calls back |
| C65 | `Domain.__getitem__`, `_renameHeaders` | refinement of tables to rows at positions of names |
| C66–C68, C71, C72 | starting points, polishing, solver look-up, initial values in `solvers.py` | exact description of the call made to the arbitrary library |
| C70 | `Quantity.__add__` and others | case analysis |
| C73 | `Simulation.getResults` | list lemmas |
| C74 | composition of C49, C41 and C71 | end to end, for libraries that are right up to a tolerance |
| C76 | `analysis.py` reports | from each statement to its row in any later state, by the frame theorems of the heap; negation for independent variables |
| C77, C78 | `_infoDegreesOfFreedom_`, `_getModelOverviewForGraph` | invariant of declared quantities; negations by witness |
| C79 | `showResults` | composition with what a run stores; negation for dynamic runs |
| C80 | `dumpConfigurations` and files as dictionaries of texts | round trip by induction on the settings; negation for failing saves |
| C81 | `plotter.py` selection of curves | refinement to columns of the domain (C65); universal negation for missing labels |
| C82 | residual function of implicit systems: derivatives found, places, substitution, compiled function, initial vectors | refinement to the stated residuals by induction on expressions; converse for symbols without place; negations by witness and for all problems |
| C83 | groups and kind of the problem, expressions handed on | from C15, C23, C34 and C49, for every equation stated in any session; the whole system by a session invariant that relates the expressions handed on to nodes as they were built, with renamed symbols; negation by witness |
| C84 | error objects with attributes, `__str__`; operators and `setValue` with the object they raise, proved to be the operators of the model | induction over expressions, locating the part at fault; texts of SI dimensions are injective; negations for all inputs |
| C85 | the table printed after dynamic runs (`printTable`) with headers and columns | case analysis of the runs up to the point of printing; negation for all runs |
| C86 | nothing new; changes of units as multiplicative factors of dimensions, real numbers as instance | induction over expressions on values with all quantities read from the assignment; negations |
| C87 | `_convertToResidualForm`, the loop of the block | session invariant: an equality's residual is symbolically the difference of its sides, whose units can be subtracted; induction on the loop |
| C88 | `gen_rnd_str`, `createEquation`, numeric sides | the counter grows over every session (session invariant), texts of numbers are injective and contain no underscore |
| C89 | `_totalizeInletsFunction_genericMaterialStreams`, first half | step lemma for each variable, then session invariants (nothing is removed) |
| C90 | several problems over one heap (`Many`) | monotonicity of the heap (`World.Le`) under all calls; what `resolve` reads is unchanged; witness for the connection |
| C91 | view of a state: world with the block up to what solvers read, domains, settings, number of lists | every step of a run is shown to return the same and keep the views equal (`PyS.Same`) |
| C92 | log of library calls of a run; settings as the dictionaries of the simulation | the steps before a call are peeled off one by one: each either ends the run without a call or establishes a part of `Spec.Usable` |
| C93 | models called again by `resolve`, expressions read the values when built | induction over the statements of a body and the models of the problem: quantities and their attributes stay as they are, the last equation of a name stands for the statement in the world at the start |
| C94 | Python numbers and SymPy objects told apart by a flag, closed arithmetic evaluated in the rationals | induction over expressions, both for the exception and for the value; the rational evaluation is shown to be the value in every ordered field |
| C95 | two problems whose dictionaries of models, variables and parameters are rearrangements of one another; adding, the sweep over the equations, the block and the test of the degrees of freedom are shown not to depend on the order; for models whose bodies run again, the simulation of C96 relates the two runs model by model | Props/Order.lean, Props/OrderCalled.lean |
| C96 | a simulation between two heaps: a one-to-one correspondence between the quantities of the two models, kept by every statement of a body (Lemmas/Twin.lean, Lemmas/Modular.lean) | Props/Modular.lean |
| C97 | a lockstep simulation: heaps that agree but for these texts and bounds stay so under every call with arguments that agree so (Lemmas/Cosmetic.lean, Lemmas/CosmeticSim.lean) | Props/Texts.lean |
| C98 | a calculus of "raises only what is listed" along the model's functions; the block never raises because every stored equation has its expression, its sides if elementary, and its table of objects, an invariant of all calls | Props/Raises.lean |
| C99 | the declaration state `St` along the phases; equations of a successful run of `_totalizeOutlets` read off; induction over the streams for `fixInlets`, `fixNdot` | Props/Outlets.lean |
| C100 | exact outcome of `runSimulation` computed step by step (solver creation, sanity check, solve and store, epilogue) for settings `Spec.Standard` | Props/Carried.lean |
| C101 | exact outcome of `runSimulation` for explicit differential systems: creation of the solver succeeds, `integrate_eq` for the integrator, `record`, epilogue | Props/Dynamic.lean |
| C102 | progress: `Spec.Fit` expressions build, `Knows` (what the attributes of the model are) is kept by each statement, hence calls, `resolve` and sessions return; with C100 an end-to-end statement | Props/Progress.lean |
| C103 | `DomainObj.register`, `renameHeaders`, `getItem`; the cases of refusal as an inductive predicate, equivalence by cases | Props/DomainErrors.lean |
| C104 | `getResults`, packages, `Study.init`, `runOptimization` up to the optimizer; the cases of refusal as inductive predicates, equivalences by cases and induction over loops | Props/Refusals.lean |
| C105 | `resolve` in two heaps that agree on the problem's models; frame relation `Only`/`Untouched` for each call, twins of models, induction over the session | Props/Bystanders.lean |
| C106 | `math_functions.py` over NumPy as an arbitrary function; negation for the default argument, `_partial` for `ignore_dimensions=True` | Props/Numeric.lean |
| C107 | `ConnectionGraph` over an arbitrary graph library; induction over the session, two negations by witness | Props/Numeric.lean |
| C108 | invariant `Spec.Linked` over the sizes of the heap, carried through every call by a Hoare-style predicate `Meets` (no missing object, heap stays linked, result exists) | Props/Links.lean |
| C109 | invariant of a running simulation (`During`: nothing is created or removed, the problem changes at most in its block, the kind stays), carried by a Hoare-style predicate `Runs` through solvers, integrators (arbitrary programs) and results | Props/SimLinks.lean |
| C110 | `DeclareObjectiveFunction` of teste_usage.py for any parameters and result (`Opt.usageObjective`) | invariant `Drift` (only values of the parameters and equations differ from the start) along all evaluations of the optimizer, with C74 and C93 for each of them |
| C111 | sessions with studies (`Opt.Op`), and the objective function of teste_usage.py | invariant `Opt.Sound` along sessions; within a study the invariant `Trial` along all evaluations, from C108 and C109 for each call of an evaluation |
| C112 | texts of nodes for every operator and function | usual writing with brackets (`Spec.inLine`, `Spec.inTex`) compared by structural induction; where brackets are needed the text is strictly shorter; negation for all readings of the texts | 
| C113 | several problems over one heap (`Many`) | calls commute with changes of the problem they do not concern (`Past`, `op_past`, `op_named`), calls on other problems replayed as calls of models (`op_other`); induction over programs | 
| C114 | several problems and simulations over one heap (`ManyS`); a method of a simulation is the method of `Model/Simulation.lean` on the heap with its problem | frames from `Keeps`, independence from `run_determined_own` (a run is determined by what its problem and its own domain hold), soundness `MSound` kept by every call (`sop_sound`), refinement `OneP` to sessions with one problem | 
| C115 | the constructors and `DeclareEquations` of pumps and heaters (`Model/UnitOps.lean`) within whole sessions, resolution and run | the equations stated at resolution are found in the created model (`unit_stating`), `run_solves` joins C97 with the way of stating in Values.lean, the algebra is done over any field; for mixers, whose equations are stored by the constructor, an invariant shows that all are residuals and `stored_solved` that they are kept by resolution | Props/SolvedUnits.lean, Props/SolvedMixers.lean |
| C116 | the lines of declarations of the seven classes, for any package | an invariant `Made` (ports and names so far) is carried through every kind of declaration; the ports of each line are computed for a package that is not known | Props/UnitPorts.lean |
| C117 | `createConnection` between variables, then any session, `resolve` and a run | the equation of the connection stands for a residual statement (`connection_states`); calls of models keep entries under names they do not state (`Entry.calls`); what is stored at resolution is solved (`entry_solved`) | Props/SolvedConnections.lean |
| C118 | pumps and heaters, connections between them, any session around them, resolution and run | `Spec.Line` is an inductive line of units, `Spec.Duct` one with the heaters counted (`line_energy`); induction over it from `solved_pump`, `solved_heater` (C115) and `connected_agree` (C117) | Props/SolvedLines.lean |
| C119 | settings and calls of streams, in any order and number | refinement of the session to an account of one optional number per quantity (`Spec.flux`), then induction over the actions; negations for changed and for doubly given fluxes | Props/StreamFlux.lean |
| C120 | whole runs of differential and differential-algebraic problems with arbitrary integrators | decomposition of a run that returns; only the recording step writes to domains (`DomsKept`); negation with an integrator that answers later | Props/TableTimes.lean |
| C121 | whole dynamic runs with any configured times | decomposition of a run that returns, induction over the interaction with the integrator (`Spec.Ends`), arithmetic of equally spaced times in an ordered field; negation for implicit systems | Props/AskedTimes.lean |
| C122 | whole dynamic runs over domains in any state | decomposition of a run that returns, inversion of `_register` and `_renameHeaders`; a preorder on states (`Spec.RowsKept`) that every step respects, then induction over the runs | Props/TableGrows.lean, Props/RowsKept.lean |

## Where the code violates a property

Each of these is proved as a negation with a concrete witness or for all inputs; the theorem names are in `MANIFEST.json` under the property.

* C02 quotient drops a user-defined dimension that only the numerator has; C05 coherence is not symmetric for such dimensions.
* C08 a float with a unit is stored unchecked.  C10 powers with a node as exponent get a wrong dimension.
* C13, C25 the independent variable of a derivative is neither recorded nor checked.
* C15 quotients by an unspecified quantity and Min/Max are flagged linear; C16 products and functions of derivatives lose the flag.
* C17 functions of plain numbers raise NameError.  C18 Min/Max of nodes always raise; mixed calls accept any dimensions.
* C22 names can clash across threads.  C24 chained renaming merges variables.  C57 restating an equality by an expression keeps the old side.
* C27 names of models with underscores clash; a variable and a parameter can share a name.
* C28 incorporation raises for exposed variables, merges or overwrites variables.  C30 the default ports dictionary is shared.
* C32 unexposed variables in lists give AttributeError.  A source that is not a model gives AttributeError; with an empty list of outputs the receiving model keeps an equation.  C33 connections of expressions overwrite each other.
* C36 variables declared after the model was added are missing.  C37 fixed variables count as unknowns; time is searched as text.
* C40 a configuration file drops all defaults.  C41 SymPy without a solution gives IndexError.
* C43 a second registration is refused or loses names.  C44 packages made without names share a list.
* C45 maximization is never honoured; bounds of problems are ignored.  C47 heaters, flash drums, tanks: many always raise.
* C49, C74 the left side of equalities is dropped in algebraic systems.
* C50 fixed variables, time alone on a side and names containing the name of time break the function given to the integrator.
* C51, C60, C61, C62 dynamic runs change the problem and a shared default list, and cannot be repeated.
* C52 empty results have status 0.  C53 resolving twice adds unnamed equations and loses values.  C54 a configured problem type is ignored.
* C59, C64 models and unit operations with inlets never resolve.  C63 unknown optimizers are accepted; settings unused.
* C76 reports omit the independent variable of derivatives.  C77 the reported degrees of freedom have the wrong sign and count specified quantities.
* C78 a variable declared twice is listed twice.  C79 dynamic results are not shown without headers.
* C80 saving settings with a domain raises and destroys the file.  C81 without labels no curve is drawn.
* C82 derivatives are numbered in the order of occurrence, not as the unknowns; repeated derivatives start from 0; coefficients raise; time is an unknown;
  the vectors handed to the integrator have different lengths.
* C83 a problem with the equation `p/x - 1` is called linear and goes to the linear solver.
* C84 `x()**t()` with `t` a time raises an error whose message cannot be printed; `x.setValue(y, unit)` always reports incoherent dimensions, even for equal ones.
* C85 a dynamic run asked to print without setting headers (the default) raises after the numerical work, and neither the domain nor the simulation receives the results.
* C58 `_convertToFunction` takes 'llvm' as its default mechanism, which `lambdify` does not know: the call without a mechanism raises, though the documentation says the default is numpy.
* C86 `x() == 5` for a length `x` and `x()**k() == y()` for lengths `x`, `y` are accepted though they depend on the unit of length.
* C90 A connection made in one problem is stored in the second model and so reaches every other problem that has this model, where its first variable is unknown to the equation block (`connection_reaches_other_problem`).
* C91/C62 `run_after_reset_partial` uses C91: a run and a reset restore the view when the domain held no tables of its own and the list of unknowns was not extended, so the second run repeats the first.
* C92 `residual_form_refused` explains the disabled test tests/DONOTtest_differential_model_residual.py: such a problem is never integrated.
* C93 `outside_values_ignored` (finding): for equations stated outside the declaration methods a value given later never reaches the solver.
* C94 `zero_divisor_accepted` (finding): `x / (p - 2)` with `p` set to 2 is accepted and becomes an equation without value.
* C95: fails for models that share a name (`model_order_matters`): `addModels` keeps one model per name, the one added last, so the order decides which equations are solved.  `model_order_partial` assumes that the models are apart and were declared from outside; `model_order_called_partial` replaces the second condition by bodies that read only attributes of the model itself and name their equations.
* C96: fails for equations without a name (`modular_unnamed`): the generated name comes from a counter of the session.  Bodies that read attributes of other models are left out of `model_modular`.
* C97: the erasure (`Spec.plain`) removes descriptions, LaTeX texts, bounds and the texts of expressions from the calls; everything else of the two sessions is the same.  Names are not erased: they are keys.
* C98: the lists (`Spec.MayRaise`) are written from the arguments of the call and, for calls of models, from the declarations of their classes; examples show that each entry is attained.
* C99: a stream quantity without value is fixed at the default value 0 of the object (`inlets_fixed` says "present value"); with two streams of the same name the second equation replaces the first.
* C100, finding: with the default arguments a run raises `AttributeError` after the solution was found and stored, when some equation only mentions specified quantities: its residual is a Python number, which has no `subs` (`residuals_of_number_raise`).
* C103/C104 were added because mutants exchanging one exception for another survived in those places.
* C105 does not cover connections and calls of the problem itself, which are meant to change it.
* C106: `math_functions.py` can be imported from within its directory only. C107: `graph_creator.py` is not imported by the package.
* C112 texts and LaTeX texts of expressions lose all brackets: `(a+b)*c` is shown as `a+b*c`; exponents such as in `x**10` have no braces in LaTeX; `Min(x1, 5)` and `Min(x, 15)` have the same text.
* C99, finding: a single outlet that is not a `MaterialStream` ends with `TypeError`, because `UnexpectedValueError` is given two arguments (`foreign_outlet_refused`).
* C114, finding: `setProblem` keeps the results, so `getStatus` reports success for a problem the simulation was never run on (`results_survive_problem`).
* C114, finding: simulations of different problems that record in the same domain disturb each other; a run that would return is refused after the run of the other (`shared_domain_disturbs`).
* C115, finding: the equations of a mixer are stated by its constructor, so values given to its quantities never enter them (`mixer_ignores_values`).
* C116, finding: flash drums name `w_p_L_out` and `w_p_V_out` alike (`flash_fractions_confused`), and `ndot_L_out` is named `ndo_L_out`.
* C67 implicit systems without a configured time name always raise.  C69 set_T and set_P have no effect.
* C117, finding: a value given to a connected variable after the connection does not reach the equation of the connection; the variable is solved for and can be reported with another value (`connected_value_ignored`).
* C28, findings: a failed incorporation leaves the variables up to the first exposed one in the target (`incorporate_exposed_leaves_copies`), and a source without a name cannot be incorporated with its equations (`incorporate_unnamed_source`).
* C119, finding: fluxes that are both given are never compared with the molar mass (`given_fluxes_unchecked`), and a flux changed after a call is not converted again (`changed_flux_not_converted`).
* C120, finding: for implicit systems the rows of the domain carry the requested times while the simulation holds the library's times (`dae_times_disagree`).
* C121, finding: listed times are ignored for implicit systems (`dae_times_ignored`), and a run without steps returns although it never reaches the end time (`no_steps`).

Further observations, not claimed as theorems: `is_exposed='True'` of fractions is not `True`, so they are not exposed; an unknown polisher is silently ignored (part of `start_nonlinear`);
subscripting a model always raises TypeError.
