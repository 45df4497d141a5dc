import Verif.Model.Solver

/-!
# Simulations (`simulation.py`)
-/

namespace Sloth
open PyS

/-! ## Configuration -/

/-- simulation.py l.95-121: the keyword arguments of `setConfigurations` that become settings, with their defaults, in the order of l.130-153
(`definition_dict` and `configurations_file` are separate).  Empty lists and dictionaries that are never written to are values. -/
def confDefaults : Conf :=
  [("compile_equations", .bool true), ("domain", .none), ("time_variable_name", .none), ("initial_time", .num 0), ("end_time", .none),
   ("is_dynamic", .bool false), ("arg_names", .argNames 0), ("initial_guess", .nums []), ("initial_guess_solver", .none),
   ("linear_solver", .str "symbolicsys"), ("nonlinear_solver", .str "*"), ("differential_solver", .str "ODEINT"),
   ("differential_algebraic_solver", .str "IDA"), ("problem_type", .none), ("args", .names []), ("verbosity_solver", .num 0),
   ("number_of_time_steps", .num 100), ("configuration_args", .nums []), ("print_output", .bool false), ("output_headers", .none),
   ("variable_name_map", .renames []), ("compilation_mechanism", .str "numpy"), ("number_parameters_to_optimize", .num 0),
   ("times_for_solution", .none)]

/-- Binding of keyword arguments: an unknown one raises `TypeError`. -/
def bindArgs (kw : Conf) : Except Err Conf :=
  if kw.all fun p => (dget confDefaults p.1).isSome then .ok (dupdate confDefaults kw) else .error .typeError

/-- `problem.time_variable_name` as a setting. -/
def timeSetting : Option (List String) → CVal
  | some l => .names l
  | none => .none

/-- simulation.py l.169-196: the settings when neither file nor dictionary is given. -/
def confFromArgs (timeName : Option (List String)) (a : Conf) : Conf :=
  if dget a "time_variable_name" = some .none ∧ dget a "is_dynamic" = some (.bool true) then
    dset a "time_variable_name" (timeSetting timeName)
  else a

/-- simulation.py l.157-196: `file` is the contents of the configuration file. -/
def confSource (timeName : Option (List String)) (a : Conf) (file def_ : Option Conf) : Conf :=
  match file, def_ with
  | some f, _ => f
  | none, some d => dupdate a d
  | none, none => confFromArgs timeName a

/-- simulation.py l.200-202; `False != 0` is false. -/
def confOptimize (n : CVal) (c : Conf) : Except Err Conf :=
  if n = .num 0 ∨ n = .bool false then .ok c
  else do
    let m ← dgetE c "number_parameters_to_optimize"
    .ok (if m = n then c else dset c "number_parameters_to_optimize" n)

/-- simulation.py l.95-204: the dictionary computed by `setConfigurations`. -/
def configure (timeName : Option (List String)) (kw : Conf) (file def_ : Option Conf) : Except Err Conf := do
  let a ← bindArgs kw
  let n ← dgetE a "number_parameters_to_optimize"
  confOptimize n (confSource timeName a file def_)

section
variable {K : Type} [Field K] [LinearOrder K]

/-- simulation.py l.95-204 `setConfigurations`. -/
def setConfigurations (i : SRef) (kw : Conf) (file def_ : Option Conf) : PyS K Unit := do
  let s ← get
  let c ← lift (configure s.w.pr.timeName kw file def_)
  let o ← getSim i
  setSim i { o with conf := some c }

/-! ## Results -/

/-- Argument `return_type` of `getResults`. -/
inductive RetType where
  | list | dict | other
  deriving DecidableEq, Repr

/-- What `getResults` returns. -/
inductive Results (K : Type) where
  | list (l : List K)
  | dict (d : Dict String K)
  | tables (l : List (List (List K)))
  | columns (d : Dict String (Dict Label (List K)))
  deriving DecidableEq, Repr

/-- simulation.py l.379-419: results of an algebraic simulation.  For an output that is no dictionary the list form raises `TypeError`
(l.398), the other `AttributeError` (l.402). -/
def algResults (out : Option (Output K)) : RetType → Except Err (Results K)
  | .list => match out with
    | some (.dict d) => .ok (.list (dvalues d))
    | _ => .error .typeError
  | .dict => match out with
    | some (.dict d) => .ok (.dict (dofList (psorted (fun a b => strLe a.1 b.1) d)))
    | _ => .error .attributeError
  | .other => .error .unexpectedValue

/-- `df.to_dict(orient='list')` -/
def Frame.columns (f : Frame K) : Dict Label (List K) :=
  dofList (f.cols.zipIdx.map fun p => (p.1, f.rows.map fun r => r.getD p.2 0))

/-- simulation.py l.421-439: results of a differential simulation, from the tables of the domain. -/
def diffResults (vals : Dict String (Frame K)) : RetType → Except Err (Results K)
  | .list => .ok (.tables (vals.map fun p => p.2.rows))
  | .dict => .ok (.columns (vals.map fun p => (p.1, p.2.columns)))
  | .other => .error .unexpectedValue

/-- simulation.py l.423-429: the tables of the configured domain; `None` has no attribute `values`, and `None.keys()` raises too. -/
def domainTables (conf : Option Conf) : PyS K (Dict String (Frame K)) :=
  match conf with
  | none => PyS.raise .typeError
  | some c => do
    let d ← lift (dgetE c "domain")
    match d with
    | .dom r => do
      let d ← getD r
      match d.values with
      | some v => PyS.pure v
      | none => PyS.raise .attributeError
    | _ => PyS.raise .attributeError

/-- simulation.py l.423: the configured domain. -/
def domainSetting (conf : Option Conf) : PyS K CVal :=
  match conf with
  | none => PyS.raise .typeError
  | some c => lift (dgetE c "domain")

/-- simulation.py l.421-439: the domain is looked up, whatever is asked for; its tables only for the two forms that exist. -/
def timeResults (conf : Option Conf) (rt : RetType) : PyS K (Results K) :=
  if rt = .other then do
    let _ ← domainSetting conf
    PyS.raise .unexpectedValue
  else do
    let v ← domainTables conf
    lift (diffResults v rt)

/-- simulation.py l.366-443 `getResults`. -/
def getResults (i : SRef) (rt : RetType) : PyS K (Results K) := do
  let o ← getSim i
  let b ← getBlock
  match b.problemType with
  | some .linear | some .nonlinear => lift (algResults o.output rt)
  | some .differential | some .dae => timeResults o.conf rt
  | none => PyS.raise .unresolvedPanic

/-- `x is not []` for the list just computed: `[]` is a new object, so that the test always holds. -/
def isNotNewList (_ : Results K) : Bool := true

/-- simulation.py l.289-303 `getStatus`. -/
def getStatus (i : SRef) : PyS K Nat := do
  let r ← getResults i .list
  let st := if isNotNewList r then 0 else 1
  let o ← getSim i
  setSim i { o with status := some st }
  PyS.pure st

/-! ## Running -/

/-- simulation.py l.210-234: a problem type for which a solver is created. -/
def runnable : CVal → Option ProblemKind → Bool
  | .none, k => k.isSome
  | .str s, _ => ["linear", "nonlinear", "differential", "differential-algebraic"].contains s
  | _, _ => false

/-- simulation.py l.270: the problem is treated as dynamic when residuals are printed. -/
def isDynamicType : CVal → Option ProblemKind → Bool
  | .none, k => k == some .differential || k == some .dae
  | .str s, _ => s == "differential" || s == "differential-algebraic"
  | _, _ => false

/-- simulation.py l.266-286: what the table of residuals can raise: the results as a dictionary are needed for every equation, and a Python number
has no `subs`.  Simplification: with an algebraic type configured for a dynamic problem `subs` is given the tables of the domain, and what SymPy makes of them
is not modelled (no exception here). -/
def residualTable (i : SRef) : List SObj → PyS K Unit
  | [] => PyS.pure ()
  | e :: t => do
    let _ ← (if e.isPy then PyS.raise .attributeError else getResults i .dict)
    residualTable i t

/-- simulation.py l.238-240: analysis.py l.37-39 `_makeSanityChecks`. -/
def sanity (ext : Ext K) (check : Bool) : PyS K Unit := when check (ofWorld (dofTest ext.sr))

/-- simulation.py l.242-252: solving and storing. -/
def solveStore (ext : Ext K) (I : Interp K) (i : SRef) (c : Conf) (sv : SolverObj) : PyS K Unit := do
  let out ← sv.solve ext I c
  let o ← getSim i
  setSim i { o with output := some out }
  let d ← lift (dgetE c "domain")
  let o ← getSim i
  setSim i { o with domain := d }

/-- simulation.py l.254-286: messages. -/
def epilogue (i : SRef) (pt : CVal) (showMsg showResiduals : Bool) : PyS K Unit := do
  when showMsg (PyS.bind (getStatus i) fun _ => PyS.pure ())
  let b ← getBlock
  when (showResiduals && !isDynamicType pt b.problemType) (residualTable i b.equationsList)

/-- The arguments of `runSimulation`. -/
structure RunArgs where
  sanity : Bool := true
  showMsg : Bool := true
  showResiduals : Bool := true
  deriving DecidableEq, Repr

/-- simulation.py l.214-215: the problem is asked for its type only if none is configured. -/
def askKind (pt : CVal) : PyS K (Option ProblemKind) :=
  if pt = .none then PyS.bind getBlock fun b => PyS.pure b.problemType else PyS.pure none

/-- simulation.py l.206-286 `runSimulation`.  The solver is created before the sanity check. -/
def runSimulation (ext : Ext K) (I : Interp K) (i : SRef) (a : RunArgs) : PyS K Unit := do
  let o ← getSim i
  let c ← lift (match o.conf with | some c => Except.ok c | none => .error .typeError)
  let pt ← lift (dgetE c "problem_type")
  let _ ← lift (dgetE c "number_parameters_to_optimize")
  let k ← askKind pt
  when (!runnable pt k) (PyS.raise .unexpectedValue)
  let sv ← createSolver ext c
  Sloth.sanity ext a.sanity
  solveStore ext I i c sv
  epilogue i pt a.showMsg a.showResiduals

/-- simulation.py l.464-471 `reset`. -/
def resetSim (i : SRef) : PyS K Unit := do
  let o ← getSim i
  match o.domain with
  | .dom r => do
    let d ← getD r
    setD r d.reset
  | .none => PyS.pure ()
  | _ => PyS.raise .attributeError

/-- simulation.py l.473-495 `__getitem__`: the argument is a name, or a quantity, of which the name is used. -/
def simItem (name : String) : PyS K Ref := do
  let b ← getBlock
  lift (dgetE b.parameterDict name)

/-! ## Sessions with simulations -/

/-- The calls a user can make. -/
inductive SOp (K : Type) where
  | base (o : Op)
  /-- a new list, to be passed as `arg_names` -/
  | newList (l : List CVal)
  | newDomain (name : String) (indep : List String)
  | domain (r : DRef) (o : DomOp K)
  | newSim (name : String)
  | configure (i : SRef) (kw : Conf) (file def_ : Option Conf)
  | run (i : SRef) (a : RunArgs)
  | status (i : SRef)
  | reset (i : SRef)

/-- One call. -/
def SOp.exec (ext : Ext K) (I : Interp K) : SOp K → PyS K Unit
  | .base o => ofWorld o.run
  | .newList l => modify fun s => { s with lists := s.lists ++ [l] }
  | .newDomain n vs => modify fun s => { s with doms := s.doms ++ [DomainObj.init n vs] }
  | .domain r o => do
    let d ← getD r
    setD r (o.run d)
  | .newSim n => modify fun s => { s with sims := s.sims ++ [{ name := n }] }
  | .configure i kw f d => setConfigurations i kw f d
  | .run i a => runSimulation ext I i a
  | .status i => PyS.bind (getStatus i) fun _ => PyS.pure ()
  | .reset i => resetSim i

/-- The state after a session. -/
def simHistory (ext : Ext K) (I : Interp K) (ops : List (SOp K)) : SimWorld K :=
  ops.foldl (fun s o => (o.exec ext I s).2) { w := World.init }

end
end Sloth
