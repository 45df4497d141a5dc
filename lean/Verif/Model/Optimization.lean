import Verif.Model.Simulation

/-!
# Optimization (`optimization.py`)

The library pygmo is external (`Lib`): an optimizer is an arbitrary program that may ask for values of the objective function any number of
times, and that may answer differently in every run.  pygmo works on a deep copy of the problem, and so of the simulation: what evaluations change
is lost afterwards.  Printing is not modelled; of the graph only what can raise.
-/

namespace Sloth.Opt
open Sloth

/-- Identities of optimization problems and studies. -/
abbrev PRef := Nat
abbrev ORef := Nat

/-- Values of `bounds` and `constraints`: nothing, a flat sequence of numbers, a sequence of sequences, a dictionary (its keys). -/
inductive Bounds (K : Type) where
  | none
  | flat (l : List K)
  | nested (l : List (List K))
  | dict (keys : List String)
  deriving DecidableEq, Repr

/-- The user's `DeclareObjectiveFunction`: any code that uses the simulation and the settings stored in the problem. -/
abbrev Objective (K : Type) := Option SRef → Option Conf → List K → PyS K (List K)

/-- optimization.py l.40-60: attributes of an `OptimizationProblem`. -/
structure Problem (K : Type) where
  name : String
  dim : Nat
  isMax : Bool := false
  bounds : Bounds K := .none
  sim : Option SRef
  conf : Option Conf := .none
  ready : Bool := false
  objective : Objective K

/-- An entry of `optimization_parameters`. -/
inductive Param where
  | quantity (name : String)
  | str (s : String)
  | other
  deriving DecidableEq, Repr

/-- The arguments an algorithm of pygmo was created with. -/
structure Algo where
  kind : String
  args : Conf
  deriving DecidableEq, Repr

/-- optimization.py l.185-286: attributes of an `Optimization`; those that are only stored (`constraints_fun`, `additional_args`,
`objective_function`, the copy of the parameters) are not kept.  `log` is the number of rows of the last log. -/
structure Study (K : Type) where
  problem : PRef
  sim : SRef
  simConf : Conf
  params : List Param
  constraints : Bounds K := .none
  isMax : Bool
  conf : Conf
  mechanism : Option Algo := .none
  optimizer : Option String := .none
  bestX : Option (List K) := .none
  bestF : Option (List K) := .none
  success : Bool := false
  log : Option Nat := .none

/-- The state.  `runs` counts the calls of the optimizer. -/
structure World (K : Type) where
  s : SimWorld K
  probs : List (Problem K) := []
  opts : List (Study K) := []
  runs : Nat := 0

/-- The champion of a population, and the number of rows of the log. -/
structure Champion (K : Type) where
  x : List K
  f : List K
  rows : Nat
  deriving DecidableEq, Repr

/-- pygmo. -/
structure Lib (K : Type) where
  /-- creating an algorithm may refuse the arguments -/
  algorithm : Algo → Except Err Unit
  /-- `population` and `evolve` in the n-th run: lower and upper bounds, number of individuals, verbosity -/
  evolve : Nat → Algo → List K → List K → CVal → Nat → Prog (List K) (List K) (Champion K)
  /-- writing the graph -/
  plot : Nat → Except Err Unit

section
variable {K : Type} [Field K] [LinearOrder K]

/-! ## Problems -/

/-- optimization.py l.40-60 `__init__`: the arguments `bounds` and `is_maximization` are not used. -/
def Problem.init (dim : Nat) (name : String) (_bounds : Bounds K) (_isMax : Bool) (sim : Option SRef) (obj : Objective K) : Problem K :=
  { name, dim, sim, objective := obj }

/-- optimization.py l.90-102 `DeclareSetBounds`.  Sequences of different lengths have no array (`ValueError`); `None` cannot be iterated;
a dictionary is iterated over its keys, which are no vectors: pygmo raises then. -/
def declareSetBounds : Bounds K → Except Err (List (List K))
  | .flat l => .ok (l.map fun x => [x])
  | .nested l => if l.all fun r => r.length = (l.headD []).length then .ok l else .error .valueError
  | .none => .error .typeError
  | .dict _ => .error .valueError

/-- optimization.py l.105-117 `DeclareFitnessComparison`; `f1[0]` of an empty vector raises. -/
def Problem.compare (p : Problem K) (f1 f2 : List K) : Except Err Bool :=
  match f1, f2 with
  | a :: _, b :: _ => .ok (if p.isMax then decide (b < a) else decide (a < b))
  | _, _ => .error .indexError

/-- optimization.py l.127-135 `__call__`. -/
def Problem.call (p : Problem K) : Problem K := { p with ready := true }

/-- `pg.problem(p)` for a problem whose `get_bounds` is `DeclareSetBounds`: a pair of vectors of the same positive length, lower bounds not
above upper ones. -/
def pgBounds (b : Bounds K) : Except Err (List K × List K) := do
  match ← declareSetBounds b with
  | [lo, hi] =>
    if lo.length = hi.length ∧ lo ≠ [] ∧ ((lo.zip hi).all fun p => decide (p.1 ≤ p.2)) = true then .ok (lo, hi) else .error .valueError
  | _ => .error .valueError

/-! ## Settings -/

/-- optimization.py l.239-259. -/
def defaults : Conf :=
  [("number_of_individuals", .num 100), ("number_of_generations", .num 600), ("crossover_rate", .num (6 / 10)),
   ("mutation_rate", .num (4 / 100)), ("elitism", .num 1), ("crossover_type", .str "exponential"), ("mutation_type", .str "gaussian"),
   ("selection_type", .str "tournament"), ("selection_param", .num 4), ("scale_factor", .num (5 / 10)), ("variant_de", .num 10),
   ("ftol_de", .num (1 / 100000000)), ("xtol_de", .num (1 / 100000000)), ("omega_pso", .num (7298 / 10000)), ("eta1_pso", .num (205 / 100)),
   ("eta2_pso", .num (205 / 100)), ("variant_pso", .num 5), ("max_v_pso", .num (5 / 10)), ("neighborhood_type_pso", .num 2),
   ("neighborhood_param_pso", .num 4)]

/-- Argument `optimization_configuration`: nothing, the contents of a file, a dictionary, something else. -/
inductive ConfArg where
  | none
  | file (c : Conf)
  | dict (c : Conf)
  | other
  deriving DecidableEq, Repr

/-- optimization.py l.262-278; `x is {}` never holds. -/
def optConf : ConfArg → Except Err Conf
  | .none => .ok defaults
  | .file c => .ok c
  | .dict d => .ok (dupdate defaults d)
  | .other => .error .absentRequiredObject

/-- optimization.py l.191-207: settings of the simulation; `own` are those it has. -/
def simulationConf (own : Option Conf) : ConfArg → Except Err Conf
  | .dict d => .ok d
  | .file c => .ok c
  | .none => match own with
    | some c => .ok c
    | none => .error .absentRequiredObject
  | .other => .error .absentRequiredObject

/-! ## Optimizers -/

/-- Argument `optimizer`. -/
inductive OptArg where
  | callable
  | str (s : String)
  | other
  deriving DecidableEq, Repr

/-- optimization.py l.326-449: for each optimizer the settings that are read, in this order, the arguments of the algorithm with the setting each
of them gets, and the arguments with fixed values. -/
def recipe : String → Option (List String × List (String × String) × Conf)
  | "ga" => some (["number_of_generations", "crossover_rate", "mutation_rate", "elitism", "number_of_individuals", "crossover_type", "mutation_type",
      "selection_type", "selection_param"],
      [("gen", "number_of_generations"), ("cr", "crossover_rate"), ("m", "mutation_rate"), ("param_s", "selection_param"),
        ("crossover", "crossover_type"), ("mutation", "mutation_type"), ("selection", "selection_type")],
      [("eta_c", .num 1), ("param_m", .num 1)])
  | "sade" => some (["number_of_generations", "ftol_de", "xtol_de", "number_of_individuals"],
      [("gen", "number_of_generations"), ("ftol", "ftol_de"), ("xtol", "xtol_de")], [])
  | "de" => some (["number_of_generations", "crossover_rate", "scale_factor", "variant_de", "ftol_de", "xtol_de", "number_of_individuals"],
      [("gen", "number_of_generations"), ("F", "scale_factor"), ("CR", "crossover_rate"), ("variant", "variant_de"), ("ftol", "ftol_de"),
        ("xtol", "xtol_de")], [])
  | "pso" => some (["number_of_generations", "omega_pso", "eta1_pso", "eta2_pso", "max_v_pso", "variant_pso", "neighborhood_type_pso",
      "neighborhood_param_pso", "number_of_individuals"],
      [("gen", "number_of_generations"), ("omega", "omega_pso"), ("eta1", "eta1_pso"), ("eta2", "eta2_pso"), ("max_vel", "max_v_pso"),
        ("variant", "variant_pso")], [])
  | _ => none

/-- Reading settings. -/
def readAll (c : Conf) : List String → Except Err Unit
  | [] => .ok ()
  | k :: t => do
    let _ ← dgetE c k
    readAll c t

/-- Arguments from settings. -/
def fill (c : Conf) : List (String × String) → Except Err Conf
  | [] => .ok []
  | (a, k) :: t => do
    let v ← dgetE c k
    let r ← fill c t
    .ok ((a, v) :: r)

/-- optimization.py l.314-453 `_setOptimizer`: the value returned (`None` for functions and unknown names) and the mechanism. -/
def setOptimizer (lib : Lib K) (c : Conf) : OptArg → Except Err (Option String × Option Algo)
  | .callable => .ok (none, none)
  | .other => .error .unexpectedValue
  | .str s =>
    match recipe s with
    | none => .ok (none, none)
    | some (keys, args, fixed) => do
      readAll c keys
      let a ← fill c args
      lib.algorithm ⟨s, a ++ fixed⟩
      .ok (some s, some ⟨s, a ++ fixed⟩)

/-! ## Studies -/

/-- The arguments of `Optimization`. -/
structure Args (K : Type) where
  sim : SRef
  problem : PRef
  params : List Param
  simConf : ConfArg := .none
  constraints : Bounds K := .none
  isMax : Bool := false
  optimizer : OptArg := .str "de"
  conf : ConfArg := .none

/-- optimization.py l.143-286 `__init__`; `own` are the settings of the simulation. -/
def Study.init (lib : Lib K) (own : Option Conf) (a : Args K) : Except Err (Study K) := do
  let sc ← simulationConf own a.simConf
  let c ← optConf a.conf
  let (o, m) ← setOptimizer lib c a.optimizer
  .ok { problem := a.problem, sim := a.sim, simConf := sc, params := a.params, constraints := a.constraints, isMax := a.isMax, conf := c,
        mechanism := m, optimizer := o }

/-- optimization.py l.471-481: every parameter has a constraint; an object without a name raises `AttributeError`, and an object that is no
text is not a key. -/
def checkParams (keys : List String) : List Param → Except Err Unit
  | [] => .error .indexError
  | .quantity n :: t =>
    let rec go : List Param → Except Err Unit
      | [] => .ok ()
      | .quantity n :: t => if keys.contains n then go t else .error .absentRequiredObject
      | _ :: _ => .error .attributeError
    go (.quantity n :: t)
  | .str s :: t =>
    if (Param.str s :: t).all fun p => match p with | .str s => keys.contains s | _ => false then .ok () else .error .absentRequiredObject
  | .other :: _ => .ok ()

/-- optimization.py l.459-491 `_performSaneTests`; `optimization_configuration` is never `None`. -/
def sane (o : Study K) (p : Problem K) : Except Err Unit := do
  match o.constraints with
  | .dict keys => checkParams keys o.params
  | _ => .ok ()
  if p.ready then .ok () else .error .absentRequiredObject

/-- optimization.py l.515: the names of the parameters. -/
def paramNames (ps : List Param) : Except Err Unit :=
  if ps.all fun p => decide (p ≠ .other) then .ok () else .error .attributeError

/-- optimization.py l.539-551: what happens before the optimizer is called: the mechanism must exist, the parameters must have names,
`number_of_individuals` must be set, pygmo must accept the bounds. -/
def prepare (o : Study K) (b : Bounds K) : Except Err (Algo × CVal × List K × List K) := do
  match o.mechanism with
  | none => .error .attributeError
  | some a => do
    paramNames o.params
    let n ← dgetE o.conf "number_of_individuals"
    let (lo, hi) ← pgBounds b
    .ok (a, n, lo, hi)

/-- Arguments of `runOptimization`; printing is not modelled. -/
structure RunArgs where
  frequency : Nat := 0
  log : Bool := true
  graph : Bool := false
  deriving DecidableEq, Repr

/-- optimization.py l.569-606: the graph; without log the attribute does not exist, and an empty log has no maximum. -/
def graph (lib : Lib K) (log : Option Nat) : Except Err Unit :=
  match log with
  | none => .error .attributeError
  | some 0 => .error .valueError
  | some (n + 1) => lib.plot (n + 1)

/-- optimization.py l.555-613: what happens after the optimizer has answered. -/
def finish (lib : Lib K) (a : RunArgs) (o : Study K) (c : Champion K) : Except Err Unit × Study K :=
  let o := { o with bestX := some c.x, bestF := some c.f }
  let o := if a.log then { o with log := some c.rows } else o
  match (if a.graph then graph lib o.log else .ok ()) with
  | .error e => (.error e, o)
  | .ok () => (.ok (), { o with success := true })

/-- optimization.py l.533-537: the problem as the run leaves it. -/
def install (o : Study K) (p : Problem K) : Problem K := { p with sim := some o.sim, conf := some o.simConf, bounds := o.constraints }

/-- optimization.py l.529-617 `runOptimization`. -/
def runOptimization (lib : Lib K) (i : ORef) (a : RunArgs) (w : World K) : Except Err Unit × World K :=
  match w.opts[i]? with
  | none => (.error (.exception "dangling"), w)
  | some o =>
    match w.probs[o.problem]? with
    | none => (.error (.exception "dangling"), w)
    | some p =>
      match sane o p with
      | .error e => (.error e, w)
      | .ok () =>
        let p := install o p
        let w := { w with probs := w.probs.set o.problem p }
        match prepare o p.bounds with
        | .error e => (.error e, w)
        | .ok (al, n, lo, hi) =>
          let w' := { w with runs := w.runs + 1 }
          match ((lib.evolve w.runs al lo hi n a.frequency).run (p.objective p.sim p.conf) w.s).1 with
          | .error e => (.error e, w')
          | .ok c => ((finish lib a o c).1, { w' with opts := w.opts.set i (finish lib a o c).2 })

/-- optimization.py l.619-635 `getResults`. -/
def getResults (i : ORef) (w : World K) : Except Err (Option (List K) × Option (List K)) :=
  match w.opts[i]? with
  | none => .error (.exception "dangling")
  | some o => if o.bestF = none ∧ o.bestX = none then .error (.exception "Should run") else .ok (o.bestX, o.bestF)

/-! ## Sessions -/

/-- The calls a user can make. -/
inductive Op (K : Type) where
  /-- a call that concerns models, the problem or simulations -/
  | sim (o : SOp K)
  | newProblem (dim : Nat) (name : String) (bounds : Bounds K) (isMax : Bool) (sim : Option SRef) (obj : Objective K)
  | call (j : PRef)
  | setBounds (j : PRef) (b : Bounds K)
  /-- assignment to the attribute `is_maximization` of a problem -/
  | setDirection (j : PRef) (b : Bool)
  | newStudy (a : Args K)
  | setConstraints (i : ORef) (b : Bounds K)
  | setProblem (i : ORef) (j : PRef)
  | run (i : ORef) (a : RunArgs)

/-- The settings of a simulation. -/
def ownConf (w : World K) (i : SRef) : Option Conf := (w.s.sims[i]?).bind (·.conf)

/-- One call: optimization.py l.40, 127, 78, 143, 294, 302, 529. -/
def Op.exec (ext : Ext K) (I : Interp K) (lib : Lib K) (w : World K) : Op K → World K
  | .sim o => { w with s := (o.exec ext I w.s).2 }
  | .newProblem d n b m s f => { w with probs := w.probs ++ [Problem.init d n b m s f] }
  | .call j => { w with probs := w.probs.modify j Problem.call }
  | .setBounds j b => { w with probs := w.probs.modify j fun p => { p with bounds := b } }
  | .setDirection j b => { w with probs := w.probs.modify j fun p => { p with isMax := b } }
  | .newStudy a => match Study.init lib (ownConf w a.sim) a with
    | .ok o => { w with opts := w.opts ++ [o] }
    | .error _ => w
  | .setConstraints i b => { w with opts := w.opts.modify i fun o => { o with constraints := b } }
  | .setProblem i j => { w with opts := w.opts.modify i fun o => { o with problem := j } }
  | .run i a => (runOptimization lib i a w).2

/-- The state after a session. -/
def history (ext : Ext K) (I : Interp K) (lib : Lib K) (ops : List (Op K)) : World K :=
  ops.foldl (fun w o => o.exec ext I lib w) { s := { w := Sloth.World.init } }

end
end Sloth.Opt
