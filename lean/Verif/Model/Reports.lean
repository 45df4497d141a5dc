import Verif.Model.Simulation

/-!
# Reports, shown results, saved settings, plots (`analysis.py`, `model.py`, `simulation.py`, `plotter.py`)

What is printed or drawn is returned as a value; the layout of tables by `prettytable` and the drawing by `matplotlib` are not modelled.
-/

namespace Sloth
open PyM

/-! ## Reports on models and problems -/

/-- The suffix `'(*)'*(is_specified==True)`. -/
def mark (q : Quantity) : String := if q.isSpecified then "(*)" else ""

/-- analysis.py l.137-139: one comprehension over the map; `k` is the class asked for. -/
def inspectKind (qs : List Quantity) (k : Kind) (marked : Bool) (m : Dict String Ref) : List String :=
  m.filterMap fun p =>
    match qs[p.2]? with
    | some q => if q.kind = k then some (if marked then p.1 ++ mark q else p.1) else none
    | none => none

/-- analysis.py l.121-147 `_inspectForObjects`: the names before they are joined with commas. -/
def inspectForObjects (qs : List Quantity) (m : Dict String Ref) : List String × List String × List String :=
  (inspectKind qs .variable false m, inspectKind qs .parameter true m, inspectKind qs .constant true m)

/-- A row of the report (analysis.py l.192-194).  The representation is the SymPy object `repr_symbolic` of which the text is shown. -/
structure ReportRow where
  name : String
  description : String
  repr : Sym
  vars : List String
  pars : List String
  cons : List String
  type : String
  deriving DecidableEq, Repr

/-- analysis.py l.208-212: the text for the flag that is set.  Python takes an arbitrary one if there are several; here the first in the order
of the dictionary (expression_evaluation.py l.20-79). -/
def typeText (t : EqType) : Except Err String :=
  if t.linear then .ok "linear"
  else if t.nonlinear then .ok "nonlinear"
  else if t.differential then .ok "differential"
  else .error .indexError

/-- analysis.py l.196-214: one row.  `None.symbolic_map` raises `AttributeError`. -/
def reportRow (qs : List Quantity) (e : EqObj) : Except Err ReportRow :=
  match e.expr with
  | none => .error .attributeError
  | some n => do
    let o := inspectForObjects qs n.symMap
    let t ← typeText n.ty
    .ok { name := e.name, description := e.description, repr := n.repr, vars := o.1, pars := o.2.1, cons := o.2.2, type := t }

/-- analysis.py l.196-214 on the heap. -/
def reportEqn (r : ERef) : PyM ReportRow := fun w =>
  match w.es[r]? with
  | some e => (reportRow w.qs e, w)
  | none => (.error (.exception "dangling"), w)

/-- analysis.py l.173-216 `modelReport`. -/
def modelReport (m : MRef) : PyM (List ReportRow) := do
  let mo ← getM m
  collect (dvalues mo.eqns) reportEqn

/-- What `problemReport` says. -/
structure ProblemReport where
  name : String
  type : Option ProblemKind
  models : List (String × List ReportRow)
  deriving DecidableEq, Repr

/-- analysis.py l.149-171 `problemReport`; the type of a problem that is not resolved raises `AttributeError` (problem.py l.99). -/
def problemReport : PyM ProblemReport := do
  let p ← getPr
  let b ← lift (match p.block with | some b => Except.ok b | none => .error .attributeError)
  let l ← collect p.models fun km => do
    let t ← modelReport km.2
    PyM.pure (km.1, t)
  PyM.pure { name := p.name, type := b.problemType, models := l }

/-- Argument of `Simulation.report`. -/
inductive ReportArg where
  | model (m : MRef) | problem | other
  deriving DecidableEq, Repr

/-- simulation.py l.60-81 `report`; nothing is returned. -/
def simReport : ReportArg → PyM Unit
  | .model m => do
    let _ ← modelReport m
    PyM.pure ()
  | .problem => do
    let _ ← problemReport
    PyM.pure ()
  | .other => raise .unexpectedValue

/-- model.py l.249-273 `_infoInputOutputVariables`. -/
def infoInputOutput (m : MRef) : PyM (List String × List String) := do
  let mo ← getM m
  let i ← collect mo.expIn fun r => do
    let q ← getQ r
    PyM.pure q.name
  let o ← collect mo.expOut fun r => do
    let q ← getQ r
    PyM.pure q.name
  PyM.pure (i, o)

/-- model.py l.237-247 `_getModelOverviewForGraph`: name, inputs, outputs and parameters, before they are put into a text. -/
def modelOverview (m : MRef) : PyM (String × List String × List String × List String) := do
  let io ← infoInputOutput m
  let mo ← getM m
  PyM.pure (mo.name, io.1, io.2, dkeys mo.pars)

/-- model.py l.279-328 `_infoDegreesOfFreedom_`: for design, control and chemistry. -/
def infoDegreesOfFreedom (m : MRef) : PyM (Int × Int × Int) := do
  let mo ← getM m
  PyM.pure ((mo.eqns.length : Int) - ((mo.vars.length : Int) + (mo.pars.length : Int)), 0, 0)

/-! ## Shown results -/

/-- What `showResults` prints: times and states under headers, or one row (variable, unit, value) per unknown. -/
inductive Shown (K : Type) where
  | series (headers : List String) (rows : List (List K))
  | table (rows : List (String × UnitObj × K))

section
variable {K : Type}

/-- simulation.py l.313-328: `time_points, Y = self.output` unpacks two keys of a dictionary, of which no length can be taken (l.325); another
number of keys raises `ValueError`. -/
def showSeries (c : Conf) : Output K → Except Err (Shown K)
  | .series t y => do
    let h ← dgetE c "output_headers"
    let hs ← showHeaders h
    let rs ← showRows hs y 0 t
    .ok (.series hs rs)
  | .dict d => if d.length = 2 then .error .typeError else .error .valueError

/-- simulation.py l.338-343: one row. -/
def showRow (qs : List Quantity) (vd : Dict String Ref) (p : String × K) : Except Err (String × UnitObj × K) := do
  let r ← dgetE vd p.1
  match qs[r]? with
  | some q => .ok (p.1, q.units, p.2)
  | none => .error (.exception "dangling")

/-- simulation.py l.330-345: a pair has no `keys`. -/
def showTable (qs : List Quantity) (vd : Dict String Ref) : Output K → Except Err (Shown K)
  | .series _ _ => .error .attributeError
  | .dict d => do
    let rs ← d.mapM (showRow qs vd)
    .ok (.table rs)

/-- simulation.py l.305-345 `showResults`.  Without unknowns the block is not looked at; here it must exist, as it does after a run. -/
def showResults (i : SRef) : PyS K (Shown K) := do
  let o ← PyS.getSim i
  match o.output with
  | none => PyS.raise .assertion
  | some out =>
    match o.conf with
    | none => PyS.raise .typeError
    | some c => do
      let d ← PyS.lift (dgetE c "is_dynamic")
      if d.isTrue then PyS.lift (showSeries c out)
      else do
        let b ← PyS.getBlock
        let s ← PyS.get
        PyS.lift (showTable s.w.qs b.variableDict out)

/-! ## Saved settings -/

/-- A value in a JSON text: a list of argument names is written out with its contents. -/
inductive JVal where
  | val (v : CVal)
  | list (l : List CVal)
  deriving DecidableEq, Repr

/-- Contents of a file: a JSON text (`null`, or an object), or a text that ends in the middle of an object. -/
inductive FileText where
  | json (c : Option (Dict String JVal))
  | broken
  deriving DecidableEq, Repr

/-- The files, by name. -/
abbrev Files := Dict String FileText

/-- Values `json.dump` can write; not arrays and domains.  (A list inside a list of argument names does not occur.) -/
def CVal.plain : CVal → Bool
  | .none | .bool _ | .num _ | .str _ | .names _ | .nums _ | .renames _ => true
  | .argNames _ | .vec _ | .dom _ => false

/-- One value; numbers are written exactly. -/
def jsonVal (lists : List (List CVal)) : CVal → Except Err JVal
  | .argNames r => match lists[r]? with
    | none => .error (.exception "dangling")
    | some l => if l.all CVal.plain then .ok (.list l) else .error .typeError
  | v => if v.plain then .ok (.val v) else .error .typeError

/-- The whole dictionary. -/
def jsonConf (lists : List (List CVal)) (c : Conf) : Except Err (Dict String JVal) :=
  c.mapM fun p => do
    let v ← jsonVal lists p.2
    .ok (p.1, v)

/-- simulation.py l.461-462 (also optimization.py l.288-292 `saveConfigurations`): opening the file for writing empties it before the dictionary is written, and an
exception leaves what was written so far. -/
def dumpTo (fs : Files) (f : String) (lists : List (List CVal)) : Option Conf → Except Err Unit × Files
  | none => (.ok (), dset fs f (.json none))
  | some c =>
    match jsonConf lists c with
    | .ok j => (.ok (), dset fs f (.json (some j)))
    | .error e => (.error e, dset fs f .broken)

/-- simulation.py l.458-459: the name of the file. -/
def dumpName (name : String) : Option String → String
  | none => name ++ "-conf.json"
  | some f => f

/-- simulation.py l.445-462 `dumpConfigurations`. -/
def dumpConfigurations (i : SRef) (f : Option String) (fs : Files) (s : SimWorld K) : Except Err Unit × Files :=
  match s.sims[i]? with
  | none => (.error (.exception "dangling"), fs)
  | some o => dumpTo fs (dumpName o.name f) s.lists o.conf

/-- Reading a value makes a new list. -/
def loadVal : JVal → PyS K CVal
  | .val v => PyS.pure v
  | .list l => fun s => (.ok (.argNames s.lists.length), { s with lists := s.lists ++ [l] })

/-- Reading a dictionary. -/
def loadConf : Dict String JVal → PyS K Conf
  | [] => PyS.pure []
  | p :: t => do
    let v ← loadVal p.2
    let r ← loadConf t
    PyS.pure ((p.1, v) :: r)

/-- simulation.py l.157-161: `json.load` of a text that is no JSON raises a `ValueError`. -/
def loadFile (fs : Files) (f : String) : PyS K (Option Conf) :=
  match dget fs f with
  | none => PyS.raise (.exception "FileNotFoundError")
  | some .broken => PyS.raise .valueError
  | some (.json none) => PyS.pure none
  | some (.json (some j)) => do
    let c ← loadConf j
    PyS.pure (some c)

variable [Field K] [LinearOrder K]

/-- simulation.py l.95-204 `setConfigurations` with the name of a file.  A file that says `null` gives `None`, in which nothing can be looked up
(l.200). -/
def setConfigurationsFile (i : SRef) (kw : Conf) (f : String) (fs : Files) : PyS K Unit := do
  let a ← PyS.lift (bindArgs kw)
  let c ← loadFile fs f
  match c with
  | some c => setConfigurations i kw (some c) none
  | none => do
    let n ← PyS.lift (dgetE a "number_parameters_to_optimize")
    if n = .num 0 ∨ n = .bool false then do
      let o ← PyS.getSim i
      PyS.setSim i { o with conf := none }
    else PyS.raise .typeError

end

/-! ## Plots -/

section
variable {K : Type} [Inhabited K]

/-- Data to be drawn: a name, a list of names, or arrays. -/
inductive PlotArg (K : Type) where
  | name (s : String)
  | names (l : List String)
  | arrays (l : List (List K))
  deriving DecidableEq, Repr

/-- A curve. -/
structure Curve (K : Type) where
  x : List K
  y : List K
  label : String
  marker : Option String := none
  deriving DecidableEq, Repr

/-- plotter.py l.43-50 and l.54-62: reading from a domain under its first independent variable; every exception becomes a `ValueError`. -/
def readDomain (d : DomainObj K) (l : List String) : Except Err (List (List K)) :=
  match d.indep with
  | [] => .error .valueError
  | i :: _ =>
    match d.getItem [i] l with
    | .ok r => .ok r
    | .error _ => .error .valueError

/-- Items that are not read from a domain. -/
inductive PlotData (K : Type) where
  | arrays (l : List (List K))
  /-- this many texts -/
  | texts (n : Nat)

/-- plotter.py l.41-50. -/
def plotX (data : Option (DomainObj K)) : PlotArg K → Except Err (PlotData K)
  | .arrays l => .ok (.arrays l)
  | .names l => .ok (.texts l.length)
  | .name s => match data with
    | some d => do
      let r ← readDomain d [s]
      .ok (.arrays r)
    | none => .ok (.texts s.length)

/-- plotter.py l.52-62; the empty list is a list of texts. -/
def plotY (data : Option (DomainObj K)) : PlotArg K → Except Err (PlotData K)
  | .arrays [] => match data with
    | some d => do
      let r ← readDomain d []
      .ok (.arrays r)
    | none => .ok (.arrays [])
  | .arrays l => .ok (.arrays l)
  | .names l => match data with
    | some d => do
      let r ← readDomain d l
      .ok (.arrays r)
    | none => .ok (.texts l.length)
  | .name s => .ok (.texts s.length)

/-- `labels[j]`, `markers[j]`: `None` has no items. -/
def itemOf (l : Option (List String)) (j : Nat) : Except Err String :=
  match l with
  | none => .error .typeError
  | some l => match l[j]? with
    | some s => .ok s
    | none => .error .indexError

/-- plotter.py l.64, 71: the marker, if there are any. -/
def markerOf (l : Option (List String)) (j : Nat) : Except Err (Option String) :=
  match l with
  | none => .ok none
  | some l => do
    let s ← itemOf (some l) j
    .ok (some s)

/-- plotter.py l.69-77 and l.84-90: one curve.  `matplotlib` refuses data of different lengths, and `min` of nothing raises. -/
def curve (labels markers : Option (List String)) (x y : List K) (j : Nat) : Except Err (Curve K) := do
  let m ← markerOf markers j
  let s ← itemOf labels j
  if x.length ≠ y.length ∨ x = [] then .error .valueError
  else .ok { x, y, label := s, marker := m }

/-- plotter.py l.66-90: the two loops. -/
def curves (labels markers : Option (List String)) (xs ys : List (List K)) : Except Err (List (Curve K)) := do
  let l ← xs.mapM fun x => ys.zipIdx.mapM fun y => curve labels markers x y.1 y.2
  .ok l.flatten

/-- plotter.py l.37-109 `plotTimeSeries` (simulation.py l.347-364): the curves drawn.  A text has no `reshape`.  Style, axes, legend and the file
are not modelled. -/
def plotTimeSeries [DecidableEq K] (data : Option (DomainObj K)) (labels markers : Option (List String)) (x y : PlotArg K) :
    Except Err (List (Curve K)) := do
  let xs ← plotX data x
  let ys ← plotY data y
  match xs, ys with
  | .arrays xs, .arrays ys => curves labels markers xs ys
  | .texts n, .arrays ys => if n = 0 ∨ ys = [] then .ok [] else .error .attributeError
  | .arrays xs, .texts n => if n = 0 ∨ xs = [] then .ok [] else .error .attributeError
  | .texts n, .texts k => if n = 0 ∨ k = 0 then .ok [] else .error .attributeError

end
end Sloth
