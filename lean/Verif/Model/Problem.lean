import Verif.Model.Model

/-!
# Problems (`src/sloth/problem.py`), equation blocks (`core/equation_block.py`), degrees of freedom (`analysis.py`)
-/

namespace Sloth
open PyM

/-! ## Equation blocks -/

namespace Block

/-- equation_block.py l.65-69: the equations of one type, in order. -/
def group (es : List EqObj) (k : EqKind) (l : List ERef) : List ERef :=
  l.filter fun r => match es[r]? with
    | some e => e.type == some k
    | none => false

/-- equation_block.py l.57-75 `_assignEquationGroups`. -/
def assignGroups (es : List EqObj) (b : Block) : Block :=
  { b with linear := group es .linear b.equations, nonlinear := group es .nonlinear b.equations,
           differential := group es .differential b.equations, linearTail := [] }

/-- equation_block.py l.17-55 `__init__`. -/
def mk' (es : List EqObj) (eqs : List ERef) (vd pd : Dict String Ref) : Block :=
  assignGroups es { equations := eqs, variableDict := vd, parameterDict := pd }

/-- equation_block.py l.231-249 `_getEquationList`. -/
def getEquationList (es : List EqObj) (form : Option EqForm) (side : EqObj.Side) : List ERef → Except Err (List SObj)
  | [] => .ok []
  | r :: t => do
    let s ← match es[r]? with
      | some e => e.symbolicObject form side
      | none => .error (.exception "dangling")
    let l ← getEquationList es form side t
    .ok (s :: l)

/-- equation_block.py l.303-317 `__call__`: `_getEquationList()` is called without arguments, i.e. every equation in its own form, right
side. -/
def call (es : List EqObj) (b : Block) : Except Err Block := do
  let l ← getEquationList es none .rhs b.equations
  .ok (assignGroups es { b with varList := dkeys b.variableDict, equationsList := l })

/-- equation_block.py l.77-83 `_convertDifferentialEquationsToResidualForm`.  Nothing in the package calls it.  Simplification: when the subtraction raises,
the type that `_convertToResidualForm` has just read again is not stored. -/
def convertDifferential (b : Block) : PyM Unit :=
  each b.differential fun r => do
    let e ← getE r
    if e.form = .residual then PyM.pure ()
    else do
      let e ← lift e.toResidualForm
      setE r e

end Block

/-! ## Problems -/

/-- problem.py l.78-84 `setTimeVariableName`; `names` is the argument, already a list. -/
def setTimeVariableName (names : List String) : PyM Unit := do
  let p ← getPr
  setPr { p with timeName := some names }

/-- problem.py l.86-95 `setInitialConditions`. -/
def setInitialConditions (c : Dict String Rat) : PyM Unit := do
  let p ← getPr
  setPr { p with initial := dupdate p.initial c }

/-- Argument of `addModels`: a model or a list of such arguments. -/
inductive MTree where
  | leaf (m : MRef)
  | list (l : List MTree)

/-- problem.py l.374-378: one model. -/
def addModel (m : MRef) : PyM Unit := do
  let mo ← getM m
  let p ← getPr
  setPr { p with models := dset p.models mo.name m, variableDict := dupdate p.variableDict mo.vars,
                 parameterDict := dupdate p.parameterDict mo.pars }

mutual
/-- problem.py l.353-378 `addModels`. -/
def addModels : MTree → PyM Unit
  | .leaf m => addModel m
  | .list l => addModelsList l
/-- problem.py l.368: the comprehension over a list. -/
def addModelsList : List MTree → PyM Unit
  | [] => PyM.pure ()
  | t :: ts => do
    addModels t
    addModelsList ts
end

/-- problem.py l.97-130 `_getProblemType`. -/
inductive ProblemKind where
  | linear | nonlinear | differential | dae
  deriving DecidableEq, Repr

/-- problem.py l.97-130 `_getProblemType`; without equations `None`. -/
def Block.problemType (b : Block) : Option ProblemKind :=
  let l := !b.linear.isEmpty || !b.linearTail.isEmpty
  let n := !b.nonlinear.isEmpty
  let d := !b.differential.isEmpty
  if d && (!l && !n) then some .differential
  else if d && (l || n) then some .dae
  else if !d && n then some .nonlinear
  else if !d && (!n && l) then some .linear
  else none

/-- State of the loop in problem.py l.144-181: equations, seen variables, seen parameters, and the names of the latter two. -/
structure Gather where
  eqs : List ERef := []
  vars : List Ref := []
  varNames : List String := []
  pars : List Ref := []
  parNames : List String := []
  deriving DecidableEq, Repr

/-- problem.py l.165-181: one object. -/
def Gather.obj (qs : List Quantity) (g : Gather) (r : Ref) : Except Err Gather :=
  match qs[r]? with
  | none => .error (.exception "dangling")
  | some q =>
    if g.vars.contains r = false ∧ q.kind = .variable then
      .ok { g with vars := g.vars ++ [r], varNames := g.varNames ++ [q.name] }
    else if g.pars.contains r = false ∧ q.kind = .parameter then
      .ok { g with pars := g.pars ++ [r], parNames := g.parNames ++ [q.name] }
    else .ok g

/-- problem.py l.161-181: one equation. -/
def Gather.eqn (w : World) (g : Gather) (r : ERef) : Except Err Gather :=
  match w.es[r]? with
  | none => .error (.exception "dangling")
  | some e =>
    match e.objects with
    | none => .error .attributeError
    | some d => (dvalues d).foldlM (Gather.obj w.qs) { g with eqs := g.eqs ++ [r] }

/-- problem.py l.159: one model. -/
def Gather.model (w : World) (g : Gather) (m : MRef) : Except Err Gather :=
  match w.ms[m]? with
  | none => .error (.exception "dangling")
  | some mo => (dvalues mo.eqns).foldlM (Gather.eqn w) g

/-- problem.py l.132-194 `_buildEquationBlock`.  (`_equation_list`, which only this function uses, is not kept when it raises.) -/
def buildEquationBlock : PyM Unit := fun w =>
  match (dvalues w.pr.models).foldlM (Gather.model w) {} with
  | .error e => (.error e, w)
  | .ok g =>
    let vd := w.pr.variableDict.filter fun p => g.varNames.contains p.1
    let pd := w.pr.parameterDict.filter fun p => g.parNames.contains p.1
    (.ok (), { w with pr := { w.pr with equationList := some g.eqs, block := some (Block.mk' w.es g.eqs vd pd) } })

/-- problem.py l.307-319 `_reloadModels` without argument. -/
def reloadModels : PyM Unit := do
  let p ← getPr
  each (dvalues p.models) Model.call

/-- problem.py l.390: `self.equation_block()`. -/
def callBlock : PyM Unit := fun w =>
  match w.pr.block with
  | none => (.error .typeError, w)
  | some b =>
    match b.call w.es with
    | .error e => (.error e, w)
    | .ok b => (.ok (), { w with pr := { w.pr with block := some b } })

/-- problem.py l.380-390 `resolve`. -/
def resolve : PyM Unit := do
  reloadModels
  buildEquationBlock
  callBlock

/-! ## Connections -/

/-- Second or third argument of `createConnection`. -/
inductive ConnArg where
  | var (r : Ref)
  | list (l : List Ref)
  | node (n : ENode)

/-- First argument of `createConnection`. -/
inductive ConnSrc where
  | model (m : MRef)
  | str (s : String)
  | other

/-- problem.py l.216-230 `x in exposed`.  Quantities compare by identity; comparing a quantity with a node calls `EquationNode.__eq__`,
which raises `UnexpectedValueError`. -/
def ConnArg.exposedIn (l : List Ref) : ConnArg → Except Err Bool
  | .var r => .ok (l.contains r)
  | .list rs => .ok (rs.all fun r => l.contains r)
  | .node _ => if l.isEmpty then .ok false else .error .unexpectedValue

/-- error_definitions.py l.11-19 `ExposedVariableError.__init__` reads `.name` of both arguments, which a list does not have. -/
def exposedError : ConnArg → ConnArg → Err
  | .list _, _ | _, .list _ => .attributeError
  | _, _ => .exposedVariable

/-- problem.py l.239-253: the argument as a list (nodes do not get here: `exposedIn` is never true for them). -/
def ConnArg.refs : ConnArg → List Ref
  | .var r => [r]
  | .list l => l
  | .node _ => []

/-- Python's `sum` of nodes: starts with the number 0.  `none`: the number 0. -/
def sumNodes : List ENode → Except Err (Option ENode)
  | [] => .ok none
  | a :: t => do
    let x ← a.radd (.num 0)
    let y ← t.foldlM (fun acc b => acc.add (.node b)) x
    .ok (some y)

/-- problem.py l.257: `sum(...) - sum(...)`. -/
def sumDiff : Option ENode → Option ENode → Except Err ResArg
  | some a, some b => do .ok (.node (← a.sub (.node b)))
  | some a, none => do .ok (.node (← a.sub (.num 0)))
  | none, some b => do .ok (.node (← b.rsub (.num 0)))
  | none, none => .ok .other

/-- problem.py l.255-257: the default expression. -/
def connExpr (ins outs : List Ref) : Option ResArg → PyM ResArg
  | some a => PyM.pure a
  | none => do
    let ni ← collect ins fun r => do
      let q ← getQ r
      PyM.pure (q.call r)
    let no ← collect outs fun r => do
      let q ← getQ r
      PyM.pure (q.call r)
    let a ← lift (sumNodes ni)
    let b ← lift (sumNodes no)
    lift (sumDiff a b)

/-- problem.py l.289-305 `_createDirectConnection`. -/
def createDirectConnection (outModel : MRef) (outs : List Ref) (inModel : MRef) (ins : List Ref) (expr : ResArg) : PyM Unit := do
  let qo ← collect outs getQ
  let qi ← collect ins getQ
  let r ← createModelConnection inModel outs ins expr
  let mo ← getM outModel
  let mi ← getM inModel
  let p ← getPr
  let key := joinNames qo ++ "@" ++ mo.name ++ " ---> " ++ joinNames qi ++ "@" ++ mi.name
  setPr { p with connections := dset p.connections key r }

/-- problem.py l.226-230: whether the attribute `exposed_vars` of the source is not read: `all` of an empty list. -/
def ConnArg.isEmptyList : ConnArg → Bool
  | .list [] => true
  | _ => false

/-- problem.py l.214-269: variables are connected.  A source which is not a model has no `exposed_vars`; with an empty list of output
variables these are only missed if the inputs are not exposed (l.269), otherwise the connection is made before `out_model.name` (l.303)
raises. -/
def connectVars (src : ConnSrc) (m2 : MRef) (outs ins : ConnArg) (expr : Option ResArg) : PyM Unit :=
  match src with
  | .model m1 => do
    let mi ← getM m2
    let bi ← lift (ins.exposedIn mi.expIn)
    let mo ← getM m1
    let bo ← lift (outs.exposedIn mo.expOut)
    PyM.when (!(bo && bi)) (raise (exposedError outs ins))
    let e ← connExpr ins.refs outs.refs expr
    createDirectConnection m1 outs.refs m2 ins.refs e
  | _ => do
    let mi ← getM m2
    let bi ← lift (ins.exposedIn mi.expIn)
    PyM.when (!(outs.isEmptyList && bi)) (raise .attributeError)
    let e ← connExpr ins.refs outs.refs expr
    let _ ← createModelConnection m2 outs.refs ins.refs e
    raise .attributeError

/-- problem.py l.273-286: the text standing for the source. -/
def ConnSrc.text : ConnSrc → PyM String
  | .str s => do
    let t ← ptagIf (s == "")
    PyM.pure (if s = "" then t else s)
  | .model m => do
    let mo ← getM m
    PyM.pure mo.name
  | .other => raise .absentRequiredObject

/-- problem.py l.271-286: an equation between two expressions is given to the receiving model. -/
def connectNodes (src : ConnSrc) (m2 : MRef) (out inn : ENode) : PyM Unit := do
  let s ← src.text
  let mi ← getM m2
  let d ← lift (inn.sub (.node out))
  let _ ← createEquation m2 ("conn_" ++ s ++ "-->" ++ mi.name) ("Connection from " ++ s ++ " to " ++ mi.name) (some (.node d)) false
  PyM.pure ()

/-- problem.py l.196-286 `createConnection`. -/
def createConnection (src : ConnSrc) (m2 : MRef) (outs ins : ConnArg) (expr : Option ResArg := none) : PyM Unit :=
  match outs, ins with
  | .node o, .node i => connectNodes src m2 o i
  | _, _ => connectVars src m2 outs ins expr

/-! ## Degrees of freedom -/

/-- What SymPy says about an expression: the texts `sp.srepr(a)` for `a` in `expr.args`.  A Python number has no `args`
(the exception is swallowed, equation_block.py l.275-281). -/
abbrev SRepr := SObj → List String

/-- Does the list occur as a contiguous part? -/
def isInfix (a : List Char) : List Char → Bool
  | [] => a.isEmpty
  | c :: t => a.isPrefixOf (c :: t) || isInfix a t

/-- `a in b` for Python strings. -/
def pyIn (a b : String) : Bool := isInfix a.toList b.toList

/-- equation_block.py l.283-295: one member.  Only a list of names is modelled here; see `timeDeclared` for `None`. -/
def memberDeclares (names : List String) (member : String) : Bool :=
  names.any fun v => pyIn v member && !pyIn "Derivative" member

/-- equation_block.py l.275-281: the members of an equation in its own form, right side. -/
def members (sr : SRepr) (es : List EqObj) (r : ERef) : List String :=
  match es[r]? with
  | none => []
  | some e => match e.symbolicObject with
    | .ok s => sr s
    | .error _ => []

/-- equation_block.py l.251-301 `_hasVarBeenDeclared(time_variable_name, "differential")`.  For `None` the test `None in text` raises
`TypeError` as soon as there is a member. -/
def timeDeclared (sr : SRepr) (es : List EqObj) (b : Block) : Option (List String) → Except Err Bool
  | some names => .ok (b.differential.any fun r => (members sr es r).any (memberDeclares names))
  | none => if b.differential.all (fun r => (members sr es r).isEmpty) then .ok false else .error .typeError

/-- analysis.py l.47-49: the number of parameters not specified. -/
def unspecParams (qs : List Quantity) (pd : Dict String Ref) : Nat :=
  ((dvalues pd).filter fun r => match qs[r]? with
    | some q => !q.isSpecified
    | none => false).length

/-- The verdict of the DOF test. -/
inductive Dof where
  | ok | over | under
  deriving DecidableEq, Repr

/-- analysis.py l.87-105. -/
def dofVerdict (nVars nUnspec nEqs : Nat) : Dof :=
  let n : Int := (nVars : Int) + nUnspec - nEqs
  if n < 0 then .over else if n > 0 then .under else .ok

/-- analysis.py l.41-105 `_dofTest`. -/
def dofTest (sr : SRepr) : PyM Unit := fun w =>
  match w.pr.block with
  | none => (.error .attributeError, w)
  | some b =>
    match timeDeclared sr w.es b w.pr.timeName with
    | .error e => (.error e, w)
    | .ok t =>
      match dofVerdict b.varList.length (unspecParams w.qs b.parameterDict) (b.equationsList.length + (if t then 1 else 0)) with
      | .ok => (.ok (), w)
      | .over => (.error (.exception "OVER"), w)
      | .under => (.error (.exception "UNDER"), w)

end Sloth
