import Verif.Model.World

/-!
# Models (`src/sloth/model.py`)
-/

namespace Sloth
open PyM

/-- `s[:-n]` for `n ≥ 1`. -/
def pyDropEnd (s : String) (n : Nat) : String := String.ofList (s.toList.take (s.toList.length - n))

/-- `if b: x` -/
def PyM.when (b : Bool) (x : PyM Unit) : PyM Unit := if b then x else PyM.pure ()

/-- `try: x; except: raise e` -/
def PyM.rethrow {α : Type} (x : PyM α) (e : Err) : PyM α := fun w =>
  match x w with
  | (.ok a, w') => (.ok a, w')
  | (.error _, w') => (.error e, w')

namespace ModelObj

/-- model.py l.334-338: the names `_checkEquation_` accepts. -/
def declared (m : ModelObj) : List String := dkeys m.vars ++ dkeys m.pars ++ dkeys m.cons

/-- model.py l.330-350 `_checkEquation_`; `objects_declared` is `None` after `setResidual` alone, then `.keys()` raises. -/
def checkEquation (m : ModelObj) (e : EqObj) : Except Err Unit :=
  match e.objects with
  | none => .error .attributeError
  | some d => if (dkeys d).all (fun k => m.declared.contains k) then .ok () else .error .unexpectedObjectDeclaration

end ModelObj

/-- model.py l.135-215 `Model.__init__` with the given `ports` dictionary (`none`: the default argument, one dictionary shared by
all models).  (The `try: len(self.variables)` guards, which keep dictionaries a subclass assigned before, are not modelled.) -/
def newModel (name description : String) (body : Body) (ports : Option PRef) : PyM MRef := do
  let _ ← getP (ports.getD 0)
  newM { name, description, body, ports := ports.getD 0 }

/-- `self.__dict__[attr] = v` / `self.attr = v` -/
def setAttr (m : MRef) (attr : String) (v : Attr) : PyM Unit := do
  let mo ← getM m
  setM m { mo with attrs := dset mo.attrs attr v }

/-- model.py l.713-715: `self.exposed_vars[type].append(var)`; the dictionary has the keys `'input'`, `'output'` (l.162). -/
def expose (m : MRef) (mo : ModelObj) (r : Ref) (vtype : String) : PyM Unit :=
  if vtype = "input" then setM m { mo with expIn := mo.expIn ++ [r] }
  else if vtype = "output" then setM m { mo with expOut := mo.expOut ++ [r] }
  else raise .keyError

/-- model.py l.667-717 `createVariable`: the variable is stored before the exposure list is looked up. -/
def createVariable (m : MRef) (a : VarArgs) : PyM Ref := do
  let mo ← getM m
  let q := mkVariable (a.name ++ "_" ++ mo.name) a.units a.description a.lower a.upper a.value a.exposed a.vtype
    (if a.latex = "" then a.name else a.latex) mo.name
  let r ← newQ q
  let mo := { mo with vars := dset mo.vars q.name r }
  setM m mo
  PyM.when a.exposed (expose m mo r a.vtype)
  PyM.pure r

/-- model.py l.755-786 `createParameter`. -/
def createParameter (m : MRef) (a : ParArgs) : PyM Ref := do
  let mo ← getM m
  let q := mkParameter (a.name ++ "_" ++ mo.name) a.units a.description a.value (if a.latex = "" then a.name else a.latex) false mo.name
  let r ← newQ q
  setM m { mo with pars := dset mo.pars q.name r }
  PyM.pure r

/-- model.py l.788-819 `createConstant`. -/
def createConstant (m : MRef) (a : ParArgs) : PyM Ref := do
  let mo ← getM m
  let q := mkConstant (a.name ++ "_" ++ mo.name) a.units a.description a.value (if a.latex = "" then a.name else a.latex) false mo.name
  let r ← newQ q
  setM m { mo with cons := dset mo.cons q.name r }
  PyM.pure r

/-- model.py l.719-753 `createParameterArray`: the class name is not imported, the call always raises `NameError`. -/
def createParameterArray (_m : MRef) (_a : ParArgs) : PyM Ref := raise .nameError

/-- Does building the equation ask for a generated name for a numeric side? -/
def ResArg.needsTag : Option ResArg → Bool
  | some (.eqnNum _ _) => true
  | _ => false

/-- model.py l.822-866 `createEquation`.  `expr` is already evaluated.  (The object exists before it is checked, but nothing refers to
it when the check fails.) -/
def createEquation (m : MRef) (name description : String) (expr : Option ResArg) (check : Bool := true) : PyM ERef := do
  let mo ← getM m
  let tag ← tagIf (name == "")
  let tag' ← tagIf (ResArg.needsTag expr)
  let e ← lift (EqObj.init tag tag' name description expr mo.name)
  let e ← lift ({ e with name := e.name ++ "_" ++ mo.name }).sweep
  PyM.when check (lift (mo.checkEquation e))
  let r ← newE e
  setM m { mo with eqns := dset mo.eqns e.name r }
  PyM.pure r

/-! ## Incorporation of another model -/

/-- model.py l.408-414 (and l.445, 478, 511): the declared name is the full name without the owner's suffix. -/
def objectName (name owner : String) : String := if owner = "" then name else pyDropEnd name (1 + owner.length)

/-- model.py l.416-417 (and l.453, 486, 519). -/
def newName (rewrite : Bool) (name owner self : String) : String :=
  if rewrite then objectName name owner ++ "_" ++ self else name

/-- model.py l.396-431 `_addVariableDirectly`.  For an exposed variable l.427 looks up the *builtin* `type` in the exposure dictionary:
`KeyError`, after the variable is stored.  A deep copy of the variable's domain is not modelled. -/
def addVariableDirectly (m : MRef) (rewrite : Bool) (r : Ref) : PyM Unit := do
  let mo ← getM m
  let q ← getQ r
  let q' := { q with name := newName rewrite q.name q.owner mo.name, owner := mo.name }
  let r' ← newQ q'
  setM m { mo with vars := dset mo.vars q'.name r' }
  PyM.when q.isExposed (raise .keyError)
  setAttr m (objectName q.name q.owner) (.qty r')

/-- model.py l.433-464 `_addParameterDirectly`. -/
def addParameterDirectly (m : MRef) (rewrite : Bool) (r : Ref) : PyM Unit := do
  let mo ← getM m
  let q ← getQ r
  let q' := { q with name := newName rewrite q.name q.owner mo.name, owner := mo.name }
  let r' ← newQ q'
  setM m { mo with pars := dset mo.pars q'.name r' }
  setAttr m (objectName q.name q.owner) (.qty r')

/-- model.py l.466-497 `_addConstantDirectly`. -/
def addConstantDirectly (m : MRef) (rewrite : Bool) (r : Ref) : PyM Unit := do
  let mo ← getM m
  let q ← getQ r
  let q' := { q with name := newName rewrite q.name q.owner mo.name, owner := mo.name }
  let r' ← newQ q'
  setM m { mo with cons := dset mo.cons q'.name r' }
  setAttr m (objectName q.name q.owner) (.qty r')

/-- model.py l.499-536 `_addEquationDirectly` (always called with `rewrite_symbolic_representation` true).  The deep copy also copies the
quantities in `variable_map`; that map keeps its references here. -/
def addEquationDirectly (m : MRef) (names : Dict String String) (whole : Dict String Ref) (rewrite : Bool) (r : ERef) : PyM Unit := do
  let mo ← getM m
  let e ← getE r
  let e' ← lift ({ e with name := newName rewrite e.name e.owner mo.name, owner := mo.name }.convert names whole)
  let r' ← newE e'
  setM m { mo with eqns := dset mo.eqns e'.name r' }
  setAttr m (objectName e.name e.owner) (.eqn r')

/-- The keyword arguments of `incorporateFromExternalModel` (model.py l.352; `incorporate_ports` does nothing). -/
structure IncFlags where
  vars : Bool := true
  pars : Bool := true
  cons : Bool := true
  eqns : Bool := true
  rewrite : Bool := true
  deriving DecidableEq, Repr

/-- model.py l.374-382: the renaming table; it cuts the *source model's* name off every key. -/
def namesMap (src : ModelObj) (self : String) : Dict String String :=
  dofList ((dkeys src.vars ++ dkeys src.pars ++ dkeys src.cons).map fun k => (k, pyDropEnd k (1 + src.name.length) ++ "_" ++ self))

/-- model.py l.386-392: constants, then parameters, then variables. -/
def wholeMap (mo : ModelObj) : Dict String Ref := dupdate (dupdate (dupdate [] mo.cons) mo.pars) mo.vars

/-- model.py l.352-394 `incorporateFromExternalModel`. -/
def incorporate (m src : MRef) (fl : IncFlags := {}) : PyM Unit := do
  let s ← getM src
  PyM.when fl.vars (each (dvalues s.vars) (addVariableDirectly m fl.rewrite))
  let s ← getM src
  PyM.when fl.pars (each (dvalues s.pars) (addParameterDirectly m fl.rewrite))
  let s ← getM src
  PyM.when fl.cons (each (dvalues s.cons) (addConstantDirectly m fl.rewrite))
  let s ← getM src
  let mo ← getM m
  PyM.when fl.eqns (each (dvalues s.eqns) (addEquationDirectly m (namesMap s mo.name) (wholeMap mo) fl.rewrite))

/-! ## Inlets -/

/-- model.py l.572-588 `_setInlets` with a list (a single model is treated like a list of one): the new streams are appended to the
port's list, then the lists of *all* ports of the dictionary are appended to the model's inlets. -/
def setInlets (m : MRef) (inlets : List MRef) (inletName : String := "in") : PyM Unit := do
  let mo ← getM m
  let p ← getP mo.ports
  let p := dset p inletName ((dget p inletName).getD [] ++ inlets)
  setP mo.ports p
  setM m { mo with inlets := mo.inlets ++ (dvalues p).flatten }

/-! ## Connections -/

/-- `",".join(x.name for x in l)` -/
def joinNames (l : List Quantity) : String := pyJoin "," (l.map Quantity.name)

/-- connection.py l.12-41 and model.py l.594-645 `_createConnection`: the equation is stated twice (by the constructor and explicitly);
`name`, `description` and `out_model` are ignored; the key carries no model name. -/
def createModelConnection (m : MRef) (outs ins : List Ref) (expr : ResArg) : PyM ERef := do
  let mo ← getM m
  let qo ← collect outs getQ
  let qi ← collect ins getQ
  PyM.when (!(qi.all (fun q => q.kind == .variable) && qo.all (fun q => q.kind == .variable))) (raise .unexpectedValue)
  let name := joinNames qo ++ "--->" ++ joinNames qi
  let t ← tagIf (ResArg.needsTag (some expr))
  let e ← lift (EqObj.init "" t name ("[" ++ joinNames qo ++ "--->" ++ joinNames qi ++ "]") (some expr))
  let t ← tagIf (ResArg.needsTag (some expr))
  let _ ← lift (e.setResidual t expr).1
  let e ← lift (e.setResidual t expr).2.sweep
  let r ← newE e
  setM m { mo with eqns := dset mo.eqns name r }
  PyM.pure r

/-! ## The body of a model -/

/-- `obj.attr` for a quantity attribute of a model. -/
def World.lookup (w : World) (self : MRef) (p : APath) : Except Err (Ref × Quantity) :=
  match w.ms[p.model.getD self]? with
  | none => .error (.exception "dangling")
  | some mo =>
    match dget mo.attrs p.attr with
    | none => .error .attributeError
    | some (.eqn _) => .error .typeError
    | some (.qty r) =>
      match w.qs[r]? with
      | none => .error (.exception "dangling")
      | some q => .ok (r, q)

/-- The attributes of an expression looked up, in the order of evaluation.  (Python interleaves looking up and operating; only which of
two exceptions is raised first depends on it.) -/
def AExpr.toPy (w : World) (self : MRef) : AExpr → Except Err PyExpr
  | .q p => do
    let x ← w.lookup self p
    .ok (.q x.1 x.2)
  | .bin op a b => do
    let x ← a.toPy w self
    let y ← b.toPy w self
    .ok (.bin op x y)
  | .binN op a n => do .ok (.binN op (← a.toPy w self) n)
  | .nbin op n a => do .ok (.nbin op n (← a.toPy w self))
  | .fn f a => do .ok (.fn f (← a.toPy w self))
  | .mmN k a n => do .ok (.mmN k (← a.toPy w self) n)
  | .diff x none => do
    let x ← w.lookup self x
    .ok (.diff x.1 x.2 none)
  | .diff x (some t) => do
    let x ← w.lookup self x
    let t ← w.lookup self t
    .ok (.diff x.1 x.2 (some t))

/-- The same for a statement. -/
def AStmt.toStmt (w : World) (self : MRef) : AStmt → Except Err Stmt
  | .eqn l r => do
    let x ← l.toPy w self
    let y ← r.toPy w self
    .ok (.eqn x y)
  | .eqnNum l q => do .ok (.eqnNum (← l.toPy w self) q)
  | .res e => do .ok (.res (← e.toPy w self))

/-- Evaluation of a statement in the body of a model. -/
def AStmt.eval (self : MRef) (st : AStmt) : PyM ResArg := fun w => (st.toStmt w self >>= Stmt.arg, w)

/-- `obj.attr` in the body of a model. -/
def lookupM (self : MRef) (p : APath) : PyM (Ref × Quantity) := fun w => (w.lookup self p, w)

/-- Evaluation of the argument of `setValue`. -/
def AVal.eval (self : MRef) : AVal → PyM SVArg
  | .float x => PyM.pure (.float x)
  | .int x => PyM.pure (.int x)
  | .qty p => do
    let x ← lookupM self p
    PyM.pure (.qty x.2)
  | .other => PyM.pure .other

/-- quantity.py l.73-105 `setValue` on a stored quantity. -/
def setValueM (r : Ref) (v : SVArg) (unit : Option UnitObj) : PyM Unit := do
  let q ← getQ r
  let q ← lift (q.setValue v unit)
  setQ r q

/-- variable.py l.103-116 `distributeOnDomain`, as far as the variable is concerned. -/
def distributeM (r : Ref) : PyM Unit := do
  let q ← getQ r
  setQ r { q with hasDomain := true }

/-- One statement of a body. -/
def Cmd.run (m : MRef) : Cmd → PyM Unit
  | .var attr a => do
    let r ← createVariable m a
    setAttr m attr (.qty r)
  | .par attr a => do
    let r ← createParameter m a
    setAttr m attr (.qty r)
  | .con attr a => do
    let r ← createConstant m a
    setAttr m attr (.qty r)
  | .eqn attr name description st check => do
    let a ← st.eval m
    let r ← createEquation m name description (some a) check
    setAttr m attr (.eqn r)
  | .setValue p v unit => do
    let x ← lookupM m p
    let v ← v.eval m
    setValueM x.1 v unit
  | .distribute p => do
    let x ← lookupM m p
    distributeM x.1
  | .fail e => raise e

/-! ## Totalization of inlets -/

/-- model.py l.30-58: `if not hasattr(main_model, attr): main_model.attr = main_model.createVariable(...)`. -/
def ensureInlet (m : MRef) (attr description : String) (units : UnitObj) (latex : String) : PyM Unit := do
  let mo ← getM m
  PyM.when (dget mo.attrs attr == none)
    (Cmd.run m (.var attr { name := attr, units, description, exposed := true, vtype := "input", latex }))

/-- model.py l.71 and 77: `[stream.attr() for stream in inlets]`. -/
def inletNodes (attr : String) (l : List MRef) : PyM (List ENode) :=
  collect l fun s => do
    let x ← lookupM s { attr }
    PyM.pure (x.2.call x.1)

/-- model.py l.73 and 79: fixes the incorporated stream quantity at the value it has now. -/
def fixInlets (m : MRef) (attr : String) (l : List MRef) : PyM Unit :=
  each l fun s => do
    let x ← lookupM s { attr }
    let n ← lift ((x.2.call x.1).sub (.num x.2.value))
    let _ ← createEquation m ("eq_" ++ attr ++ "_" ++ x.2.name) "" (some (.node n))
    PyM.pure ()

/-- `Min(*nodes)` (an empty list does not occur). -/
def minNodes : List ENode → Except Err ENode
  | [] => .error .typeError
  | a :: t => minMax false (.node a) (t.map .node)

/-- model.py l.85-95: `in - Min(*nodes)` as an equation of the model.  (The description, which names the model, is left out: `Min` of nodes always
raises, see C18, so the equation is never created.) -/
def totalizeMin (m : MRef) (attr : String) (ns : List ENode) (stored : String) : PyM Unit := do
  let x ← lookupM m { attr := attr ++ "_in" }
  let k ← lift (minNodes ns)
  let d ← lift ((x.2.call x.1).sub (.node k))
  let r ← createEquation m ("totalization_" ++ attr) "" (some (.node d))
  setAttr m stored (.eqn r)

/-- model.py l.66-95. -/
def totalizeBody (m : MRef) (inlets : List MRef) : PyM Unit := do
  let ps ← inletNodes "P" inlets
  fixInlets m "P" inlets
  let ts ← rethrow (inletNodes "T" inlets) .absentRequiredObject
  rethrow (fixInlets m "T" inlets) .absentRequiredObject
  totalizeMin m "P" ps "tot_p"
  totalizeMin m "T" ts "tot_T"

/-- model.py l.22-95 `_totalizeInletsFunction_genericMaterialStreams` (printing left out). -/
def totalizeInlets (m : MRef) : PyM Unit := do
  ensureInlet m "P_in" "p_in" Tmpl.Pa "{P}_{in}"
  ensureInlet m "T_in" "T_in" Tmpl.K "{T}_{in}"
  ensureInlet m "mdot_in" "mdot_in" (UnitObj.divU Tmpl.kg Tmpl.s) "\\dot{m}_{in}"
  ensureInlet m "ndot_in" "ndot_in" (UnitObj.divU Tmpl.mol Tmpl.s) "\\dot{n}_{in}"
  ensureInlet m "H_in" "H_in" (UnitObj.divU Tmpl.J Tmpl.mol) "{H}_{in}"
  let mo ← getM m
  each mo.inlets fun s => incorporate m s { eqns := false, rewrite := false }
  let mo ← getM m
  let p ← getP mo.ports
  PyM.when (!p.isEmpty) (totalizeBody m mo.inlets)

/-- model.py l.546-570 `__call__` with the default totalization function; the warnings are not modelled. -/
def Model.call (m : MRef) : PyM Unit := do
  let mo ← getM m
  each mo.body.cons (Cmd.run m)
  each mo.body.pars (Cmd.run m)
  each mo.body.vars (Cmd.run m)
  let mo ← getM m
  PyM.when (!mo.inlets.isEmpty) (totalizeInlets m)
  each mo.body.eqns (Cmd.run m)

end Sloth
