import Verif.Spec.Stmt

/-!
# The heap of a session

Models, equations and quantities are mutable Python objects shared between models, problems and solvers.  They live in a heap; a
reference is an index.  A Python call is a function on the heap that also returns it when an exception escapes, so that
half-done updates stay visible.
-/

namespace Sloth

/-- Identity of an equation object. -/
abbrev ERef := Nat
/-- Identity of a model object. -/
abbrev MRef := Nat
/-- Identity of a `ports` dictionary. -/
abbrev PRef := Nat

/-- What a model attribute created by a declaration refers to. -/
inductive Attr where
  | qty (r : Ref)
  | eqn (e : ERef)
  deriving DecidableEq, Repr

/-! ## Model classes written by a user -/

/-- A quantity as it is written in the body of a model: `self.attr`, or `obj.attr` for another model. -/
structure APath where
  model : Option MRef := none
  attr : String
  deriving DecidableEq, Repr

/-- Expressions in the body of a model. -/
inductive AExpr where
  /-- `self.attr()` -/
  | q (p : APath)
  | bin (op : BOp) (a b : AExpr)
  | binN (op : BOp) (a : AExpr) (n : Rat)
  | nbin (op : BOp) (n : Rat) (a : AExpr)
  | fn (f : Fn) (a : AExpr)
  | mmN (isMax : Bool) (a : AExpr) (n : Rat)
  /-- `self.x.Diff(self.t)` -/
  | diff (x : APath) (t : Option APath)
  deriving DecidableEq, Repr

/-- Third argument of `createEquation` in the body of a model. -/
inductive AStmt where
  | eqn (l r : AExpr)
  | eqnNum (l : AExpr) (q : Rat)
  | res (e : AExpr)
  deriving DecidableEq, Repr

/-- First argument of `setValue` in the body of a model. -/
inductive AVal where
  | float (x : Rat)
  | int (x : Int)
  | qty (p : APath)
  | other
  deriving DecidableEq, Repr

/-- Arguments of `createVariable` (model.py l.667).  `exposed` is the truth of `is_exposed == True`.  The arguments
`is_lower_bounded`, `is_upper_bounded` are ignored by `Variable`. -/
structure VarArgs where
  name : String
  units : UnitObj
  description : String := ""
  lower : Option Rat := none
  upper : Option Rat := none
  exposed : Bool := false
  vtype : String := ""
  latex : String := ""
  value : Rat := 0
  deriving DecidableEq, Repr

/-- Arguments of `createParameter` and `createConstant` (model.py l.755, 788). -/
structure ParArgs where
  name : String
  units : UnitObj
  description : String := ""
  value : Rat := 0
  latex : String := ""
  deriving DecidableEq, Repr

/-- Statements in the body of a user's `DeclareConstants`, `DeclareParameters`, `DeclareVariables`, `DeclareEquations`.  A body is a
straight line of them; branching on constructor arguments is done by the Lean function that builds the list. -/
inductive Cmd where
  /-- `self.attr = self.createVariable(...)` -/
  | var (attr : String) (a : VarArgs)
  /-- `self.attr = self.createParameter(...)` -/
  | par (attr : String) (a : ParArgs)
  /-- `self.attr = self.createConstant(...)` -/
  | con (attr : String) (a : ParArgs)
  /-- `self.attr = self.createEquation(name, description, stmt, check_equation=check)` -/
  | eqn (attr name description : String) (st : AStmt) (check : Bool)
  /-- `self.attr.setValue(v, unit)` -/
  | setValue (p : APath) (v : AVal) (unit : Option UnitObj)
  /-- `self.attr.distributeOnDomain(domain)` -/
  | distribute (p : APath)
  /-- a statement that raises whatever the state is, for instance by using a name that is not bound -/
  | fail (e : Err)
  deriving DecidableEq, Repr

/-- The four methods a model class overrides (model.py l.871-885). -/
structure Body where
  cons : List Cmd := []
  pars : List Cmd := []
  vars : List Cmd := []
  eqns : List Cmd := []
  deriving DecidableEq, Repr

/-! ## Objects -/

/-- model.py l.135-215: attributes of a model.  Not kept: `property_package`, `parameter_arrays` (never filled, see
`createParameterArray`), `connections` (never filled), `objects_info`, the warning flags.  `attrs` are the attributes assigned by
declarations; an attribute that overwrites one of the model's own (`name`, `variables`, ...) is not modelled. -/
structure ModelObj where
  name : String
  description : String := ""
  body : Body := {}
  vars : Dict String Ref := []
  pars : Dict String Ref := []
  cons : Dict String Ref := []
  eqns : Dict String ERef := []
  expIn : List Ref := []
  expOut : List Ref := []
  inlets : List MRef := []
  ports : PRef := 0
  attrs : Dict String Attr := []
  deriving DecidableEq, Repr

/-- A `ports` dictionary: its entry `'inlets'` (`'outlets'` is never used by `Model`). -/
abbrev Ports := Dict String (List MRef)

/-- equation_block.py l.17-55 `EquationBlock.__init__` and what `__call__` (l.303-317) computes.  `equationsList` is the attribute
`_equations_list` of expressions handed to an algebraic solver.  `linearTail`: the entries of the linear group that are not equations but
lists of equations (see `daeSystem` in Model/Solver.lean); they follow the equations `linear`. -/
structure Block where
  equations : List ERef
  variableDict : Dict String Ref
  parameterDict : Dict String Ref
  linear : List ERef := []
  nonlinear : List ERef := []
  differential : List ERef := []
  linearTail : List (List ERef) := []
  varList : List String := []
  equationsList : List SObj := []
  deriving DecidableEq, Repr

/-- problem.py l.36-70: attributes of a problem.  `initial` values are numbers. -/
structure ProblemObj where
  name : String := ""
  models : Dict String MRef := []
  connections : Dict String ERef := []
  variableDict : Dict String Ref := []
  parameterDict : Dict String Ref := []
  initial : Dict String Rat := []
  timeName : Option (List String) := none
  equationList : Option (List ERef) := none
  block : Option Block := none
  deriving DecidableEq, Repr

/-- The heap: quantities, equations, models, `ports` dictionaries, the problem under construction (one; another problem over the same models
would be another value of this field) and the counters of `gen_rnd_str` in equation.py and problem.py (one thread). -/
structure World where
  qs : List Quantity := []
  es : List EqObj := []
  ms : List ModelObj := []
  ps : List Ports := [[]]
  pr : ProblemObj := {}
  uid : Uid := none
  puid : Uid := none
  deriving DecidableEq, Repr

/-- The interpreter after importing the package: the only `ports` dictionary is the default argument of
`Model.__init__` (model.py l.135), index 0. -/
def World.init : World := {}

/-! ## Calls -/

/-- A Python call. -/
def PyM (α : Type) : Type := World → Except Err α × World

namespace PyM

protected def pure {α : Type} (a : α) : PyM α := fun w => (.ok a, w)

protected def bind {α β : Type} (x : PyM α) (f : α → PyM β) : PyM β := fun w =>
  match x w with
  | (.ok a, w') => f a w'
  | (.error e, w') => (.error e, w')

instance : Monad PyM where
  pure := PyM.pure
  bind := PyM.bind

/-- `raise` -/
def raise {α : Type} (e : Err) : PyM α := fun w => (.error e, w)

/-- A computation without effect on the heap. -/
def lift {α : Type} (x : Except Err α) : PyM α := fun w => (x, w)

/-- `for x in l: f(x)` -/
def each {α : Type} : List α → (α → PyM Unit) → PyM Unit
  | [], _ => PyM.pure ()
  | a :: t, f => PyM.bind (f a) fun _ => each t f

/-- `[f(x) for x in l]` -/
def collect {α β : Type} : List α → (α → PyM β) → PyM (List β)
  | [], _ => PyM.pure []
  | a :: t, f => PyM.bind (f a) fun b => PyM.bind (collect t f) fun bs => PyM.pure (b :: bs)

/-- Reading an object; a reference is never dangling (`World.WF`). -/
def getQ (r : Ref) : PyM Quantity := fun w =>
  match w.qs[r]? with
  | some q => (.ok q, w)
  | none => (.error (.exception "dangling"), w)

def getE (r : ERef) : PyM EqObj := fun w =>
  match w.es[r]? with
  | some q => (.ok q, w)
  | none => (.error (.exception "dangling"), w)

def getM (r : MRef) : PyM ModelObj := fun w =>
  match w.ms[r]? with
  | some q => (.ok q, w)
  | none => (.error (.exception "dangling"), w)

def getP (r : PRef) : PyM Ports := fun w =>
  match w.ps[r]? with
  | some q => (.ok q, w)
  | none => (.error (.exception "dangling"), w)

def getPr : PyM ProblemObj := fun w => (.ok w.pr, w)

/-- Writing an object. -/
def setQ (r : Ref) (q : Quantity) : PyM Unit := fun w => (.ok (), { w with qs := w.qs.set r q })
def setE (r : ERef) (e : EqObj) : PyM Unit := fun w => (.ok (), { w with es := w.es.set r e })
def setM (r : MRef) (m : ModelObj) : PyM Unit := fun w => (.ok (), { w with ms := w.ms.set r m })
def setP (r : PRef) (p : Ports) : PyM Unit := fun w => (.ok (), { w with ps := w.ps.set r p })
def setPr (p : ProblemObj) : PyM Unit := fun w => (.ok (), { w with pr := p })

/-- Creating an object. -/
def newQ (q : Quantity) : PyM Ref := fun w => (.ok w.qs.length, { w with qs := w.qs ++ [q] })
def newE (e : EqObj) : PyM ERef := fun w => (.ok w.es.length, { w with es := w.es ++ [e] })
def newM (m : ModelObj) : PyM MRef := fun w => (.ok w.ms.length, { w with ms := w.ms ++ [m] })
def newP (p : Ports) : PyM PRef := fun w => (.ok w.ps.length, { w with ps := w.ps ++ [p] })

/-- equation.py l.17-23 `gen_rnd_str()`, called when `b`; otherwise no call. -/
def tagIf (b : Bool) : PyM String := fun w =>
  if b then (.ok (genRndStr w.uid).1, { w with uid := (genRndStr w.uid).2 }) else (.ok "", w)

/-- problem.py l.22-28 `gen_rnd_str()` (its own counter), called when `b`. -/
def ptagIf (b : Bool) : PyM String := fun w =>
  if b then (.ok (genRndStr w.puid).1, { w with puid := (genRndStr w.puid).2 }) else (.ok "", w)

end PyM
end Sloth
