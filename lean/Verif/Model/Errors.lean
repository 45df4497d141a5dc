import Verif.Model.Node

/-!
# Error objects and their messages (`src/sloth/core/error_definitions.py`)

The rest of the model only keeps the class of an exception (`Err`).  Here the exceptions are objects with their
attributes, the functions that refuse for dimensions are given again with the object they raise, and `print` is `str(error)`.
-/

namespace Sloth

/-- The argument of a `%s`: a text, or a tuple of texts, which `%` takes apart (`(self.expected_type)` is no tuple of one). -/
inductive MsgArg where
  | text (s : String)
  | tuple (l : List String)
  deriving DecidableEq, Repr

/-- The errors of error_definitions.py with their attributes.  The names of l.13-19 and the texts of l.35-37 are given as texts.
`none` is the default `""` of l.52 and `None` in l.149, l.154. -/
inductive ErrObj where
  /-- l.5-25 -/
  | exposed (m1 m2 : List String) (output input : String)
  /-- l.27-43 -/
  | undeclared (objects declared : String)
  /-- l.46-66 -/
  | absent (expected : MsgArg) (supplied : Option MsgArg := none)
  /-- l.69-83 -/
  | unexpected (expected : MsgArg)
  /-- l.85-99 -/
  | panic (msg : String)
  /-- l.101-120 -/
  | numerical (msg : String)
  /-- l.124-140 -/
  | nonDimensional (u : UnitObj)
  /-- l.142-167 -/
  | incoherent (u v : Option UnitObj)
  /-- l.169-185 -/
  | unitOp (port : String) (n : Nat) (elem : List String)
  deriving DecidableEq, Repr

/-- `format % arg` where the format has one `%s` between `a` and `b`. -/
def percent (a b : String) : MsgArg → Except Err String
  | .text s => .ok (a ++ s ++ b)
  | .tuple [s] => .ok (a ++ s ++ b)
  | .tuple _ => .error .typeError

/-- `str` of a list of texts. -/
def listText (l : List String) : String := "[" ++ pyJoin ", " (l.map fun s => "'" ++ s ++ "'") ++ "]"

/-- `str(u.dimension)`. -/
def dimText (d : Dict String Rat) : String := "{" ++ pyJoin ", " (d.map fun p => "'" ++ p.1 ++ "': " ++ numStr p.2) ++ "}"

/-- l.149-157: for `None` the attribute is a plain dictionary, which has no attribute `dimension` (l.162, l.164). -/
def unitText : Option UnitObj → Except Err String
  | some u => .ok (dimText u.dim)
  | none => .error .attributeError

/-- `str(error)`: the methods `__str__` of error_definitions.py.  `UnitOperationError.__str__` (l.183-185) returns nothing, which `str` refuses. -/
def ErrObj.print : ErrObj → Except Err String
  | .exposed m1 m2 o i => .ok ("Non-exposed variable declaration in the output model(1) \n " ++ listText m1 ++ " \n and/or input model(2) \n " ++ listText m2 ++
      ". \n The declared output variable name is " ++ o ++ ", and the input variable name is " ++ i ++ ".")
  | .undeclared o d => .ok ("Unexpected object declaration error. \n The following objects were used: " ++ o ++
      " \n But the following objects were declared for the current model. \n " ++ d)
  | .absent e s => do
    let msg ← percent "Absent required object error. A " " was expected, but no one was supplied." e
    match s with
    | none => .ok msg
    | some s => do .ok (msg ++ (← percent " Supplied object was: " "" s))
  | .unexpected e => percent "Unexpected value error. A " " was expected, but one divergent type was supplied." e
  | .panic m => .ok ("Unresolved Panic Error." ++ m ++ "\n This should not have ocurrred. \n Perhaps you should debug your code.")
  | .numerical m => .ok (if m = "" then "NumericalError." ++ m ++ "\n This should not have ocurrred. \n " else m)
  | .nonDimensional u => .ok ("A dimensionless argument was expected \n" ++ dimText u.dim)
  | .incoherent u v => do
    let a ← unitText u
    let b ← unitText v
    .ok ("Dimensions are incoherent \n(" ++ a ++ "\n != \n" ++ b ++ ").")
  | .unitOp _ _ _ => .error .typeError

/-- The class of an error object. -/
def ErrObj.kind : ErrObj → Err
  | .exposed .. => .exposedVariable
  | .undeclared .. => .unexpectedObjectDeclaration
  | .absent .. => .absentRequiredObject
  | .unexpected _ => .unexpectedValue
  | .panic _ => .unresolvedPanic
  | .numerical _ => .numerical
  | .nonDimensional _ => .exception "NonDimensionalArgumentError"
  | .incoherent .. => .dimensionalCoherence
  | .unitOp .. => .exception "UnitOperationError"

/-- What is raised: an object of the package, or an exception of Python or SymPy, with its message where the package gives one. -/
inductive Raised where
  | obj (e : ErrObj)
  | py (e : Err) (msg : Option String := none)
  deriving DecidableEq, Repr

def Raised.kind : Raised → Err
  | .obj e => e.kind
  | .py e _ => e

/-- `str(error)`; the message of an exception of Python or SymPy is not modelled unless the package gives it. -/
def Raised.print : Raised → Except Err String
  | .obj e => e.print
  | .py _ msg => .ok (msg.getD "")

/-- An exception of Python or SymPy passes through. -/
def passOn {α : Type} : Except Err α → Except Raised α
  | .ok a => .ok a
  | .error e => .error (.py e)

namespace UnitObj

/-- unit.py l.120-141 `__add__` and l.143-164 `__sub__` with the object raised in l.139, l.162. -/
def sumR (u v : UnitObj) : Except Raised UnitObj := do
  if (← passOn (checkCoherence u v)) = true then .ok u else .error (.obj (.incoherent (some u) (some v)))

end UnitObj

/-- quantity.py l.73-105 `setValue` with the objects raised in l.89 and l.105 (and parameter.py l.71, 88; constant.py l.85, 102). -/
def Quantity.setValueR (self : Quantity) (v : SVArg) (unit : Option UnitObj := none) : Except Raised Quantity :=
  let refused : Raised := .obj (.unexpected (.text "(Quantity, float, int)"))
  match v with
  | .qty q =>
    if q.kind.isInstanceOf self.kind then do
      let ok ← match unit with
        | none => passOn (q.units.checkCoherence self.units)
        | some _ => .ok false
      if ok = true then .ok { self with value := q.value, isSpecified := true }
      else .error (.obj (.incoherent (some self.units) (some q.units)))
    else .error refused
  | .float x => .ok { self with value := x, isSpecified := true }
  | .int x =>
    match unit with
    | none => .ok { self with value := x, isSpecified := true }
    | some u => do
      if (← passOn (u.checkCoherence self.units)) = true then .ok { self with value := x, isSpecified := true }
      else .error refused
  | .other => .error refused

/-- expression_evaluation.py l.203, 273, 374, 474, 580. -/
def refusedOperand : Raised := .obj (.unexpected (.text "(int, float, EquationNode)"))

/-- expression_evaluation.py: the operators with the objects raised.  Sums and differences pass on what the units raise (l.174, l.246); a power with a node that
is not dimensionless gives `None` as second unit (l.560). -/
def ENode.opR (a : ENode) (op : BOp) (o : Opnd) : Except Raised ENode :=
  match o with
  | .other => .error refusedOperand
  | .num _ => passOn (a.op op o)
  | .node b =>
    match op with
    | .add | .sub => do
      let _ ← a.unit.sumR b.unit
      passOn (a.op op o)
    | .pow => if b.unit.isDimensionless = true then passOn (a.op op o) else .error (.obj (.incoherent (some b.unit) none))
    | _ => passOn (a.op op o)

/-- equation_operators.py l.20-81 with the messages of l.75 and l.81. -/
def applyFnR (f : Fn) : Opnd → Except Raised ENode
  | .node n =>
    if n.unit.isDimensionless = true then passOn (applyFn f (.node n))
    else .error (.py .typeError (some ("A dimensionless argument was expected \n " ++ dimText n.unit.dim)))
  | .other => .error (.py .typeError (some "Unexpected value error. A (int, float, EquationNode) was expected, but one divergent type was supplied."))
  | .num q => passOn (applyFn f (.num q))

/-- variable.py l.118-130 with the object raised in l.130. -/
def Quantity.diffR (r : Ref) (x : Quantity) (ind : Option (Ref × Quantity)) : Except Raised ENode :=
  if x.hasDomain then passOn (diffNode r x ind) else .error (.obj (.absent (.text "Domain")))

/-- Evaluation of a Python expression with the objects raised. -/
def PyExpr.buildR : PyExpr → Except Raised ENode
  | .q r x => .ok (x.call r)
  | .bin op a b => do
    let m ← a.buildR
    let n ← b.buildR
    m.opR op (.node n)
  | .binN op a n => do (← a.buildR).opR op (.num n)
  | .nbin op n a => do
    let m ← a.buildR
    passOn (m.rop op n)
  | .fn f a => do applyFnR f (.node (← a.buildR))
  | .mmN isMax a n => do
    let m ← a.buildR
    passOn (minMax isMax (.node m) [.num n])
  | .diff r x ind => x.diffR r ind

end Sloth
