import Verif.Model.Quantity
import Verif.Model.Sym

/-!
# Expression nodes (`core/expression_evaluation.py`, `Quantity.__call__`, `core/equation_operators.py`)
-/

namespace Sloth

/-- Identity of a Python object (a quantity stored in a map). -/
abbrev Ref := Nat

/-- expression_evaluation.py l.68-71: the dictionary `equation_type`. -/
structure EqType where
  linear : Bool
  nonlinear : Bool
  differential : Bool
  deriving DecidableEq, Repr

def EqType.lin : EqType := ⟨true, false, false⟩
def EqType.nonlin : EqType := ⟨false, true, false⟩
def EqType.diff : EqType := ⟨false, false, true⟩

/-- expression_evaluation.py l.20-79 `EquationNode.__init__`.  `args` is always `[]` and not kept.
`repr_symbolic` is always a SymPy object. -/
structure ENode where
  name : String
  sym : SObj
  symMap : Dict String Ref
  varMap : Dict String Ref
  ty : EqType := .lin
  unit : UnitObj
  latex : String
  repr : Sym
  deriving DecidableEq, Repr

/-- `str(number)`.  The digits are not those of Python for non-integers; the text is only used in `name` and `latex_text`. -/
def numStr (q : Rat) : String := if q.den = 1 then toString q.num else toString q.num ++ "/" ++ toString q.den

/-- `str(symbolic_object)` of a leaf (used for the name of a derivative only): the symbol's name or the number. -/
def leafStr (q : Quantity) : String := if q.isSpecified then numStr q.value else q.name

/-- quantity.py l.107-141 `__call__`; `r` is the identity of the quantity. -/
def Quantity.call (r : Ref) (q : Quantity) : ENode :=
  if q.isSpecified = false then
    { name := q.name, sym := ⟨false, .var q.name⟩, symMap := [(q.name, r)], varMap := [(q.name, r)],
      unit := q.units, latex := q.latex, repr := .var q.name }
  else
    { name := q.name, sym := .num q.value, symMap := [(q.name, r)], varMap := [],
      unit := q.units, latex := q.latex, repr := .var q.name }

/-- expression_evaluation.py l.81-103 `_checkEquationTypePrecedence`. -/
def EqType.prec (a b : EqType) : EqType :=
  if a.differential || b.differential then .diff
  else if a.nonlinear || b.nonlinear then .nonlin
  else .lin

/-- Operand of a node operator as told apart by the `isinstance` tests. -/
inductive Opnd where
  | node (n : ENode)
  | num (q : Rat)
  | other

namespace ENode

/-- expression_evaluation.py l.150-203 `__add__`. -/
def add (a : ENode) : Opnd → Except Err ENode
  | .node b => do
    let u ← a.unit.add b.unit
    .ok { name := a.name ++ "+" ++ b.name
          sym := a.sym.add b.sym
          symMap := dupdate a.symMap b.symMap
          varMap := dupdate a.varMap b.varMap
          unit := u
          latex := a.latex ++ "+" ++ b.latex
          repr := .add a.repr b.repr
          ty := a.ty.prec b.ty }
  | .num q =>
    .ok { name := a.name ++ "+" ++ numStr q, sym := a.sym.add (.num q), symMap := a.symMap, varMap := a.varMap, unit := a.unit
          latex := a.latex ++ "+" ++ numStr q, repr := .add a.repr (.num q), ty := a.ty }
  | .other => .error .unexpectedValue

/-- expression_evaluation.py l.205-218 `__radd__`. -/
def radd (a : ENode) (o : Opnd) : Except Err ENode := a.add o

/-- expression_evaluation.py l.221-273 `__sub__`. -/
def sub (a : ENode) : Opnd → Except Err ENode
  | .node b => do
    let u ← a.unit.sub b.unit
    .ok { name := a.name ++ "-" ++ b.name
          sym := a.sym.sub b.sym
          symMap := dupdate a.symMap b.symMap
          varMap := dupdate a.varMap b.varMap
          unit := u
          latex := a.latex ++ "-" ++ b.latex
          repr := .sub a.repr b.repr
          ty := a.ty.prec b.ty }
  | .num q =>
    .ok { name := a.name ++ "-" ++ numStr q, sym := a.sym.sub (.num q), symMap := a.symMap, varMap := a.varMap, unit := a.unit
          latex := a.latex ++ "-" ++ numStr q, repr := .sub a.repr (.num q), ty := a.ty }
  | .other => .error .unexpectedValue

/-- expression_evaluation.py l.319-333 and l.420-434: class of a product or quotient. -/
def mulType (a b : ENode) : EqType :=
  if b.varMap = [] then a.ty
  else if a.varMap = [] then b.ty
  else .nonlin

/-- expression_evaluation.py l.290-374 `__mul__` (the third branch, l.353-370, is unreachable: its test is implied by the first). -/
def mul (a : ENode) : Opnd → Except Err ENode
  | .node b =>
    .ok { name := a.name ++ "*" ++ b.name
          sym := a.sym.mul b.sym
          symMap := dupdate a.symMap b.symMap
          varMap := dupdate a.varMap b.varMap
          unit := UnitObj.mulU a.unit b.unit
          latex := a.latex ++ "*" ++ b.latex
          repr := .mul a.repr b.repr
          ty := mulType a b }
  | .num q =>
    .ok { name := a.name ++ "*" ++ numStr q, sym := a.sym.mul (.num q), symMap := a.symMap, varMap := a.varMap, unit := a.unit
          latex := a.latex ++ "*" ++ numStr q, repr := .mul a.repr (.num q), ty := a.ty }
  | .other => .error .unexpectedValue

/-- expression_evaluation.py l.376-389 `__rmul__`. -/
def rmul (a : ENode) (o : Opnd) : Except Err ENode := a.mul o

/-- expression_evaluation.py l.275-288 `__rsub__`: `self*-1 + other_obj`. -/
def rsub (a : ENode) (o : Opnd) : Except Err ENode := do (← a.mul (.num (-1))).add o

/-- expression_evaluation.py l.391-474 `__div__`, which is `__truediv__` (l.491-504). -/
def div (a : ENode) : Opnd → Except Err ENode
  | .node b => do
    let s ← a.sym.div b.sym
    .ok { name := a.name ++ "/" ++ b.name
          sym := s
          symMap := dupdate a.symMap b.symMap
          varMap := dupdate a.varMap b.varMap
          unit := UnitObj.divU a.unit b.unit
          latex := "\\frac{" ++ a.latex ++ "}{" ++ b.latex ++ "}"
          repr := .div a.repr b.repr
          ty := mulType a b }
  | .num q => do
    let s ← a.sym.div (.num q)
    .ok { name := a.name ++ "/" ++ numStr q, sym := s, symMap := a.symMap, varMap := a.varMap, unit := a.unit
          latex := "\\frac{" ++ a.latex ++ "}{" ++ numStr q ++ "}", repr := .div a.repr (.num q), ty := a.ty }
  | .other => .error .unexpectedValue

/-- expression_evaluation.py l.521-580 `__pow__`. -/
def pow (a : ENode) : Opnd → Except Err ENode
  | .node b =>
    if b.unit.isDimensionless = true then do
      let s ← a.sym.pow b.sym
      let u ← a.unit.pow (.unit b.unit)
      .ok { name := a.name ++ "**" ++ b.name
            sym := s
            symMap := dupdate a.symMap b.symMap
            varMap := dupdate a.varMap b.varMap
            unit := u
            latex := a.latex ++ "^" ++ b.latex
            repr := .pow a.repr b.repr
            ty := a.ty.prec .nonlin }
    else .error .dimensionalCoherence
  | .num q => do
    let s ← a.sym.pow (.num q)
    let u ← a.unit.pow (.num q)
    .ok { name := a.name ++ "**" ++ numStr q, sym := s, symMap := a.symMap, varMap := a.varMap, unit := u
          latex := a.latex ++ "^" ++ numStr q, repr := .pow a.repr (.num q), ty := a.ty.prec .nonlin }
  | .other => .error .unexpectedValue

/-- expression_evaluation.py l.506-519 `__rtruediv__`: `(self**(-1))*other_obj`. -/
def rdiv (a : ENode) (o : Opnd) : Except Err ENode := do (← a.pow (.num (-1))).mul o

end ENode

/-! ## equation_operators.py -/

/-- equation_operators.py l.83-113: `own_func.__name__`, also the LaTeX name (l.31-33), as no call gives another. -/
def Fn.pyName : Fn → String
  | .log => "Log" | .log10 => "Log10" | .sqrt => "Sqrt" | .abs => "Abs" | .exp => "Exp" | .sin => "Sin" | .cos => "Cos" | .tan => "Tan"

/-- equation_operators.py l.20-81 `wrapper`.  For a number the node construction refers to the undefined name `args` (l.49). -/
def wrapper (f : Fn) (o : Opnd) (dimCheck : Bool := true) : Except Err ENode :=
  match o with
  | .num _ => .error .nameError
  | .node n =>
    if n.unit.isDimensionless = true ∨ dimCheck = false then
      .ok { name := f.pyName ++ "(" ++ n.name ++ ")"
            sym := ⟨false, .fn f n.sym.expr⟩
            symMap := n.symMap
            varMap := n.varMap
            unit := n.unit
            latex := f.pyName ++ "(" ++ n.latex ++ ")"
            repr := .fn f n.repr
            ty := .nonlin }
    else .error .typeError
  | .other => .error .typeError

/-- equation_operators.py l.83-113: `Log`, `Log10`, `Sqrt`, `Abs`, `Exp`, `Sin`, `Cos`, `Tan`; none passes `dim_check`. -/
def applyFn (f : Fn) (o : Opnd) : Except Err ENode := wrapper f o

/-- Argument of `Min`/`Max`. -/
inductive MArg where
  | node (n : ENode)
  | num (q : Rat)

namespace MArg
def sym : MArg → Sym
  | .node n => n.sym.expr
  | .num q => .num q
def isNum : MArg → Bool
  | .num _ => true
  | .node _ => false
def isNode (a : MArg) : Bool := !a.isNum
def nm : MArg → String
  | .node n => n.name
  | .num q => numStr q
def symMap : MArg → Dict String Ref
  | .node n => n.symMap
  | .num _ => []
def varMap : MArg → Dict String Ref
  | .node n => n.varMap
  | .num _ => []
def unit? : MArg → Option UnitObj
  | .node n => some n.unit
  | .num _ => none
end MArg

/-- `sp.Min(*l)`/`sp.Max(*l)` for a non-empty list. -/
def mmSym (isMax : Bool) (a : Sym) (l : List Sym) : Sym := l.foldl (.mm isMax) a

/-- equation_operators.py l.115-212 `Min` and l.214-310 `Max`, for at least one argument.
With node arguments only, the test `the_unit == obj[0].unit_object` (l.187, l.285) compares a *node* with a unit and
`EquationNode.__eq__` raises `UnexpectedValueError`; so this branch never returns.
`repr_symbolic` is built from the `symbolic_object`s (l.209, l.307). -/
def minMax (isMax : Bool) (a : MArg) (l : List MArg) : Except Err ENode := do
  let args := a :: l
  let u ← if args.all MArg.isNum then .ok Tmpl.dimless
    else if args.all MArg.isNode then .error .unexpectedValue
    else match args.filterMap MArg.unit? with
      | u :: _ => .ok u
      | [] => .error .indexError
  .ok { name := (if isMax then "max" else "min") ++ "\\right (" ++ pyJoin "" (args.map MArg.nm) ++ ")"
        sym := ⟨false, mmSym isMax a.sym (l.map MArg.sym)⟩
        symMap := args.foldl (fun m x => dupdate m x.symMap) []
        varMap := args.foldl (fun m x => dupdate m x.varMap) []
        unit := u
        latex := (if isMax then "max" else "min") ++ "\\right )"
        repr := mmSym isMax a.sym (l.map MArg.sym) }

/-- equation_operators.py l.312-368 `_Diff`, called from variable.py l.118-130 `Variable.Diff` only (so the branch for objects without
`Diff`, l.320-333, is not reached).  `sp.Derivative(number, t)` is represented by its value 0; differentiating with respect
to a specified quantity makes SymPy raise `ValueError`; without independent variable SymPy differentiates with respect to
the symbol itself. -/
def diffNode (r : Ref) (x : Quantity) (ind : Option (Ref × Quantity)) : Except Err ENode := do
  let o := x.call r
  let (s, rp, u) ← match ind with
    | none =>
      .ok ((⟨false, if x.isSpecified then .num 0 else .atom (.d x.name x.name)⟩ : SObj), Sym.atom (.d x.name x.name), Tmpl.dimless)
    | some (_, t) =>
      if t.isSpecified then .error .valueError
      else .ok (⟨false, if x.isSpecified then .num 0 else .atom (.d x.name t.name)⟩, .atom (.d x.name t.name), UnitObj.divU o.unit t.units)
  .ok { name := "Diff(" ++ leafStr x ++ ")"
        sym := s
        symMap := o.symMap
        varMap := o.varMap
        unit := u
        latex := "Diff(" ++ leafStr x ++ ")"
        repr := rp
        ty := .diff }

/-- variable.py l.118-130 `Variable.Diff`. -/
def Quantity.diff (r : Ref) (x : Quantity) (ind : Option (Ref × Quantity)) : Except Err ENode :=
  if x.hasDomain then diffNode r x ind else .error .absentRequiredObject

/-! ## Expressions as written by a user -/

/-- Arithmetic operators. -/
inductive BOp where
  | add | sub | mul | div | pow
  deriving DecidableEq, Repr

/-- Python expressions over quantities and numbers. -/
inductive PyExpr where
  /-- `q()` -/
  | q (r : Ref) (x : Quantity)
  /-- node op node -/
  | bin (op : BOp) (a b : PyExpr)
  /-- node op number -/
  | binN (op : BOp) (a : PyExpr) (n : Rat)
  /-- number op node -/
  | nbin (op : BOp) (n : Rat) (a : PyExpr)
  /-- `Log(node)` ... -/
  | fn (f : Fn) (a : PyExpr)
  /-- `Min(node, number)`, `Max(node, number)` -/
  | mmN (isMax : Bool) (a : PyExpr) (n : Rat)
  /-- `x.Diff(t)` -/
  | diff (r : Ref) (x : Quantity) (ind : Option (Ref × Quantity))

/-- Python's dispatch of `node op operand`. -/
def ENode.op (a : ENode) : BOp → Opnd → Except Err ENode
  | .add, o => a.add o
  | .sub, o => a.sub o
  | .mul, o => a.mul o
  | .div, o => a.div o
  | .pow, o => a.pow o

/-- Python's dispatch of `number op node`: the reflected method; there is no `__rpow__`. -/
def ENode.rop (a : ENode) : BOp → Rat → Except Err ENode
  | .add, n => a.radd (.num n)
  | .sub, n => a.rsub (.num n)
  | .mul, n => a.rmul (.num n)
  | .div, n => a.rdiv (.num n)
  | .pow, _ => .error .typeError

/-- Evaluation of a Python expression by the operators above, operands left to right. -/
def PyExpr.build : PyExpr → Except Err ENode
  | .q r x => .ok (x.call r)
  | .bin op a b => do
    let m ← a.build
    let n ← b.build
    m.op op (.node n)
  | .binN op a n => do (← a.build).op op (.num n)
  | .nbin op n a => do (← a.build).rop op n
  | .fn f a => do applyFn f (.node (← a.build))
  | .mmN isMax a n => do minMax isMax (.node (← a.build)) [.num n]
  | .diff r x ind => x.diff r ind

end Sloth
