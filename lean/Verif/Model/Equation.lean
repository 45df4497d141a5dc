import Verif.Model.Node
import Verif.Spec.Eval

/-!
# Equations (`core/equation.py`, `connection.py`)
-/

namespace Sloth

/-! ## Operations of SymPy used by equations -/

/-- Replacement of one symbol in an atom.  (`Derivative(x, t).subs(x, x')` is `Derivative(x', t)`, likewise for `t`.) -/
def Atom.ren (f : String → String) : Atom → Atom
  | .v n => .v (f n)
  | .d x t => .d (f x) (f t)

/-- Renaming of symbols. -/
def Sym.ren (f : String → String) : Sym → Sym
  | .num q => .num q
  | .atom a => .atom (a.ren f)
  | .add a b => .add (a.ren f) (b.ren f)
  | .sub a b => .sub (a.ren f) (b.ren f)
  | .mul a b => .mul (a.ren f) (b.ren f)
  | .div a b => .div (a.ren f) (b.ren f)
  | .pow a b => .pow (a.ren f) (b.ren f)
  | .fn g a => .fn g (a.ren f)
  | .mm k a b => .mm k (a.ren f) (b.ren f)

/-- The function replacing one name. -/
def ren1 (old new : String) (s : String) : String := if s = old then new else s

/-- `expr.subs(names)` for a dictionary of symbol names: SymPy replaces the keys *one after the other*, sorted by name
(not simultaneously). -/
def Sym.subsNames (names : Dict String String) (e : Sym) : Sym :=
  (psorted (fun a b => strLe a.1 b.1) names).foldl (fun e p => e.ren (ren1 p.1 p.2)) e

/-- `expr.free_symbols` as names, in order of first occurrence (SymPy gives a set; the order is immaterial).  For
`Derivative(x, t)` it is `{x}`: differentiation variables are not counted. -/
def Sym.free : Sym → List String
  | .num _ => []
  | .atom (.v n) => [n]
  | .atom (.d x _) => [x]
  | .add a b | .sub a b | .mul a b | .div a b | .pow a b | .mm _ a b => a.free ++ b.free
  | .fn _ a => a.free

/-- Does a derivative occur? -/
def Sym.hasD : Sym → Bool
  | .num _ | .atom (.v _) => false
  | .atom (.d _ _) => true
  | .add a b | .sub a b | .mul a b | .div a b | .pow a b | .mm _ a b => a.hasD || b.hasD
  | .fn _ a => a.hasD

/-! ## Equation objects -/

/-- equation.py l.118-132: the values of `type`. -/
inductive EqKind where
  | linear | nonlinear | differential
  deriving DecidableEq, Repr

/-- equation.py l.66, 227, 376: `equation_form`. -/
inductive EqForm where
  | residual | elementary
  deriving DecidableEq, Repr

/-- equation.py l.31-76: the attributes of an equation.  `residual` (always `None`) and the two name attributes of
`connection.Connection` (connection.py l.39-41) are not kept.  `rhsPy` says that `repr_symbolic` of the right node is a
Python number (l.367-370). -/
structure EqObj where
  name : String
  description : String := ""
  owner : String := ""
  expr : Option ENode := none
  elem : Option (ENode × ENode) := none
  rhsPy : Bool := false
  form : EqForm := .residual
  type : Option EqKind := none
  objects : Option (Dict String Ref) := some []
  deriving DecidableEq, Repr

/-- Argument of `setResidual`: what `lhs == rhs` (expression_evaluation.py l.129-148) or an expression evaluates to. -/
inductive ResArg where
  /-- `(node, node)` -/
  | eqn (l r : ENode)
  /-- `(node, number)` -/
  | eqnNum (l : ENode) (q : Rat)
  /-- a tuple starting with a node and ending with neither node nor number -/
  | eqnOther (l : ENode)
  /-- a node -/
  | node (n : ENode)
  /-- anything else -/
  | other

namespace EqObj

/-- equation.py l.112-132 `_getTypeFromExpression`, the part after attribute access. -/
def kindOf (t : EqType) : Option EqKind :=
  if t.linear = true then some .linear
  else if t.nonlinear = true then some .nonlinear
  else if t.differential = true then some .differential
  else none

/-- equation.py l.106-132 `_getTypeFromExpression`; `None.equation_type` raises `AttributeError`. -/
def getType (e : EqObj) : Except Err EqObj :=
  match e.expr with
  | some n => .ok { e with type := kindOf n.ty }
  | none => .error .attributeError

/-- equation.py l.204-213 `_sweepObjects` (it returns `None`). -/
def sweep (e : EqObj) : Except Err EqObj :=
  match e.expr with
  | some n => .ok { e with objects := some n.symMap }
  | none => .error .attributeError

/-- equation.py l.367-370: the node standing for a numeric right-hand side; `tag` is the text of `gen_rnd_str()`. -/
def numNode (tag : String) (q : Rat) (u : UnitObj) : ENode :=
  { name := "constant" ++ tag, sym := .num q, symMap := [], varMap := [], unit := u, latex := "", repr := .num q }

/-- equation.py l.378-380 and l.388-390: `self.objects_declared = self._sweepObjects()` first stores the map and then
overwrites it with the returned `None`; then the type is read. -/
def finish (e : EqObj) : Except Err Unit × EqObj :=
  match e.expr with
  | some n => (.ok (), { e with objects := none, type := kindOf n.ty })
  | none => (.error .attributeError, e)

/-- equation.py l.341-394 `setResidual`.  `tag` is the text `gen_rnd_str()` returns if it is called.  The object is returned also when an
exception is raised, as the attributes are assigned one by one. -/
def setResidual (tag : String) (e : EqObj) : ResArg → Except Err Unit × EqObj
  | .eqn l r =>
    let e := { e with elem := some (l, r), rhsPy := false }
    match l.sub (.node r) with
    | .error x => (.error x, e)
    | .ok d => finish { e with expr := some d, form := .elementary }
  | .eqnNum l q =>
    let c := numNode tag q l.unit
    let e := { e with elem := some (l, c), rhsPy := true }
    match l.sub (.node c) with
    | .error x => (.error x, e)
    | .ok d => finish { e with expr := some d, form := .elementary }
  | .eqnOther _ => finish { e with form := .elementary }
  | .node n => finish { e with expr := some n }
  | .other => (.error .unexpectedValue, e)

/-- equation.py l.31-76 `__init__`; `tag` is the generated name used when `name` is empty, `tag'` the one for a numeric side.
An exception of `setResidual` leaves no object behind. -/
def init (tag tag' : String) (name description : String) (fast : Option ResArg) (owner : String := "") : Except Err EqObj :=
  let e : EqObj := { name := if name = "" then tag else name, description }
  match fast with
  | none => .ok { e with owner }
  | some a =>
    match setResidual tag' e a with
    | (.ok _, e) => .ok { e with owner }
    | (.error x, _) => .error x

/-- Side of an equation. -/
inductive Side where
  | lhs | rhs
  deriving DecidableEq, Repr

/-- equation.py l.134-167 `_getSymbolicObject` (and l.169-202 `_getSymbolicMap`, which reads another attribute of the same node):
the node whose attribute is returned. -/
def getNode (e : EqObj) (form : Option EqForm := none) (side : Side := .rhs) : Except Err ENode :=
  match form.getD e.form with
  | .residual => match e.expr with
    | some n => .ok n
    | none => .error .attributeError
  | .elementary => match e.elem with
    | some (l, r) => .ok (match side with | .lhs => l | .rhs => r)
    | none => .error .typeError

/-- equation.py l.134-167 `_getSymbolicObject`. -/
def symbolicObject (e : EqObj) (form : Option EqForm := none) (side : Side := .rhs) : Except Err SObj := do
  .ok (← e.getNode form side).sym

/-- equation.py l.215-227 `_convertToResidualForm`. -/
def toResidualForm (e : EqObj) : Except Err EqObj := do
  let e ← e.getType
  if e.type = some .differential ∧ e.form ≠ .residual then
    match e.elem with
    | some (l, r) => do
      let d ← l.sub (.node r)
      .ok { e with expr := some d, form := .residual }
    | none => .error .typeError
  else .ok e

/-- equation.py l.412-426 / l.248-262: choice of the node in `eval` and `_convertToFunction`. -/
def sideNode (e : EqObj) : Option Side → Except Err ENode
  | none => match e.expr with
    | some n => .ok n
    | none => .error .attributeError
  | some s => match e.elem with
    | some (l, r) => .ok (match s with | .lhs => l | .rhs => r)
    | none => .error .absentRequiredObject

/-- equation.py l.78-103 `__call__`: the stored expression, or one of the two sides, counted from either end; any other index is refused.  A residual
form without expression gives `None`. -/
def call (e : EqObj) (i : Int := 1) : Except Err (Option ENode) :=
  match e.form with
  | .residual => .ok e.expr
  | .elementary => match e.elem with
    | none => .error .unexpectedValue
    | some (l, r) => if i = 0 ∨ i = -2 then .ok (some l) else if i = 1 ∨ i = -1 then .ok (some r) else .error .unexpectedValue

/-- equation.py l.264-272: the argument names of the compiled function. -/
def functionKeys (e : EqObj) : Option (List String) → Except Err (List String)
  | some ks => .ok ks
  | none => match e.expr with
    | some m => .ok (dkeys m.symMap)
    | none => .error .attributeError

/-- equation.py l.229-278 `_convertToFunction` with `sp.lambdify` as evaluation: the compiled function takes its arguments in the
order of the keys.  `keys` is `symbolic_map.keys()` when a map is given.  A call with another number of arguments raises
`TypeError`; the numerical back end is an arbitrary interpretation.  A name outside the keys is left free in
the generated code, so that using it raises `NameError`; so does a derivative.  `known` are the modules SymPy can write code for; for another
`compilation_mechanism` it raises `NameError`. -/
def asFunction {K : Type} [Field K] [LinearOrder K] (known : String → Bool) (I : Interp K) (e : EqObj) (keys : Option (List String))
    (side : Option Side) (mechanism : String := "llvm") : Except Err (List K → Except Err (Option K)) := do
  let n ← e.sideNode side
  let ks ← e.functionKeys keys
  if !known mechanism then .error .nameError
  else .ok fun xs =>
    if xs.length = ks.length then
      if n.sym.expr.hasD = false ∧ ∀ s ∈ n.sym.expr.free, s ∈ ks then
        .ok (n.sym.expr.eval I fun a => match a with
          | .v s => (dget (ks.zip xs) s).getD 0
          | .d _ _ => 0)
      else .error .nameError
    else .error .typeError

/-- equation.py l.323-337: the maps rebuilt from the free symbols. -/
def mapOf (whole : Dict String Ref) (l : List String) : Except Err (Dict String Ref) := do
  .ok (dofList (← l.mapM fun k => do .ok (k, ← dgetE whole k)))

/-- `symbolic_object.subs(names)`; a Python number has no `subs`. -/
def subsObj (names : Dict String String) (s : SObj) : Except Err SObj :=
  if s.isPy then .error .attributeError else .ok ⟨false, s.expr.subsNames names⟩

/-- equation.py l.307-321: the same inside `try ... except: pass`. -/
def subsObjQuiet (names : Dict String String) (s : SObj) : SObj :=
  if s.isPy then s else ⟨false, s.expr.subsNames names⟩

/-- equation.py l.299-331: the elementary form. -/
def convertElem (names : Dict String String) (whole : Dict String Ref) (rhsPy : Bool) :
    Option (ENode × ENode) → Except Err (Option (ENode × ENode))
  | none => .ok none
  | some (l, r) =>
    if rhsPy then .error .attributeError
    else do
      let l := { l with repr := l.repr.subsNames names, sym := subsObjQuiet names l.sym }
      let r := { r with repr := r.repr.subsNames names, sym := subsObjQuiet names r.sym }
      let ml ← mapOf whole l.repr.free
      let mr ← mapOf whole r.repr.free
      .ok (some ({ l with symMap := ml }, { r with symMap := mr }))

/-- equation.py l.295-339: what is done with the residual node. -/
def convertNode (e : EqObj) (names : Dict String String) (whole : Dict String Ref) (n : ENode) : Except Err EqObj := do
  let s ← subsObj names n.sym
  let elem ← convertElem names whole e.rhsPy e.elem
  let m ← mapOf whole (n.repr.subsNames names).free
  sweep { e with expr := some { n with repr := n.repr.subsNames names, sym := s, symMap := m }, elem := elem }

/-- equation.py l.280-339 `_convertEquationSymbolicExpression`.  It is only called on a private copy, which is dropped when an
exception is raised.  `variable_map` and `name`/`latex_text` are not updated by the code. -/
def convert (e : EqObj) (names : Dict String String) (whole : Dict String Ref) : Except Err EqObj :=
  match e.expr with
  | some n => convertNode e names whole n
  | none => .error .attributeError

end EqObj

/-! ## Generated names -/

/-- equation.py l.15-23 (problem.py l.20-28 is the same text): one thread's view, `threading.local`.  `none`: the thread has not
called the function yet. -/
abbrev Uid := Option Nat

/-- equation.py l.17-23 `gen_rnd_str`, run without interruption: only component 1 (the counter) of the pair is printed. -/
def genRndStr (u : Uid) : String × Uid :=
  let n := u.getD 0 + 1
  (Nat.repr n, some n)

/-- Program points of `gen_rnd_str`, equation.py l.17-23. -/
inductive Pc where
  /-- l.19 `if getattr(_uid, "uid", None) is None` -/
  | test
  /-- l.20 `_uid.tid = ...` -/
  | setTid
  /-- l.21 `_uid.uid = 0` -/
  | setUid
  /-- l.22, reading `_uid.uid` -/
  | load
  /-- l.22, writing `_uid.uid` -/
  | store (n : Nat)
  /-- l.23, reading both attributes and returning -/
  | ret
  deriving DecidableEq, Repr

/-- A thread: its program point and its own copy of the attributes of `_uid` (`threading.local`). -/
structure Thr where
  pc : Pc := .test
  tid : Option Nat := none
  uid : Option Nat := none
  deriving DecidableEq, Repr

/-- The process: threads that call `gen_rnd_str` again and again, and the names returned so far with the calling thread. -/
structure GenState where
  thr : Nat → Thr
  out : List (Nat × String)

/-- No thread has started. -/
def GenState.init : GenState := ⟨fun _ => {}, []⟩

/-- One step of thread `t`; `none` stands for an `AttributeError` (an attribute read before it is set). -/
def GenState.step (s : GenState) (t : Nat) : Option GenState :=
  let a := s.thr t
  let upd (b : Thr) : Nat → Thr := fun u => if u = t then b else s.thr u
  match a.pc with
  | .test => some { s with thr := upd { a with pc := if a.uid = none then .setTid else .load } }
  | .setTid => some { s with thr := upd { a with pc := .setUid, tid := some t } }
  | .setUid => some { s with thr := upd { a with pc := .load, uid := some 0 } }
  | .load => match a.uid with
    | some n => some { s with thr := upd { a with pc := .store (n + 1) } }
    | none => none
  | .store n => some { s with thr := upd { a with pc := .ret, uid := some n } }
  | .ret => match a.tid, a.uid with
    | some _, some n => some { thr := upd { a with pc := .test }, out := s.out ++ [(t, Nat.repr n)] }
    | _, _ => none

/-- A schedule: which thread moves next. -/
def GenState.run (s : GenState) : List Nat → Option GenState
  | [] => some s
  | t :: ts => do (← s.step t).run ts

end Sloth
