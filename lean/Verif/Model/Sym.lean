import Verif.Model.Py
import Mathlib.Algebra.Order.Field.Rat

/-!
# Symbolic expressions

A syntax tree standing for SymPy expressions, and the distinction between a plain Python number and a SymPy
object, to which the modelled code is sensitive.  SymPy's automatic rewriting is not modelled: an operation on SymPy
objects builds the tree of that operation (SymPy is trusted to return an expression with the same value).
-/

namespace Sloth

/-- Functions applied by `core/equation_operators.py` l.16-18, 83-113. -/
inductive Fn where
  | log | log10 | sqrt | abs | exp | sin | cos | tan
  deriving DecidableEq, Repr

/-- Atoms of symbolic expressions: a symbol `sp.symbols(name)`, or the unevaluated `sp.Derivative(x, t)`. -/
inductive Atom where
  | v (name : String)
  | d (x t : String)
  deriving DecidableEq, Repr

/-- Symbolic expressions.  `Min`/`Max` of several arguments are nested binary ones. -/
inductive Sym where
  | num (q : Rat)
  | atom (a : Atom)
  | add (a b : Sym)
  | sub (a b : Sym)
  | mul (a b : Sym)
  | div (a b : Sym)
  | pow (a b : Sym)
  | fn (f : Fn) (a : Sym)
  | mm (isMax : Bool) (a b : Sym)
  deriving DecidableEq, Repr

/-- `sp.symbols(name)` (names are single identifiers; SymPy's splitting of names at blanks and commas is not modelled). -/
abbrev Sym.var (s : String) : Sym := .atom (.v s)

/-- Value of a closed arithmetic expression; integer powers only, `none` where it is undefined or not rational. -/
def Sym.ratEval : Sym → Option Rat
  | .num q => some q
  | .atom _ => none
  | .add a b => do some ((← a.ratEval) + (← b.ratEval))
  | .sub a b => do some ((← a.ratEval) - (← b.ratEval))
  | .mul a b => do some ((← a.ratEval) * (← b.ratEval))
  | .div a b => do
    let x ← a.ratEval
    let y ← b.ratEval
    if y = 0 then none else some (x / y)
  | .pow a b => do
    let x ← a.ratEval
    let y ← b.ratEval
    if y.den = 1 then (if x = 0 ∧ y < 0 then none else some (x ^ y.num)) else none
  | .fn _ _ => none
  | .mm isMax a b => do
    let x ← a.ratEval
    let y ← b.ratEval
    some (if isMax then max x y else min x y)

/-- The value of `symbolic_object`: a Python number (`isPy`) or a SymPy object. -/
structure SObj where
  isPy : Bool
  expr : Sym
  deriving DecidableEq, Repr

namespace SObj

/-- A Python number. -/
def num (q : Rat) : SObj := ⟨true, .num q⟩

def add (a b : SObj) : SObj := ⟨a.isPy && b.isPy, .add a.expr b.expr⟩
def sub (a b : SObj) : SObj := ⟨a.isPy && b.isPy, .sub a.expr b.expr⟩
def mul (a b : SObj) : SObj := ⟨a.isPy && b.isPy, .mul a.expr b.expr⟩

/-- Division of two Python numbers raises `ZeroDivisionError`; SymPy yields `zoo`/`nan` instead (an expression without
value).  A Python number obtained through a non-integer power is taken to be non-zero. -/
def div (a b : SObj) : Except Err SObj :=
  if a.isPy && b.isPy && b.expr.ratEval == some 0 then .error .zeroDivision
  else .ok ⟨a.isPy && b.isPy, .div a.expr b.expr⟩

/-- A known negative number. -/
def isNeg : Option Rat → Bool
  | some e => decide (e < 0)
  | none => false

/-- Python's `0 ** negative` raises `ZeroDivisionError`.  (`negative ** fraction` is a complex number in
Python; here it is a power without value.) -/
def pow (a b : SObj) : Except Err SObj :=
  if a.isPy && b.isPy && a.expr.ratEval == some 0 && isNeg b.expr.ratEval then
    .error .zeroDivision
  else .ok ⟨a.isPy && b.isPy, .pow a.expr b.expr⟩

end SObj
end Sloth
