import Verif.Model.Node
import Verif.Spec.Eval
import Verif.Spec.Dim
import Verif.Lemmas.Unit

/-!
# What a user expression means

Dimension, value, mentioned names of a user expression, defined directly on its syntax.
The operators of the package are not used.
-/

namespace Sloth.Spec
open Sloth

/-- Dimension of an expression; `none` when it is not dimensionally well formed.  Literal numbers adapt to the dimension
of the node they are added to (the package's convention).  A power whose exponent is not a literal only has a dimension when
base and exponent are pure numbers. -/
def dim : PyExpr → Option Dim
  | .q _ x => some x.units.dimVec
  | .bin .add a b | .bin .sub a b => do
    let x ← dim a
    let y ← dim b
    if x = y then some x else none
  | .bin .mul a b => do some (Dim.mul (← dim a) (← dim b))
  | .bin .div a b => do some (Dim.div (← dim a) (← dim b))
  | .bin .pow a b => do
    let x ← dim a
    let y ← dim b
    if x = Dim.one ∧ y = Dim.one then some Dim.one else none
  | .binN .pow a n => do some (Dim.pow (← dim a) n)
  | .binN _ a _ => dim a
  | .nbin .div _ a => do some (Dim.div Dim.one (← dim a))
  | .nbin .pow _ _ => none
  | .nbin _ _ a => dim a
  | .fn _ a => do
    let x ← dim a
    if x = Dim.one then some Dim.one else none
  | .mmN _ a _ => dim a
  | .diff _ x none => if x.hasDomain then some Dim.one else none
  | .diff _ x (some (_, t)) => if x.hasDomain then some (Dim.div x.units.dimVec t.units.dimVec) else none

section
variable {K : Type} [Field K] [LinearOrder K]

/-- Value of an arithmetic operation. -/
def opVal (I : Interp K) : BOp → K → K → Option K
  | .add, x, y => some (x + y)
  | .sub, x, y => some (x - y)
  | .mul, x, y => some (x * y)
  | .div, x, y => if y = 0 then none else some (x / y)
  | .pow, x, y => I.pow x y

/-- Value of a quantity: its own value when specified, else what the assignment says. -/
def qVal (ρ : Atom → K) (x : Quantity) : K := if x.isSpecified then (x.value : K) else ρ (.v x.name)

/-- Value of an expression.  `ρ` assigns the unspecified quantities and the derivatives. -/
def val (I : Interp K) (ρ : Atom → K) : PyExpr → Option K
  | .q _ x => some (qVal ρ x)
  | .bin op a b => do opVal I op (← val I ρ a) (← val I ρ b)
  | .binN op a n => do opVal I op (← val I ρ a) (n : K)
  | .nbin op n a => do opVal I op (n : K) (← val I ρ a)
  | .fn f a => do I.fn f (← val I ρ a)
  | .mmN isMax a n => do
    let x ← val I ρ a
    some (if isMax then max x (n : K) else min x (n : K))
  | .diff _ x none => some (if x.isSpecified then 0 else ρ (.d x.name x.name))
  | .diff _ x (some (_, t)) => some (if x.isSpecified then 0 else ρ (.d x.name t.name))

/-- The assignment gives every specified quantity of the expression its own value (and derivative 0). -/
def Consistent (ρ : Atom → K) : PyExpr → Prop
  | .q _ x => x.isSpecified → ρ (.v x.name) = (x.value : K)
  | .bin _ a b => Consistent ρ a ∧ Consistent ρ b
  | .binN _ a _ | .nbin _ _ a | .fn _ a | .mmN _ a _ => Consistent ρ a
  | .diff _ x none => x.isSpecified → ρ (.d x.name x.name) = 0
  | .diff _ x (some (_, t)) => x.isSpecified → ρ (.d x.name t.name) = 0

end

/-- The quantities whose value enters the expression, with their identity, left to right (an independent
variable of a derivative is not among them). -/
def quantities : PyExpr → List (Ref × Quantity)
  | .q r x => [(r, x)]
  | .bin _ a b => quantities a ++ quantities b
  | .binN _ a _ | .nbin _ _ a | .fn _ a | .mmN _ a _ => quantities a
  | .diff r x _ => [(r, x)]

/-- Does a derivative occur? -/
def hasDeriv : PyExpr → Bool
  | .q _ _ => false
  | .bin _ a b => hasDeriv a || hasDeriv b
  | .binN _ a _ | .nbin _ _ a | .fn _ a | .mmN _ a _ => hasDeriv a
  | .diff _ _ _ => true

/-- All units of the quantities of an expression, independent variables included, satisfy `P`. -/
def AllUnits (P : UnitObj → Prop) : PyExpr → Prop
  | .q _ x => P x.units
  | .bin _ a b => AllUnits P a ∧ AllUnits P b
  | .binN _ a _ | .nbin _ _ a | .fn _ a | .mmN _ a _ => AllUnits P a
  | .diff _ x none => P x.units
  | .diff _ x (some (_, t)) => P x.units ∧ P t.units

/-- Every non-literal power has a base that is a pure number (or is not well formed at all). -/
def PlainPowers : PyExpr → Prop
  | .q _ _ | .diff _ _ _ => True
  | .bin op a b => PlainPowers a ∧ PlainPowers b ∧ (op = .pow → ∀ d, dim a = some d → d = Dim.one)
  | .binN _ a _ | .nbin _ _ a | .fn _ a | .mmN _ a _ => PlainPowers a

end Sloth.Spec
