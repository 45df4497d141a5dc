import Verif.Model.Py

/-!
# Units (`src/sloth/core/unit.py`, `src/sloth/core/template_units.py`)
and the data part of `Quantity` (`src/sloth/core/quantity.py`), which `unit.py` constructs.

Exponents are rationals; the int/float distinction of an exponent is not kept (it is only visible in the
text printed by `__str__`, where the formatting function is a parameter).
-/

namespace Sloth

/-- unit.py l.12 `null_dimension` and l.38: the seven SI keys in this order. -/
def baseKeys : List String := ["m", "kg", "s", "A", "K", "mol", "cd"]

/-- unit.py l.38 / l.12: every SI key with exponent 0. -/
def nullDimension : Dict String Rat := baseKeys.map fun k => (k, 0)

/-- unit.py l.14 `class Unit`: attributes `name`, `dimension`, `description`. -/
structure UnitObj where
  name : String
  dim : Dict String Rat
  description : String := ""
  deriving DecidableEq, Repr

/-- quantity.py l.16 `class Quantity` and its subclasses (variable.py l.10, parameter.py l.9, constant.py l.26). -/
inductive Kind where
  | quantity | variable | parameter | constant
  deriving DecidableEq, Repr

/-- quantity.py l.58-70 (attributes), variable.py l.89-101 (bounds, exposure, type, domain).
`isExposed` is the truth of `is_exposed == True` (the string `'True'` passed by some library models is not equal to `True`).
`hasDomain` is `domain != None`. -/
structure Quantity where
  kind : Kind
  name : String
  units : UnitObj
  description : String := ""
  value : Rat := 0
  latex : String := ""
  isSpecified : Bool := false
  owner : String := ""
  lowerBound : Option Rat := none
  upperBound : Option Rat := none
  isExposed : Bool := false
  vtype : String := ""
  hasDomain : Bool := false
  deriving DecidableEq, Repr

namespace UnitObj

/-- unit.py l.73-98 `_re_eval_dimensions`: copies the entries, in sorted key order, over the current ones.
The `except KeyError` branch (l.94-98) is unreachable: assigning to a dict never raises `KeyError`. -/
def reEval (cur : Dict String Rat) (dimension_dict : Dict String Rat) : Dict String Rat :=
  dupdate cur (psorted (fun a b => strLe a.1 b.1) dimension_dict)

/-- unit.py l.23-44 `__init__` from a dictionary. -/
def init (name : String) (d : Dict String Rat) (description : String := "") : UnitObj :=
  { name := name, dim := reEval nullDimension d, description := description }

/-- unit.py l.81-83: `__init__` from another `Unit` takes its dimension dictionary. -/
def initU (name : String) (u : UnitObj) (description : String := "") : UnitObj :=
  init name u.dim description

/-- unit.py l.46-59 `_is_dimensionless`. -/
def isDimensionless (u : UnitObj) : Bool := (dvalues u.dim).all fun x => x == 0

/-- unit.py l.378: the generator inside `all(...)`, evaluated lazily over the sorted keys of `self`;
`other_unit.dimension[idx]` raises `KeyError` when the key is missing. -/
def cohLoop (a b : Dict String Rat) : List String → Except Err Bool
  | [] => .ok true
  | k :: t => do
    let x ← dgetE a k
    let y ← dgetE b k
    if x = y then cohLoop a b t else .ok false

/-- unit.py l.347-379 `_check_dimensional_coherence`. -/
def checkCoherence (u v : UnitObj) : Except Err Bool :=
  cohLoop u.dim v.dim (psorted strLe (dkeys u.dim))

/-- unit.py l.120-141 `__add__`. -/
def add (u v : UnitObj) : Except Err UnitObj := do
  if (← checkCoherence u v) = true then .ok u else .error .dimensionalCoherence

/-- unit.py l.143-164 `__sub__`. -/
def sub (u v : UnitObj) : Except Err UnitObj := do
  if (← checkCoherence u v) = true then .ok u else .error .dimensionalCoherence

/-- unit.py l.184-201, the loop of `__mul__`: `new_dimension` starts as a copy of the other unit's
dictionary and receives the exponents of `self`. -/
def mulDims (self other : Dict String Rat) : Dict String Rat :=
  self.foldl (fun nd p =>
    match dget nd p.1 with
    | some x => dset nd p.1 (x + p.2)
    | none => dset nd p.1 p.2) other

/-- unit.py l.184-203: product of two units. -/
def mulU (u v : UnitObj) : UnitObj := init "" (mulDims u.dim v.dim)

/-- unit.py l.276-288 (and l.230-242), the loop of `__truediv__`/`__div__`: it runs over the keys of the *other* unit only. -/
def divDims (self other : Dict String Rat) : Dict String Rat :=
  other.map fun p =>
    match dget self p.1 with
    | some x => (p.1, x - p.2)
    | none => (p.1, -p.2)

/-- unit.py l.276-292: quotient of two units. -/
def divU (u v : UnitObj) : UnitObj := init "" (divDims u.dim v.dim)

/-- unit.py l.323-331: power by a number. -/
def powN (u : UnitObj) (n : Rat) : UnitObj := init "" (u.dim.map fun p => (p.1, p.2 * n))

/-- The right operand of a unit operator, as distinguished by the `isinstance` tests. -/
inductive Arg where
  | unit (u : UnitObj)
  | num (q : Rat)
  | other

/-- The result of a unit operator: a unit, or a quantity for a numeric operand. -/
inductive Res where
  | unit (u : UnitObj)
  | qty (q : Quantity)
  deriving DecidableEq, Repr

/-- unit.py l.166-210 `__mul__`.  (`latex_text=str(other_unit)` is not modelled.) -/
def mul (u : UnitObj) : Arg → Except Err Res
  | .unit v => .ok (.unit (mulU u v))
  | .num n => .ok (.qty { kind := .quantity, name := "", units := init "" u.dim, value := n })
  | .other => .error .unexpectedValue

/-- unit.py l.259-303 `__truediv__` (l.213-256 `__div__` has the same text). -/
def div (u : UnitObj) : Arg → Except Err Res
  | .unit v => .ok (.unit (divU u v))
  | .num n =>
    if n = 0 then .error .zeroDivision
    else .ok (.qty { kind := .quantity, name := "", units := init "" u.dim, value := 1 / n })
  | .other => .error .unexpectedValue

/-- unit.py l.305-345 `__pow__`. -/
def pow (u : UnitObj) : Arg → Except Err UnitObj
  | .num n => .ok (powN u n)
  | .unit v => if v.isDimensionless then .ok (init "" u.dim) else .error .unexpectedValue
  | .other => .error .unexpectedValue

/-- unit.py l.110-114: the `(dimension, exponent)` pairs printed by `__str__`. -/
def strParts (u : UnitObj) : Except Err (List (String × Rat)) := do
  let l ← baseKeys.mapM fun k => do
    let v ← dgetE u.dim k
    pure (k, v)
  .ok (l.filter fun p => p.2 ≠ 0)

/-- unit.py l.100-118 `__str__`; `fmt` is Python's number formatting. -/
def str (fmt : Rat → String) (u : UnitObj) : Except Err String := do
  let l ← u.strParts
  .ok (pyJoin " " (l.map fun p => p.1 ++ "^" ++ fmt p.2))

end UnitObj

/-! ## template_units.py -/
namespace Tmpl
open UnitObj

/-- template_units.py l.10 -/
def dimless : UnitObj := init "None" nullDimension "adimensional"
/-- template_units.py l.11 -/
def m : UnitObj := init "m" [("m", 1)] "meter"
/-- template_units.py l.12 -/
def kg : UnitObj := init "kg" [("kg", 1)] "kilogram"
/-- template_units.py l.13 -/
def s : UnitObj := init "s" [("s", 1)] "second"
/-- template_units.py l.14 -/
def A : UnitObj := init "A" [("A", 1)] "ampere"
/-- template_units.py l.15 -/
def K : UnitObj := init "K" [("K", 1)] "kelvin"
/-- template_units.py l.16 -/
def mol : UnitObj := init "mol" [("mol", 1)] "mol"
/-- template_units.py l.17 -/
def cd : UnitObj := init "cd" [("cd", 1)] "candela"
/-- template_units.py l.18 `_s` -/
def _s : UnitObj := initU "1/s" (powN s (-1)) "per sencond"
/-- template_units.py l.19 `_m2` -/
def _m2 : UnitObj := initU "1/m^2" (powN m (-2)) "per squared meter"
/-- template_units.py l.20 `_m3` -/
def _m3 : UnitObj := initU "1/m^3" (powN m (-3)) "per cubic meter"
/-- template_units.py l.21 -/
def m_s : UnitObj := initU "m/s" (divU m s) "meter per second"
/-- template_units.py l.22 -/
def m_s2 : UnitObj := initU "m/s^2" (divU m (powN s 2)) "acceleration"
/-- template_units.py l.23 -/
def kg_s : UnitObj := initU "kg/s" (divU kg s) "mass flux"
/-- template_units.py l.24 -/
def mol_s : UnitObj := initU "mol/s" (divU mol s) "molar flux"
/-- template_units.py l.28 -/
def Force : UnitObj := initU "Force" (mulU kg m_s2) "Force"
/-- template_units.py l.29 -/
def Pa : UnitObj := initU "Pa" (divU Force (powN m 2)) "Pascal"
/-- template_units.py l.30 -/
def atm : UnitObj := initU "atm" (divU Force (powN m 2)) "Atmospheres"
/-- template_units.py l.31 -/
def J : UnitObj := initU "Joule" (mulU kg (powN m_s 2)) "Joule"
/-- template_units.py l.34 -/
def UniversalIdealGasConstant : UnitObj :=
  initU "R" (mulU (mulU J (powN K (-1))) (powN mol (-1))) "Universal ideal gas constant"

end Tmpl
end Sloth
