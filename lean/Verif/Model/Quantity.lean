import Verif.Model.Unit

/-!
# Quantities (`src/sloth/core/quantity.py`, `variable.py`, `parameter.py`, `constant.py`)
-/

namespace Sloth

/-- quantity.py l.35-70 `Quantity.__init__`. -/
def mkQuantity (name : String) (units : UnitObj) (description : String := "") (value : Rat := 0)
    (latex : String := "") (owner : String := "") : Quantity :=
  { kind := .quantity, name, units, description, value, latex, isSpecified := false, owner }

/-- variable.py l.20-101 `Variable.__init__` (`is_lower_bounded`/`is_upper_bounded` are `lower_bound != None`,
`upper_bound != None`, l.89-91; the constructor arguments of those names are ignored by the code). -/
def mkVariable (name : String) (units : UnitObj) (description : String := "") (lower upper : Option Rat := none)
    (value : Rat := 0) (isExposed : Bool := false) (vtype : String := "") (latex : String := "")
    (owner : String := "") (hasDomain : Bool := false) : Quantity :=
  { kind := .variable, name, units, description, value, latex, isSpecified := false, owner,
    lowerBound := lower, upperBound := upper, isExposed, vtype, hasDomain }

/-- parameter.py l.20-46 `Parameter.__init__`. -/
def mkParameter (name : String) (units : UnitObj) (description : String := "") (value : Rat := 0)
    (latex : String := "") (isSpecified : Bool := false) (owner : String := "") : Quantity :=
  { kind := .parameter, name, units, description, value, latex, isSpecified, owner }

/-- constant.py l.36-60 `Constant.__init__`. -/
def mkConstant (name : String) (units : UnitObj) (description : String := "") (value : Rat := 0)
    (latex : String := "") (isSpecified : Bool := false) (owner : String := "") : Quantity :=
  { kind := .constant, name, units, description, value, latex, isSpecified, owner }

/-- First argument of `setValue`, as told apart by its `isinstance` tests. -/
inductive SVArg where
  | qty (q : Quantity)
  | float (x : Rat)
  | int (x : Int)
  | other

/-- `isinstance(value, self.__class__)`: every class of the package derives from `Quantity` only. -/
def Kind.isInstanceOf (k cls : Kind) : Bool := k == cls || cls == .quantity

namespace Quantity

/-- quantity.py l.73-105 `setValue`, repeated in parameter.py l.48-88 and constant.py l.62-102.
The object is only written on success, so the result is the new object or the exception.
The two `elif` conditions parse as `isinstance(v, float) or (isinstance(v, int) and ...)`. -/
def setValue (self : Quantity) (v : SVArg) (unit : Option UnitObj := none) : Except Err Quantity :=
  match v with
  | .qty q =>
    if q.kind.isInstanceOf self.kind then do
      let ok ← match unit with
        | none => q.units.checkCoherence self.units
        | some _ => .ok false
      if ok = true then .ok { self with value := q.value, isSpecified := true }
      else .error .dimensionalCoherence
    else .error .unexpectedValue
  | .float x => .ok { self with value := x, isSpecified := true }
  | .int x =>
    match unit with
    | none => .ok { self with value := x, isSpecified := true }
    | some u => do
      if (← u.checkCoherence self.units) = true then .ok { self with value := x, isSpecified := true }
      else .error .unexpectedValue
  | .other => .error .unexpectedValue

/-- quantity.py l.143-166 `__add__` and l.168-193 `__sub__`: every class requires a `name` argument, which is not
given, so the coherent case raises `TypeError`. -/
def addSub (self other : Quantity) : Except Err Quantity := do
  if (← self.units.checkCoherence other.units) = true then .error .typeError
  else .error .dimensionalCoherence

/-- quantity.py l.195-211 `__mul__`: the constructor call always lacks `name`. -/
def mulQ (self other : Quantity) : Except Err Quantity := do
  let _ ← self.units.mul (.unit other.units)
  .error .typeError

/-- quantity.py l.231-248 `__pow__`. -/
def powQ (self other : Quantity) : Except Err Quantity := do
  let _ ← self.units.pow (.num other.value)
  if self.value = 0 ∧ other.value < 0 then .error .zeroDivision
  else .error .typeError

end Quantity
end Sloth
