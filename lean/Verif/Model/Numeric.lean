import Verif.Model.World

/-!
# Functions on values (`src/sloth/core/math_functions.py`)

The file imports `error_definitions` and `unit` as top-level modules, so it is used from within its directory only; no other file imports it.
-/

namespace Sloth
open PyM

/-- The functions of math_functions.py. -/
inductive NumFn where
  | log | log10 | exp | abs | sin | cos | tan
  deriving DecidableEq, Repr

/-- unit.py l.23-347: the attributes of a unit, besides those every object has. -/
def UnitObj.attributes : List String :=
  ["dimension", "name", "description", "_is_dimensionless", "_reset_dimensions", "_re_eval_dimensions", "__str__", "__add__", "__sub__", "__mul__", "__div__", "__truediv__",
    "__pow__", "_check_dimensional_coherence"]

/-- `u.attr()` for the test of dimensions, by whatever name. -/
def UnitObj.askDimless (u : UnitObj) (attr : String) : Except Err Bool :=
  if UnitObj.attributes.contains attr then .ok u.isDimensionless else .error .attributeError

/-- math_functions.py l.13-49 `Log`, l.52-88 `Log10`, l.91-127 `Exp`, l.130-166 `Abs`, l.169-205 `Sin`, l.208-244 `Cos`, l.247-283 `Tan`; `ignore` is the truth of
`ignore_dimensions == True`.  `np` is what NumPy computes (NaN, infinities and NumPy's types are not modelled). -/
def NumFn.apply (np : NumFn → Rat → Rat) (f : NumFn) (r : Ref) (ignore : Bool := false) : PyM Ref := do
  let obj ← getQ r
  if ignore = false then do
    let b ← lift (obj.units.askDimless "_isDimless_")
    if b = true then newQ { obj with value := np f obj.value }
    else raise (.exception "NonDimensionalArgumentError")
  else newQ { obj with value := np f obj.value }

end Sloth
