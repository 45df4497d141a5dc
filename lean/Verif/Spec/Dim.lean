import Mathlib.Data.Rat.Defs

/-!
# Specification of physical dimensions

A dimension is a vector of rational exponents of the seven SI base dimensions.  This file does not
mention the modelled code.
-/

namespace Sloth.Spec

/-- The SI base dimensions. -/
inductive Base where
  | m | kg | s | A | K | mol | cd
  deriving DecidableEq, Repr

/-- The symbol of a base dimension. -/
def Base.symbol : Base → String
  | .m => "m" | .kg => "kg" | .s => "s" | .A => "A" | .K => "K" | .mol => "mol" | .cd => "cd"

/-- Dimension vectors. -/
abbrev Dim := Base → ℚ

/-- The dimension of a pure number. -/
def Dim.one : Dim := fun _ => 0
/-- Dimension of a product. -/
def Dim.mul (a b : Dim) : Dim := fun d => a d + b d
/-- Dimension of a quotient. -/
def Dim.div (a b : Dim) : Dim := fun d => a d - b d
/-- Dimension of a power. -/
def Dim.pow (a : Dim) (n : ℚ) : Dim := fun d => n * a d
/-- The dimension of base quantity `b`. -/
def Dim.base (b : Base) : Dim := fun d => if d = b then 1 else 0

/-- Force is mass times acceleration. -/
def Dim.force : Dim := .mul (.base .kg) (.div (.base .m) (.pow (.base .s) 2))
/-- Pressure is force per area. -/
def Dim.pressure : Dim := .div .force (.pow (.base .m) 2)
/-- Energy is force times length. -/
def Dim.energy : Dim := .mul .force (.base .m)
/-- Volume. -/
def Dim.volume : Dim := .pow (.base .m) 3

instance : DecidableEq Dim := fun a b =>
  decidable_of_iff (∀ d ∈ [Base.m, .kg, .s, .A, .K, .mol, .cd], a d = b d)
    ⟨fun h => funext fun d => h d (by cases d <;> decide), fun h d _ => congrFun h d⟩

end Sloth.Spec
