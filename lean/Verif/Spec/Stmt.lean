import Verif.Spec.Expr
import Verif.Model.Equation

/-!
# What a user's equation means
-/

namespace Sloth

/-- An equation as a user writes it. -/
inductive Stmt where
  /-- `l == r` -/
  | eqn (l r : PyExpr)
  /-- `l == number` -/
  | eqnNum (l : PyExpr) (q : Rat)
  /-- an expression understood to be zero -/
  | res (e : PyExpr)

/-- Evaluation of the statement to the argument of `setResidual`. -/
def Stmt.arg : Stmt → Except Err ResArg
  | .eqn l r => do
    let a ← l.build
    let b ← r.build
    .ok (.eqn a b)
  | .eqnNum l q => do .ok (.eqnNum (← l.build) q)
  | .res e => do .ok (.node (← e.build))

namespace Spec
section
variable {K : Type} [Field K] [LinearOrder K]

/-- Left side minus right side. -/
def residual (I : Interp K) (ρ : Atom → K) : Stmt → Option K
  | .eqn l r => do some ((← val I ρ l) - (← val I ρ r))
  | .eqnNum l q => do some ((← val I ρ l) - (q : K))
  | .res e => val I ρ e

/-- The equation holds: both sides are defined and equal. -/
def Holds (I : Interp K) (ρ : Atom → K) : Stmt → Prop
  | .eqn l r => ∃ v, val I ρ l = some v ∧ val I ρ r = some v
  | .eqnNum l q => val I ρ l = some (q : K)
  | .res e => val I ρ e = some 0
end

/-- The expressions of a statement. -/
def parts : Stmt → List PyExpr
  | .eqn l r => [l, r]
  | .eqnNum l _ => [l]
  | .res e => [e]

end Spec
end Sloth
