import Verif.Model.Optimization

/-!
# An objective function that runs the simulation (`teste_usage.py`)

`DeclareObjectiveFunction` is to be written by the user.  This is the function of the script `teste_usage.py`, for any list of parameters and any result.
-/

namespace Sloth.Opt
open Sloth PyS

section
variable {K : Type} [Field K] [LinearOrder K]

/-- teste_usage.py l.101-105: every parameter gets its coordinate of the trial point.  The script has one parameter.  `read` is the value of a floating
point number. -/
def assign (read : K → Rat) : List String → List K → PyS K Unit
  | [], _ => PyS.pure ()
  | _ :: _, [] => PyS.raise .indexError
  | n :: ns, x :: xs => do
    let r ← simItem n
    ofWorld (setValueM r (.float (read x)) none)
    assign read ns xs

/-- teste_usage.py l.99-119 `DeclareObjectiveFunction`.  Without simulation indexing `None` raises.  Results of a dynamic simulation are tables, which
pygmo does not take for a fitness. -/
def usageObjective (ext : Ext K) (I : Interp K) (read : K → Rat) (names : List String) (target : String) : Objective K := fun sim conf x =>
  match sim with
  | none => PyS.raise .typeError
  | some i => do
    assign read names x
    ofWorld resolve
    setConfigurations i [] none conf
    runSimulation ext I i {}
    let r ← Sloth.getResults i .dict
    match r with
    | .dict d => do
      let v ← lift (dgetE d target)
      PyS.pure [v]
    | _ => PyS.raise .typeError

end
end Sloth.Opt
