import Verif.Model.Problem

/-!
# Sessions

A session is a sequence of calls of the public operations on models and the problem.  An exception is caught by the user,
who goes on with the state left behind.
-/

namespace Sloth
open PyM

/-- The calls a user can make. -/
inductive Op where
  /-- a new dictionary `{'inlets': {}, 'outlets': {}}` to be passed as `ports` -/
  | newPorts
  | newModel (name description : String) (body : Body) (ports : Option PRef)
  | var (m : MRef) (a : VarArgs)
  | par (m : MRef) (a : ParArgs)
  | con (m : MRef) (a : ParArgs)
  | eqn (m : MRef) (name description : String) (a : Option ResArg) (check : Bool)
  | cmd (m : MRef) (c : Cmd)
  | setValue (r : Ref) (v : SVArg) (unit : Option UnitObj)
  | incorporate (m src : MRef) (fl : IncFlags)
  | setInlets (m : MRef) (l : List MRef) (inletName : String)
  | modelConn (m : MRef) (outs ins : List Ref) (a : ResArg)
  | call (m : MRef)
  | connect (src : ConnSrc) (m2 : MRef) (outs ins : ConnArg) (a : Option ResArg)
  | addModels (t : MTree)
  | initial (c : Dict String Rat)
  | time (names : List String)
  | resolve

/-- `x` as a statement. -/
def PyM.void {α : Type} (x : PyM α) : PyM Unit := do
  let _ ← x
  PyM.pure ()

/-- One call. -/
def Op.run : Op → PyM Unit
  | .newPorts => (newP []).void
  | .newModel n d b p => (Sloth.newModel n d b p).void
  | .var m a => (createVariable m a).void
  | .par m a => (createParameter m a).void
  | .con m a => (createConstant m a).void
  | .eqn m n d a c => (createEquation m n d a c).void
  | .cmd m c => c.run m
  | .setValue r v u => setValueM r v u
  | .incorporate m s fl => Sloth.incorporate m s fl
  | .setInlets m l n => Sloth.setInlets m l n
  | .modelConn m o i a => (createModelConnection m o i a).void
  | .call m => Model.call m
  | .connect s m o i a => createConnection s m o i a
  | .addModels t => Sloth.addModels t
  | .initial c => setInitialConditions c
  | .time n => setTimeVariableName n
  | .resolve => Sloth.resolve

/-- The heap after a session. -/
def history (ops : List Op) (w : World) : World := ops.foldl (fun w o => (o.run w).2) w

/-- Heaps that occur. -/
def Reachable (w : World) : Prop := ∃ ops, w = history ops World.init

end Sloth
