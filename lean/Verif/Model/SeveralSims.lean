import Verif.Model.Several
import Verif.Model.Simulation

/-!
# Simulations of several problems (`src/sloth/simulation.py`)

`Model/Simulation.lean` has the simulations of one problem, the field `pr` of the heap.  Here each simulation has a problem of its own choice, or none.
-/

namespace Sloth
open PyS

section
variable {K : Type} [Field K] [LinearOrder K]

/-- A heap with several problems, and the problem of each simulation (simulation.py l.45, l.91).  The field `pr` of `s.w` is the problem a call is made on,
and not used between calls. -/
structure ManyS (K : Type) where
  s : SimWorld K
  prs : List ProblemObj := []
  links : List (Option Nat) := []

/-- The state seen by a call that concerns problem `p`. -/
def SimWorld.under (p : ProblemObj) (s : SimWorld K) : SimWorld K := { s with w := s.w.withPr p }

/-- A call that concerns problem `j`. -/
def ManyS.on (j : Nat) (x : PyS K Unit) (m : ManyS K) : Except Err Unit × ManyS K :=
  match m.prs[j]? with
  | none => (.error (.exception "dangling"), m)
  | some p => ((x (m.s.under p)).1, { m with s := (x (m.s.under p)).2.under m.s.w.pr, prs := m.prs.set j (x (m.s.under p)).2.w.pr })

/-- A call that concerns no problem.  Where the code asks `None` for its type or its block, `AttributeError` is raised as for a problem that was not resolved,
so an empty one is put in its place (see `SimCall.bare`). -/
def ManyS.off (x : PyS K Unit) (m : ManyS K) : Except Err Unit × ManyS K :=
  ((x (m.s.under {})).1, { m with s := (x (m.s.under {})).2.under m.s.w.pr })

/-- The methods of a simulation that are modelled: l.95-204 `setConfigurations`, l.206-286 `runSimulation`, l.289-303 `getStatus`, l.464-471 `reset`. -/
inductive SimCall where
  | configure (kw : Conf) (file def_ : Option Conf)
  | run (a : RunArgs)
  | status
  | reset

/-- The same as a call of a session with one problem. -/
def SimCall.op (i : SRef) : SimCall → SOp K
  | .configure kw f d => .configure i kw f d
  | .run a => .run i a
  | .status => .status i
  | .reset => .reset i

/-- simulation.py l.157-170: the problem is asked for the name of the time variable. -/
def asksTimeName (kw : Conf) (file def_ : Option Conf) : Bool :=
  file.isNone && def_.isNone && match bindArgs kw with
    | .ok a => decide (dget a "time_variable_name" = some .none ∧ dget a "is_dynamic" = some (.bool true))
    | .error _ => false

/-- A method of a simulation whose problem is `None` (l.45).  The only attribute read that an unresolved problem would have is `time_variable_name` (l.170). -/
def SimCall.bare (ext : Ext K) (I : Interp K) (i : SRef) : SimCall → PyS K Unit
  | .configure kw f d => do
    when (asksTimeName kw f d) (PyS.raise .attributeError)
    (SOp.configure i kw f d).exec ext I
  | c => (c.op i).exec ext I

/-- A method of simulation `i`. -/
def ManyS.call (ext : Ext K) (I : Interp K) (i : SRef) (c : SimCall) (m : ManyS K) : Except Err Unit × ManyS K :=
  match m.links[i]? with
  | none => (.error (.exception "dangling"), m)
  | some none => m.off (c.bare ext I i)
  | some (some j) => m.on j ((c.op i).exec ext I)

/-- One call of a program with several problems and simulations. -/
inductive MSOp (K : Type) where
  /-- problem.py l.36-70 `Problem.__init__` with the default dictionaries, as `MOp.newProblem` -/
  | newProblem (name : String)
  | on (j : Nat) (o : Op)
  | newList (l : List CVal)
  | newDomain (name : String) (indep : List String)
  | domain (r : DRef) (o : DomOp K)
  /-- simulation.py l.26-58 `Simulation.__init__`; the plotter is not modelled here -/
  | newSim (name : String) (problem : Option Nat)
  /-- simulation.py l.83-91 `setProblem`: any object is stored -/
  | setProblem (i : SRef) (problem : Option Nat)
  | call (i : SRef) (c : SimCall)

/-- One call. -/
def MSOp.exec (ext : Ext K) (I : Interp K) : MSOp K → ManyS K → Except Err Unit × ManyS K
  | .newProblem n, m => (.ok (), { m with prs := m.prs ++ [{ name := n }] })
  | .on j o, m => m.on j (ofWorld o.run)
  | .newList l, m => m.off ((SOp.newList l).exec ext I)
  | .newDomain n vs, m => m.off ((SOp.newDomain n vs).exec ext I)
  | .domain r o, m => m.off ((SOp.domain r o).exec ext I)
  | .newSim n j, m => (.ok (), { m.off ((SOp.newSim n).exec ext I) |>.2 with links := m.links ++ [j] })
  | .setProblem i j, m => if i < m.links.length then (.ok (), { m with links := m.links.set i j }) else (.error (.exception "dangling"), m)
  | .call i c, m => m.call ext I i c

/-- The state after a session, exceptions caught. -/
def ManyS.history (ext : Ext K) (I : Interp K) (ops : List (MSOp K)) (m : ManyS K) : ManyS K := ops.foldl (fun m o => (o.exec ext I m).2) m

end
end Sloth
