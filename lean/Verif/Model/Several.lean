import Verif.Model.Session

/-!
# Several problems over the same models (`src/sloth/problem.py`)
-/

namespace Sloth
open PyM

/-- A heap with several problems.  The field `pr` of `w` is the problem a call is made on, and not used between calls. -/
structure Many where
  w : World
  prs : List ProblemObj := []
  deriving DecidableEq

/-- The heap seen by a method of problem `p`. -/
def World.withPr (w : World) (p : ProblemObj) : World := { w with pr := p }

/-- A method of problem `i`, or (for calls that do not concern problems) of a model. -/
def Many.on (i : Nat) (x : PyM Unit) (s : Many) : Except Err Unit × Many :=
  match s.prs[i]? with
  | none => (.error (.exception "dangling"), s)
  | some p => ((x (s.w.withPr p)).1, { w := (x (s.w.withPr p)).2.withPr s.w.pr, prs := s.prs.set i (x (s.w.withPr p)).2.pr })

/-- One call of a program with several problems. -/
inductive MOp where
  /-- problem.py l.36-70 `Problem.__init__` with the default dictionaries.  The defaults are shared by all calls, but each problem keeps a copy
  (`OrderedDict(models)` and so on), so problems have dictionaries of their own. -/
  | newProblem (name : String)
  | on (i : Nat) (o : Op)

/-- One call, exceptions caught. -/
def MOp.run : MOp → Many → Many
  | .newProblem n, s => { s with prs := s.prs ++ [{ name := n }] }
  | .on i o, s => (s.on i o.run).2

/-- The heap after a session. -/
def Many.history (ops : List MOp) (s : Many) : Many := ops.foldl (fun s o => o.run s) s

end Sloth
