import Verif.Model.Py

/-!
# Domains (`core/domain.py`)

Data frames and arrays are tables of numbers; only the operations of pandas and NumPy that the code uses are modelled.
-/

namespace Sloth

/-- A column label of a data frame: a name, or the number of a row (see `DomainObj.register`). -/
inductive Label where
  | name (s : String)
  | row (n : Nat)
  deriving DecidableEq, Repr

/-- A data frame: its column labels and its rows.  Invariant: every row has one entry per label. -/
structure Frame (K : Type) where
  cols : List Label
  rows : List (List K) := []
  deriving DecidableEq, Repr

/-- domain.py l.45-71: attributes of a domain.  Only the names of the variables are kept; `units`, `description` and the bounds are
never read.  `values` is `None` before the domain is set. -/
structure DomainObj (K : Type) where
  name : String
  indep : List String
  deps : List String := []
  values : Option (Dict String (Frame K)) := none
  deriving DecidableEq, Repr

namespace DomainObj
variable {K : Type}

/-- Keys of a dictionary filled in the order of the list. -/
def keysOf (l : List String) : List String := dkeys (dofList (l.map fun s => (s, ())))

/-- domain.py l.21-71 `__init__`; a single independent variable is a list of one. -/
def init (name : String) (indep : List String) : DomainObj K := { name, indep := keysOf indep }

/-- domain.py l.186-208 `_createDataFramePrototype`. -/
def proto (d : DomainObj K) : Frame K := { cols := (d.indep ++ d.deps).map Label.name }

/-- domain.py l.109-130 `_setDomain`; `vars` are the names of the variables given.  (Objects without a name, for which
`UnexpectedValueError` is raised, are not modelled.) -/
def setDomain (vars : Option (List String)) (d : DomainObj K) : DomainObj K :=
  { d with values := some (dofList ((vars.getD d.indep).map fun v => (v, d.proto))) }

/-- domain.py l.132-141 `_distributeOnDomain`. -/
def distribute (v : String) (d : DomainObj K) : DomainObj K := { d with deps := keysOf (d.deps ++ [v]) }

/-- variable.py l.103-116 `distributeOnDomain`: the domain's part. -/
def distributeVar (v : String) (d : DomainObj K) : DomainObj K := (d.distribute v).setDomain none

/-- domain.py l.143-149 `_reset`. -/
def reset (d : DomainObj K) : DomainObj K := d.setDomain none

/-- `np.array(rows).shape[1]` (the rows have the same length). -/
def width : List (List K) → Nat
  | [] => 0
  | r :: _ => r.length

/-- `pd.DataFrame(rows, columns=cols)`: the number of labels must be the number of columns. -/
def mkFrame (cols : List Label) (rows : List (List K)) : Except Err (Frame K) :=
  if width rows = cols.length then .ok { cols, rows } else .error .valueError

/-- `np.vstack((a, b))`, both with at least one row. -/
def vstack (a b : List (List K)) : Except Err (List (List K)) :=
  if width a = width b then .ok (a ++ b) else .error .valueError

/-- `df.index` for a frame made from an array: the row numbers. -/
def index (rows : List (List K)) : List Label := (List.range rows.length).map Label.row

/-- `df.values.size == 0` -/
def Frame.isEmpty (f : Frame K) : Bool := f.rows.isEmpty || f.cols.isEmpty

/-- domain.py l.174-184: what becomes of one frame.  Note l.180: the labels of the longer table are the *row* labels of the old one. -/
def extend (n : Nat) (f : Frame K) (rows : List (List K)) : Except Err (Frame K) :=
  if Frame.isEmpty f then mkFrame f.cols rows
  else if width rows = n then do mkFrame (index f.rows) (← vstack f.rows rows)
  else .error (.exception "Error. Ill-formed input for domain register")

/-- domain.py l.170-172: the frame written to. -/
def target (d : DomainObj K) : Option String → Except Err String
  | some v => .ok v
  | none => match d.indep.getLast? with
    | some v => .ok v
    | none => .error .indexError

/-- domain.py l.151-184 `_register`.  `rows` is a table with at least one row. -/
def register (rows : List (List K)) (var : Option String) (d : DomainObj K) : Except Err (DomainObj K) := do
  let v ← d.target var
  match d.values with
  | none => .error .typeError
  | some vals =>
    let f ← dgetE vals v
    let f ← extend (d.indep.length + d.deps.length) f rows
    .ok { d with values := some (dset vals v f) }

/-- `df.rename(columns=m)`: labels outside the map stay. -/
def Label.rename (m : Dict String String) : Label → Label
  | .name s => .name ((dget m s).getD s)
  | .row n => .row n

/-- domain.py l.210-221 `_renameHeaders`. -/
def renameHeaders (m : Dict String String) (d : DomainObj K) : Except Err (DomainObj K) :=
  match d.values with
  | none => .error .attributeError
  | some vals => .ok { d with values := some (vals.map fun p => (p.1, { p.2 with cols := p.2.cols.map (Label.rename m) })) }

/-- Position of a label. -/
def colIdx (l : Label) : List Label → Option Nat
  | [] => none
  | c :: t => if c = l then some 0 else (colIdx l t).map (· + 1)

/-- `df[label].values`; for a label occurring twice, where pandas gives a table, the first column. -/
def column [Inhabited K] (f : Frame K) (l : String) : Except Err (List K) :=
  match colIdx (.name l) f.cols with
  | none => .error .keyError
  | some i => .ok (f.rows.map fun r => r.getD i default)

/-- domain.py l.80-103 `__getitem__`: both arguments as lists. -/
def getItem [Inhabited K] (d : DomainObj K) (inds deps : List String) : Except Err (List (List K)) :=
  match d.values with
  | none => if inds.isEmpty || deps.isEmpty then .ok [] else .error .typeError
  | some vals => (inds.flatMap fun i => deps.map fun j => (i, j)).mapM fun p => do column (← dgetE vals p.1) p.2

end DomainObj

/-- The calls that change a domain. -/
inductive DomOp (K : Type) where
  /-- `x.distributeOnDomain(dom)` -/
  | distribute (v : String)
  /-- `dom(vars)` -/
  | set (vars : Option (List String))
  | reset
  | register (rows : List (List K)) (var : Option String)
  | rename (m : Dict String String)

/-- One call; an exception leaves the domain as it was. -/
def DomOp.run {K : Type} (d : DomainObj K) : DomOp K → DomainObj K
  | .distribute v => d.distributeVar v
  | .set vs => d.setDomain vs
  | .reset => d.reset
  | .register rows v => match d.register rows v with
    | .ok d' => d'
    | .error _ => d
  | .rename m => match d.renameHeaders m with
    | .ok d' => d'
    | .error _ => d

end Sloth
