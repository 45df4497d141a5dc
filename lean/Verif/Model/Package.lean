import Verif.Model.Py

/-!
# Property packages (`core/property_package.py`)

The library `thermo` is external: whether it knows a chemical is an arbitrary test.  A chemical only keeps the conditions it was last
calculated at.  The attributes `ws`, `zs`, `mixture` and `eos` are not kept (`resolve_mixture`, l.40-46, raises `NameError`
because `phase_names` is not qualified).
-/

namespace Sloth.Pkg
open Sloth

/-- Identities of lists of phase names, chemicals and packages. -/
abbrev LRef := Nat
abbrev CRef := Nat
abbrev PRef := Nat

/-- A `thermo.chemical.Chemical`. -/
structure Chem where
  name : String
  T : Rat
  P : Rat
  deriving DecidableEq, Repr

/-- property_package.py l.16-38: the attributes.  `names` is the identity of the list `phase_names`, which is not copied. -/
structure Obj where
  count : Rat
  names : LRef
  T : Rat := 29815 / 100
  P : Rat := 101325
  phases : Dict String CRef
  deriving DecidableEq, Repr

/-- The heap.  List 0 is the default of the argument `phase_names` (l.16).  A phase name may be `None`. -/
structure World where
  lists : List (List (Option String)) := [[some "water"]]
  chems : List Chem := []
  pkgs : List Obj := []
  deriving DecidableEq, Repr

/-- A Python call on this heap. -/
abbrev Call (α : Type) : Type := World → Except Err α × World

/-- property_package.py l.30: one chemical per phase name that is not `None`; `known` tells what the library knows. -/
def mkPhases (known : String → Bool) (T P : Rat) : List (Option String) → Dict String CRef → Call (Dict String CRef)
  | [], d => fun w => (.ok d, w)
  | none :: t, d => mkPhases known T P t d
  | some s :: t, d => fun w =>
    if known s then mkPhases known T P t (dset d s w.chems.length) { w with chems := w.chems ++ [⟨s, T, P⟩] }
    else (.error (.exception "unknown chemical"), w)

/-- property_package.py l.16-38 `__init__` with the list of names `r`. -/
def new (known : String → Bool) (count : Rat) (r : LRef) : Call PRef := fun w =>
  match w.lists[r]? with
  | none => (.error (.exception "dangling"), w)
  | some l =>
    match mkPhases known (29815 / 100) 101325 l [] w with
    | (.error e, w) => (.error e, w)
    | (.ok d, w) => (.ok w.pkgs.length, { w with pkgs := w.pkgs ++ [{ count, names := r, phases := d }] })

/-- property_package.py l.56-62: the loop over the names of the other package, whose chemicals are `ph`.  The name is appended before the
chemical is looked up. -/
def addLoop (a : PRef) (ph : Dict String CRef) : List (Option String) → Call Unit
  | [] => fun w => (.ok (), w)
  | n :: t => fun w =>
    match w.pkgs[a]? with
    | none => (.error (.exception "dangling"), w)
    | some p =>
      match w.lists[p.names]? with
      | none => (.error (.exception "dangling"), w)
      | some l =>
        if l.contains n then addLoop a ph t w
        else
          let w1 := { w with lists := w.lists.set p.names (l ++ [n]) }
          match n with
          | none => (.error .keyError, w1)
          | some s =>
            match dget ph s with
            | none => (.error .keyError, w1)
            | some c => addLoop a ph t { w1 with pkgs := w1.pkgs.set a { p with phases := dset p.phases s c } }

/-- What stands on the right of `+`. -/
inductive Arg where
  | pkg (r : PRef)
  | other
  deriving DecidableEq, Repr

/-- property_package.py l.48-68 `__add__`: `self` is changed and returned.  (If both packages have the same list, nothing is
appended, so the loop over the list as it was is the loop over the list.) -/
def add (a : PRef) : Arg → Call PRef
  | .other => fun w => (.error .unexpectedValue, w)
  | .pkg b => fun w =>
    match w.pkgs[b]? with
    | none => (.error (.exception "dangling"), w)
    | some q =>
      match w.lists[q.names]? with
      | none => (.error (.exception "dangling"), w)
      | some l =>
        match addLoop a q.phases l w with
        | (.ok _, w) => (.ok a, w)
        | (.error e, w) => (.error e, w)

/-- property_package.py l.71-82 `set_T`, l.84-95 `set_P`; a number that is not a `float` is refused. -/
def setT (a : PRef) (isFloat : Bool) (v : Rat) : Call Unit := fun w =>
  match w.pkgs[a]? with
  | none => (.error (.exception "dangling"), w)
  | some p => if isFloat then (.ok (), { w with pkgs := w.pkgs.set a { p with T := v } }) else (.error .absentRequiredObject, w)

def setP (a : PRef) (isFloat : Bool) (v : Rat) : Call Unit := fun w =>
  match w.pkgs[a]? with
  | none => (.error (.exception "dangling"), w)
  | some p => if isFloat then (.ok (), { w with pkgs := w.pkgs.set a { p with P := v } }) else (.error .absentRequiredObject, w)

/-- property_package.py l.104-113 `__getitem__`: `"*"` stands for the last phase. -/
def item (a : PRef) (name : String) : Call CRef := fun w =>
  match w.pkgs[a]? with
  | none => (.error (.exception "dangling"), w)
  | some p =>
    match (if name = "*" then (dkeys p.phases).getLast? else some name) with
    | none => (.error .indexError, w)
    | some n => (dgetE p.phases n, w)

/-- property_package.py l.122: one chemical after the other is calculated. -/
def calcLoop (ph : Dict String CRef) (T P : Rat) : List (Option String) → Call Unit
  | [] => fun w => (.ok (), w)
  | none :: _ => fun w => (.error .keyError, w)
  | some s :: t => fun w =>
    match dget ph s with
    | none => (.error .keyError, w)
    | some c => calcLoop ph T P t { w with chems := w.chems.modify c fun x => { x with T, P } }

/-- property_package.py l.115-122 `calculate`; the conditions are the arguments, not those set by `set_T` and `set_P`. -/
def calculate (a : PRef) (T : Rat := 29815 / 100) (P : Rat := 101325) : Call Unit := fun w =>
  match w.pkgs[a]? with
  | none => (.error (.exception "dangling"), w)
  | some p =>
    match w.lists[p.names]? with
    | none => (.error (.exception "dangling"), w)
    | some l => calcLoop p.phases T P l w

/-- What a user can do. -/
inductive Op where
  /-- a list of names is written -/
  | list (l : List (Option String))
  | new (count : Rat) (r : LRef)
  | add (a : PRef) (b : Arg)
  | setT (a : PRef) (isFloat : Bool) (v : Rat)
  | setP (a : PRef) (isFloat : Bool) (v : Rat)
  | calculate (a : PRef) (T P : Rat)
  deriving DecidableEq, Repr

/-- The heap after the call; exceptions are caught. -/
def Op.exec (known : String → Bool) : Op → World → World
  | .list l, w => { w with lists := w.lists ++ [l] }
  | .new n r, w => (Pkg.new known n r w).2
  | .add a b, w => (Pkg.add a b w).2
  | .setT a f v, w => (Pkg.setT a f v w).2
  | .setP a f v, w => (Pkg.setP a f v w).2
  | .calculate a T P, w => (Pkg.calculate a T P w).2

/-- A session. -/
def history (known : String → Bool) (ops : List Op) : World := ops.foldl (fun w o => o.exec known w) {}

end Sloth.Pkg
