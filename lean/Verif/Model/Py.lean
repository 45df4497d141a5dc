/-!
# Python substrate

Exceptions as values, insertion-ordered dictionaries and the few builtins the package relies on.
Nothing here is specific to the package; the definitions mirror CPython's behaviour.
-/

namespace Sloth

/-- Exception classes that can escape from the modelled code.  The package's own classes are those of
`src/sloth/core/error_definitions.py` (lines 1-189); the rest are Python builtins.  Messages are modelled in `Model/Errors.lean`. -/
inductive Err where
  | dimensionalCoherence
  | unexpectedValue
  | unexpectedObjectDeclaration
  | absentRequiredObject
  | exposedVariable
  | unresolvedPanic
  | numerical
  | keyError
  | typeError
  | nameError
  | attributeError
  | valueError
  | indexError
  | zeroDivision
  | assertion
  /-- a bare `Exception(...)`, tagged with the leading word(s) of its message -/
  | exception (tag : String)
  deriving DecidableEq, Repr

/-- A Python dictionary: an association list in insertion order. -/
abbrev Dict (α β : Type) := List (α × β)

section Dict
variable {α β : Type} [DecidableEq α]

/-- `d.get(k)` -/
def dget : Dict α β → α → Option β
  | [], _ => none
  | (k, v) :: t, x => if k = x then some v else dget t x

/-- `d[k] = v`: overwrites in place, or appends. -/
def dset : Dict α β → α → β → Dict α β
  | [], k, v => [(k, v)]
  | (k', v') :: t, k, v => if k' = k then (k', v) :: t else (k', v') :: dset t k v

/-- `d.update(e)`; also `{**d, **e}`. -/
def dupdate (d e : Dict α β) : Dict α β := e.foldl (fun d p => dset d p.1 p.2) d

/-- `list(d.keys())` -/
def dkeys (d : Dict α β) : List α := d.map Prod.fst

/-- `list(d.values())` -/
def dvalues (d : Dict α β) : List β := d.map Prod.snd

/-- `d[k]`, raising `KeyError`. -/
def dgetE (d : Dict α β) (k : α) : Except Err β :=
  match dget d k with
  | some v => .ok v
  | none => .error .keyError

/-- `dict(pairs)`: a dictionary literal or comprehension. -/
def dofList (l : List (α × β)) : Dict α β := dupdate [] l

/-- The keys of a Python dictionary are pairwise distinct. -/
def DNodup (d : Dict α β) : Prop := (dkeys d).Nodup

end Dict

/-- Insertion of `x` in a sorted list, the step of `sorted`. -/
def sinsert {α : Type} (le : α → α → Bool) (x : α) : List α → List α
  | [] => [x]
  | y :: t => if le x y then x :: y :: t else y :: sinsert le x t

/-- Python's `sorted` (stable). -/
def psorted {α : Type} (le : α → α → Bool) : List α → List α
  | [] => []
  | x :: t => sinsert le x (psorted le t)

/-- Comparison of Python strings (code point order). -/
def strLe (a b : String) : Bool := decide (a ≤ b)

/-- `sep.join(l)` -/
def pyJoin (sep : String) : List String → String
  | [] => ""
  | [a] => a
  | a :: b :: t => a ++ sep ++ pyJoin sep (b :: t)

end Sloth
