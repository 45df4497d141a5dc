import Verif.Model.Session
import Verif.Model.Domain

/-!
# Solvers (`solvers.py`), compiled equation blocks (`core/equation_block.py`)

The numerical libraries (SymPy's `solve`, SciPy, pyneqsys, Assimulo) are external: they are arbitrary functions (`Ext`).  Integrators
and root finders call back into the package; such a library is an arbitrary program (`Prog`) that may ask for values
of the function any number of times.  Printing is not modelled.
-/

namespace Sloth

/-! ## Values and state -/

/-- Identity of a list of argument names. -/
abbrev LRef := Nat
/-- Identity of a domain. -/
abbrev DRef := Nat
/-- Identity of a simulation. -/
abbrev SRef := Nat

/-- Values in a configuration dictionary.  `argNames` refers to a Python list that solvers append to; `vec` is a NumPy array. -/
inductive CVal where
  | none
  | bool (b : Bool)
  | num (q : Rat)
  | str (s : String)
  /-- a list of names -/
  | names (l : List String)
  | argNames (r : LRef)
  /-- a dictionary of numbers (`initial_guess`) -/
  | nums (d : Dict String Rat)
  /-- a dictionary of names (`variable_name_map`) -/
  | renames (d : Dict String String)
  | vec (l : List Rat)
  | dom (r : DRef)
  deriving DecidableEq, Repr

/-- A configuration dictionary. -/
abbrev Conf := Dict String CVal

/-- What a simulation holds in `output`: the dictionary of an algebraic solver, or times and states. -/
inductive Output (K : Type) where
  | dict (d : Dict String K)
  | series (t : List K) (y : List (List K))
  deriving DecidableEq, Repr

/-- simulation.py l.41-58: attributes of a simulation; `plotter` and the description are not kept.  The problem is that of
`World.pr`. -/
structure SimObj (K : Type) where
  name : String
  output : Option (Output K) := none
  conf : Option Conf := none
  domain : CVal := .none
  status : Option Nat := none
  deriving DecidableEq, Repr

/-- The numerical routines that can be called. -/
inductive Routine where
  | sympySolve | linearSolve | symbolicSys | root | odeint | cvode | ida
  deriving DecidableEq, Repr

/-- The heap with simulations.  List 0 is the default of the argument `arg_names` (simulation.py l.109).  `log` are the
numerical routines called so far. -/
structure SimWorld (K : Type) where
  w : World
  lists : List (List CVal) := [[]]
  doms : List (DomainObj K) := []
  sims : List (SimObj K) := []
  log : List Routine := []

/-- A Python call on this state. -/
def PyS (K α : Type) : Type := SimWorld K → Except Err α × SimWorld K

namespace PyS
variable {K α β : Type}

protected def pure (a : α) : PyS K α := fun s => (.ok a, s)

protected def bind (x : PyS K α) (f : α → PyS K β) : PyS K β := fun s =>
  match x s with
  | (.ok a, s') => f a s'
  | (.error e, s') => (.error e, s')

instance : Monad (PyS K) where
  pure := PyS.pure
  bind := PyS.bind

/-- `raise` -/
def raise (e : Err) : PyS K α := fun s => (.error e, s)

/-- A computation without effect. -/
def lift (x : Except Err α) : PyS K α := fun s => (x, s)

/-- The state. -/
def get : PyS K (SimWorld K) := fun s => (.ok s, s)

/-- Replacing the state. -/
def modify (f : SimWorld K → SimWorld K) : PyS K Unit := fun s => (.ok (), f s)

/-- A call that only concerns models and the problem. -/
def ofWorld (x : PyM α) : PyS K α := fun s => ((x s.w).1, { s with w := (x s.w).2 })

/-- A numerical routine is called. -/
def called (c : Routine) : PyS K Unit := modify fun s => { s with log := s.log ++ [c] }

/-- `if b: x` -/
def when (b : Bool) (x : PyS K Unit) : PyS K Unit := if b then x else PyS.pure ()

/-- Reading an object. -/
def getD (r : DRef) : PyS K (DomainObj K) := fun s =>
  match s.doms[r]? with
  | some d => (.ok d, s)
  | none => (.error (.exception "dangling"), s)

def getSim (r : SRef) : PyS K (SimObj K) := fun s =>
  match s.sims[r]? with
  | some d => (.ok d, s)
  | none => (.error (.exception "dangling"), s)

def getL (r : LRef) : PyS K (List CVal) := fun s =>
  match s.lists[r]? with
  | some d => (.ok d, s)
  | none => (.error (.exception "dangling"), s)

/-- Writing an object. -/
def setD (r : DRef) (d : DomainObj K) : PyS K Unit := modify fun s => { s with doms := s.doms.set r d }
def setSim (r : SRef) (d : SimObj K) : PyS K Unit := modify fun s => { s with sims := s.sims.set r d }
def setL (r : LRef) (d : List CVal) : PyS K Unit := modify fun s => { s with lists := s.lists.set r d }

/-- problem.py l.70: the equation block; `None` before `resolve`, and then the attribute access raises. -/
def getBlock : PyS K Block := fun s =>
  match s.w.pr.block with
  | some b => (.ok b, s)
  | none => (.error .attributeError, s)

end PyS

open PyS

/-! ## External libraries -/

/-- A library routine that calls a function of the package: it asks for values and goes on with the answers, and ends with a result or
an exception. -/
inductive Prog (Q A R : Type) where
  | ret (r : R)
  | fail (e : Err)
  | ask (q : Q) (k : A → Prog Q A R)

/-- The routine run with a given function; an exception of the function ends the routine. -/
def Prog.run {K Q A R : Type} (f : Q → PyS K A) : Prog Q A R → PyS K R
  | .ret r => PyS.pure r
  | .fail e => PyS.raise e
  | .ask q k => PyS.bind (f q) fun a => (k a).run f

/-- The numerical libraries and what the code asks SymPy about an expression. -/
structure Ext (K : Type) where
  /-- the texts of `expr.args` -/
  sr : SRepr
  /-- `str(expr.args[0])` of a compound expression -/
  arg0 : Sym → String
  /-- `[abs(i).args[0] for i in eq.args if 'Derivative' in srepr(i)]` for an expression `eq` (equation_block.py l.127) -/
  diffTerms : Sym → List Sym
  /-- whether SymPy makes an expression of the text `y[0]`, given no names (if it takes `y` for a symbol, indexing raises `TypeError`) -/
  indexed : Bool
  /-- `sympy.solve(equations, names, dict=True)`; the values are numbers -/
  spSolve : List SObj → List String → Except Err (List (Dict String K))
  /-- `scipy.linalg.solve` on the matrix and vector of the system -/
  linSolve : List SObj → List String → Except Err (List K)
  /-- `SymbolicSys(names, equations).solve(guess, ...)`: the vector and `success`; the first argument tells the method (`true`: 'hybr') -/
  symSys : Bool → List String → List SObj → List K → Except Err (List K × Bool)
  /-- `scipy.optimize.root`: `x` if it succeeded -/
  root : String → List K → Prog (List K) (List (Option K)) (Option (List K))
  /-- `scipy.integrate.odeint`: initial state, times -/
  odeint : List K → List K → Prog (List K × K) (List (Option K)) (List (List K))
  /-- Assimulo's CVode: times and states -/
  cvode : List K → List K → Prog (List K × K) (List (Option K)) (List K × List (List K))
  /-- Assimulo's IDA: flags of the equations, initial state and derivatives, times; it asks for residuals at a time, state and derivatives -/
  ida : List K → List K → List K → List K → Prog (K × List K × List K) (List (Option K)) (List K × List (List K))

section
variable {K : Type} [Field K] [LinearOrder K]

/-! ## Compiled blocks -/

/-- `sp.lambdify(names, array(exprs))` called with `xs`: one number per name; a name outside, and a derivative, raise `NameError`.  An entry
without value (`nan`) is `none`. -/
def lambdify (I : Interp K) (names : List String) (exprs : List SObj) (xs : List K) : Except Err (List (Option K)) :=
  if xs.length = names.length then
    if exprs.all (fun s => !s.expr.hasD && s.expr.free.all fun n => names.contains n) then
      .ok (exprs.map fun s => s.expr.eval I fun a => match a with
        | .v n => (dget (names.zip xs) n).getD 0
        | .d _ _ => 0)
    else .error .nameError
  else .error .typeError

/-- equation_block.py l.208-217 `_getEquationBlockAsFunction()` of an algebraic block. -/
def Block.asFunction (I : Interp K) (b : Block) : List K → Except Err (List (Option K)) := lambdify I b.varList b.equationsList

/-- equation_block.py l.175-182 `_getEquationBlockAsFunction('elementary', side)`: names and expressions of the compiled function. -/
def Block.elementary (es : List EqObj) (b : Block) (side : EqObj.Side) : Except Err (List String × List SObj) := do
  let l ← Block.getEquationList es (some .elementary) side b.equations
  .ok (b.varList, l)

/-! ## Algebraic solvers -/

/-- solvers.py l.164-180, l.268-285: the solving methods. -/
inductive Mech where
  | sympy | scipy | symbolicsys
  deriving DecidableEq, Repr

/-- solvers.py l.164-180 `LASolver.lookUpForSolver`; for another name the method is `None`. -/
def laLookUp : CVal → Option Mech
  | .none | .str "sympy" => some .sympy
  | .str "scipy" => some .scipy
  | .str "symbolicsys" => some .symbolicsys
  | _ => none

/-- solvers.py l.268-285 `NLASolver.lookUpForSolver`. -/
def nlaLookUp : CVal → Except Err Mech
  | .none | .str "*" | .str "symbolicsys" => .ok .symbolicsys
  | .str "sympy" => .ok .sympy
  | _ => .error .absentRequiredObject

/-- `x[-1]` -/
def lastOf {α : Type} (l : List α) : Except Err α := match l.getLast? with
  | some a => .ok a
  | none => .error .indexError

/-- solvers.py l.212-218, l.311-317: the starting point. -/
def guess (names : List String) : CVal → Except Err (List K)
  | .nums [] => .ok (names.map fun _ => 1)
  | .nums d => names.mapM fun v => do .ok (((← dgetE d v) : Rat) : K)
  | _ => if names.isEmpty then .ok [] else .error .typeError

/-- solvers.py l.226-236, l.338-348: the outcome of the numerical solver under the names of the unknowns. -/
def report (names : List String) : List K × Bool → Except Err (Dict String K)
  | (x, true) => .ok (dofList (names.zip x))
  | (_, false) => .error .numerical

/-- solvers.py l.117-149 `_polishRoot`. -/
def polishRoot (ext : Ext K) (I : Interp K) (g : List K) (polisher : CVal) : PyS K (Option (List K)) := do
  let b ← getBlock
  match polisher with
  | .none | .str "" | .str "hybr" => do
    called .root
    (ext.root "hybr" g).run fun x => lift (b.asFunction I x)
  | .str "anderson" => do
    called .root
    (ext.root "anderson" g).run fun x => lift (b.asFunction I x)
  | _ => PyS.pure none

/-- solvers.py l.182-188, l.288-296: SymPy's `solve`; the last solution is returned. -/
def sympyMech (ext : Ext K) : PyS K (Dict String K) := do
  let b ← getBlock
  called .sympySolve
  let l ← lift (ext.spSolve b.equationsList b.varList)
  lift (lastOf l)

/-- solvers.py l.190-200 `_scipySolveMechanism`. -/
def scipyMech (ext : Ext K) : PyS K (Dict String K) := do
  let b ← getBlock
  called .linearSolve
  let x ← lift (ext.linSolve b.equationsList b.varList)
  PyS.pure (dofList (b.varList.zip x))

/-- solvers.py l.202-236 `LASolver._symbolicSysSolveMechanism`. -/
def laSymbolicMech (ext : Ext K) (conf : Conf) : PyS K (Dict String K) := do
  let b ← getBlock
  let g ← lift (dgetE conf "initial_guess")
  let x0 ← lift (guess b.varList g)
  called .symbolicSys
  let r ← lift (ext.symSys true b.varList b.equationsList x0)
  lift (report b.varList r)

/-- solvers.py l.319-328: the starting point, polished if that is asked for and succeeds. -/
def polished (ext : Ext K) (I : Interp K) (x0 : List K) : CVal → PyS K (List K)
  | .none => PyS.pure x0
  | p => do
    let r ← polishRoot ext I x0 p
    PyS.pure (r.getD x0)

/-- solvers.py l.298-348 `NLASolver._symbolicSysSolveMechanism`. -/
def nlaSymbolicMech (ext : Ext K) (I : Interp K) (conf : Conf) : PyS K (Dict String K) := do
  let b ← getBlock
  let g ← lift (dgetE conf "initial_guess")
  let x0 ← lift (guess b.varList g)
  let p ← lift (dgetE conf "initial_guess_solver")
  let x1 ← polished ext I x0 p
  called .symbolicSys
  let r ← lift (ext.symSys false b.varList b.equationsList x1)
  lift (report b.varList r)

/-- solvers.py l.248-252 `LASolver.solve`: calling `None` raises `TypeError`. -/
def laSolve (ext : Ext K) (conf : Conf) : Option Mech → PyS K (Dict String K)
  | some .sympy => sympyMech ext
  | some .scipy => scipyMech ext
  | some .symbolicsys => laSymbolicMech ext conf
  | none => PyS.raise .typeError

/-- solvers.py l.350-360 `NLASolver.solve`. -/
def nlaSolve (ext : Ext K) (I : Interp K) (conf : Conf) : Mech → PyS K (Dict String K)
  | .sympy => sympyMech ext
  | _ => nlaSymbolicMech ext I conf

/-! ## Explicit differential systems -/

/-- solvers.py l.373-417: attributes of a `DSolver` that are used.  `compiled` is set when `compile_equations` is true: argument names and
expressions of the compiled function. -/
structure DObj where
  solver : CVal
  domain : CVal
  times : CVal
  diffSystem : List ERef
  diffY : List String
  compiled : Option (List String × List SObj)
  deriving DecidableEq, Repr

/-- solvers.py l.562-585 `setUpDiffY`: the keys, in order. -/
def setUpDiffY (es : List EqObj) : List ERef → Except Err (Dict String Ref) := fun l =>
  l.foldlM (fun acc r => match es[r]? with
    | none => .error (.exception "dangling")
    | some e => match e.elem with
      | none => .error .typeError
      | some p => .ok (dupdate acc p.1.symMap)) []

/-- solvers.py l.383-393, l.823: `time_variable_name in problem.initial_conditions`. -/
def hasInitial (init : Dict String Rat) : CVal → Except Err Bool
  | .str s => .ok ((dget init s).isSome)
  | .names _ | .argNames _ | .nums _ | .renames _ | .vec _ => .error .typeError
  | _ => .ok false

/-- solvers.py l.383-389: the same in `DSolver`, where a list stands for all of its names. -/
def hasInitialAll (init : Dict String Rat) : CVal → Except Err Bool
  | .names l => .ok (l.all fun s => (dget init s).isSome)
  | c => hasInitial init c

/-- solvers.py l.395-397, l.827-829: the name of time is appended to the list of the configuration, in place.  (A list given as `arg_names`
is a `CVal.argNames`, never `names`.)  Simplification: `in` fails with `TypeError` for numbers, booleans and `None`; for a string or a dictionary
it would succeed, and the name would then be found or `append` raise `AttributeError`; here these raise `TypeError` too. -/
def appendArg (tvn : CVal) : CVal → PyS K Unit
  | .argNames r => do
    let l ← getL r
    when (!l.contains tvn) (setL r (l ++ [tvn]))
  | .names _ => PyS.raise (.exception "list without identity")
  | _ => PyS.raise .typeError

/-- solvers.py l.415-417: compilation when it is asked for. -/
def compileIf (c : CVal) (b : Block) : PyS K (Option (List String × List SObj)) :=
  if c = .bool true ∨ c = .num 1 then do
    let s ← get
    let f ← lift (b.elementary s.w.es .rhs)
    PyS.pure (some f)
  else PyS.pure none

/-- solvers.py l.371-417 `DSolver.__init__`. -/
def dInit (solver : CVal) (conf : Conf) : PyS K DObj := do
  let domain ← lift (dgetE conf "domain")
  let times ← lift (dgetE conf "times_for_solution")
  let tvn ← lift (dgetE conf "time_variable_name")
  let args ← lift (dgetE conf "arg_names")
  let s ← get
  let has ← lift (hasInitialAll s.w.pr.initial tvn)
  when (!has) (PyS.raise .absentRequiredObject)
  appendArg tvn args
  let b ← getBlock
  let dy ← lift (setUpDiffY s.w.es b.differential)
  let _ ← lift (dgetE conf "compilation_mechanism")
  let c ← lift (dgetE conf "compile_equations")
  let f ← compileIf c b
  PyS.pure { solver, domain, times, diffSystem := b.differential, diffY := dkeys dy, compiled := f }

/-- solvers.py l.607-617: time is added to the values for each of its names that occurs. -/
def addTimes (sr : SRepr) (es : List EqObj) (b : Block) (t : K) : List String → Dict String K → Except Err (Dict String K)
  | [], d => .ok d
  | n :: ns, d => do
    let has ← timeDeclared sr es b (some [n])
    addTimes sr es b t ns (if has then dset d n t else d)

/-- solvers.py l.605-617: the values at a time and a state. -/
def stateMap (sr : SRepr) (es : List EqObj) (b : Block) (timeName : Option (List String)) (diffY : List String) (Y : List K) (t : K) :
    Except Err (Dict String K) :=
  match timeName with
  | none => .error .typeError
  | some names => addTimes sr es b t names (dofList (diffY.zip Y))

/-- equation.py l.396-450 `eval(symbolic_map, side='rhs')`.  An expression with a name outside the map stays symbolic, which the integrator
refuses with `TypeError`. -/
def EqObj.evalRhs (I : Interp K) (e : EqObj) (m : Dict String K) : Except Err (Option K) := do
  let n ← e.sideNode (some .rhs)
  if !n.sym.expr.hasD && n.sym.expr.free.all fun s => (dget m s).isSome then
    .ok (n.sym.expr.eval I fun a => match a with
      | .v s => (dget m s).getD 0
      | .d _ _ => 0)
  else .error .typeError

/-- solvers.py l.487-506 `_evaluateDiffYfromEquations`. -/
def evalSystem (I : Interp K) (es : List EqObj) (m : Dict String K) (l : List ERef) : Except Err (List (Option K)) :=
  l.mapM fun r => match es[r]? with
    | some e => e.evalRhs I m
    | none => .error (.exception "dangling")

/-- solvers.py l.632-633: the list of unknowns of the block is extended in place. -/
def extendKeys (m : Dict String K) : PyS K (List String) := do
  let b ← getBlock
  let keys := b.varList ++ (dkeys m).filter fun k => !b.varList.contains k
  modify fun s => { s with w := { s.w with pr := { s.w.pr with block := some { b with varList := keys } } } }
  PyS.pure keys

/-- solvers.py l.603-656 `diffYinterfaceForScipySolvers` (l.658-702 is the same for Assimulo, with the arguments exchanged).  `args` is
always empty: the integrator is not given any. -/
def DObj.rhs (ext : Ext K) (I : Interp K) (o : DObj) (Y : List K) (t : K) : PyS K (List (Option K)) := do
  let s ← get
  let b ← getBlock
  let m ← lift (stateMap ext.sr s.w.es b s.w.pr.timeName o.diffY Y t)
  match o.compiled with
  | some (names, exprs) => do
    let keys ← extendKeys m
    let vals ← lift (keys.mapM fun k => dgetE m k)
    lift (lambdify I names exprs (dvalues (dofList (keys.zip vals))))
  | none => lift (evalSystem I s.w.es m o.diffSystem)

/-- solvers.py l.546 `str(lhs.symbolic_object.args[0])`. -/
def lhsName (ext : Ext K) (s : SObj) : Except Err String :=
  match s.isPy, s.expr with
  | true, _ => .error .attributeError
  | false, .atom (.d x _) => .ok x
  | false, .atom (.v _) | false, .num _ => .error .indexError
  | false, e => .ok (ext.arg0 e)

/-- solvers.py l.528-548 `_getDiffYinOrder`. -/
def diffYinOrder (ext : Ext K) (es : List EqObj) (l : List ERef) : Except Err (List String) :=
  l.mapM fun r => match es[r]? with
    | none => .error (.exception "dangling")
    | some e => match e.elem with
      | none => .error .typeError
      | some p => lhsName ext p.1.sym

/-- `np.linspace(a, b, n+1)` -/
def linspace (a b : K) (n : Nat) : List K := (List.range (n + 1)).map fun (i : Nat) => a + (i : K) * ((b - a) / (n : K))

/-- solvers.py l.722-728, l.915: the times, from the configured ones or equally spaced. -/
def timePoints : (initial final steps times : CVal) → Except Err (List K)
  | .num a, .num b, .num n, .none => if n.den = 1 ∧ 0 ≤ n then .ok (linspace (a : K) (b : K) n.num.toNat) else .error .valueError
  | _, _, _, .vec l => .ok (l.map fun (q : Rat) => (q : K))
  | _, _, _, _ => .error .typeError

/-- `np.hstack((times.reshape(-1,1), Y))` -/
def hstack (t : List K) (Y : List (List K)) : Except Err (List (List K)) :=
  if t.length = Y.length then .ok (List.zipWith (fun a r => a :: r) t Y) else .error .valueError

/-- solvers.py l.792-800, l.978-986: the solution is kept in the domain and its columns are renamed. -/
def record (conf : Conf) (dom : CVal) (rows : List (List K)) : PyS K Unit :=
  match dom with
  | .dom r => do
    let d ← getD r
    let d ← lift (d.register rows none)
    setD r d
    let m ← lift (dgetE conf "variable_name_map")
    match m with
    | .renames m => do
      let d ← lift (d.renameHeaders m)
      setD r d
    | _ => PyS.raise .typeError
  | _ => PyS.raise .attributeError

/-- `x == True` for a setting. -/
def CVal.isTrue : CVal → Bool
  | .bool b => b
  | .num q => q == 1
  | _ => false

/-- simulation.py l.323, solvers.py l.782 and 970: the headers; `prettytable` raises `TypeError` for what cannot be iterated (a text, which it would split into letters,
is not modelled) and `ValueError` for a repeated header. -/
def showHeaders : CVal → Except Err (List String)
  | .names l => if l.Nodup then .ok l else .error .valueError
  | _ => .error .typeError

/-- simulation.py l.325-326, solvers.py l.784-786 and 972-974: one row per time.  `Y[i, :]` raises `IndexError`, a row that has not as many entries as there are headers
`ValueError` (no headers: any row). -/
def showRows (hs : List String) (y : List (List K)) : Nat → List K → Except Err (List (List K))
  | _, [] => .ok []
  | i, t :: ts =>
    match y[i]? with
    | none => .error .indexError
    | some r =>
      if hs ≠ [] ∧ (t :: r).length ≠ hs.length then .error .valueError
      else do
        let rs ← showRows hs y (i + 1) ts
        .ok ((t :: r) :: rs)

/-- solvers.py l.778-788, l.966-976: the table that is printed if the configuration asks for it; what is printed is not kept. -/
def printTable (conf : Conf) (t : List K) (y : List (List K)) : Except Err Unit := do
  let p ← dgetE conf "print_output"
  if p.isTrue then do
    let h ← dgetE conf "output_headers"
    let hs ← showHeaders h
    let _ ← showRows hs y 0 t
    .ok ()
  else .ok ()

/-- solvers.py l.732-755: the integrator. -/
def integrate (ext : Ext K) (I : Interp K) (o : DObj) (y0 tp : List K) : PyS K (List K × List (List K)) :=
  match o.solver with
  | .none | .str "ODEINT" => do
    called .odeint
    let Y ← (ext.odeint y0 tp).run fun q => o.rhs ext I q.1 q.2
    PyS.pure (tp, Y)
  | .str "CVODE" => do
    called .cvode
    (ext.cvode y0 tp).run fun q => o.rhs ext I q.1 q.2
  | _ => PyS.raise .valueError

/-- solvers.py l.591-601, l.897-907: keys read from the configuration. -/
def readKeys (conf : Conf) (l : List String) : Except Err Unit := do
  let _ ← l.mapM fun k => dgetE conf k
  .ok ()

/-- solvers.py l.587-804 `DSolver.solve`.  With `number_of_time_steps` `None` the missing attribute `end_time` raises (l.718).  For
a solver name other than 'ODEINT' and 'CVODE' nothing is integrated and registering `None` raises (l.792). -/
def dSolve (ext : Ext K) (I : Interp K) (conf : Conf) (o : DObj) : PyS K (Output K) := do
  lift (readKeys conf ["initial_time", "end_time", "args", "number_of_time_steps", "times_for_solution", "configuration_args"])
  let a ← lift (dgetE conf "initial_time")
  let b ← lift (dgetE conf "end_time")
  let n ← lift (dgetE conf "number_of_time_steps")
  let ts ← lift (dgetE conf "times_for_solution")
  let s ← get
  let names ← lift (diffYinOrder ext s.w.es o.diffSystem)
  let y0 ← lift (names.mapM fun v => dgetE s.w.pr.initial v)
  when (n = .none) (PyS.raise .attributeError)
  let tp ← lift (timePoints a b n (if o.times = .none then .none else ts))
  let r ← integrate ext I o (y0.map fun (q : Rat) => (q : K)) tp
  let rows ← lift (hstack r.1 r.2)
  lift (printTable conf r.1 r.2)
  record conf o.domain rows
  PyS.pure (.series r.1 r.2)

/-! ## Implicit differential systems -/

/-- equation_block.py l.99, 103: the texts that stand for derivatives and unknowns. -/
def ydName (i : Nat) : String := "yd[" ++ i.repr ++ "]"
def yName (i : Nat) : String := "y[" ++ i.repr ++ "]"

/-- equation_block.py l.111-129 `_getDiffList`: the derivatives found in the residuals of the differential equations.  A number has no
`args`. -/
def diffList (terms : Sym → List Sym) (es : List EqObj) : List ERef → Except Err (List Sym)
  | [] => .ok []
  | r :: t => do
    let s ← match es[r]? with
      | some e => e.symbolicObject (some .residual) .rhs
      | none => .error (.exception "dangling")
    if s.isPy then .error .attributeError
    else do
      let l ← diffList terms es t
      .ok (terms s.expr ++ l)

/-- equation_block.py l.86-109 `_getMapForRewriteSystemAsResidual`: the two dictionaries. -/
def ydMap (l : List Sym) : Dict Sym Sym := dofList (l.zipIdx.map fun p => (p.1, .var (ydName p.2)))
def yMap (l : List String) : Dict String Sym := dofList (l.zipIdx.map fun p => (p.1, .var (yName p.2)))

/-- `eq.subs(map)`: every part that is a key is replaced, the larger ones first.  SymPy also finds keys in sums and products written in another
order, and goes into derivatives that are no keys (they cannot be evaluated in any case); the new texts contain no keys. -/
def Sym.replace (m : Dict Sym Sym) : Sym → Sym
  | .num q => (dget m (.num q)).getD (.num q)
  | .atom a => (dget m (.atom a)).getD (.atom a)
  | .add a b => (dget m (.add a b)).getD (.add (a.replace m) (b.replace m))
  | .sub a b => (dget m (.sub a b)).getD (.sub (a.replace m) (b.replace m))
  | .mul a b => (dget m (.mul a b)).getD (.mul (a.replace m) (b.replace m))
  | .div a b => (dget m (.div a b)).getD (.div (a.replace m) (b.replace m))
  | .pow a b => (dget m (.pow a b)).getD (.pow (a.replace m) (b.replace m))
  | .fn f a => (dget m (.fn f a)).getD (.fn f (a.replace m))
  | .mm k a b => (dget m (.mm k a b)).getD (.mm k (a.replace m) (b.replace m))

/-- equation_block.py l.191: `yd_map.update(y_map)`; a text that is a key stands for the symbol. -/
def rewriteMap (ds : List Sym) (vs : List String) : Dict Sym Sym := dupdate (ydMap ds) ((yMap vs).map fun p => (.var p.1, p.2))

/-- equation_block.py l.195: one equation is rewritten; a number has no `subs`. -/
def rewriteEqn (indexed : Bool) (m : Dict Sym Sym) (s : SObj) : Except Err Sym :=
  if s.isPy then .error .attributeError
  else if !indexed && !m.isEmpty then .error .typeError
  else .ok (s.expr.replace m)

/-- equation_block.py l.185-206 `_getEquationBlockAsFunction('residual', 'rhs')` of a block with differential equations: the texts that may occur
and the rewritten equations. -/
def residualSystem (ext : Ext K) (es : List EqObj) (b : Block) : Except Err (List String × List Sym) := do
  let ds ← diffList ext.diffTerms es b.differential
  let l ← Block.getEquationList es (some .residual) .rhs b.equations
  let r ← l.mapM (rewriteEqn ext.indexed (rewriteMap ds b.varList))
  .ok (ds.zipIdx.map (fun p => ydName p.2) ++ b.varList.zipIdx.map (fun p => yName p.2), r)

/-- The values under their texts: arguments of the compiled function (equation_block.py l.197). -/
def residualEnv (t : K) (y yd : List K) : Dict String K :=
  ("t", t) :: (y.zipIdx.map (fun p => (yName p.2, p.1)) ++ yd.zipIdx.map fun p => (ydName p.2, p.1))

/-- equation_block.py l.197-204: the compiled function called.  An entry that a vector does not have raises `IndexError`, another symbol or a
derivative `NameError`. -/
def residualAt (I : Interp K) (c : List String × List Sym) (t : K) (y yd : List K) : Except Err (List (Option K)) :=
  if c.2.all (fun s => !s.hasD && s.free.all fun n => n == "t" || c.1.contains n) then
    if c.2.all (fun s => s.free.all fun n => (dget (residualEnv t y yd) n).isSome) then
      .ok (c.2.map fun s => s.eval I fun a => match a with
        | .v n => (dget (residualEnv t y yd) n).getD 0
        | .d _ _ => 0)
    else .error .indexError
  else .error .nameError

/-- equation_block.py l.219-229 `_getBooleanDiffFlagsForEquations`. -/
def diffFlags (es : List EqObj) (l : List ERef) : List K :=
  l.map fun r => if (es[r]?.bind EqObj.type) = some .differential then 1 else 0

/-- solvers.py l.923: `str(diff_i.args[0])`. -/
def derivName (ext : Ext K) : Sym → Except Err String
  | .atom (.d x _) => .ok x
  | .atom (.v _) | .num _ => .error .indexError
  | s => .ok (ext.arg0 s)

/-- solvers.py l.923: the initial value of a derivative. -/
def initialRate (ext : Ext K) (init : Dict String Rat) (d : Sym) : Except Err Rat := do
  let n ← derivName ext d
  dgetE init (n ++ "_d")

/-- solvers.py l.815-843: attributes of a `DaeSolver` that are used; `compiled` is the residual function. -/
structure DaeObj where
  solver : CVal
  domain : CVal
  compiled : List String × List Sym
  deriving DecidableEq, Repr

/-- solvers.py l.879-895 `_setUpDaeSystem`: `lin_eqs.append(nlin_eqs)` appends the *list* of nonlinear equations to the linear group of
the problem. -/
def daeSystem : PyS K Unit := do
  let b ← getBlock
  modify fun s => { s with w := { s.w with pr := { s.w.pr with block := some { b with linearTail := b.linearTail ++ [b.nonlinear] } } } }

/-- solvers.py l.847-857 `_compileEquationsIntoFunctions`. -/
def daeCompile (ext : Ext K) (w : World) : Except Err (List String × List Sym) :=
  match w.pr.block with
  | some b => residualSystem ext w.es b
  | none => .error .attributeError

/-- solvers.py l.813-845 `DaeSolver.__init__`. -/
def daeInit (ext : Ext K) (solver : CVal) (conf : Conf) : PyS K DaeObj := do
  let domain ← lift (dgetE conf "domain")
  let tvn ← lift (dgetE conf "time_variable_name")
  let args ← lift (dgetE conf "arg_names")
  let s ← get
  let has ← lift (hasInitial s.w.pr.initial tvn)
  when (!has) (PyS.raise .absentRequiredObject)
  appendArg tvn args
  daeSystem
  let _ ← lift (dgetE conf "compilation_mechanism")
  let compiled ← lift (daeCompile ext s.w)
  PyS.pure { solver, domain, compiled }

/-- solvers.py l.956-958: `verbosity_levels[...]`. -/
def verbosityOk : CVal → Except Err Unit
  | .num q => if q = 0 ∨ q = 1 ∨ q = 2 then .ok () else .error .keyError
  | .bool _ => .ok ()
  | _ => .error .keyError

/-- solvers.py l.925-960: the integrator.  The residuals are computed once (l.950) before it is called; the first of the times is the initial
time. -/
def integrateDae (ext : Ext K) (I : Interp K) (conf : Conf) (o : DaeObj) (flags y0 yd0 tp : List K) : PyS K (List K × List (List K)) :=
  if o.solver = .none ∨ o.solver = .str "IDA" then do
    let _ ← lift (residualAt I o.compiled (tp.headD 0) y0 (yd0 ++ [0]))
    let v ← lift (dgetE conf "verbosity_solver")
    lift (verbosityOk v)
    called .ida
    (ext.ida flags y0 (yd0 ++ [0]) tp).run fun q => lift (residualAt I o.compiled q.1 q.2.1 q.2.2)
  else PyS.raise .nameError

/-- solvers.py l.897-990 `DaeSolver.solve`. -/
def daeSolve (ext : Ext K) (I : Interp K) (conf : Conf) (o : DaeObj) : PyS K (Output K) := do
  lift (readKeys conf ["initial_time", "end_time", "args", "number_of_time_steps", "configuration_args"])
  let a ← lift (dgetE conf "initial_time")
  let b ← lift (dgetE conf "end_time")
  let n ← lift (dgetE conf "number_of_time_steps")
  when (n = .none) (PyS.raise .attributeError)
  let tp ← lift (timePoints a b n .none)
  let s ← get
  let bl ← getBlock
  let ds ← lift (diffList ext.diffTerms s.w.es bl.differential)
  let y0 ← lift ((dkeys (yMap bl.varList)).mapM fun v => dgetE s.w.pr.initial v)
  let yd0 ← lift ((dkeys (ydMap ds)).mapM (initialRate ext s.w.pr.initial))
  let r ← integrateDae ext I conf o (diffFlags s.w.es bl.equations) (y0.map fun (q : Rat) => (q : K)) (yd0.map fun (q : Rat) => (q : K)) tp
  let rows ← lift (hstack tp r.2)
  lift (printTable conf tp r.2)
  record conf o.domain rows
  PyS.pure (.series r.1 r.2)

/-! ## Choice of the solver -/

/-- The four solver classes. -/
inductive SolverObj where
  | la (m : Option Mech)
  | nla (m : Mech)
  | d (o : DObj)
  | dae (o : DaeObj)
  deriving DecidableEq, Repr

/-- solvers.py l.56-76: by the kind of the problem. -/
def solverFor (ext : Ext K) (conf : Conf) (lin non dif dae : CVal) : Option ProblemKind → PyS K SolverObj
  | some .linear => PyS.pure (.la (laLookUp lin))
  | some .nonlinear => do
    let m ← lift (nlaLookUp non)
    PyS.pure (.nla m)
  | some .differential => do
    let o ← dInit dif conf
    PyS.pure (.d o)
  | some .dae => do
    let o ← daeInit ext dae conf
    PyS.pure (.dae o)
  | none => PyS.raise .unexpectedValue

/-- solvers.py l.27-76 `_createSolver`. -/
def createSolver (ext : Ext K) (conf : Conf) : PyS K SolverObj := do
  let lin ← lift (dgetE conf "linear_solver")
  let non ← lift (dgetE conf "nonlinear_solver")
  let dif ← lift (dgetE conf "differential_solver")
  let dae ← lift (dgetE conf "differential_algebraic_solver")
  let b ← getBlock
  solverFor ext conf lin non dif dae b.problemType

/-- `solver.solve(configurations)`, for the four classes. -/
def SolverObj.solve (ext : Ext K) (I : Interp K) (conf : Conf) : SolverObj → PyS K (Output K)
  | .la m => do
    let d ← laSolve ext conf m
    PyS.pure (.dict d)
  | .nla m => do
    let d ← nlaSolve ext I conf m
    PyS.pure (.dict d)
  | .d o => dSolve ext I conf o
  | .dae o => daeSolve ext I conf o

end
end Sloth
