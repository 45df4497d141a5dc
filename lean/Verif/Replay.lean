import Verif.Props.Implicit
import Verif.Props.Reports
import Verif.Model.Optimization

/-!
# The tests of the repository replayed on the model

These are tests, not proofs: they compare the model with the outcomes that the authors assert of the code (`/repo/tests`).  The numerical libraries are
stand-ins that are told an answer and refuse it unless it fits what they are handed.
-/

namespace Sloth
namespace Replay
open Ex

/-! ## Libraries and helpers -/

/-- `|v| ≤ 10⁻⁶` -/
def tiny : Option Rat → Bool
  | some v => -1/1000000 ≤ v ∧ v ≤ 1/1000000
  | none => false

/-- Is `x` a solution of the handed expressions? -/
def fits (names : List String) (es : List SObj) (x : List Rat) : Bool :=
  x.length == names.length && es.all fun s => !s.expr.hasD && s.expr.free.all (names.contains ·) && tiny (s.expr.eval ratI fun a => match a with
    | .v n => (dget (names.zip x) n).getD 0
    | .d _ _ => 0)

/-- Algebraic libraries that are told the answer under names. -/
def told (ans : Dict String Rat) : Ext Rat := { ext with
  symSys := fun _ names es _ => let x := names.map fun n => (dget ans n).getD 0
    if fits names es x then .ok (x, true) else .ok (x, false)
  spSolve := fun es names => let x := names.map fun n => (dget ans n).getD 0
    if fits names es x then .ok [dofList (names.zip x)] else .ok [] }

/-- An integrator that returns the initial state at all times but the last, and there the right sides at the start. -/
def euler : Ext Rat := { lax with
  odeint := fun y0 tp => .ask (y0, tp.headD 0) fun f => .ret ((tp.dropLast.map fun _ => y0) ++ [f.map fun d => d.getD 0])
  ida := fun flags y0 yd0 tp => .ask (tp.headD 0, y0.take 4 ++ [0], yd0) fun f =>
    if f.all tiny ∧ flags = [1, 1, 1, 1, 0] ∧ yd0.length = y0.length then .ret (tp, tp.map fun _ => y0.take 4 ++ [0]) else .fail .valueError }

def V (s : String) (u : UnitObj) (d : String) : Cmd := .var s { name := s, units := u, description := d }
def Out (s : String) (u : UnitObj) (d : String) : Cmd := .var s { name := s, units := u, description := d, exposed := true, vtype := "output" }
def In (s : String) (u : UnitObj) (d : String) : Cmd := .var s { name := s, units := u, description := d, exposed := true, vtype := "input" }
def C (s : String) (u : UnitObj) (d : String) : Cmd := .con s { name := s, units := u, description := d }
def P (s : String) (u : UnitObj) (d : String) : Cmd := .par s { name := s, units := u, description := d }
def setF (s : String) (v : Rat) : Cmd := .setValue { attr := s } (.float v) none
def E (s d : String) (e : AExpr) : Cmd := .eqn s s d (.res e) true
def D (x : String) : AExpr := .diff { attr := x } (some { attr := "t" })

/-- Calls on models and the problem. -/
def base (l : List Op) : List (SOp Rat) := l.map .base

/-- The exceptions of a session, call by call. -/
def errors (ext : Ext Rat) (ops : List (SOp Rat)) : List (Option Err) :=
  (ops.foldl (fun p o => let r := o.exec ext ratI p.2; (p.1 ++ [errOf r.1], r.2)) (([] : List (Option Err)), ({ w := World.init } : SimWorld Rat))).1

/-- Nothing is raised and the first simulation has these results. -/
def gives (ext : Ext Rat) (ops : List (SOp Rat)) (r : Results Rat) : Bool :=
  (errors ext ops).all (· == none) && (getResults 0 .dict (simHistory ext ratI ops)).1.toOption == some r

/-! ## tests/test_linear_model.py -/

def x1 : AExpr := .binN .sub (.bin .add (.bin .add (.bin .add (at_ "a") (at_ "b")) (at_ "c")) (at_ "d")) 13
def x2 : AExpr := .binN .add (.bin .sub (.bin .add (.nbin .mul 2 (at_ "a")) (.nbin .mul 3 (at_ "b"))) (at_ "d")) 1
def x3 : AExpr := .binN .sub (.bin .add (.bin .add (.bin .add (.nbin .mul (-3) (at_ "a")) (.nbin .mul 4 (at_ "b"))) (at_ "c")) (.nbin .mul 2 (at_ "d"))) 10
def x4 : AExpr := .binN .sub (.bin .add (.bin .sub (.bin .add (at_ "a") (.nbin .mul 2 (at_ "b"))) (at_ "c")) (at_ "d")) 1

/-- Fixture `mod1`, model 0. -/
def L0 : List Op := [.newModel "L0" "Linear model" { eqns := [E "eq1" "Equation 1" x1, E "eq2" "Equation 2" x2, E "eq3" "Equation 3" x3, E "eq4" "Equation 4" x4] } none,
  .cmd 0 (V "a" Tmpl.kg "A"), .cmd 0 (V "b" Tmpl.kg "B"), .cmd 0 (Out "c" Tmpl.kg "C"), .cmd 0 (Out "d" Tmpl.kg "D"), .call 0]

/-- Fixture `mod2`, model 1. -/
def L1 : List Op := [.newModel "L1" "Linear model" { eqns := [E "eq1" "Equation 1" (.binN .add (.bin .sub (at_ "a") (at_ "b")) (76/10)),
    E "eq2" "Equation 2" (.binN .add (.bin .sub (at_ "a") (.bin .mul (.nbin .mul (8/10) (at_ "c")) (at_ "d"))) 1)] } none,
  .cmd 1 (V "a" Tmpl.kg_s "A"), .cmd 1 (V "b" Tmpl.kg_s "B"), .cmd 1 (In "c" Tmpl.kg "C"), .cmd 1 (C "d" (UnitObj.powN Tmpl.s (-1)) "D"), .cmd 1 (setF "d" (7/10)), .call 1]

def w0 : World := history L0 World.init

/-- `test_model_properties` -/
example : w0.ms.map (fun m => (m.name, m.description, dkeys m.vars, dkeys m.eqns)) =
    [("L0", "Linear model", ["a_L0", "b_L0", "c_L0", "d_L0"], ["eq1_L0", "eq2_L0", "eq3_L0", "eq4_L0"])] := by decide +kernel

/-- What the symbolic map of an equation has under the name of a quantity attribute is the quantity. -/
def mapped (w : World) (m : MRef) (q e : String) : Bool :=
  match w.ms[m]? with
  | none => false
  | some mo => match dget mo.attrs q, dget mo.attrs e with
    | some (.qty r), some (.eqn k) => match w.qs[r]?, w.es[k]? with
      | some x, some e => (e.expr.bind fun n => dget n.symMap x.name) == some r
      | _, _ => false
    | _, _ => false

/-- `test_model_enodes` -/
example : mapped w0 0 "a" "eq1" ∧ mapped w0 0 "b" "eq1" ∧ mapped w0 0 "a" "eq2" := by decide +kernel

/-- `test_problem_properties` -/
example : ((history (L0 ++ [.addModels (.leaf 0), .resolve]) World.init).pr.block.map Block.problemType) = some (some .linear) := by decide +kernel

def simulate (kw : Conf) : List (SOp Rat) := [.base .resolve, .newSim "simul", .configure 0 kw none none, .run 0 {}]

def ansL0 : Dict String Rat := [("a_L0", 2), ("b_L0", 0), ("c_L0", 6), ("d_L0", 5)]

/-- `test_simulation_result` -/
example : gives (told ansL0) (base (L0 ++ [.addModels (.leaf 0)]) ++ simulate []) (.dict ansL0) := by decide +kernel

/-- `test_model_connection`, `test_model_multi_connection` -/
example : let ans : Dict String Rat := [("a_L0", 2), ("b_L0", 0), ("c_L0", 6), ("d_L0", 5), ("a_L1", 236/100), ("b_L1", 996/100), ("c_L1", 6)]
    gives (told ans) (base (L0 ++ L1 ++ [.addModels (.list [.leaf 0, .leaf 1]), .connect (.model 0) 1 (.var 2) (.var 6) none]) ++
      simulate [("linear_solver", .str "sympy")]) (.dict (dofList (psorted (fun a b => strLe a.1 b.1) ans))) := by decide +kernel

/-- `test_model_multi_connection_2` -/
example : let ans : Dict String Rat := [("a_L0", 2), ("b_L0", 0), ("c_L0", 6), ("d_L0", 5), ("a_L1", 516/100), ("b_L1", 1276/100), ("c_L1", 11)]
    gives (told ans) (base (L0 ++ L1 ++ [.addModels (.list [.leaf 0, .leaf 1]), .connect (.model 0) 1 (.list [2, 3]) (.list [6]) none]) ++
      simulate [("linear_solver", .str "sympy")]) (.dict (dofList (psorted (fun a b => strLe a.1 b.1) ans))) := by decide +kernel

/-! ## tests/test_nonlinear_model.py -/

def NL0 : List Op := [.newModel "NL0" "Non-linear model" { eqns := [E "eq1" "Equation 1" (.binN .sub (.bin .add (at_ "a") (at_ "b")) 100),
    E "eq2" "Equation 2" (.binN .sub (.bin .add (at_ "a") (.bin .mul (at_ "c") (at_ "d"))) 4),
    E "eq3" "Equation 3" (.bin .sub (.binN .pow (.bin .mul (at_ "c") (at_ "d")) 2) (.bin .mul (at_ "a") (at_ "b")))] } none,
  .cmd 0 (Out "a" Tmpl.kg_s "A"), .cmd 0 (V "b" Tmpl.kg_s "B"), .cmd 0 (V "c" Tmpl.kg "C"), .cmd 0 (C "d" (UnitObj.powN Tmpl.s (-1)) "D"), .cmd 0 (setF "d" (7/10)), .call 0]

/-- `test_model_properties`, `test_model_enodes` -/
example : ((history NL0 World.init).ms.map fun m => (m.name, m.description, dkeys m.vars, dkeys m.cons, dkeys m.eqns)) =
    [("NL0", "Non-linear model", ["a_NL0", "b_NL0", "c_NL0"], ["d_NL0"], ["eq1_NL0", "eq2_NL0", "eq3_NL0"])] ∧
    mapped (history NL0 World.init) 0 "a" "eq1" ∧ mapped (history NL0 World.init) 0 "b" "eq1" ∧ mapped (history NL0 World.init) 0 "a" "eq2" := by decide +kernel

def ansNL0 : Dict String Rat := [("a_NL0", 148556835804896/1000000000000000), ("b_NL0", 998514431641951/10000000000000), ("c_NL0", 550206166313586/100000000000000)]

/-- `test_simulation_result` (the first of the two solutions) -/
example : gives (told ansNL0) (base (NL0 ++ [.addModels (.leaf 0)]) ++
    simulate [("initial_guess_solver", .str "anderson"), ("initial_guess", .nums [("a_NL0", 100000000), ("b_NL0", 100000000), ("c_NL0", 100000000)])])
    (.dict ansNL0) := by decide +kernel

/-! ## tests/test_model_incorporation.py -/

/-- The constructor of `mod1`, of `mod1b`. -/
def mod1 (m : MRef) : List Op := [.cmd m (V "d" Tmpl.dimless "d"), .cmd m (P "f" Tmpl.dimless "f"), .cmd m (setF "f" 3),
  .cmd m (E "eq1a" "Generic equation 1" (.bin .add (at_ "d") (at_ "f")))]
def mod1b (m : MRef) : List Op := [.cmd m (V "g" Tmpl.dimless "g"), .cmd m (P "h" Tmpl.dimless "h"), .cmd m (setF "h" 7),
  .cmd m (E "eq1b" "Generic equation 1" (.bin .add (at_ "g") (at_ "h")))]

def M2 : List Op := [.newModel "M2" "Model 1" {} none] ++ mod1 0 ++ [.cmd 0 (V "a" Tmpl.dimless "a"), .cmd 0 (V "b" Tmpl.dimless "b"), .cmd 0 (P "c" Tmpl.dimless "c"), .cmd 0 (setF "c" 2),
  .cmd 0 (E "eq21" "Generic equation 2.1" (.bin .add (.bin .add (at_ "a") (at_ "b")) (at_ "c"))), .cmd 0 (E "eq22" "Generic equation 2.2" (.bin .sub (at_ "b") (at_ "f"))), .call 0]

/-- The equations of `mod3` and `mod_`. -/
def three : List Cmd := [E "eq31" "Generic equation 3.1" (.bin .add (.bin .add (at_ "a") (at_ "b")) (at_ "c")), E "eq32" "Generic equation 3.2" (.bin .sub (at_ "b") (at_ "f")),
  E "eq33" "Generic equation 3.3" (.bin .sub (.bin .sub (at_ "k") (at_ "g")) (at_ "h"))]

def M3 : List Op := [.newModel "M3" "Model 3" {} none] ++ mod1b 0 ++ mod1 0 ++ ([V "a" Tmpl.dimless "a", V "b" Tmpl.dimless "b", V "k" Tmpl.dimless "k", P "c" Tmpl.dimless "c", setF "c" 2] ++ three).map (.cmd 0) ++ [.call 0]

def M4 : List Op := [.newModel "M4" "Model 4" { vars := [V "a" Tmpl.dimless "a", V "b" Tmpl.dimless "b", V "k" Tmpl.dimless "k"], pars := [P "c" Tmpl.dimless "c", setF "c" 2], eqns := three } none,
  .newModel "M1" "Model 1" {} none] ++ mod1 1 ++ [.call 1, .newModel "M1b" "Model 1b" {} none] ++ mod1b 2 ++ [.call 2, .incorporate 0 1 {}, .incorporate 0 2 {}, .call 0]

/-- The value of a parameter of a model. -/
def parValue (w : World) (m : MRef) (s : String) : Option Rat := w.ms[m]?.bind fun mo => (dget mo.pars s).bind fun r => w.qs[r]?.map Quantity.value

/-- `test_single_model_incorporation` -/
example : let w := history (M2 ++ [.newModel "M1" "Model 1" {} none] ++ mod1 1 ++ [.call 1]) World.init
    parValue w 0 "f_M2" = parValue w 1 "f_M1" ∧ parValue w 1 "f_M1" = some 3 := by decide +kernel

/-- `test_multiple_model_incorporation` -/
example : let w := history (M3 ++ [.newModel "M1a" "Model 1a" {} none] ++ mod1 1 ++ [.newModel "M1b" "Model 1b" {} none] ++ mod1b 2 ++ [.call 1, .call 2]) World.init
    parValue w 0 "f_M3" = parValue w 1 "f_M1a" ∧ parValue w 0 "h_M3" = parValue w 2 "h_M1b" ∧ parValue w 1 "f_M1a" = some 3 ∧ parValue w 2 "h_M1b" = some 7 := by decide +kernel

/-- `test_single_incorporated_model_solution` -/
example : let ans : Dict String Rat := [("a_M2", -5), ("b_M2", 3), ("d_M2", -3)]
    gives (told ans) (base (M2 ++ [.addModels (.leaf 0)]) ++ simulate []) (.dict ans) := by decide +kernel

/-- `test_multiple_incorporated_model_solution` -/
example : let ans : Dict String Rat := [("a_M3", -5), ("b_M3", 3), ("d_M3", -3), ("g_M3", -7), ("k_M3", 0)]
    gives (told ans) (base (M3 ++ [.addModels (.leaf 0)]) ++ simulate []) (.dict ans) := by decide +kernel

/-- `test_incorporateFromExternalModel_feature` -/
example : let ans : Dict String Rat := [("a_M4", -5), ("b_M4", 3), ("d_M4", -3), ("g_M4", -7), ("k_M4", 0)]
    gives (told ans) (base (M4 ++ [.addModels (.leaf 0)]) ++ simulate []) (.dict ans) := by decide +kernel

/-! ## tests/test_differential_model.py -/

def prey : AExpr := .bin .sub (.bin .mul (at_ "a") (at_ "u")) (.bin .mul (.bin .mul (at_ "b") (at_ "u")) (at_ "v"))
def pred : AExpr := .bin .sub (.bin .mul (.bin .mul (.bin .mul (at_ "d") (at_ "b")) (at_ "u")) (at_ "v")) (.bin .mul (at_ "c") (at_ "v"))
def Eq' (s d : String) (x : String) (r : AExpr) : Cmd := .eqn s s d (.eqn (D x) r) true

/-- Fixture `mod`. -/
def D0 : List Op := [.newModel "D0" "Differential model" { eqns := [Eq' "eq1" "Equation 1" "u" prey, Eq' "eq2" "Equation 2" "v" pred] } none] ++
  ([V "u" Tmpl.dimless "u", V "v" Tmpl.dimless "v", C "a" Tmpl.dimless "A", C "b" Tmpl.dimless "B", C "c" Tmpl.dimless "C", C "d" Tmpl.dimless "D", V "t" Tmpl.dimless "t",
    .distribute { attr := "u" }, .distribute { attr := "v" }, setF "a" 1, setF "b" (1/10), setF "c" (15/10), setF "d" (75/100)].map (.cmd 0)) ++ [.call 0]

/-- Fixture `mod_zero`. -/
def D0z : List Op := [.newModel "D0" "Differential model" { eqns := [Eq' "eq1" "Equation 1" "u" prey, Eq' "eq2" "Equation 2" "v" pred, .eqn "eq3" "eq3" "Equation 3" (.eqnNum (D "y") 0) true] } none] ++
  ([V "u" Tmpl.dimless "u", V "v" Tmpl.dimless "v", V "y" Tmpl.dimless "y", C "a" Tmpl.dimless "A", C "b" Tmpl.dimless "B", C "c" Tmpl.dimless "C", C "d" Tmpl.dimless "D", C "z" Tmpl.dimless "Z",
    V "t" Tmpl.dimless "t", .distribute { attr := "u" }, .distribute { attr := "v" }, .distribute { attr := "y" },
    setF "a" 1, setF "b" (1/10), setF "c" (15/10), setF "d" (75/100), setF "z" 0].map (.cmd 0)) ++ [.call 0]

/-- `test_model_properties`, `test_model_enodes` -/
example : ((history D0 World.init).ms.map fun m => (m.name, m.description, dkeys m.vars, dkeys m.cons, dkeys m.eqns)) =
    [("D0", "Differential model", ["u_D0", "v_D0", "t_D0"], ["a_D0", "b_D0", "c_D0", "d_D0"], ["eq1_D0", "eq2_D0"])] ∧
    mapped (history D0 World.init) 0 "a" "eq1" ∧ mapped (history D0 World.init) 0 "b" "eq1" ∧ mapped (history D0 World.init) 0 "b" "eq2" := by decide +kernel

def headers : Dict String String := [("t_D0", "Time(t)"), ("u_D0", "Preys(u)"), ("v_D0", "Predators(v)")]

/-- Settings of the tests (with 2 instead of 100 steps). -/
def dynD0 (comp : Bool) (hs : Dict String String) : Conf := [("initial_time", .num 0), ("end_time", .num 16), ("is_dynamic", .bool true), ("domain", .dom 0), ("print_output", .bool false),
  ("compile_equations", .bool comp), ("output_headers", .names ["Time", "Preys(u)", "Predators(v)"]), ("variable_name_map", .renames hs), ("number_of_time_steps", .num 2)]

def domD0 (l : List String) : List (SOp Rat) := .newDomain "domain" ["t_D0"] :: l.map fun s => .domain 0 (.distribute s)

def runD0 (comp : Bool) : List (SOp Rat) := D0.map .base ++ domD0 ["u_D0", "v_D0"] ++ [.base (.addModels (.leaf 0)), .base (.time ["t_D0"]), .base .resolve,
  .base (.initial [("t_D0", 0), ("u_D0", 10), ("v_D0", 5)]), .newSim "simul", .configure 0 (dynD0 comp headers) none none, .run 0 {}]

/-- `test_simulation_result`: times and first values; the last row has the right sides of the equations at the start. -/
example : ∀ comp, gives euler (runD0 comp)
    (.columns [("t_D0", [(.name "Time(t)", [0, 8, 16]), (.name "Preys(u)", [10, 10, 5]), (.name "Predators(v)", [5, 5, -375/100])])]) := by decide +kernel

/-- `sim.showResults()` at its end does not raise. -/
example : ∀ comp, errOf (showResults 0 (simHistory euler ratI (runD0 comp))).1 = none := by decide +kernel

def runD0z (comp : Bool) : List (SOp Rat) := D0z.map .base ++ domD0 ["u_D0", "v_D0", "y_D0"] ++ [.base (.addModels (.leaf 0)), .base (.time ["t_D0"]), .base .resolve,
  .base (.initial [("t_D0", 0), ("u_D0", 10), ("v_D0", 5), ("y_D0", 0)]), .newSim "simul", .configure 0 (dynD0 comp (headers ++ [("y_D0", "Scum(y)")])) none none, .run 0 {}]

/-- `test_equation_zero_variable` -/
example : ∀ comp, gives euler (runD0z comp)
    (.columns [("t_D0", [(.name "Time(t)", [0, 8, 16]), (.name "Preys(u)", [10, 10, 5]), (.name "Predators(v)", [5, 5, -375/100]), (.name "Scum(y)", [0, 0, 0])])]) := by decide +kernel

/-! ## tests/test_plotter.py -/

/-- `test_plotter_after_simulation`: both ways of naming the data draw the two curves. -/
def plotted (comp short : Bool) : Option (List (Curve Rat)) :=
  match (simHistory euler ratI (runD0 comp)).doms[0]? with
  | none => none
  | some d =>
    let labels := some ["Preys($u$)", "Predators($v$)"]
    if short then (plotTimeSeries (some d) labels none (.name "Time(t)") (.names ["Preys(u)", "Predators(v)"])).toOption
    else match d.getItem ["t_D0"] ["Time(t)"], d.getItem ["t_D0"] ["Preys(u)", "Predators(v)"] with
      | .ok x, .ok y => (plotTimeSeries none labels none (.arrays [x.flatten]) (.arrays y)).toOption
      | _, _ => none

example : ∀ comp short, plotted comp short =
    some [⟨[0, 8, 16], [10, 10, 5], "Preys($u$)", none⟩, ⟨[0, 8, 16], [5, 5, -375/100], "Predators($v$)", none⟩] := by decide +kernel

/-! ## tests/test_differential_algebraic_model.py -/

def sq (s : String) : AExpr := .binN .pow (at_ s) 2

def DA0 : List Op := [.newModel "DA0" "Differential Algebraic model" { eqns := [E "eq1" "Eq.1" (.bin .sub (D "y1") (at_ "y3")), E "eq2" "Eq.2" (.bin .sub (D "y2") (at_ "y4")),
    E "eq3" "Eq.3" (.bin .add (D "y3") (.bin .mul (at_ "y5") (at_ "y1"))), E "eq4" "Eq.4" (.binN .add (.bin .add (D "y4") (.bin .mul (at_ "y5") (at_ "y2"))) (982/100)),
    E "eq5" "Eq.5" (.bin .sub (.bin .sub (.bin .add (sq "y3") (sq "y4")) (.bin .mul (at_ "y5") (.bin .add (sq "y1") (sq "y2")))) (.nbin .mul (982/100) (at_ "y2")))] } none] ++
  (["y1", "y2", "y3", "y4", "y5", "t"].map fun s => Op.cmd 0 (V s Tmpl.dimless s)) ++ (["y1", "y2", "y3", "y4", "y5"].map fun s => Op.cmd 0 (.distribute { attr := s })) ++ [.call 0]

/-- `test_model_properties`, `test_model_enodes` -/
example : ((history DA0 World.init).ms.map fun m => (m.name, m.description, dkeys m.vars, dkeys m.eqns)) =
    [("DA0", "Differential Algebraic model", ["y1_DA0", "y2_DA0", "y3_DA0", "y4_DA0", "y5_DA0", "t_DA0"], ["eq1_DA0", "eq2_DA0", "eq3_DA0", "eq4_DA0", "eq5_DA0"])] ∧
    mapped (history DA0 World.init) 0 "y3" "eq1" ∧ mapped (history DA0 World.init) 0 "y4" "eq2" ∧ mapped (history DA0 World.init) 0 "y3" "eq5" := by decide +kernel

def initDA0 : Dict String Rat := [("y1_DA0_d", 0), ("y2_DA0_d", 0), ("y3_DA0_d", 0), ("y4_DA0_d", -982/100), ("y5_DA0_d", 0), ("y5_DA0", 5), ("y4_DA0", 0), ("y3_DA0", 0), ("y2_DA0", 0),
  ("y1_DA0", 1), ("t_DA0", 0)]

def runDA0 : List (SOp Rat) := DA0.map .base ++ (.newDomain "domain" ["t_DA0"] :: ["y1_DA0", "y2_DA0", "y3_DA0", "y4_DA0", "y5_DA0"].map fun s => .domain 0 (.distribute s)) ++
  [.base (.addModels (.leaf 0)), .base (.time ["t_DA0"]), .base .resolve, .base (.initial initDA0), .newSim "simul",
   .configure 0 [("initial_time", .num 0), ("end_time", .num 5), ("is_dynamic", .bool true), ("domain", .dom 0), ("number_of_time_steps", .num 2), ("time_variable_name", .str "t_DA0"),
     ("compile_equations", .bool true), ("print_output", .bool false), ("output_headers", .names ["Time", "y1", "y2", "y3", "y4", "y5"]),
     ("variable_name_map", .renames [("t_DA0", "Time(t)"), ("y1_DA0", "Y-1"), ("y2_DA0", "Y-2"), ("y3_DA0", "Y-3"), ("y4_DA0", "Y-4"), ("y5_DA0", "Y-5")])] none none, .run 0 {}]

/-- `test_simulation_result`: the stand-in for IDA makes the initial state consistent (`y5` is 0, not 5) and insists that the residuals vanish there. -/
example : gives euler runDA0 (.columns [("t_DA0", [(.name "Time(t)", [0, 5/2, 5]), (.name "Y-1", [1, 1, 1]), (.name "Y-2", [0, 0, 0]), (.name "Y-3", [0, 0, 0]), (.name "Y-4", [0, 0, 0]),
    (.name "Y-5", [0, 0, 0])])]) := by decide +kernel

/-! ## tests/test_optimization.py -/

/-- Fixture `mod`: `a` is a parameter without value. -/
def D0p : List Op := [.newModel "D0" "Differential model" { eqns := [Eq' "eq1" "Equation 1" "u" prey, Eq' "eq2" "Equation 2" "v" pred] } none] ++
  ([V "u" Tmpl.dimless "u", V "v" Tmpl.dimless "v", P "a" Tmpl.dimless "A", C "b" Tmpl.dimless "B", C "c" Tmpl.dimless "C", C "d" Tmpl.dimless "D", V "t" Tmpl.dimless "t",
    .distribute { attr := "u" }, .distribute { attr := "v" }, setF "b" (1/10), setF "c" (15/10), setF "d" (75/100)].map (.cmd 0)) ++ [.call 0]

/-- `test_model_properties`, `test_model_enodes` -/
example : ((history D0p World.init).ms.map fun m => (m.name, m.description, dkeys m.vars, dkeys m.cons, dkeys m.eqns)) =
    [("D0", "Differential model", ["u_D0", "v_D0", "t_D0"], ["b_D0", "c_D0", "d_D0"], ["eq1_D0", "eq2_D0"])] ∧
    mapped (history D0p World.init) 0 "a" "eq1" ∧ mapped (history D0p World.init) 0 "b" "eq1" ∧ mapped (history D0p World.init) 0 "b" "eq2" := by decide +kernel

/-- `test_simulation_result` -/
example : gives euler (D0p.map .base ++ domD0 ["u_D0", "v_D0"] ++ [.base (.cmd 0 (setF "a" 1)), .base (.call 0), .base (.addModels (.leaf 0)), .base (.time ["t_D0"]), .base .resolve,
    .base (.initial [("t_D0", 0), ("u_D0", 10), ("v_D0", 5)]), .newSim "simul", .configure 0 (dynD0 true headers ++ [("time_variable_name", .str "t_D0")]) none none, .run 0 {}])
    (.columns [("t_D0", [(.name "Time(t)", [0, 8, 16]), (.name "Preys(u)", [10, 10, 5]), (.name "Predators(v)", [5, 5, -375/100])])]) := by decide +kernel

/-- The last value of a column of the results. -/
def lastValue (r : Results Rat) (col : String) : Option Rat :=
  match r with
  | .columns d => (dget d "t_D0").bind fun c => (dget c (.name col)).bind List.getLast?
  | _ => none

/-- `DeclareObjectiveFunction`, with the last prey and predator values of the stand-in for the integrator at `a = 1`. -/
def objective : Opt.Objective Rat := fun i conf x => do
  let r ← simItem "a_D0"
  PyS.ofWorld (setValueM r (.float (x.headD 0)) none)
  PyS.ofWorld resolve
  setConfigurations (i.getD 0) [] none conf
  runSimulation euler ratI (i.getD 0) {}
  let r ← getResults (i.getD 0) .dict
  match lastValue r "Preys(u)", lastValue r "Predators(v)" with
  | some u, some v => do
    resetSim (i.getD 0)
    PyS.pure [(u - 5) ^ 2 + (v + 375/100) ^ 2]
  | _, _ => PyS.raise .keyError

/-- An optimizer that tries 0, 2 and 1 and takes the best. -/
def tries : Opt.Lib Rat where
  algorithm _ := .ok ()
  evolve _ _ _ _ _ _ := .ask [0] fun f0 => .ask [2] fun f2 => .ask [1] fun f1 =>
    if f1 ≤ f0 ∧ f1 ≤ f2 then .ret ⟨[1], f1, 10⟩ else if f0 ≤ f2 then .ret ⟨[0], f0, 10⟩ else .ret ⟨[2], f2, 10⟩
  plot _ := .ok ()

/-- Fixtures and `test_optimization`; the problem is resolved, and the simulation configured, before the model is added. -/
def optimize : List (Opt.Op Rat) := (D0p.map SOp.base ++ domD0 ["u_D0", "v_D0"]).map .sim ++ [.newProblem 0 "" .none false none objective, .call 0] ++
  ([.base (.time ["t_D0"]), .base .resolve, .base (.initial [("t_D0", 0), ("u_D0", 10), ("v_D0", 5)]), .newSim "simul", .configure 0 (dynD0 true headers) none none].map .sim) ++
  [.call 0, .newStudy { sim := 0, problem := 0, params := [.quantity "a_D0"], constraints := .flat [-10, 10], optimizer := .str "pso", conf := .dict [("number_of_individuals", .num 5), ("number_of_generations", .num 10)] }] ++
  ([.base (.addModels (.leaf 0)), .base (.time ["t_D0"]), .base .resolve, .base (.initial [("t_D0", 0), ("u_D0", 10), ("v_D0", 5)])].map .sim) ++ [.call 0, .run 0 {}]

example : (Opt.getResults 0 (Opt.history euler ratI tries optimize)).toOption = some (some [1], some [0]) ∧
    (Opt.history euler ratI tries optimize).opts.map Opt.Study.success = [true] := by decide +kernel

/-! ## tests/test_variable.py, tests/test_parameter.py, tests/test_constant.py -/

/-- The three classes with the fixture's arguments. -/
def generic : List Quantity := [mkConstant "generic_const" Tmpl.kg_s "A generic const", mkParameter "generic_param" Tmpl.kg_s "A generic param", mkVariable "generic_var" Tmpl.kg_s "A generic var"]

/-- `test_const_properties`, `test_param_properties`, `test_var_properties` -/
example : generic.map Quantity.name = ["generic_const", "generic_param", "generic_var"] ∧
    generic.map Quantity.description = ["A generic const", "A generic param", "A generic var"] ∧
    ∀ q ∈ generic, q.units.dim = [("m", 0), ("kg", 1), ("s", -1), ("A", 0), ("K", 0), ("mol", 0), ("cd", 0)] := by decide +kernel

/-- `test_set_const_value`, `test_set_param_value`, `test_set_var_value` -/
example : ∀ q ∈ generic, (q.setValue (.int 10)).toOption.map Quantity.value = some 10 := by decide +kernel

/-- `test_operations`: name, unit and LaTeX text. -/
def shown (n : Except Err ENode) : Option (String × Dict String Rat × String) := n.toOption.map fun n => (n.name, n.unit.dim, n.latex)
def left_ (q : Quantity) : ENode := { q with name := "a", latex := "a" }.call 0
def right_ (q : Quantity) : ENode := { q with name := "other_a", latex := "other_a" }.call 1

def sumsAgree (q : Quantity) : Bool :=
  shown ((left_ q).add (.node (right_ q))) == (q.units.add q.units).toOption.map (fun u => ("a+other_a", u.dim, "a+other_a")) &&
  shown ((left_ q).sub (.node (right_ q))) == (q.units.sub q.units).toOption.map (fun u => ("a-other_a", u.dim, "a-other_a"))

def productsAgree (q : Quantity) : Bool :=
  shown ((left_ q).mul (.node (right_ q))) == some ("a*other_a", (UnitObj.mulU q.units q.units).dim, "a*other_a") &&
  shown ((left_ q).div (.node (right_ q))) == some ("a/other_a", (UnitObj.divU q.units q.units).dim, "\\frac{a}{other_a}") &&
  shown ((left_ q).pow (.num 2)) == some ("a**2", (UnitObj.powN q.units 2).dim, "a^2")

example : ∀ q ∈ generic, sumsAgree q = true ∧ productsAgree q = true := by decide +kernel

/-- `test_operation_with_numeric_and_enodes`: the comparisons are statements of equations (any object is true); none of them raises. -/
def var_ : PyExpr := .q 0 (mkVariable "generic_var" Tmpl.kg_s "A generic var")
example : ∀ st ∈ [Stmt.eqn (.binN .add var_ 2) (.nbin .add 2 var_), .eqn (.nbin .sub 1 var_) (.binN .add (.binN .mul var_ (-1)) 1), .eqn (.binN .pow var_ (-1)) (.nbin .div 1 var_),
    .eqn (.nbin .mul 2 var_) (.bin .add var_ var_)], errOf st.arg = none := by decide +kernel

end Replay
end Sloth
