import Verif.Model.Session

/-!
# The library of unit operations (`unit_op_library.py`, `unit_op.py`)

The constructors and the methods `DeclareEquations` are straight lines of declarations apart from loops over the phases of the property
package; a Lean function computes the line for a package.  A call of `createEquation` whose result is not assigned is stored under the
attribute `""`, which no Python code can read.  `HeatExchanger`, `Centrifuge`, `CentrifugalPump` and `DistillationColumn` are empty classes.
-/

namespace Sloth.Lib
open Sloth PyM

/-- The numbers of a chemical of the library `thermo` that are read here; they may be `None`. -/
structure Chem where
  MW : Option Rat
  rho : Option Rat
  Cp : Option Rat
  deriving DecidableEq, Repr

/-- What the library reads from a property package (property_package.py l.16-38).  The package is taken not to change between the
constructor and the call of the unit operation. -/
structure View where
  count : Rat
  names : List String
  phases : Dict String Chem
  deriving DecidableEq, Repr

/-- property_package.py l.104-113: `package["*"]`, the last chemical. -/
def View.star (v : View) : Except Err Chem :=
  match v.phases.getLast? with
  | some p => .ok p.2
  | none => .error .indexError

/-- A number or `None` as argument of `setValue`. -/
def floatArg : Option Rat → AVal
  | some x => .float x
  | none => .other

/-- May the text be pasted between `self.z_` and `_in` in code that is executed (l.210 and others)?  For another text the
code is taken not to parse; a few texts would parse as something else. -/
def identTail (p : String) : Bool := p.toList.all fun c => c.isAlphanum || c == '_'

/-- The exception of `exec` on text that does not parse. -/
def syntaxError : Err := .exception "SyntaxError"

/-- `self.attr()` -/
def q (attr : String) : AExpr := .q { attr }

/-- `self.attr = self.createVariable(attr, ..., is_exposed=True, type=io)` -/
def port (attr : String) (units : UnitObj) (description latex io : String) : Cmd :=
  .var attr { name := attr, units, description, exposed := true, vtype := io, latex }

/-- `self.attr = self.createVariable(attr, ...)` -/
def inner (attr : String) (units : UnitObj) (description latex : String) : Cmd :=
  .var attr { name := attr, units, description, latex }

/-- `self.attr = self.createParameter(attr, ...)` -/
def par (attr : String) (units : UnitObj) (description : String) (latex : String := "") : Cmd :=
  .par attr { name := attr, units, description, latex }

/-- `self.createEquation(name, description, e)` -/
def eq (name description : String) (e : AExpr) : Cmd := .eqn "" name description (.res e) true

/-- Units built in the text of the library. -/
def kgs : UnitObj := UnitObj.divU Tmpl.kg Tmpl.s
def mols : UnitObj := UnitObj.divU Tmpl.mol Tmpl.s
def Jmol : UnitObj := UnitObj.divU Tmpl.J Tmpl.mol
def Js : UnitObj := UnitObj.divU Tmpl.J Tmpl.s
def JkgK : UnitObj := UnitObj.divU Tmpl.J (UnitObj.mulU Tmpl.kg Tmpl.K)
def m2 : UnitObj := UnitObj.powN Tmpl.m 2
def m3s : UnitObj := UnitObj.divU (UnitObj.powN Tmpl.m 3) Tmpl.s
def kgm3 : UnitObj := UnitObj.divU Tmpl.kg (UnitObj.powN Tmpl.m 3)

/-- Names of the fractions of a phase. -/
def zIn (p : String) : String := "z_" ++ p ++ "_in"
def wIn (p : String) : String := "w_" ++ p ++ "_in"
def zOut (p : String) : String := "z_" ++ p ++ "_out"
def wOut (p : String) : String := "w_" ++ p ++ "_out"

/-- A fraction (l.210): `is_exposed='True'` is text and differs from `True`, so it is not exposed (model.py l.713). -/
def frac (attr description : String) : Cmd :=
  .var attr { name := attr, units := Tmpl.dimless, description, exposed := false, vtype := "output" }

/-- l.210-213, and the same text at l.325-328, 440-443, 550-553, 620-623, 741-744. -/
def fracVars (p : String) : List Cmd :=
  if identTail p then
    [frac (zIn p) ("Molar fraction for " ++ p ++ " phase in the input"), frac (wIn p) ("Mass fraction for " ++ p ++ " phase in the input"),
     frac (zOut p) ("Molar fraction for " ++ p ++ " phase in the output"), frac (wOut p) ("Mass fraction for " ++ p ++ " phase in the output")]
  else [.fail syntaxError]

/-- l.231-241: `-1. + z_1 + z_2 + ...`; without phases it stays a number, which `createEquation` refuses. -/
def sumEq (name description : String) (f : String → String) : List String → Cmd
  | [] => .fail .unexpectedValue
  | p :: t => eq name description (t.foldl (fun e x => .bin .add e (q (f x))) (.nbin .add (-1) (q (f p))))

/-- l.258-266.  The names bound by one `exec` are taken to be visible to the next, as in Python before 3.13. -/
def mixerPhase (p : String) : List Cmd :=
  [eq ("molar_conservation_for_" ++ p) ("Molar conservation for " ++ p ++ " phase") (.bin .sub (q (zOut p)) (q (zIn p))),
   eq ("mass_conservation_for_" ++ p) ("Mass conservation for " ++ p ++ " phase") (.bin .sub (q (wOut p)) (q (wIn p)))]

/-- l.493-501, and the same text at l.582-590, 668-676, 798-806. -/
def phaseEqs (p : String) : List Cmd :=
  [eq ("molar_fraction_conservation_for_" ++ p) ("Molar conservation for " ++ p ++ " phase") (.bin .sub (q (zOut p)) (q (zIn p))),
   eq ("mass_fraction_conservation_for_" ++ p) ("Mass conservation for " ++ p ++ " phase") (.bin .sub (q (wOut p)) (q (wIn p)))]

/-- `if self.property_package.number_of_phases>=2: for phase_i in ...: f(phase_i)` -/
def ifPhases (v : View) (f : String → List Cmd) : List Cmd := if v.count ≥ 2 then v.names.flatMap f else []

/-- l.215-216, 334-335, 416-417, 529-530, 625-626. -/
def ndots : List Cmd :=
  [port "ndot_in" mols "molar input flux" "\\dot{n}_{in}" "input", port "ndot_out" mols "molar output flux" "\\dot{n}_{out}" "output"]

/-- l.222-223, 340-341, 419-420, 532-533, 628-629. -/
def mdots : List Cmd :=
  [port "mdot_in" kgs "mass input flux" "\\dot{m}_{in}" "input", port "mdot_out" kgs "mass output flux" "\\dot{m}_{out}" "output"]

/-- l.218-220, 449-451, 558-560, 678-680. -/
def molarConservation : Cmd := eq "molar_conservation" "Molar consevation" (.bin .sub (q "ndot_in") (q "ndot_out"))

/-- l.225-227 (where the description is misspelt), 453-455, 562-564, 682-684. -/
def massConservation (description : String := "Mass conservation") : Cmd :=
  eq "mass_conservation" description (.bin .sub (q "mdot_in") (q "mdot_out"))

/-- l.215-227. -/
def mixerFluxes : List Cmd := ndots ++ [molarConservation] ++ mdots ++ [massConservation "Mass consevation"]

/-- l.231-246. -/
def mixerSums (l : List String) : List Cmd :=
  [sumEq "molar_frac_sum_in" "Molar fraction summation for input" zIn l, sumEq "mass_frac_sum_in" "Mass fraction summation for input" wIn l,
   sumEq "molar_frac_sum_out" "Molar fraction summation for output" zOut l, sumEq "mass_frac_sum_out" "Mass fraction summation for output" wOut l]

/-- l.271-290. -/
def mixerRest : List Cmd :=
  [port "T_in" Tmpl.K "Temperature for the input stream" "{T}_{in}" "input",
   port "T_out" Tmpl.K "Temperature for the output stream" "{T}_{out}" "output",
   eq "thermal_equilibrium" "Thermal equilibrium" (.bin .sub (q "T_out") (q "T_in")),
   port "P_in" Tmpl.Pa "p_in" "{P}_{in}" "input", port "P_out" Tmpl.Pa "p_out" "{P}_{out}" "output",
   eq "mechanical_equilibrium" "Mechanical Equilibrium" (.bin .sub (q "P_out") (q "P_in")),
   port "H_in" Jmol "molar enthalpy for input stream" "H_{in}" "input", port "H_out" Jmol "molar enthalpy for output stream" "H_{out}" "output",
   eq "energy_balance" "Energy balance" (.bin .sub (.bin .mul (q "ndot_out") (q "H_out")) (.bin .mul (q "ndot_in") (q "H_in")))]

/-- l.179-290 `Mixer.__init__`, after the constructor of `Model`; `Splitter` (l.292-300) is the same class under another name. -/
def mixerInit (v : View) : List Cmd :=
  (if v.names.length > 1 then v.names.flatMap fracVars else []) ++ mixerFluxes ++ (if v.count ≥ 2 then mixerSums v.names else []) ++
  (if v.names.length > 1 then v.names.dropLast.flatMap mixerPhase else []) ++ mixerRest

/-- l.302-360 `Tank.__init__` (`Fermenter`, l.385-389, is the same class under another name).  The domain object is not kept. -/
def tankInit (v : View) : List Cmd :=
  ifPhases v fracVars ++ [inner "t" Tmpl.s "time" "t"] ++ ndots ++
  [inner "N" Tmpl.mol "molar holdup" "N", .distribute { attr := "N" }] ++ mdots ++
  [inner "M" Tmpl.kg "mass holdup" "M", .distribute { attr := "M" },
   port "H_in" Jmol "molar enthalpy input" "H_{in}" "input", port "H_out" Jmol "molar enthalpy output" "H_{out}" "output",
   inner "E" Tmpl.J "Internal energy" "E", par "Q" Tmpl.J "Heat rate" "Q", .distribute { attr := "E" },
   inner "level" Tmpl.m "liquid level" "L", par "area_sec" m2 "squared section area" "{A}_{sec}", .distribute { attr := "level" },
   inner "P_In" Tmpl.Pa "p_in" "", inner "P_Out" Tmpl.Pa "p_out" ""]

/-- l.363-383 `Tank.DeclareEquations`, up to l.367: l.365 reads `self.self`. -/
def tankEqs : List Cmd :=
  [.eqn "" "molar_conservation" "Molar consevation"
    (.eqn (.diff { attr := "N" } (some { attr := "t" })) (.bin .sub (q "self") (q "ndot_out"))) true]

/-- l.416-434. -/
def valvePorts : List Cmd :=
  ndots ++ mdots ++
  [port "Qdot_out" m3s "volumetric output flux" "\\dot{Q}_{out}" "output",
   port "H_in" Jmol "input molar enthalpy" "{H}_{in}" "input", port "H_out" Jmol "output molar enthalpy" "{H}_{out}" "output",
   port "P_in" Tmpl.Pa "input pressure" "{P}_{in}" "input", port "P_out" Tmpl.Pa "output pressure" "{P}_{out}" "output",
   port "T_in" Tmpl.K "input stream temperature" "{T}_{in}" "input", port "T_out" Tmpl.K "output stream temperature" "{T}_{out}" "output",
   par "Delta_P" Tmpl.Pa "pressure drop" "{\\Delta P}", par "perc_open" Tmpl.dimless "percentage of opening" "{\\%}_{open}"]

/-- l.412-443 `Valve.__init__`. -/
def valveInit (v : View) : List Cmd := valvePorts ++ ifPhases v fracVars

/-- l.457-459, 566-568. -/
def isoenthalpy : Cmd :=
  eq "isoenthalpy" "isoenthalpy" (.bin .sub (.bin .mul (q "H_in") (q "ndot_in")) (.bin .mul (q "H_out") (q "ndot_out")))

/-- l.471-483: the value of the mixture density.  With two phases or more it is an expression, which `setValue` refuses (an earlier exception
while the expression is computed is not told apart). -/
def mixRho (v : View) : Cmd :=
  if v.count ≥ 2 then .setValue { attr := "mix_rho" } (if v.names = [] then .float 0 else .other) none
  else match v.star with
    | .ok c => .setValue { attr := "mix_rho" } (floatArg c.rho) none
    | .error e => .fail e

/-- l.449-467. -/
def valveFixed : List Cmd :=
  [molarConservation, massConservation, isoenthalpy,
   eq "mechanical_equilibrium" "Mechanical Equilibrium" (.bin .add (.bin .sub (q "P_out") (q "P_in")) (q "Delta_P")),
   eq "energy_balance" "Energy balance" (.bin .sub (q "T_out") (q "T_in"))]

/-- l.446-501 `Valve.DeclareEquations`; the local variable `mix_rho` is kept as an attribute. -/
def valveEqs (v : View) : List Cmd :=
  valveFixed ++
  [par "mix_rho" kgm3 "Density for the mixture of components",
   mixRho v,
   eq "vol_flux_balance" "Volumetric flux balance"
    (.bin .sub (q "Qdot_out") (.bin .mul (q "perc_open") (.bin .div (q "mdot_out") (q "mix_rho"))))] ++
  ifPhases v phaseEqs

/-- l.529-544. -/
def pumpPorts : List Cmd :=
  ndots ++ mdots ++
  [port "H_in" Jmol "input molar enthalpy" "{H}_{in}" "input", port "H_out" Jmol "output molar enthalpy" "{H}_{out}" "output",
   port "P_in" Tmpl.Pa "input pressure" "{P}_{in}" "input", port "P_out" Tmpl.Pa "output pressure" "{P}_{out}" "output",
   port "T_in" Tmpl.K "input stream temperature" "{T}_{in}" "input", port "T_out" Tmpl.K "output stream temperature" "{T}_{out}" "output",
   par "Delta_P" Tmpl.Pa "pressure drop" "{\\Delta P}"]

/-- l.525-553 `SimplePump.__init__`. -/
def pumpInit (v : View) : List Cmd := pumpPorts ++ ifPhases v fracVars

/-- l.558-576. -/
def pumpFixed : List Cmd :=
  [molarConservation, massConservation, isoenthalpy,
   eq "mechanical_equilibrium" "Mechanical Equilibrium" (.bin .sub (.bin .sub (q "P_out") (q "P_in")) (q "Delta_P")),
   eq "energy_balance" "Energy balance" (.bin .sub (q "T_out") (q "T_in"))]

/-- l.556-590 `SimplePump.DeclareEquations`. -/
def pumpEqs (v : View) : List Cmd := pumpFixed ++ ifPhases v phaseEqs

/-- l.646-658, 778-790: with two phases or more the undefined name `mix_rho_` is used (an earlier exception while the expression
is computed is not told apart). -/
def cpMix (v : View) : Cmd :=
  if v.count ≥ 2 then .fail .nameError
  else match v.star with
    | .ok c => .setValue { attr := "cp_mix" } (floatArg c.Cp) none
    | .error e => .fail e

/-- l.625-644. -/
def heaterPorts : List Cmd :=
  ndots ++ mdots ++
  [port "P_in" Tmpl.Pa "pressure from input" "P_{in}" "input", port "P_out" Tmpl.Pa "pressure from output" "P_{out}" "output",
   par "Delta_P" Tmpl.Pa "pressure drop" "{\\Delta P}",
   port "H_in" Jmol "molar enthalpy input" "H_{in}" "input", port "H_out" Jmol "molar enthalpy output" "H_{out}" "output",
   par "Q" Js "Heat rate" "Q",
   port "T_in" Tmpl.K "temperature from input" "T_{in}" "input", port "T_out" Tmpl.K "temperature from output" "T_{out}" "output",
   par "cp_mix" JkgK "Mass specific capacity for the mixture of components"]

/-- l.594-658 `Heater.__init__` (`Cooler`, l.698-720, is the same class under another name). -/
def heaterInit (v : View) : List Cmd := ifPhases v fracVars ++ heaterPorts ++ [cpMix v]

/-- l.678-692. -/
def heaterFixed : List Cmd :=
  [molarConservation, massConservation,
   eq "mechanical_equilibrium" "Mechanical Equilibrium" (.bin .add (.bin .sub (q "P_out") (q "P_in")) (q "Delta_P")),
   eq "energy_balance" "Energy balance"
    (.bin .sub (.bin .sub (.bin .mul (q "ndot_out") (q "H_out")) (.bin .mul (q "ndot_in") (q "H_in"))) (q "Q"))]

/-- l.662-696 `Heater.DeclareEquations`. -/
def heaterEqs (v : View) : List Cmd :=
  ifPhases v phaseEqs ++ heaterFixed ++
  [eq "temperature_balance" "Temperature balance"
    (.bin .sub (.bin .sub (q "T_out") (q "T_in")) (.bin .div (q "Q") (.bin .mul (q "mdot_out") (q "cp_mix"))))]

/-- l.728-790 `Flash_Dynamic.__init__` (the attribute `ndot_L_out` holds a variable named `ndo_L_out`). -/
def flashDynInit (v : View) : List Cmd :=
  ifPhases v fracVars ++
  [inner "t" Tmpl.s "time" "t",
   port "ndot_in" mols "molar input flux" "\\dot{n}_{in}" "input",
   port "ndot_V_out" mols "molar vapour output flux" "\\dot{{n}_v}_{out}" "output",
   .var "ndot_L_out" { name := "ndo_L_out", units := mols, description := "molar liquid output flux", exposed := true, vtype := "output",
                       latex := "\\dot{{n}_l}_{out}" },
   port "N" Tmpl.mol "molar holdup" "N" "output",
   port "mdot_in" kgs "mass input flux" "\\dot{m}_{in}" "input",
   port "mdot_V_out" kgs "mass vapour output flux" "\\dot{{m}_v}_{out}" "output",
   port "mdot_L_out" kgs "mass liquid output flux" "\\dot{{m}_l}_{out}" "output",
   port "M" Tmpl.kg "mass holdup" "M" "output",
   port "P_in" Tmpl.Pa "pressure from input" "P_{in}" "input", port "P_out" Tmpl.Pa "pressure from output" "P_{out}" "output",
   par "Delta_P" Tmpl.Pa "pressure drop" "{\\Delta P}",
   port "H_in" Jmol "molar enthalpy input" "H_{in}" "input",
   port "H_V_out" Jmol "molar vapour enthalpy output" "{H_v}_{out}" "output",
   port "H_L_out" Jmol "molar liquid enthalpy output" "{H_l}_{out}" "output",
   port "E" Tmpl.J "energy holdup" "E" "output", par "Q" Js "Heat rate" "Q",
   port "T_in" Tmpl.K "temperature from input" "T_{in}" "input", port "T_out" Tmpl.K "temperature from output" "T_{out}" "output",
   par "cp_mix" JkgK "Mass specific capacity for the mixture of components", cpMix v]

/-- l.792-808 `Flash_Dynamic.DeclareEquations`: l.808 uses the undefined name `delf`. -/
def flashDynEqs (v : View) : List Cmd := ifPhases v phaseEqs ++ [.fail .nameError]

/-- l.840-849: the names of some variables are not those of the attributes. -/
def flashFracVars (p : String) : List Cmd :=
  if identTail p then
    [frac (zIn p) ("Molar fraction for " ++ p ++ " phase in the input"), frac (wIn p) ("Mass fraction for " ++ p ++ " phase in the input"),
     frac ("z_" ++ p ++ "_L_out") ("Molar fraction for " ++ p ++ " phase in liquid output"),
     .var ("w_" ++ p ++ "_L_out") { name := wOut p, units := Tmpl.dimless, description := "Mass fraction for " ++ p ++ " phase in the liquid output", vtype := "output" },
     .var ("z_" ++ p ++ "_V_out") { name := zOut p, units := Tmpl.dimless, description := "Molar fraction for " ++ p ++ " phase in the output", vtype := "output" },
     .var ("w_" ++ p ++ "_V_out") { name := wOut p, units := Tmpl.dimless, description := "Mass fraction for " ++ p ++ " phase in the output", vtype := "output" }]
  else [.fail syntaxError]

/-- l.830-879 `Flash_SteadyState.__init__`. -/
def flashInit (v : View) : List Cmd :=
  ifPhases v flashFracVars ++
  [inner "t" Tmpl.s "time" "t",
   port "ndot_in" mols "molar input flux" "\\dot{n}_{in}" "input",
   port "ndot_V_out" mols "molar vapour output flux" "\\dot{{n}_v}_{out}" "output",
   .var "ndot_L_out" { name := "ndo_L_out", units := mols, description := "molar liquid output flux", exposed := true, vtype := "output",
                       latex := "\\dot{{n}_l}_{out}" },
   port "N" Tmpl.mol "molar holdup" "N" "output",
   port "mdot_in" kgs "mass input flux" "\\dot{m}_{in}" "input",
   port "mdot_V_out" kgs "mass vapour output flux" "\\dot{{m}_v}_{out}" "output",
   port "mdot_L_out" kgs "mass liquid output flux" "\\dot{{m}_l}_{out}" "output",
   port "M" Tmpl.kg "mass holdup" "M" "output",
   port "P_in" Tmpl.Pa "pressure from input" "P_{in}" "input", port "P_out" Tmpl.Pa "pressure from output" "P_{out}" "output",
   par "Delta_P" Tmpl.Pa "pressure drop" "{\\Delta P}",
   port "H_in" Jmol "molar enthalpy input" "H_{in}" "input",
   port "H_V_out" Jmol "molar vapour enthalpy output" "{H_v}_{out}" "output",
   port "H_L_out" Jmol "molar liquid enthalpy output" "{H_l}_{out}" "output",
   par "Q" Js "Heat rate" "Q",
   port "T_in" Tmpl.K "temperature from input" "T_{in}" "input",
   port "T_V_out" Tmpl.K "temperature from vapour output" "{T_v}_{out}" "output",
   port "T_L_out" Tmpl.K "temperature from liquid output" "{T_l}_{out}" "output"]

/-- l.881-927 `Flash_SteadyState.DeclareEquations`, up to l.901, which uses the undefined name `createParameter`. -/
def flashEqs (v : View) : List Cmd :=
  (ifPhases v fun p =>
    [eq ("molar_fraction_conservation_for_" ++ p ++ "_liquid") ("Molar conservation for " ++ p ++ " phase in liquid form")
      (.bin .sub (q (zOut p)) (q (zIn p))),
     eq ("mass_fraction_conservation_for_" ++ p) ("Mass conservation for " ++ p ++ " phase") (.bin .sub (q (wOut p)) (q (wIn p)))]) ++
  [eq "molar_conservation" "Molar consevation" (.bin .sub (.bin .sub (q "ndot_in") (q "ndot_L_out")) (q "ndot_V_out")), .fail .nameError]

/-- The classes with declarations of their own. -/
inductive Kind where
  | mixer | tank | valve | pump | heater | flashDyn | flash
  deriving DecidableEq, Repr

/-- The statements of the constructor. -/
def Kind.init (v : View) : Kind → List Cmd
  | .mixer => mixerInit v
  | .tank => tankInit v
  | .valve => valveInit v
  | .pump => pumpInit v
  | .heater => heaterInit v
  | .flashDyn => flashDynInit v
  | .flash => flashInit v

/-- The statements of `DeclareEquations`. -/
def Kind.eqs (v : View) : Kind → List Cmd
  | .mixer => []
  | .tank => tankEqs
  | .valve => valveEqs v
  | .pump => pumpEqs v
  | .heater => heaterEqs v
  | .flashDyn => flashDynEqs v
  | .flash => flashEqs v

/-- A unit operation created with a property package, or with the default `None`: reading an attribute of `None` raises.  (The declarations
before that, l.204-227 and 416-434, are then on an object nobody can reach.) -/
def newUnit (k : Kind) (name description : String) : Option View → PyM MRef
  | none => do
    let _ ← newModel name description {} none
    raise .attributeError
  | some v => do
    let m ← newModel name description { eqns := k.eqs v } none
    each (k.init v) (Cmd.run m)
    PyM.pure m

/-! ## Streams -/

/-- l.30-34, 87-91, 141-145. -/
def streamPars : List Cmd :=
  [par "mdot" kgs "Mass flux for stream", par "ndot" mols "Molar flux for stream", par "P" Tmpl.Pa "Pressure for stream",
   par "H" Jmol "Molar enthalpy for stream", par "T" Tmpl.K "Temperature for stream"]

/-- l.149-150. -/
def streamFracs (p : String) : List Cmd :=
  if identTail p then [par ("z_" ++ p) Tmpl.dimless ("Molar fraction for " ++ p ++ " phase"),
    par ("w_" ++ p) Tmpl.dimless ("Mass fraction for " ++ p ++ " phase")]
  else [.fail syntaxError]

/-- l.26-37 `HomogeneousMaterialStream.__init__`, l.80-91 `MaterialStream.__init__`. -/
def newStream (name description : String) : PyM MRef := do
  let m ← newModel name description {} none
  each streamPars (Cmd.run m)
  PyM.pure m

/-- l.134-150 `MultiphasicMaterialStream.__init__`. -/
def newMultiStream (name description : String) : Option View → PyM MRef
  | none => do
    let _ ← newModel name description {} none
    raise .attributeError
  | some v => do
    let m ← newModel name description {} none
    each streamPars (Cmd.run m)
    each (v.names.flatMap streamFracs) (Cmd.run m)
    PyM.pure m

/-- `self.attr.setValue(x)` for a float. -/
def setFloat (m : MRef) (attr : String) (x : Rat) : PyM Unit := Cmd.run m (.setValue { attr } (.float x) none)

/-- `package["*"].MW*1e-3` -/
def View.molarMass (v : View) : Except Err Rat := do
  match (← v.star).MW with
  | some x => .ok (x * (1 / 1000))
  | none => .error .typeError

/-- l.96-104 (l.42-50, 155-163): conversion between the two fluxes with the molar mass of the last phase. -/
def convertFlux (m : MRef) (v : View) : PyM Unit := do
  let a ← lookupM m { attr := "mdot" }
  let b ← lookupM m { attr := "ndot" }
  PyM.when (a.2.isSpecified && !b.2.isSpecified) (do
    let k ← lift v.molarMass
    if k = 0 then raise .zeroDivision else setFloat m "ndot" (a.2.value / k))
  let a ← lookupM m { attr := "mdot" }
  let b ← lookupM m { attr := "ndot" }
  PyM.when (!a.2.isSpecified && b.2.isSpecified) (do
    let k ← lift v.molarMass
    setFloat m "mdot" (b.2.value * k))

/-- l.93-118 `DeclareParameters` (l.39-64 and 152-177 are the same).  `lib T P` is what `package.calculate` of the external library does, with
the arguments that are given. -/
def streamParameters (m : MRef) (lib : Option Rat → Option Rat → Except Err Unit) (v : Option View) : PyM Unit := do
  match v with
  | some v => convertFlux m v
  | none => PyM.pure ()
  let t ← lookupM m { attr := "T" }
  let p ← lookupM m { attr := "P" }
  PyM.when (t.2.isSpecified || p.2.isSpecified) (
    if v = none then raise .attributeError
    else lift (lib (if t.2.isSpecified then some t.2.value else none) (if p.2.isSpecified then some p.2.value else none)))

/-- model.py l.546-570 `__call__` for a stream, which declares nothing else. -/
def streamCall (m : MRef) (lib : Option Rat → Option Rat → Except Err Unit) (v : Option View) : PyM Unit := do
  streamParameters m lib v
  let mo ← getM m
  PyM.when (!mo.inlets.isEmpty) (totalizeInlets m)

/-! ## `UnitOp` (unit_op.py) -/

/-- unit_op.py l.20-34: attributes.  `_inlets` is only assigned by `_setInlets` (the constructor assigns `_intlets`).  The attribute `ports`
is only read for being non-empty, which it is once there are inlets. -/
structure UnitOp where
  model : MRef
  inlets : Option (List MRef) := none
  outlets : List MRef := []
  deriving DecidableEq, Repr

/-- unit_op.py l.316-341 `_setInlets` and l.347-365 `_setOutlets`: the list is replaced. -/
def UnitOp.setInlets (u : UnitOp) (l : List MRef) : UnitOp := { u with inlets := some l }
def UnitOp.setOutlets (u : UnitOp) (l : List MRef) : UnitOp := { u with outlets := l }

/-- unit_op.py l.113-115: the equation for the molar flux is named after the mass flux. -/
def fixNdot (m : MRef) (l : List MRef) : PyM Unit :=
  each l fun s => do
    let x ← lookupM s { attr := "ndot" }
    let y ← lookupM s { attr := "mdot" }
    let n ← lift ((x.2.call x.1).sub (.num x.2.value))
    let _ ← createEquation m ("eq_ndot_" ++ y.2.name) "" (some (.node n))
    PyM.pure ()

/-- unit_op.py l.40-124 `_totalizeInlets`; l.124 evaluates `Min` of nodes, which always raises, so l.126-242 are not modelled. -/
def UnitOp.totalizeInlets (m : MRef) (l : List MRef) : PyM Unit := do
  ensureInlet m "P_in" "p_in" Tmpl.Pa "{P}_{in}"
  ensureInlet m "T_in" "T_in" Tmpl.K "{T}_{in}"
  ensureInlet m "mdot_in" "mdot_in" kgs "\\dot{m}_{in}"
  ensureInlet m "ndot_in" "ndot_in" mols "\\dot{n}_{in}"
  ensureInlet m "H_in" "H_in" Jmol "{H}_{in}"
  rethrow (each l fun s => incorporate m s { eqns := false, rewrite := false }) (.exception "Inlets were not declared for current UnitOp object.")
  let ps ← rethrow (do
    let ps ← inletNodes "P" l
    fixInlets m "P" l
    PyM.pure ps) .absentRequiredObject
  rethrow (do
    let _ ← inletNodes "T" l
    fixInlets m "T" l) .absentRequiredObject
  rethrow (do
    let _ ← inletNodes "mdot" l
    fixInlets m "mdot" l) .absentRequiredObject
  rethrow (do
    let _ ← inletNodes "ndot" l
    fixNdot m l) .absentRequiredObject
  totalizeMin m "P" ps "tot_P"

/-- `out.attr() - self.model.attr_in()` as an equation of the model (unit_op.py l.264-272). -/
def passOn (m s : MRef) (name : String) (a : String × String) : PyM Unit :=
  Cmd.run m (.eqn "" ("tot_" ++ a.1 ++ "_out") ("Tot. of " ++ a.2 ++ " for outlet stream " ++ name) (.res (.bin .sub (.q { model := some s, attr := a.1 }) (q (a.1 ++ "_in")))) true)

/-- unit_op.py l.264-272: what an outlet is given, with the words of the descriptions. -/
def outletAttrs : List (String × String) :=
  [("P", "pressure"), ("T", "temperature"), ("H", "molar enthalpy"), ("ndot", "molar flux"), ("mdot", "mass flux")]

/-- unit_op.py l.244-288 `_totalizeOutlets`.  `isStream` tells instances of `MaterialStream`, which have no fractions: with a non-empty
list of phase names l.276 raises `AttributeError` (or the text does not parse).  l.288 gives `UnexpectedValueError` one argument too many, which
is a `TypeError`. -/
def UnitOp.totalizeOutlets (m : MRef) (isStream : MRef → Bool) (names : List String) : List MRef → PyM Unit
  | [s] =>
    if isStream s then do
      incorporate m s { eqns := false, rewrite := false }
      let so ← getM s
      each outletAttrs (passOn m s so.name)
      each names fun _ => raise .attributeError
    else raise .typeError
  | _ => PyM.pure ()

/-- unit_op.py l.290-314 `resolve` (warnings left out) for a model with package `v`. -/
def UnitOp.resolve (u : UnitOp) (isStream : MRef → Bool) (v : Option View) : PyM Unit := do
  let mo ← getM u.model
  each mo.body.cons (Cmd.run u.model)
  each mo.body.pars (Cmd.run u.model)
  each mo.body.vars (Cmd.run u.model)
  match u.inlets with
  | none => raise .attributeError
  | some [] => PyM.pure ()
  | some (s :: t) => UnitOp.totalizeInlets u.model (s :: t)
  match u.outlets, v with
  | [], _ => PyM.pure ()
  | [s], none => do
    UnitOp.totalizeOutlets u.model isStream [] [s]
    raise .attributeError
  | l, _ => UnitOp.totalizeOutlets u.model isStream ((v.map View.names).getD []) l
  each mo.body.eqns (Cmd.run u.model)

end Sloth.Lib
