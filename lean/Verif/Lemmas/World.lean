import Verif.Model.Session
import Verif.Lemmas.Equation

/-!
# Reasoning about calls
-/

namespace Sloth
open PyM

/-! ## Unfolding -/

@[simp] theorem PyM.pure_run {α : Type} (a : α) (w : World) : (PyM.pure a) w = (.ok a, w) := rfl
@[simp] theorem PyM.pure_run' {α : Type} (a : α) (w : World) : (pure a : PyM α) w = (.ok a, w) := rfl
theorem PyM.bind_run {α β : Type} (x : PyM α) (f : α → PyM β) (w : World) :
    (x >>= f) w = match x w with
      | (.ok a, w') => f a w'
      | (.error e, w') => (.error e, w') := rfl
@[simp] theorem PyM.bind_eq {α β : Type} (x : PyM α) (f : α → PyM β) : PyM.bind x f = (x >>= f) := rfl
@[simp] theorem PyM.raise_run {α : Type} (e : Err) (w : World) : (raise e : PyM α) w = (.error e, w) := rfl
@[simp] theorem PyM.lift_run {α : Type} (x : Except Err α) (w : World) : (lift x) w = (x, w) := rfl
@[simp] theorem PyM.each_nil {α : Type} (f : α → PyM Unit) : each [] f = PyM.pure () := rfl
@[simp] theorem PyM.each_cons {α : Type} (a : α) (t : List α) (f : α → PyM Unit) : each (a :: t) f = (f a >>= fun _ => each t f) := rfl
@[simp] theorem PyM.when_true (x : PyM Unit) : PyM.when true x = x := rfl
@[simp] theorem PyM.when_false (x : PyM Unit) : PyM.when false x = PyM.pure () := rfl

theorem PyM.bind_ok {α β : Type} {x : PyM α} {f : α → PyM β} {w w' : World} {b : β} :
    (x >>= f) w = (.ok b, w') ↔ ∃ a w1, x w = (.ok a, w1) ∧ f a w1 = (.ok b, w') := by
  rw [PyM.bind_run]
  cases h : x w with
  | mk r w1 =>
    cases r with
    | ok a => simp
    | error e => simp

/-- Running the first part of a sequence. -/
theorem PyM.bind_of_ok {α β : Type} {x : PyM α} {f : α → PyM β} {w w1 : World} {a : α} (h : x w = (.ok a, w1)) :
    (x >>= f) w = f a w1 := by rw [PyM.bind_run, h]

theorem PyM.bind_of_error {α β : Type} {x : PyM α} {f : α → PyM β} {w w1 : World} {e : Err} (h : x w = (.error e, w1)) :
    (x >>= f) w = (.error e, w1) := by rw [PyM.bind_run, h]

theorem PyM.bind_lift_ok {α β : Type} (a : α) (f : α → PyM β) (w : World) : (lift (.ok a) >>= f) w = f a w := rfl

theorem PyM.getQ_of {r : Ref} {w : World} {q : Quantity} (h : w.qs[r]? = some q) : getQ r w = (.ok q, w) := by simp [getQ, h]
theorem PyM.getE_of {r : ERef} {w : World} {q : EqObj} (h : w.es[r]? = some q) : getE r w = (.ok q, w) := by simp [getE, h]
theorem PyM.getM_of {r : MRef} {w : World} {q : ModelObj} (h : w.ms[r]? = some q) : getM r w = (.ok q, w) := by simp [getM, h]
theorem PyM.getP_of {r : PRef} {w : World} {q : Ports} (h : w.ps[r]? = some q) : getP r w = (.ok q, w) := by simp [getP, h]
theorem PyM.getM_none {r : MRef} {w : World} (h : w.ms[r]? = none) : getM r w = (.error (.exception "dangling"), w) := by
  simp only [getM, h]
theorem PyM.getQ_none {r : Ref} {w : World} (h : w.qs[r]? = none) : getQ r w = (.error (.exception "dangling"), w) := by
  simp only [getQ, h]
theorem PyM.getE_none {r : ERef} {w : World} (h : w.es[r]? = none) : getE r w = (.error (.exception "dangling"), w) := by
  simp only [getE, h]
theorem PyM.getP_none {r : PRef} {w : World} (h : w.ps[r]? = none) : getP r w = (.error (.exception "dangling"), w) := by
  simp only [getP, h]

/-! ## What each elementary call does to the heap -/

/-- The heap with another counter value. -/
def World.withUid (w : World) (u : Uid) : World := { w with uid := u }

/-- Model `m` replaced. -/
def World.withM (w : World) (m : MRef) (mo : ModelObj) : World := { w with ms := w.ms.set m mo }

/-- A quantity added. -/
def World.addQ (w : World) (q : Quantity) : World := { w with qs := w.qs ++ [q] }

/-- An equation added. -/
def World.addE (w : World) (e : EqObj) : World := { w with es := w.es ++ [e] }

theorem setAttr_run {w : World} {m : MRef} {mo : ModelObj} (h : w.ms[m]? = some mo) (attr : String) (v : Attr) :
    setAttr m attr v w = (.ok (), w.withM m { mo with attrs := dset mo.attrs attr v }) := by
  unfold setAttr; rw [PyM.bind_of_ok (getM_of h)]; rfl

theorem setAttr_none {w : World} {m : MRef} (h : w.ms[m]? = none) (attr : String) (v : Attr) :
    setAttr m attr v w = (.error (.exception "dangling"), w) := by
  unfold setAttr; rw [PyM.bind_of_error (getM_none h)]

/-- The variable `createVariable` makes. -/
def VarArgs.quantity (a : VarArgs) (owner : String) : Quantity :=
  mkVariable (a.name ++ "_" ++ owner) a.units a.description a.lower a.upper a.value a.exposed a.vtype
    (if a.latex = "" then a.name else a.latex) owner
def ParArgs.parameter (a : ParArgs) (owner : String) : Quantity :=
  mkParameter (a.name ++ "_" ++ owner) a.units a.description a.value (if a.latex = "" then a.name else a.latex) false owner
def ParArgs.constant (a : ParArgs) (owner : String) : Quantity :=
  mkConstant (a.name ++ "_" ++ owner) a.units a.description a.value (if a.latex = "" then a.name else a.latex) false owner

/-- The model with the new variable stored. -/
def ModelObj.storeVar (mo : ModelObj) (k : String) (r : Ref) : ModelObj := { mo with vars := dset mo.vars k r }
def ModelObj.storePar (mo : ModelObj) (k : String) (r : Ref) : ModelObj := { mo with pars := dset mo.pars k r }
def ModelObj.storeCon (mo : ModelObj) (k : String) (r : Ref) : ModelObj := { mo with cons := dset mo.cons k r }
def ModelObj.storeEqn (mo : ModelObj) (k : String) (r : ERef) : ModelObj := { mo with eqns := dset mo.eqns k r }

/-- The exposure list after `createVariable`. -/
def ModelObj.exposeAs (mo : ModelObj) (a : VarArgs) (r : Ref) : ModelObj :=
  if a.exposed = true ∧ a.vtype = "input" then { mo with expIn := mo.expIn ++ [r] }
  else if a.exposed = true ∧ a.vtype = "output" then { mo with expOut := mo.expOut ++ [r] }
  else mo

theorem World.withM_withM (w : World) (m : MRef) (a b : ModelObj) : (w.withM m a).withM m b = w.withM m b := by
  simp [World.withM]

theorem createVariable_run {w : World} {m : MRef} {mo : ModelObj} (h : w.ms[m]? = some mo) (a : VarArgs) :
    createVariable m a w =
      (if a.exposed = true ∧ a.vtype ≠ "input" ∧ a.vtype ≠ "output" then .error .keyError else .ok w.qs.length,
       (w.addQ (a.quantity mo.name)).withM m ((mo.storeVar (a.quantity mo.name).name w.qs.length).exposeAs a w.qs.length)) := by
  unfold createVariable
  rw [PyM.bind_of_ok (getM_of h)]
  change (newQ (a.quantity mo.name) >>= fun r => (setM m (mo.storeVar (a.quantity mo.name).name r)) >>= fun _ =>
    (PyM.when a.exposed (expose m (mo.storeVar (a.quantity mo.name).name r) r a.vtype)) >>= fun _ => PyM.pure r) w = _
  generalize a.quantity mo.name = q
  simp only [PyM.bind_run, newQ, setM]
  cases ha : a.exposed with
  | false =>
    simp [ModelObj.exposeAs, ha]; rfl
  | true =>
    simp only [PyM.when_true, expose]
    by_cases h1 : a.vtype = "input"
    · simp [h1, setM, ModelObj.exposeAs, ha, World.withM, World.addQ]
    · by_cases h2 : a.vtype = "output"
      · simp [h2, setM, ModelObj.exposeAs, ha, World.withM, World.addQ]
      · simp [h1, h2, ModelObj.exposeAs, ha, World.withM, World.addQ]

theorem createVariable_none {w : World} {m : MRef} (h : w.ms[m]? = none) (a : VarArgs) :
    createVariable m a w = (.error (.exception "dangling"), w) := by
  unfold createVariable; rw [PyM.bind_of_error (getM_none h)]

theorem createParameter_run {w : World} {m : MRef} {mo : ModelObj} (h : w.ms[m]? = some mo) (a : ParArgs) :
    createParameter m a w = (.ok w.qs.length,
      (w.addQ (a.parameter mo.name)).withM m (mo.storePar (a.parameter mo.name).name w.qs.length)) := by
  unfold createParameter
  rw [PyM.bind_of_ok (getM_of h)]
  rfl

theorem createParameter_none {w : World} {m : MRef} (h : w.ms[m]? = none) (a : ParArgs) :
    createParameter m a w = (.error (.exception "dangling"), w) := by
  unfold createParameter; rw [PyM.bind_of_error (getM_none h)]

theorem createConstant_run {w : World} {m : MRef} {mo : ModelObj} (h : w.ms[m]? = some mo) (a : ParArgs) :
    createConstant m a w = (.ok w.qs.length,
      (w.addQ (a.constant mo.name)).withM m (mo.storeCon (a.constant mo.name).name w.qs.length)) := by
  unfold createConstant
  rw [PyM.bind_of_ok (getM_of h)]
  rfl

theorem createConstant_none {w : World} {m : MRef} (h : w.ms[m]? = none) (a : ParArgs) :
    createConstant m a w = (.error (.exception "dangling"), w) := by
  unfold createConstant; rw [PyM.bind_of_error (getM_none h)]

/-- A generated name only moves the counter. -/
theorem tagIf_run (b : Bool) (w : World) : ∃ t u, tagIf b w = (.ok t, w.withUid u) := by
  unfold tagIf; cases b
  · exact ⟨"", w.uid, rfl⟩
  · exact ⟨_, _, rfl⟩

/-- `createEquation` either stores the equation it built, or raises and changes nothing but the counter. -/
theorem createEquation_run {w : World} {m : MRef} {mo : ModelObj} (h : w.ms[m]? = some mo) (name description : String)
    (a : Option ResArg) (check : Bool) :
    (∃ x u, createEquation m name description a check w = (.error x, w.withUid u)) ∨
    (∃ tag tag' e e' u, createEquation m name description a check w =
        (.ok w.es.length, ((w.withUid u).addE e').withM m (mo.storeEqn e'.name w.es.length)) ∧
      EqObj.init tag tag' name description a mo.name = .ok e ∧
      EqObj.sweep { e with name := e.name ++ "_" ++ mo.name } = .ok e' ∧
      (check = true → mo.checkEquation e' = .ok ())) := by
  unfold createEquation
  rw [PyM.bind_of_ok (getM_of h)]
  obtain ⟨t, u, ht⟩ := tagIf_run (name == "") w
  rw [PyM.bind_of_ok ht]
  obtain ⟨t', u', ht'⟩ := tagIf_run (ResArg.needsTag a) (w.withUid u)
  rw [PyM.bind_of_ok ht']
  cases hi : EqObj.init t t' name description a mo.name with
  | error x => exact Or.inl ⟨x, u', by rw [PyM.bind_run]; rfl⟩
  | ok e =>
    rw [PyM.bind_lift_ok]
    cases hs : EqObj.sweep { e with name := e.name ++ "_" ++ mo.name } with
    | error x => exact Or.inl ⟨x, u', by rw [PyM.bind_run]; rfl⟩
    | ok e' =>
      rw [PyM.bind_lift_ok]
      cases hc : mo.checkEquation e' with
      | ok v =>
        refine Or.inr ⟨t, t', e, e', u', ?_, hi, hs, fun _ => hc⟩
        cases check <;> rfl
      | error x =>
        cases check with
        | true => exact Or.inl ⟨x, u', rfl⟩
        | false => exact Or.inr ⟨t, t', e, e', u', rfl, hi, hs, by simp⟩

theorem createEquation_none {w : World} {m : MRef} (h : w.ms[m]? = none) (name description : String)
    (a : Option ResArg) (check : Bool) : createEquation m name description a check w = (.error (.exception "dangling"), w) := by
  unfold createEquation; rw [PyM.bind_of_error (getM_none h)]

/-- The copy of a quantity made by incorporation. -/
def Quantity.copyTo (q : Quantity) (rewrite : Bool) (owner : String) : Quantity :=
  { q with name := newName rewrite q.name q.owner owner, owner := owner }

theorem withM_getM {w : World} {m : MRef} {mo : ModelObj} (h : w.ms[m]? = some mo) (mo' : ModelObj) :
    (w.withM m mo').ms[m]? = some mo' := by
  have : m < w.ms.length := by
    rw [List.getElem?_eq_some_iff] at h; exact h.1
  simp [World.withM, this]

theorem addVariableDirectly_run {w : World} {m : MRef} {mo : ModelObj} {r : Ref} {q : Quantity} (h : w.ms[m]? = some mo)
    (hq : w.qs[r]? = some q) (rw' : Bool) :
    addVariableDirectly m rw' r w =
      if q.isExposed = true then
        (.error .keyError, (w.addQ (q.copyTo rw' mo.name)).withM m (mo.storeVar (q.copyTo rw' mo.name).name w.qs.length))
      else (.ok (), (w.addQ (q.copyTo rw' mo.name)).withM m
        { mo.storeVar (q.copyTo rw' mo.name).name w.qs.length with
          attrs := dset mo.attrs (objectName q.name q.owner) (.qty w.qs.length) }) := by
  unfold addVariableDirectly
  rw [PyM.bind_of_ok (getM_of h), PyM.bind_of_ok (getQ_of hq)]
  change (newQ (q.copyTo rw' mo.name) >>= fun r' => (setM m (mo.storeVar (q.copyTo rw' mo.name).name r')) >>= fun _ =>
    (PyM.when q.isExposed (raise .keyError)) >>= fun _ => setAttr m (objectName q.name q.owner) (.qty r')) w = _
  generalize q.copyTo rw' mo.name = q'
  have hb : (w.addQ q').ms[m]? = some mo := h
  cases he : q.isExposed with
  | true => rfl
  | false =>
    simp only [PyM.bind_run, newQ, setM, PyM.when_false, PyM.pure_run]
    have := setAttr_run (withM_getM hb (mo.storeVar q'.name w.qs.length)) (objectName q.name q.owner) (.qty w.qs.length)
    rw [World.withM_withM] at this
    rw [if_neg (by simp)]
    exact this

theorem addParameterDirectly_run {w : World} {m : MRef} {mo : ModelObj} {r : Ref} {q : Quantity} (h : w.ms[m]? = some mo)
    (hq : w.qs[r]? = some q) (rw' : Bool) :
    addParameterDirectly m rw' r w = (.ok (), (w.addQ (q.copyTo rw' mo.name)).withM m
        { mo.storePar (q.copyTo rw' mo.name).name w.qs.length with
          attrs := dset mo.attrs (objectName q.name q.owner) (.qty w.qs.length) }) := by
  unfold addParameterDirectly
  rw [PyM.bind_of_ok (getM_of h), PyM.bind_of_ok (getQ_of hq)]
  have hb : (w.addQ (q.copyTo rw' mo.name)).ms[m]? = some mo := h
  simp only [PyM.bind_run, newQ, setM]
  have := setAttr_run (withM_getM hb (mo.storePar (q.copyTo rw' mo.name).name w.qs.length)) (objectName q.name q.owner) (.qty w.qs.length)
  rw [World.withM_withM] at this
  exact this

theorem addConstantDirectly_run {w : World} {m : MRef} {mo : ModelObj} {r : Ref} {q : Quantity} (h : w.ms[m]? = some mo)
    (hq : w.qs[r]? = some q) (rw' : Bool) :
    addConstantDirectly m rw' r w = (.ok (), (w.addQ (q.copyTo rw' mo.name)).withM m
        { mo.storeCon (q.copyTo rw' mo.name).name w.qs.length with
          attrs := dset mo.attrs (objectName q.name q.owner) (.qty w.qs.length) }) := by
  unfold addConstantDirectly
  rw [PyM.bind_of_ok (getM_of h), PyM.bind_of_ok (getQ_of hq)]
  have hb : (w.addQ (q.copyTo rw' mo.name)).ms[m]? = some mo := h
  simp only [PyM.bind_run, newQ, setM]
  have := setAttr_run (withM_getM hb (mo.storeCon (q.copyTo rw' mo.name).name w.qs.length)) (objectName q.name q.owner) (.qty w.qs.length)
  rw [World.withM_withM] at this
  exact this

theorem addEquationDirectly_run {w : World} {m : MRef} {mo : ModelObj} {r : ERef} {e : EqObj} (h : w.ms[m]? = some mo)
    (he : w.es[r]? = some e) (names : Dict String String) (whole : Dict String Ref) (rw' : Bool) :
    addEquationDirectly m names whole rw' r w =
      match EqObj.convert { e with name := newName rw' e.name e.owner mo.name, owner := mo.name } names whole with
      | .error x => (.error x, w)
      | .ok e' => (.ok (), (w.addE e').withM m
          { mo.storeEqn e'.name w.es.length with attrs := dset mo.attrs (objectName e.name e.owner) (.eqn w.es.length) }) := by
  unfold addEquationDirectly
  rw [PyM.bind_of_ok (getM_of h), PyM.bind_of_ok (getE_of he)]
  cases hc : EqObj.convert { e with name := newName rw' e.name e.owner mo.name, owner := mo.name } names whole with
  | error x => simp [PyM.bind_run]
  | ok e' =>
    have hb : (w.addE e').ms[m]? = some mo := h
    simp only [PyM.bind_run, newE, setM, PyM.lift_run]
    have := setAttr_run (withM_getM hb (mo.storeEqn e'.name w.es.length)) (objectName e.name e.owner) (.eqn w.es.length)
    rw [World.withM_withM] at this
    exact this

theorem setInlets_run {w : World} {m : MRef} {mo : ModelObj} {p : Ports} (h : w.ms[m]? = some mo) (hp : w.ps[mo.ports]? = some p)
    (l : List MRef) (nm : String) :
    setInlets m l nm w = (.ok (),
      { w with ps := w.ps.set mo.ports (dset p nm ((dget p nm).getD [] ++ l)),
               ms := w.ms.set m { mo with inlets := mo.inlets ++ (dvalues (dset p nm ((dget p nm).getD [] ++ l))).flatten } }) := by
  unfold setInlets
  rw [PyM.bind_of_ok (getM_of h), PyM.bind_of_ok (getP_of hp)]
  rfl

theorem collect_getQ (l : List Ref) (w : World) :
    (∃ qs, collect l getQ w = (.ok qs, w) ∧ l.map (fun r => w.qs[r]?) = qs.map some) ∨
    collect l getQ w = (.error (.exception "dangling"), w) := by
  induction l with
  | nil => exact Or.inl ⟨[], rfl, rfl⟩
  | cons r t ih =>
    cases hr : w.qs[r]? with
    | none => right; simp [collect, PyM.bind_run, getQ, hr]
    | some q =>
      rcases ih with ⟨qs, h1, h2⟩ | h1
      · left; refine ⟨q :: qs, ?_, by simp [hr, h2]⟩
        simp [collect, PyM.bind_run, getQ, hr, h1]
      · right; simp [collect, PyM.bind_run, getQ, hr, h1]

theorem collect_getQ_ok {l : List Ref} {w : World} {qs : List Quantity} (h : l.map (fun r => w.qs[r]?) = qs.map some) :
    collect l getQ w = (.ok qs, w) := by
  induction l generalizing qs with
  | nil => cases qs <;> simp_all [collect]
  | cons r t ih =>
    cases qs with
    | nil => simp at h
    | cons q qs =>
      simp only [List.map_cons, List.cons.injEq] at h
      simp [collect, PyM.bind_run, getQ, h.1, ih h.2]

/-- `_createConnection` either stores the connection it built, or raises and changes nothing but the counter. -/
theorem createModelConnection_run {w : World} {m : MRef} {mo : ModelObj} (h : w.ms[m]? = some mo) (outs ins : List Ref) (a : ResArg) :
    (∃ x u, createModelConnection m outs ins a w = (.error x, w.withUid u)) ∨
    (∃ qo qi t t' d e e' u, createModelConnection m outs ins a w =
        (.ok w.es.length, ((w.withUid u).addE e').withM m (mo.storeEqn (joinNames qo ++ "--->" ++ joinNames qi) w.es.length)) ∧
      outs.map (fun r => w.qs[r]?) = qo.map some ∧ ins.map (fun r => w.qs[r]?) = qi.map some ∧
      (qi.all (fun q => q.kind == .variable) && qo.all (fun q => q.kind == .variable)) = true ∧
      EqObj.init "" t (joinNames qo ++ "--->" ++ joinNames qi) d (some a) = .ok e ∧
      (e.setResidual t' a).1 = .ok () ∧ (e.setResidual t' a).2.sweep = .ok e') := by
  unfold createModelConnection
  rw [PyM.bind_of_ok (getM_of h)]
  rcases collect_getQ outs w with ⟨qo, ho, ho'⟩ | ho
  swap
  · exact Or.inl ⟨_, w.uid, by rw [PyM.bind_of_error ho]; rfl⟩
  rw [PyM.bind_of_ok ho]
  rcases collect_getQ ins w with ⟨qi, hi, hi'⟩ | hi
  swap
  · exact Or.inl ⟨_, w.uid, by rw [PyM.bind_of_error hi]; rfl⟩
  rw [PyM.bind_of_ok hi]
  cases hv : (qi.all (fun q => q.kind == .variable) && qo.all (fun q => q.kind == .variable)) with
  | false => exact Or.inl ⟨_, w.uid, by rfl⟩
  | true =>
    rw [Bool.not_true, PyM.when_false, PyM.bind_of_ok (show PyM.pure () w = (.ok (), w) from rfl)]
    obtain ⟨t, u, ht⟩ := tagIf_run (ResArg.needsTag (some a)) w
    rw [PyM.bind_of_ok ht]
    cases hin : EqObj.init "" t (joinNames qo ++ "--->" ++ joinNames qi) ("[" ++ joinNames qo ++ "--->" ++ joinNames qi ++ "]") (some a) with
    | error x => exact Or.inl ⟨x, u, by rw [PyM.bind_run]; rfl⟩
    | ok e =>
      rw [PyM.bind_lift_ok]
      obtain ⟨t', u', ht'⟩ := tagIf_run (ResArg.needsTag (some a)) (w.withUid u)
      rw [PyM.bind_of_ok ht']
      cases hr : (e.setResidual t' a).1 with
      | error x => exact Or.inl ⟨x, u', by rw [PyM.bind_run]; rfl⟩
      | ok v =>
        rw [PyM.bind_lift_ok]
        cases hs : (e.setResidual t' a).2.sweep with
        | error x => exact Or.inl ⟨x, u', by rw [PyM.bind_run]; rfl⟩
        | ok e' =>
          rw [PyM.bind_lift_ok]
          exact Or.inr ⟨qo, qi, t, t', _, e, e', u', rfl, ho', hi', hv, hin, hr, hs⟩

/-! ## Sums of quantities -/

/-- `sum([x() for x in l])` as an expression. -/
def sumE : List (Ref × Quantity) → Option PyExpr
  | [] => none
  | p :: t => some (t.foldl (fun acc b => .bin .add acc (.q b.1 b.2)) (.nbin .add 0 (.q p.1 p.2)))

theorem foldlM_add_build (t : List (Ref × Quantity)) (acc : PyExpr) :
    (acc.build >>= fun n => (t.map fun p => p.2.call p.1).foldlM (fun a b => a.add (.node b)) n) =
      (t.foldl (fun acc b => PyExpr.bin .add acc (.q b.1 b.2)) acc).build := by
  induction t generalizing acc with
  | nil =>
    cases h : acc.build with
    | error e => simp [h]
    | ok n => simp [h, pure, Except.pure]
  | cons b t ih =>
    rw [List.foldl_cons, ← ih]
    simp only [PyExpr.build, List.map_cons, List.foldlM_cons]
    cases acc.build with
    | error e => rfl
    | ok n => rfl

theorem sumNodes_build (l : List (Ref × Quantity)) : sumNodes (l.map fun p => p.2.call p.1) =
    match sumE l with
    | none => .ok none
    | some e => (do .ok (some (← e.build))) := by
  cases l with
  | nil => rfl
  | cons p t =>
    simp only [sumE, List.map_cons, sumNodes]
    rw [← foldlM_add_build t (.nbin .add 0 (.q p.1 p.2))]
    simp only [PyExpr.build, ok_bind, ENode.rop]
    cases ENode.radd (p.2.call p.1) (.num 0) <;> rfl

/-- The default expression of a connection, as a statement. -/
def balanceE (ins outs : List (Ref × Quantity)) : Option PyExpr :=
  match sumE ins, sumE outs with
  | some a, some b => some (.bin .sub a b)
  | some a, none => some (.binN .sub a 0)
  | none, some b => some (.nbin .sub 0 b)
  | none, none => none

theorem collect_call {l : List Ref} {w w' : World} {ns : List ENode}
    (h : collect l (fun r => do let q ← getQ r; PyM.pure (q.call r)) w = (.ok ns, w')) :
    w' = w ∧ ∃ qs : List (Ref × Quantity), qs.map Prod.fst = l ∧ (∀ p ∈ qs, w.qs[p.1]? = some p.2) ∧ ns = qs.map fun p => p.2.call p.1 := by
  induction l generalizing ns w' with
  | nil =>
    simp only [collect, PyM.pure_run, Prod.mk.injEq, Except.ok.injEq] at h
    exact ⟨h.2.symm, [], rfl, by simp, by simp [← h.1]⟩
  | cons r t ih =>
    cases hq : w.qs[r]? with
    | none => simp [collect, PyM.bind_run, getQ, hq] at h
    | some q =>
      simp only [collect, PyM.bind_eq] at h
      rw [PyM.bind_of_ok (a := q.call r) (w1 := w) (by rw [PyM.bind_of_ok (getQ_of hq)]; rfl)] at h
      rw [PyM.bind_ok] at h
      obtain ⟨ns', w1, h1, h2⟩ := h
      obtain ⟨rfl, qs, e1, e2, e3⟩ := ih h1
      simp only [PyM.pure_run, Prod.mk.injEq, Except.ok.injEq] at h2
      refine ⟨h2.2.symm, (r, q) :: qs, by simp [e1], ?_, by simp [← h2.1, e3]⟩
      intro p hp
      rcases List.mem_cons.mp hp with rfl | hp
      · exact hq
      · exact e2 p hp

/-- What `sum(ins) - sum(outs)` builds. -/
theorem sumDiff_build (ins outs : List (Ref × Quantity)) {a b : Option ENode} {r : ResArg}
    (ha : sumNodes (ins.map fun p => p.2.call p.1) = .ok a) (hb : sumNodes (outs.map fun p => p.2.call p.1) = .ok b)
    (hr : sumDiff a b = .ok r) :
    match balanceE ins outs with
    | some e => Stmt.arg (.res e) = .ok r
    | none => r = .other := by
  rw [sumNodes_build] at ha hb
  unfold balanceE
  cases hi : sumE ins with
  | none =>
    rw [hi] at ha
    simp only [Except.ok.injEq] at ha; subst ha
    cases ho : sumE outs with
    | none =>
      rw [ho] at hb
      simp only [Except.ok.injEq] at hb; subst hb
      simp only [sumDiff, Except.ok.injEq] at hr
      exact hr.symm
    | some e =>
      rw [ho] at hb
      simp only [bind_eq_ok, Except.ok.injEq] at hb
      obtain ⟨n, hn, rfl⟩ := hb
      simp only [sumDiff, bind_eq_ok, Except.ok.injEq] at hr
      obtain ⟨d, hd, rfl⟩ := hr
      simp [Stmt.arg, PyExpr.build, hn, ENode.rop, hd]
  | some e =>
    rw [hi] at ha
    simp only [bind_eq_ok, Except.ok.injEq] at ha
    obtain ⟨n, hn, rfl⟩ := ha
    cases ho : sumE outs with
    | none =>
      rw [ho] at hb
      simp only [Except.ok.injEq] at hb; subst hb
      simp only [sumDiff, bind_eq_ok, Except.ok.injEq] at hr
      obtain ⟨d, hd, rfl⟩ := hr
      simp [Stmt.arg, PyExpr.build, hn, ENode.op, hd]
    | some e' =>
      rw [ho] at hb
      simp only [bind_eq_ok, Except.ok.injEq] at hb
      obtain ⟨n', hn', rfl⟩ := hb
      simp only [sumDiff, bind_eq_ok, Except.ok.injEq] at hr
      obtain ⟨d, hd, rfl⟩ := hr
      simp [Stmt.arg, PyExpr.build, hn, hn', ENode.op, hd]

/-- The default expression either is the balance of the quantities, or `0`. -/
theorem connExpr_none {i o : List Ref} {w w' : World} {r : ResArg} (h : connExpr i o none w = (.ok r, w')) :
    w' = w ∧ ∃ ins outs : List (Ref × Quantity), ins.map Prod.fst = i ∧ outs.map Prod.fst = o ∧
      (∀ p ∈ ins, w.qs[p.1]? = some p.2) ∧ (∀ p ∈ outs, w.qs[p.1]? = some p.2) ∧
      match balanceE ins outs with
      | some e => Stmt.arg (.res e) = .ok r
      | none => r = .other := by
  unfold connExpr at h
  rw [PyM.bind_ok] at h
  obtain ⟨ni, w1, h1, h⟩ := h
  obtain ⟨rfl, ins, i1, i2, rfl⟩ := collect_call h1
  rw [PyM.bind_ok] at h
  obtain ⟨no, w2, h2, h⟩ := h
  obtain ⟨rfl, outs, o1, o2, rfl⟩ := collect_call h2
  rw [PyM.bind_ok] at h
  obtain ⟨a, w3, h3, h⟩ := h
  rw [PyM.bind_ok] at h
  obtain ⟨b, w4, h4, h⟩ := h
  simp only [PyM.lift_run, Prod.mk.injEq] at h3 h4 h
  obtain ⟨h3, rfl⟩ := h3
  obtain ⟨h4, rfl⟩ := h4
  exact ⟨h.2.symm, ins, outs, i1, o1, i2, o2, sumDiff_build ins outs h3 h4 h.1⟩

/-- `Min` of nodes never returns. -/
theorem minNodes_error (l : List ENode) : ∃ x, minNodes l = .error x := by
  cases l with
  | nil => exact ⟨_, rfl⟩
  | cons a t =>
    refine ⟨.unexpectedValue, ?_⟩
    have h : (MArg.node a :: t.map MArg.node).all MArg.isNode = true := by simp [MArg.isNode, MArg.isNum]
    have h' : (MArg.node a :: t.map MArg.node).all MArg.isNum = false := by simp [MArg.isNum]
    unfold minNodes minMax
    simp only [h, h']
    rfl

end Sloth
