import Verif.Model.Reports
import Verif.Props.EndToEnd
import Verif.Props.Reads

/-!
# C76-C81: what is reported, shown, saved and drawn
-/

namespace Sloth
open PyM

/-! ## Reading several objects -/

theorem collect_of {α β : Type} {l : List α} {f : α → PyM β} {g : α → β} {w : World} (h : ∀ x ∈ l, f x w = (.ok (g x), w)) :
    collect l f w = (.ok (l.map g), w) := by
  induction l with
  | nil => rfl
  | cons a t ih =>
    have h1 := h a (by simp)
    have h2 := ih fun x hx => h x (by simp [hx])
    show PyM.bind (f a) _ w = _
    unfold PyM.bind
    rw [h1]
    show PyM.bind (collect t f) _ w = _
    unfold PyM.bind
    rw [h2]
    rfl

theorem collect_ex {α β : Type} {l : List α} {f : α → PyM β} {P : α → β → Prop} {w : World} (h : ∀ x ∈ l, ∃ y, f x w = (.ok y, w) ∧ P x y) :
    ∃ ys, collect l f w = (.ok ys, w) ∧ List.Forall₂ P l ys := by
  induction l with
  | nil => exact ⟨[], rfl, .nil⟩
  | cons a t ih =>
    obtain ⟨y, h1, hp⟩ := h a (by simp)
    obtain ⟨ys, h2, hps⟩ := ih fun x hx => h x (by simp [hx])
    refine ⟨y :: ys, ?_, .cons hp hps⟩
    show PyM.bind (f a) _ w = _
    unfold PyM.bind
    rw [h1]
    show PyM.bind (collect t f) _ w = _
    unfold PyM.bind
    rw [h2]
    rfl

theorem collect_inv {α β : Type} {l : List α} {f : α → PyM β} {w w' : World} {ys : List β} (hf : ∀ x, (f x w).2 = w)
    (h : collect l f w = (.ok ys, w')) : w' = w ∧ List.Forall₂ (fun x y => f x w = (.ok y, w)) l ys := by
  induction l generalizing ys w' with
  | nil => cases h; exact ⟨rfl, .nil⟩
  | cons a t ih =>
    change PyM.bind (f a) _ w = _ at h
    unfold PyM.bind at h
    have h0 := hf a
    cases h1 : f a w with
    | mk v u =>
      rw [h1] at h0 h
      subst h0
      cases v with
      | error e => simp at h
      | ok y =>
        change PyM.bind (collect t f) _ u = _ at h
        unfold PyM.bind at h
        cases h2 : collect t f u with
        | mk v2 u2 =>
          rw [h2] at h
          cases v2 with
          | error e => simp at h
          | ok ys2 =>
            obtain ⟨rfl, hall⟩ := ih h2
            change (Except.ok (y :: ys2), u2) = _ at h
            cases h
            exact ⟨rfl, .cons h1 hall⟩

theorem getElem?_forall₂ {α β : Type} {P : α → β → Prop} {l : List α} {m : List β} (h : List.Forall₂ P l m) {i : Nat} {x : α}
    (hi : l[i]? = some x) : ∃ y, m[i]? = some y ∧ P x y := by
  induction h generalizing i with
  | nil => simp at hi
  | cons h _ ih =>
    cases i with
    | zero => simp at hi; subst hi; exact ⟨_, rfl, h⟩
    | succ i => exact ih (by simpa using hi)

/-! ## C76 -/

/-- The word for the class of an equation. -/
def Spec.word : EqKind → String
  | .linear => "linear"
  | .nonlinear => "nonlinear"
  | .differential => "differential"

/-- A name in the report: marked if the quantity is specified. -/
def Spec.marked (q : Quantity) (name : String) : String := if q.isSpecified then name ++ "(*)" else name

/-- The row says what the equation object holds: its name, its description, its representation, the names under which it keeps
variables, parameters and constants, the latter two marked if they are specified, and its class. -/
structure Spec.RowOf (w : World) (e : EqObj) (row : ReportRow) : Prop where
  name : row.name = e.name
  description : row.description = e.description
  type : ∃ k, e.type = some k ∧ row.type = Spec.word k
  content : ∃ n, e.expr = some n ∧ row.repr = n.repr ∧
    (∀ s, s ∈ row.vars ↔ ∃ x q, (s, x) ∈ n.symMap ∧ w.qs[x]? = some q ∧ q.kind = .variable) ∧
    (∀ s, s ∈ row.pars ↔ ∃ a x q, (a, x) ∈ n.symMap ∧ w.qs[x]? = some q ∧ q.kind = .parameter ∧ s = Spec.marked q a) ∧
    (∀ s, s ∈ row.cons ↔ ∃ a x q, (a, x) ∈ n.symMap ∧ w.qs[x]? = some q ∧ q.kind = .constant ∧ s = Spec.marked q a)

theorem mem_inspectKind {qs : List Quantity} {k : Kind} {b : Bool} {m : Dict String Ref} {s : String} :
    s ∈ inspectKind qs k b m ↔ ∃ a x q, (a, x) ∈ m ∧ qs[x]? = some q ∧ q.kind = k ∧ s = if b then Spec.marked q a else a := by
  have hm : ∀ (q : Quantity) (a : String), a ++ mark q = Spec.marked q a := by
    intro q a; unfold mark Spec.marked; split <;> simp
  simp only [inspectKind, List.mem_filterMap, Prod.exists]
  constructor
  · rintro ⟨a, x, hm1, h⟩
    cases hq : qs[x]? with
    | none => simp [hq] at h
    | some q =>
      simp only [hq, Option.ite_none_right_eq_some, Option.some.injEq] at h
      exact ⟨a, x, q, hm1, hq, h.1, by rw [← hm]; exact h.2.symm⟩
  · rintro ⟨a, x, q, hm1, hq, hk, rfl⟩
    exact ⟨a, x, hm1, by simp [hq, hk, hm]⟩

theorem reportRow_typed {w : World} {e : EqObj} (h : e.Typed) : ∃ row, reportRow w.qs e = .ok row ∧ Spec.RowOf w e row := by
  obtain ⟨n, hn, ho, ht⟩ := h
  have hk : ∃ k, typeText n.ty = .ok (Spec.word k) ∧ EqObj.kindOf n.ty = some k := by
    rcases ho with h | h | h
    · exact ⟨.linear, by simp [typeText, h, Spec.word], by simp [EqObj.kindOf, h]⟩
    · exact ⟨.nonlinear, by simp [typeText, h, Spec.word], by simp [EqObj.kindOf, h]⟩
    · exact ⟨.differential, by simp [typeText, h, Spec.word], by simp [EqObj.kindOf, h]⟩
  obtain ⟨k, h1, h2⟩ := hk
  let o := inspectForObjects w.qs n.symMap
  refine ⟨{ name := e.name, description := e.description, repr := n.repr, vars := o.1, pars := o.2.1, cons := o.2.2, type := Spec.word k },
    by simp only [reportRow, hn, h1, ok_bind]; rfl, rfl, rfl, ⟨k, ht.trans h2, rfl⟩, n, hn, rfl, fun s => ?_, fun s => ?_, fun s => ?_⟩
  · simp only [o, inspectForObjects, mem_inspectKind]
    constructor
    · rintro ⟨a, x, q, h1, h2, h3, rfl⟩; exact ⟨x, q, h1, h2, h3⟩
    · rintro ⟨x, q, h1, h2, h3⟩; exact ⟨s, x, q, h1, h2, h3, rfl⟩
  · simp only [o, inspectForObjects, mem_inspectKind, if_true]
  · simp only [o, inspectForObjects, mem_inspectKind, if_true]

theorem modelReport_of {w : World} (ht : ∀ e ∈ w.es, e.Typed) {m : MRef} {mo : ModelObj} (hm : w.ms[m]? = some mo) (hw : mo.WF w) :
    ∃ rows, modelReport m w = (.ok rows, w) ∧ List.Forall₂ (fun r row => ∃ e, w.es[r]? = some e ∧ Spec.RowOf w e row) (dvalues mo.eqns) rows := by
  obtain ⟨rows, h1, h2⟩ := collect_ex (w := w) (l := dvalues mo.eqns)
    (f := reportEqn)
    (P := fun r row => ∃ e, w.es[r]? = some e ∧ Spec.RowOf w e row) (by
      intro r hr
      obtain ⟨p, hp, rfl⟩ := List.mem_map.1 hr
      obtain ⟨e, he, _⟩ := hw.eqns.2 p hp
      obtain ⟨row, hrow, hof⟩ := reportRow_typed (w := w) (ht e (List.mem_of_getElem? he))
      refine ⟨row, ?_, e, he, hof⟩
      simp only [reportEqn, he, hrow])
  refine ⟨rows, ?_, h2⟩
  unfold modelReport
  rw [PyM.bind_of_ok (getM_of hm)]
  exact h1

/-- C76: in any session of written equations the report on a model never raises, changes nothing, and has one row per equation of the
model, in their order, which says what the equation holds. -/
theorem model_report (ops : List Op) (hs : Spec.Session ops) {m : MRef} {mo : ModelObj} (hm : (history ops World.init).ms[m]? = some mo) :
    ∃ rows, modelReport m (history ops World.init) = (.ok rows, history ops World.init) ∧
      List.Forall₂ (fun r row => ∃ e, (history ops World.init).es[r]? = some e ∧ Spec.RowOf (history ops World.init) e row) (dvalues mo.eqns) rows :=
  modelReport_of (session_typed hs) hm ((history_wf ops init_wf).ms m mo hm)

/-- The quantities a statement is written with (independent variables of derivatives apart). -/
def Spec.occurring (st : Stmt) : List (Ref × Quantity) := (Spec.parts st).flatMap Spec.quantities

theorem Stmt.maps (st : Stmt) {t : String} {e0 e : EqObj} {a : ResArg} (ha : st.arg = .ok a) (h : e0.setResidual t a = (.ok (), e)) :
    ∃ n, e.expr = some n ∧ DNodup n.symMap ∧ ∀ s, dget n.symMap s = dget ((Spec.occurring st).map fun p => (p.2.name, p.1)).reverse s := by
  cases st with
  | eqn l r =>
    simp only [Stmt.arg, bind_eq_ok, Except.ok.injEq] at ha
    obtain ⟨nl, hl, nr, hr, rfl⟩ := ha
    simp only [EqObj.setResidual] at h
    split at h
    · simp at h
    · rename_i d hd
      obtain ⟨n, hn, rfl⟩ := EqObj.finish_ok h
      simp only [Option.some.injEq] at hn; subst hn
      have hb : (PyExpr.bin .sub l r).build = .ok d := by simp only [PyExpr.build, hl, hr, ok_bind]; exact hd
      obtain ⟨h1, _, h2, _⟩ := expr_maps_partial _ hb
      exact ⟨d, rfl, h1, by simpa [Spec.occurring, Spec.parts, Spec.quantities] using h2⟩
  | eqnNum l q =>
    simp only [Stmt.arg, bind_eq_ok, Except.ok.injEq] at ha
    obtain ⟨nl, hl, rfl⟩ := ha
    simp only [EqObj.setResidual] at h
    split at h
    · simp at h
    · rename_i d hd
      obtain ⟨n, hn, rfl⟩ := EqObj.finish_ok h
      simp only [Option.some.injEq] at hn; subst hn
      have hm := (op_node_ok (op := .sub) hd).2.2.1
      obtain ⟨h1, _, h2, _⟩ := expr_maps_partial _ hl
      refine ⟨d, rfl, ?_, ?_⟩
      · rw [hm]; exact h1
      · rw [hm]; simpa [Spec.occurring, Spec.parts, EqObj.numNode] using h2
  | res x =>
    simp only [Stmt.arg, bind_eq_ok, Except.ok.injEq] at ha
    obtain ⟨nl, hl, rfl⟩ := ha
    simp only [EqObj.setResidual] at h
    obtain ⟨n, hn, rfl⟩ := EqObj.finish_ok h
    simp only [Option.some.injEq] at hn; subst hn
    obtain ⟨h1, _, h2, _⟩ := expr_maps_partial _ hl
    exact ⟨nl, rfl, h1, by simpa [Spec.occurring, Spec.parts] using h2⟩

/-- Different quantities of the statement have different names. -/
def Spec.NamesDiffer (st : Stmt) : Prop := ∀ p ∈ Spec.occurring st, ∀ p' ∈ Spec.occurring st, p.2.name = p'.2.name → p.1 = p'.1

theorem mem_map_occurring {st : Stmt} (hn : Spec.NamesDiffer st) {n : ENode} (hd : DNodup n.symMap)
    (h : ∀ s, dget n.symMap s = dget ((Spec.occurring st).map fun p => (p.2.name, p.1)).reverse s) {s : String} {x : Ref} :
    (s, x) ∈ n.symMap ↔ ∃ p ∈ Spec.occurring st, p.2.name = s ∧ p.1 = x := by
  rw [← dget_eq_some_iff hd, h]
  constructor
  · intro h
    have := mem_of_dget h
    simpa using this
  · rintro ⟨p, hp, rfl, rfl⟩
    have hk : p.2.name ∈ dkeys ((Spec.occurring st).map fun p => (p.2.name, p.1)).reverse :=
      List.mem_map.2 ⟨(p.2.name, p.1), List.mem_reverse.2 (List.mem_map_of_mem hp), rfl⟩
    obtain ⟨v, hv⟩ := exists_dget_of_mem hk
    have := mem_of_dget hv
    simp only [List.mem_reverse, List.mem_map, Prod.mk.injEq] at this
    obtain ⟨p', hp', h1, h2⟩ := this
    rw [hv, ← h2, hn p' hp' p hp h1]

/-- C76 (partial), from the statement: an equation stated with `createEquation` is reported, in any later state in which its model has it,
under its name with its description; the columns list exactly the variables, parameters and constants the statement was written with, the
latter two marked if they are specified by then; and an equation called differential was written with a derivative.
Missing: the independent variable of a derivative is not listed (`report_omits_independent_variable`). -/
theorem report_of_statement_partial (st : Stmt) {a : ResArg} (ha : st.arg = .ok a) {w w1 : World}
    (hlive : ∀ p ∈ Spec.occurring st, w.qs[p.1]? = some p.2) (hnm : Spec.NamesDiffer st)
    {m : MRef} {name d : String} {c : Bool} {r : ERef} (hc : createEquation m name d (some a) c w = (.ok r, w1))
    (ops : List Op) {k : MRef} {mo : ModelObj} (hk : (history ops w1).ms[k]? = some mo) {i : Nat} (hi : (dvalues mo.eqns)[i]? = some r)
    {rows : List ReportRow} {w' : World} (h : modelReport k (history ops w1) = (.ok rows, w')) :
    w' = history ops w1 ∧ rows.length = mo.eqns.length ∧
    ∃ row own, rows[i]? = some row ∧ w.ms[m]? = some own ∧ (name ≠ "" → row.name = name ++ "_" ++ own.name) ∧ row.description = d ∧
      (∀ s, s ∈ row.vars ↔ ∃ p ∈ Spec.occurring st, p.2.kind = .variable ∧ s = p.2.name) ∧
      (∀ s, s ∈ row.pars ↔ ∃ p ∈ Spec.occurring st, p.2.kind = .parameter ∧ ∃ q, w'.qs[p.1]? = some q ∧ s = Spec.marked q p.2.name) ∧
      (∀ s, s ∈ row.cons ↔ ∃ p ∈ Spec.occurring st, p.2.kind = .constant ∧ ∃ q, w'.qs[p.1]? = some q ∧ s = Spec.marked q p.2.name) ∧
      (row.type = "differential" → ∃ x ∈ Spec.parts st, Spec.hasDeriv x = true) := by
  unfold modelReport at h
  rw [PyM.bind_of_ok (getM_of hk)] at h
  obtain ⟨rfl, hall⟩ := collect_inv (fun x => by unfold reportEqn; split <;> rfl) h
  obtain ⟨row, hrow, hr⟩ := getElem?_forall₂ hall hi
  have hlen := hall.length_eq
  refine ⟨rfl, by rw [← hlen]; simp [dvalues], ?_⟩
  cases hm : w.ms[m]? with
  | none => rw [createEquation_none hm] at hc; simp at hc
  | some own =>
    rcases createEquation_run hm name d (some a) c with ⟨x, u, he⟩ | ⟨t, t', e, e', u, he, hin, hs, _⟩
    · rw [he] at hc; simp at hc
    · rw [he] at hc
      simp only [Prod.mk.injEq, Except.ok.injEq] at hc
      obtain ⟨rfl, rfl⟩ := hc
      obtain ⟨n, hn, rfl⟩ := EqObj.sweep_ok hs
      simp only at hn
      obtain ⟨hname, _, hdesc, _⟩ := EqObj.init_fields hin
      obtain ⟨e0, e1, hf, h1, rfl⟩ := EqObj.init_fresh hin
      simp only at hname hdesc hn
      obtain ⟨n', hn', hdn, hmap⟩ := st.maps ha h1
      obtain rfl : n = n' := Option.some.inj (hn.symm.trans hn')
      have hty := st.residual_typed ha h1
      obtain ⟨n2, hn2, hone, hkind⟩ := hty
      obtain rfl : n = n2 := Option.some.inj (hn.symm.trans hn2)
      generalize hw1 : ((w.withUid u).addE _).withM m _ = w1 at *
      have hle : w1.Le (history ops w1) := history_le _ w1
      have hle0 : w.Le w1 := by
        rw [← hw1]; exact World.Le.addE_withM _ _ hm (ModelObj.Le.storeEqn _ _ _ _ own.attrs)
      have he1 : w1.es[w.es.length]? = some { e1 with name := e1.name ++ "_" ++ own.name, owner := own.name, objects := some n.symMap } := by
        subst hw1
        simp [World.withM, World.addE, World.withUid]
      have he' := hle.es _ _ he1
      have hty' : EqObj.Typed { e1 with name := e1.name ++ "_" ++ own.name, owner := own.name, objects := some n.symMap } := ⟨n, hn, hone, hkind⟩
      obtain ⟨row', hrow', hof⟩ := reportRow_typed (w := history ops w1) hty'
      simp only [reportEqn, he', Prod.mk.injEq, and_true] at hr
      rw [hr, Except.ok.injEq] at hrow'
      subst hrow'
      obtain ⟨n3, hn3, _, hv, hp, hcn⟩ := hof.content
      obtain rfl : n = n3 := Option.some.inj (hn.symm.trans hn3)
      have hq : ∀ p ∈ Spec.occurring st, ∃ q, (history ops w1).qs[p.1]? = some q ∧ q.kind = p.2.kind := fun p hp => by
        obtain ⟨q1, h1, hl1⟩ := hle0.qs _ _ (hlive p hp)
        obtain ⟨q2, h2, hl2⟩ := hle.qs _ _ h1
        exact ⟨q2, h2, hl2.kind.trans hl1.kind⟩
      have key : ∀ k s, (∃ a x q, (a, x) ∈ n.symMap ∧ (history ops w1).qs[x]? = some q ∧ q.kind = k ∧ s = Spec.marked q a) ↔
          ∃ p ∈ Spec.occurring st, p.2.kind = k ∧ ∃ q, (history ops w1).qs[p.1]? = some q ∧ s = Spec.marked q p.2.name := by
        intro k s
        constructor
        · rintro ⟨a, x, q, h1, h2, h3, h4⟩
          obtain ⟨p, hp, rfl, rfl⟩ := (mem_map_occurring hnm hdn hmap).1 h1
          obtain ⟨q', hq', hk'⟩ := hq p hp
          rw [h2] at hq'; cases hq'
          exact ⟨p, hp, hk'.symm.trans h3, q, h2, h4⟩
        · rintro ⟨p, hp, h3, q, h2, h4⟩
          obtain ⟨q', hq', hk'⟩ := hq p hp
          rw [h2] at hq'; cases hq'
          exact ⟨p.2.name, p.1, q, (mem_map_occurring hnm hdn hmap).2 ⟨p, hp, rfl, rfl⟩, h2, hk'.trans h3, h4⟩
      refine ⟨row, own, hrow, rfl, fun hne => ?_, ?_, fun s => ?_, fun s => ?_, fun s => ?_, fun ht => ?_⟩
      · rw [hof.name]; simp only; rw [hname, if_neg hne]
      · rw [hof.description]; exact hdesc
      · rw [hv]
        constructor
        · rintro ⟨x, q, h1, h2, h3⟩
          obtain ⟨p, hp, rfl, rfl⟩ := (mem_map_occurring hnm hdn hmap).1 h1
          obtain ⟨q', hq', hk'⟩ := hq p hp
          rw [h2] at hq'; cases hq'
          exact ⟨p, hp, hk'.symm.trans h3, rfl⟩
        · rintro ⟨p, hp, h3, rfl⟩
          obtain ⟨q', hq', hk'⟩ := hq p hp
          exact ⟨p.1, q', (mem_map_occurring hnm hdn hmap).2 ⟨p, hp, rfl, rfl⟩, hq', hk'.trans h3⟩
      · rw [hp]; exact key _ s
      · rw [hcn]; exact key _ s
      · obtain ⟨kd, hkd, hw⟩ := hof.type
        obtain ⟨n4, k4, hn4, hk4, _, _, h6, h7, _⟩ := equation_kind st t' e0 e1 ha h1
        obtain rfl : n = n4 := Option.some.inj (hn.symm.trans hn4)
        simp only at hkd
        obtain rfl : kd = k4 := Option.some.inj (hkd.symm.trans hk4)
        have : kd = .differential := by
          rw [hw] at ht
          cases kd <;> first | rfl | (revert ht; decide)
        obtain ⟨x, hx, nx, hb, hd⟩ := h7.1 (h6.1 this)
        exact ⟨x, hx, differential_only_with_derivative x hb hd⟩

namespace Ex
/-- A model with two variables, a parameter with and one without value, and a constant. -/
def rep0 : List Op := [.newModel "m" "" {} none, .cmd 0 (dv "x"), .cmd 0 (dv "y"), .cmd 0 (dp "p"), .cmd 0 (dp "q"),
  .cmd 0 (.con "c" { name := "c", units := Tmpl.dimless, value := 2 }), .cmd 0 (.setValue { attr := "p" } (.float 5) (some Tmpl.dimless))]
def repW : World := history rep0 World.init
def repQ (r : Ref) : PyExpr := .q r ((repW.qs[r]?).getD Ex.x)
/-- `p*x + c == q`. -/
def repSt : Stmt := .eqn (.bin .add (.bin .mul (repQ 2) (repQ 0)) (repQ 4)) (repQ 3)
def repArg : ResArg := (repSt.arg.toOption).getD .other
/-- The parameter `q` is given a value later. -/
def repLater : List Op := [.setValue 3 (.float 1) none]
def repEnd : World := history repLater (createEquation 0 "e" "balance" (some repArg) true repW).2

theorem rep0_session : Spec.Session rep0 := by
  intro o ho
  simp only [rep0, List.mem_cons, List.not_mem_nil, or_false] at ho
  rcases ho with rfl | rfl | rfl | rfl | rfl | rfl | rfl <;> trivial
end Ex

/-- `p*x + c == q`: the row of the report. -/
example : (∀ p ∈ Spec.occurring Ex.repSt, Ex.repW.qs[p.1]? = some p.2) ∧ Spec.NamesDiffer Ex.repSt ∧
    (createEquation 0 "e" "balance" (some Ex.repArg) true Ex.repW).1.toOption = some 0 ∧
    ((Ex.repEnd.ms[0]?).map fun mo => dvalues mo.eqns) = some [0] ∧
    ((modelReport 0 Ex.repEnd).1.toOption.map fun l => l.map fun r => [[r.name, r.description, r.type], r.vars, r.pars, r.cons]) =
      some [[["e_m", "balance", "linear"], ["x_m"], ["p_m(*)", "q_m(*)"], ["c_m"]]] := by
  refine ⟨by decide +kernel, ?_, by decide +kernel, by decide +kernel, by decide +kernel⟩
  unfold Spec.NamesDiffer
  decide +kernel

example : Ex.repSt.arg = .ok Ex.repArg := by
  have : Ex.repSt.arg.toOption.isSome = true := by decide +kernel
  unfold Ex.repArg
  cases h : Ex.repSt.arg with
  | ok a => rfl
  | error e => rw [h] at this; cases this

example : Spec.Session Ex.dae ∧ ((history Ex.dae World.init).ms[0]?.map fun mo => mo.eqns.length) = some 3 ∧
    ((modelReport 0 (history Ex.dae World.init)).1.toOption.map fun l => l.map fun r => (r.vars, r.type)) =
      some [(["x_m", "y_m"], "linear"), (["x_m", "y_m"], "nonlinear"), (["z_m", "x_m", "t_m"], "differential")] :=
  ⟨Ex.dae_session, by decide +kernel, by decide +kernel⟩

/-- `x == dz/dt`. -/
def Ex.slope : List Op := [.newModel "m" "" {} none, .cmd 0 (Ex.dv "x"), .cmd 0 (Ex.dv "z"), .cmd 0 (Ex.dv "t"), .cmd 0 (.distribute { attr := "z" }),
  .cmd 0 (Ex.eq_ "e" (.eqn (Ex.at_ "x") (.diff { attr := "z" } (some { attr := "t" }))))]

/-- C76 fails for the independent variable of a derivative: the row shows the derivative of `z` by `t`, and lists `t` nowhere. -/
theorem report_omits_independent_variable : ∃ ops : List Op, Spec.Session ops ∧
    ((modelReport 0 (history ops World.init)).1.toOption.map fun l => l.map fun r => (r.repr, r.vars ++ r.pars ++ r.cons)) =
      some [(.sub (.atom (.v "x_m")) (.atom (.d "z_m" "t_m")), ["x_m", "z_m"])] := by
  refine ⟨Ex.slope, fun o ho => ?_, by decide +kernel⟩
  simp only [Ex.slope, List.mem_cons, List.not_mem_nil, or_false] at ho
  rcases ho with rfl | rfl | rfl | rfl | rfl | rfl <;> trivial

/-- C76: the report on a problem needs the problem to be resolved; after that, in any session of written equations, it names the problem's
type and has, in the order of the problem's models, each model's name with the rows of that model's report. -/
theorem problem_report (ops : List Op) (hs : Spec.Session ops) {w' : World} (h : resolve (history ops World.init) = (.ok (), w')) :
    ∃ b rep, w'.pr.block = some b ∧ problemReport w' = (.ok rep, w') ∧ rep.name = w'.pr.name ∧ rep.type = b.problemType ∧
      List.Forall₂ (fun (km : String × MRef) (kr : String × List ReportRow) => kr.1 = km.1 ∧ modelReport km.2 w' = (.ok kr.2, w') ∧
        ∃ mo, w'.ms[km.2]? = some mo ∧ mo.name = km.1 ∧
          List.Forall₂ (fun r row => ∃ e, w'.es[r]? = some e ∧ Spec.RowOf w' e row) (dvalues mo.eqns) kr.2) w'.pr.models rep.models := by
  obtain ⟨b, g, hb, _⟩ := resolved_block h
  have hw' := history_resolve ops h
  have ht : ∀ e ∈ w'.es, e.Typed := by rw [hw']; exact session_typed hs.resolve
  have hwf : w'.WF := by rw [hw']; exact history_wf _ init_wf
  have hp : w'.pr.WF w' := by
    rw [hw']
    exact history_problem _ init_wf ⟨⟨DNodup.nil, by simp [World.init]⟩, ⟨DNodup.nil, by simp [World.init]⟩, ⟨DNodup.nil, by simp [World.init]⟩⟩
  obtain ⟨l, h1, h2⟩ := collect_ex (w := w') (l := w'.pr.models)
    (f := fun km => do
      let t ← modelReport km.2
      PyM.pure (km.1, t))
    (P := fun km kr => kr.1 = km.1 ∧ modelReport km.2 w' = (.ok kr.2, w') ∧
        ∃ mo, w'.ms[km.2]? = some mo ∧ mo.name = km.1 ∧
          List.Forall₂ (fun r row => ∃ e, w'.es[r]? = some e ∧ Spec.RowOf w' e row) (dvalues mo.eqns) kr.2) (by
      intro km hkm
      obtain ⟨mo, hmo, hn⟩ := hp.models.2 km hkm
      obtain ⟨rows, hr, hall⟩ := modelReport_of ht hmo (hwf.ms _ _ hmo)
      exact ⟨(km.1, rows), by rw [PyM.bind_of_ok hr]; rfl, rfl, hr, mo, hmo, hn, hall⟩)
  refine ⟨b, ⟨w'.pr.name, b.problemType, l⟩, hb, ?_, rfl, rfl, h2⟩
  unfold problemReport
  rw [PyM.bind_of_ok (show getPr w' = (.ok w'.pr, w') from rfl), PyM.bind_of_ok (show lift _ w' = (.ok b, w') by rw [hb]; rfl),
    PyM.bind_of_ok h1]
  rfl

theorem problem_report_unresolved {w : World} (h : w.pr.block = none) : problemReport w = (.error .attributeError, w) := by
  unfold problemReport
  rw [PyM.bind_of_ok (show getPr w = (.ok w.pr, w) from rfl)]
  rw [PyM.bind_of_error (show lift _ w = (.error .attributeError, w) by rw [h]; rfl)]

/-- What can be reported on in a state: its models, and its problem once it is resolved. -/
def Spec.Reportable (w : World) : ReportArg → Prop
  | .model m => m < w.ms.length
  | .problem => w.pr.block.isSome
  | .other => False

/-- What `report` raises for something that cannot be reported on: a problem that was not resolved has no equations to be described. -/
def Spec.reportError : ReportArg → Err
  | .model _ => .exception "dangling"
  | .problem => .attributeError
  | .other => .unexpectedValue

/-- C76: in any session of written equations, `report` of a simulation returns (nothing) for a model and for the resolved problem and raises for
anything else (AttributeError for an unresolved problem, UnexpectedValueError for other objects); the session is the same afterwards. -/
theorem sim_report (ops : List Op) (hs : Spec.Session ops) (a : ReportArg) :
    ((simReport a (history ops World.init)).1 = .ok () ↔ Spec.Reportable (history ops World.init) a) ∧
      (¬ Spec.Reportable (history ops World.init) a → (simReport a (history ops World.init)).1 = .error (Spec.reportError a)) ∧
      (simReport a (history ops World.init)).2 = history ops World.init := by
  have ht := session_typed hs
  have hwf : (history ops World.init).WF := history_wf _ init_wf
  have hp : (history ops World.init).pr.WF (history ops World.init) :=
    history_problem _ init_wf ⟨⟨DNodup.nil, by simp [World.init]⟩, ⟨DNodup.nil, by simp [World.init]⟩, ⟨DNodup.nil, by simp [World.init]⟩⟩
  generalize history ops World.init = w at *
  cases a with
  | model m =>
    simp only [simReport]
    by_cases hm : m < w.ms.length
    · obtain ⟨rows, h, _⟩ := modelReport_of ht (List.getElem?_eq_getElem hm) (hwf.ms _ _ (List.getElem?_eq_getElem hm))
      rw [PyM.bind_of_ok h]
      exact ⟨⟨fun _ => hm, fun _ => rfl⟩, fun h => absurd hm h, rfl⟩
    · have hg : w.ms[m]? = none := List.getElem?_eq_none (Nat.le_of_not_lt hm)
      have h : modelReport m w = (.error (.exception "dangling"), w) := by
        unfold modelReport
        rw [PyM.bind_of_error (show getM m w = (.error (.exception "dangling"), w) by simp [getM, hg])]
      rw [PyM.bind_of_error h]
      exact ⟨⟨fun h => (by cases h), fun h => absurd h hm⟩, fun _ => rfl, rfl⟩
  | problem =>
    simp only [simReport]
    cases hb : w.pr.block with
    | none =>
      rw [PyM.bind_of_error (problem_report_unresolved hb)]
      exact ⟨⟨fun h => (by cases h), fun h => by simp [Spec.Reportable, hb] at h⟩, fun _ => rfl, rfl⟩
    | some b =>
      obtain ⟨l, h1, -⟩ := collect_ex (w := w) (l := w.pr.models)
        (f := fun km => do
          let t ← modelReport km.2
          PyM.pure (km.1, t))
        (P := fun _ _ => True) (by
          intro km hkm
          obtain ⟨mo, hmo, hn⟩ := hp.models.2 km hkm
          obtain ⟨rows, hr, hall⟩ := modelReport_of ht hmo (hwf.ms _ _ hmo)
          exact ⟨(km.1, rows), by rw [PyM.bind_of_ok hr]; rfl, trivial⟩)
      have h : problemReport w = (.ok ⟨w.pr.name, b.problemType, l⟩, w) := by
        unfold problemReport
        rw [PyM.bind_of_ok (show getPr w = (.ok w.pr, w) from rfl), PyM.bind_of_ok (show lift _ w = (.ok b, w) by rw [hb]; rfl),
          PyM.bind_of_ok h1]
        rfl
      rw [PyM.bind_of_ok h]
      exact ⟨⟨fun _ => by simp [Spec.Reportable, hb], fun _ => rfl⟩, fun h => absurd (by simp [Spec.Reportable, hb]) h, rfl⟩
  | other => exact ⟨⟨fun h => (by cases h), fun h => h.elim⟩, fun _ => rfl, rfl⟩

example : Spec.Session Ex.alg ∧ (resolve (history Ex.alg World.init)).1.toOption = some () ∧
    (((problemReport (resolve (history Ex.alg World.init)).2).1.toOption).map fun r => r.models.map fun p => (p.1, p.2.map fun x => x.type)) =
      some [("m", ["linear", "nonlinear"])] ∧ (history Ex.alg World.init).pr.block = none :=
  ⟨Ex.alg_session, by decide +kernel, by decide +kernel, by decide +kernel⟩

/-! ## C77 -/

/-- The quantities of a dictionary that are not specified. -/
def Spec.open_ (w : World) (d : Dict String Ref) : List Ref := (dvalues d).filter fun r => (w.qs[r]?).any fun q => !q.isSpecified

/-- Degrees of freedom: unknowns minus equations. -/
def Spec.freedom (w : World) (mo : ModelObj) : Int :=
  ((Spec.open_ w mo.vars).length + (Spec.open_ w mo.pars).length : Nat) - (mo.eqns.length : Nat)

theorem infoDegreesOfFreedom_eq {w : World} {m : MRef} {mo : ModelObj} (hm : w.ms[m]? = some mo) :
    infoDegreesOfFreedom m w = (.ok ((mo.eqns.length : Int) - ((mo.vars.length : Int) + (mo.pars.length : Int)), 0, 0), w) := by
  unfold infoDegreesOfFreedom
  rw [PyM.bind_of_ok (getM_of hm)]
  rfl

/-- The quantities of a dictionary that are specified. -/
def Spec.fixed (w : World) (d : Dict String Ref) : List Ref := (dvalues d).filter fun r => (w.qs[r]?).any fun q => q.isSpecified

theorem open_fixed {w : World} {k : Kind} {o : String} {d : Dict String Ref} (h : w.Decl k o d) :
    (Spec.open_ w d).length + (Spec.fixed w d).length = d.length := by
  have h' : ∀ r ∈ dvalues d, ∃ q, w.qs[r]? = some q := by
    intro r hr
    obtain ⟨p, hp, rfl⟩ := List.mem_map.1 hr
    obtain ⟨q, hq, _⟩ := h.2 p hp
    exact ⟨q, hq⟩
  have hl : d.length = (dvalues d).length := by simp [dvalues]
  rw [hl]
  unfold Spec.open_ Spec.fixed
  generalize dvalues d = l at h'
  clear hl
  induction l with
  | nil => rfl
  | cons r t ih =>
    have ih := ih fun x hx => h' x (by simp [hx])
    obtain ⟨q, hq⟩ := h' r (by simp)
    cases hs : q.isSpecified <;> simp [List.filter_cons, hq, hs] <;> omega

/-- C77 (partial): the reported number is the negative of the degrees of freedom, less the number of specified variables and parameters; hence it
tells a square model from another, and is the negative of its degrees of freedom, exactly for models without specified variables and parameters.
Missing: the sign, and that specified quantities are counted (`design_freedom_sign`, `design_freedom_counts_specified`). -/
theorem design_freedom_partial {w : World} (hw : Reachable w) {m : MRef} {mo : ModelObj} (hm : w.ms[m]? = some mo) :
    ∃ d : Int, infoDegreesOfFreedom m w = (.ok (d, 0, 0), w) ∧
      d = -Spec.freedom w mo - ((Spec.fixed w mo.vars).length + (Spec.fixed w mo.pars).length : Nat) ∧
      (d = -Spec.freedom w mo ↔ Spec.fixed w mo.vars = [] ∧ Spec.fixed w mo.pars = []) ∧
      (Spec.fixed w mo.vars = [] → Spec.fixed w mo.pars = [] → (d = 0 ↔ Spec.freedom w mo = 0)) := by
  have hwf := (reachable_wf hw).ms m mo hm
  have h1 := open_fixed hwf.vars
  have h2 := open_fixed hwf.pars
  refine ⟨_, infoDegreesOfFreedom_eq hm, ?_, ?_, ?_⟩
  · unfold Spec.freedom; push_cast; omega
  · rw [← List.length_eq_zero_iff, ← List.length_eq_zero_iff]
    unfold Spec.freedom; push_cast; omega
  · intro h3 h4
    rw [h3] at h1; rw [h4] at h2
    simp only [List.length_nil] at h1 h2
    unfold Spec.freedom; push_cast; omega

/-- Two unknowns and one equation. -/
def Ex.under : List Op := [.newModel "m" "" {} none, .cmd 0 (Ex.dv "x"), .cmd 0 (Ex.dv "y"), .cmd 0 (Ex.eq_ "a" (.eqn (Ex.at_ "x") (Ex.at_ "y")))]
/-- One unknown, a parameter with a value, and one equation. -/
def Ex.square : List Op := [.newModel "m" "" {} none, .cmd 0 (Ex.dv "x"), .cmd 0 (Ex.dp "p"),
  .cmd 0 (.setValue { attr := "p" } (.float 5) (some Tmpl.dimless)), .cmd 0 (Ex.eq_ "a" (.eqn (Ex.at_ "x") (Ex.at_ "p")))]
/-- One unknown, a parameter with a value, and two equations. -/
def Ex.over : List Op := Ex.square ++ [.cmd 0 (Ex.eq_ "b" (.eqn (.binN .mul (Ex.at_ "x") 2) (Ex.at_ "p")))]

example : Reachable (history Ex.under World.init) := ⟨_, rfl⟩

/-- C77 fails: the sign is the wrong one.  A model with two unknowns and one equation has one degree of freedom; -1 is reported. -/
theorem design_freedom_sign : ∃ ops : List Op,
    ((history ops World.init).ms[0]?).map (Spec.freedom (history ops World.init)) = some 1 ∧
    (infoDegreesOfFreedom 0 (history ops World.init)).1.toOption = some (-1, 0, 0) :=
  ⟨Ex.under, by decide +kernel, by decide +kernel⟩

/-- C77 fails: parameters with a value are counted as unknowns.  For a model with as many unknowns as equations -1 is reported; for a model with
more equations than unknowns 0 is. -/
theorem design_freedom_counts_specified : ∃ ops ops' : List Op,
    ((history ops World.init).ms[0]?).map (Spec.freedom (history ops World.init)) = some 0 ∧
    (infoDegreesOfFreedom 0 (history ops World.init)).1.toOption = some (-1, 0, 0) ∧
    ((history ops' World.init).ms[0]?).map (Spec.freedom (history ops' World.init)) = some (-1) ∧
    (infoDegreesOfFreedom 0 (history ops' World.init)).1.toOption = some (0, 0, 0) :=
  ⟨Ex.square, Ex.over, by decide +kernel, by decide +kernel, by decide +kernel, by decide +kernel⟩

/-! ## C78: inputs and outputs of a model -/

/-- C78 (partial): the overview of a model gives the model's name, the names of its parameters, and as inputs and outputs names of variables that were declared
in this model as exposed, of that type.
Missing: a variable declared again is listed again (`overview_repeats`). -/
theorem overview_partial {w : World} (hw : Reachable w) {m : MRef} {mo : ModelObj} (hm : w.ms[m]? = some mo) :
    ∃ i o, modelOverview m w = (.ok (mo.name, i, o, dkeys mo.pars), w) ∧
      List.Forall₂ (fun r s => ∃ q, w.qs[r]? = some q ∧ q.name = s ∧ q.kind = .variable ∧ q.owner = mo.name ∧ q.isExposed = true ∧ q.vtype = "input")
        mo.expIn i ∧
      List.Forall₂ (fun r s => ∃ q, w.qs[r]? = some q ∧ q.name = s ∧ q.kind = .variable ∧ q.owner = mo.name ∧ q.isExposed = true ∧ q.vtype = "output")
        mo.expOut o := by
  have hwf := (reachable_wf hw).ms m mo hm
  have key : ∀ (l : List Ref) (t : String), w.Exposes mo.name t l →
      ∃ ys, collect l (fun r => do
        let q ← getQ r
        PyM.pure q.name) w = (.ok ys, w) ∧
      List.Forall₂ (fun r s => ∃ q, w.qs[r]? = some q ∧ q.name = s ∧ q.kind = .variable ∧ q.owner = mo.name ∧ q.isExposed = true ∧ q.vtype = t) l ys := by
    intro l t h
    apply collect_ex
    intro r hr
    obtain ⟨q, h1, h2, h3, h4, h5⟩ := h r hr
    exact ⟨q.name, by rw [PyM.bind_of_ok (show getQ r w = (.ok q, w) by simp [getQ, h1])]; rfl, q, h1, rfl, h2, h3, h4, h5⟩
  obtain ⟨i, hi, h1⟩ := key _ _ hwf.expIn
  obtain ⟨o, ho, h2⟩ := key _ _ hwf.expOut
  refine ⟨i, o, ?_, h1, h2⟩
  have hio : infoInputOutput m w = (.ok (i, o), w) := by
    unfold infoInputOutput
    rw [PyM.bind_of_ok (getM_of hm), PyM.bind_of_ok hi, PyM.bind_of_ok ho]
    rfl
  unfold modelOverview
  rw [PyM.bind_of_ok hio, PyM.bind_of_ok (getM_of hm)]
  rfl

/-- A variable exposed as an input, declared twice, and an output. -/
def Ex.exposing : List Op := [.newModel "m" "" {} none, .cmd 0 (.var "x" { name := "x", units := Tmpl.dimless, exposed := true, vtype := "input" }),
  .cmd 0 (.var "y" { name := "y", units := Tmpl.dimless, exposed := true, vtype := "output" }),
  .cmd 0 (.var "x" { name := "x", units := Tmpl.dimless, exposed := true, vtype := "input" })]

/-- C78 fails: a variable declared again is listed again, although the model has one variable of that name. -/
theorem overview_repeats : ∃ ops : List Op, ((history ops World.init).ms[0]?.map fun mo => dkeys mo.vars) = some ["x_m", "y_m"] ∧
    (modelOverview 0 (history ops World.init)).1.toOption = some ("m", ["x_m", "x_m"], ["y_m"], []) :=
  ⟨Ex.exposing, by decide +kernel, by decide +kernel⟩

/-! ## C79: shown results -/

section
open PyS
variable {K : Type} [Field K] [LinearOrder K]

/-- What is shown for an unknown: its name, the unit of the variable of that name and its value. -/
def Spec.ShownAs (w : World) (p : String × K) (row : String × UnitObj × K) : Prop :=
  row.1 = p.1 ∧ row.2.2 = p.2 ∧ ∃ (r : Ref) (q : Quantity), dget w.pr.variableDict p.1 = some r ∧ w.qs[r]? = some q ∧ q.name = p.1 ∧
    q.kind = .variable ∧ row.2.1 = q.units

theorem mapM_forall₂ {α β : Type} {f : α → Except Err β} {P : α → β → Prop} {l : List α} (h : ∀ x ∈ l, ∃ y, f x = .ok y ∧ P x y) :
    ∃ ys, l.mapM f = .ok ys ∧ List.Forall₂ P l ys := by
  induction l with
  | nil => exact ⟨[], rfl, .nil⟩
  | cons a t ih =>
    obtain ⟨y, h1, h2⟩ := h a (by simp)
    obtain ⟨ys, h3, h4⟩ := ih fun x hx => h x (by simp [hx])
    exact ⟨y :: ys, by simp [List.mapM_cons, h1, h3, pure, Except.pure], .cons h2 h4⟩

/-- A setting that equals `True`: the value itself or the number one. -/
def Spec.Yes (v : CVal) : Prop := v = .bool true ∨ v = .num 1

theorem yes_iff {v : CVal} : v.isTrue = true ↔ Spec.Yes v := by
  unfold CVal.isTrue Spec.Yes
  cases v <;> simp

theorem no_iff {v : CVal} : v.isTrue = false ↔ ¬ Spec.Yes v := by rw [← yes_iff, Bool.not_eq_true]

theorem showResults_of {i : SRef} {s : SimWorld K} {o : SimObj K} {c : Conf} {out : Output K} {v : CVal} (ho : s.sims[i]? = some o)
    (hout : o.output = some out) (hc : o.conf = some c) (hv : dget c "is_dynamic" = some v) :
    (v.isTrue = true → showResults i s = (showSeries c out, s)) ∧
    (v.isTrue = false → ∀ b, s.w.pr.block = some b → showResults i s = (showTable s.w.qs b.variableDict out, s)) := by
  have hd : dgetE c "is_dynamic" = .ok v := by simp [dgetE, hv]
  constructor
  · intro h
    unfold showResults
    rw [bind_of_ok (getSim_ok.2 ⟨ho, rfl⟩)]
    simp only [hout, hc]
    rw [bind_lift_ok hd, if_pos h]
    rfl
  · intro h b hb
    unfold showResults
    rw [bind_of_ok (getSim_ok.2 ⟨ho, rfl⟩)]
    simp only [hout, hc]
    rw [bind_lift_ok hd, if_neg (by rw [h]; simp), bind_of_ok (getBlock_ok.2 ⟨hb, rfl⟩), bind_get]
    rfl

/-- The names SymPy gives values to are unknowns. -/
def Spec.NamesKnown (ext : Ext K) : Prop := ∀ es vs l d, ext.spSolve es vs = .ok (l ++ [d]) → ∀ n ∈ dkeys d, n ∈ vs

/-- C79 (partial): after a run of an algebraic problem that returns, for which dynamic results were not asked, `showResults` shows each
computed value, in order, with the name of its unknown and the unit of the variable of that name, and changes nothing.
Missing: the results of dynamic problems are not shown with the default settings (`dynamic_results_not_shown`). -/
theorem shown_after_run_partial {ext : Ext K} (hx : Spec.NamesKnown ext) {I : Interp K} {i : SRef} {a : RunArgs} {w : World} (hr : Reachable w)
    {s s' : SimWorld K} (hres : resolve w = (.ok (), s.w)) {b : Block} (hb : s.w.pr.block = some b)
    (hk : b.problemType = some .linear ∨ b.problemType = some .nonlinear) {o : SimObj K} {c : Conf} {v : CVal} (ho : s.sims[i]? = some o)
    (hc : o.conf = some c) (hv : dget c "is_dynamic" = some v) (hf : ¬ Spec.Yes v) (h : runSimulation ext I i a s = (.ok (), s')) :
    ∃ o' d rows, s'.sims[i]? = some o' ∧ o'.output = some (.dict d) ∧ showResults i s' = (.ok (.table rows), s') ∧
      List.Forall₂ (Spec.ShownAs s'.w) d rows := by
  obtain ⟨o', sv, out, ho', hout, hsol, hcl⟩ := run_reports hr hres hb hk h
  have hw : s'.w = s.w := by
    have := (run_keeps_problem_partial ext I i a s).2 b hb hk
    rw [h] at this; exact this
  have hconf : o'.conf = some c := by
    have := (run_leaves_others_partial ext I i a s).2.1
    rw [h, ho', ho] at this
    simp only [Option.map_some, Option.some.injEq, Prod.mk.injEq] at this
    rw [this.2, hc]
  have hkeys : ∃ d, out = .dict d ∧ ∀ n ∈ dkeys d, n ∈ b.varList := by
    have hrep : ∀ {x : List K} {d : Dict String K}, Spec.Reports b.varList x d → ∀ n ∈ dkeys d, n ∈ b.varList := by
      intro x d hrep n hn
      by_contra hc
      have := hrep.only n hc
      rw [dget_eq_none_iff] at this
      exact this hn
    cases sv with
    | la m =>
      cases m with
      | none => exact hsol.elim
      | some m =>
        cases m with
        | symbolicsys => obtain ⟨g, x, d, _, rfl, hd⟩ := hsol; exact ⟨d, rfl, hrep hd⟩
        | scipy => obtain ⟨x, d, _, rfl, hd⟩ := hsol; exact ⟨d, rfl, hrep hd⟩
        | sympy => obtain ⟨l, d, hs, rfl⟩ := hsol; exact ⟨d, rfl, hx _ _ l d hs⟩
    | nla m =>
      cases m with
      | sympy => obtain ⟨l, d, hs, rfl⟩ := hsol; exact ⟨d, rfl, hx _ _ l d hs⟩
      | symbolicsys => obtain ⟨g, x, d, _, rfl, hd⟩ := hsol; exact ⟨d, rfl, hrep hd⟩
      | scipy => obtain ⟨g, x, d, _, rfl, hd⟩ := hsol; exact ⟨d, rfl, hrep hd⟩
    | d _ => rcases hk with hk | hk <;> exact absurd (hcl _ hk) (by simp [Spec.OfClass])
    | dae _ => rcases hk with hk | hk <;> exact absurd (hcl _ hk) (by simp [Spec.OfClass])
  obtain ⟨d, rfl, hkeys⟩ := hkeys
  obtain ⟨b', g, hb', _, _, hpv, _, _, _, _, hbv, _, hbl, _⟩ := resolved_block hres
  obtain rfl : b = b' := Option.some.inj (hb.symm.trans hb')
  have hpw : s.w.pr.WF s.w := by
    obtain ⟨ops, rfl⟩ := hr
    rw [history_resolve ops hres]
    exact history_problem _ init_wf ⟨⟨DNodup.nil, by simp [World.init]⟩, ⟨DNodup.nil, by simp [World.init]⟩, ⟨DNodup.nil, by simp [World.init]⟩⟩
  have hsub : ∀ n r, dget b.variableDict n = some r → dget s.w.pr.variableDict n = some r := by
    intro n r hn
    have := mem_of_dget hn
    rw [hbv] at this
    have hm := (List.mem_filter.1 this).1
    rw [hpv]
    exact dget_of_mem (hpv ▸ hpw.vars.1) hm
  obtain ⟨rows, hrows, hall⟩ := mapM_forall₂ (f := showRow s'.w.qs b.variableDict) (P := Spec.ShownAs s'.w) (l := d) (by
    rintro ⟨n, x⟩ hp
    have hn := hkeys n (mem_dkeys_of_mem hp)
    rw [hbl] at hn
    obtain ⟨r, hr'⟩ := exists_dget_of_mem hn
    have hr2 := hsub n r hr'
    obtain ⟨q, hq, hqn, hqk⟩ := hpw.vars.2 _ (mem_of_dget hr2)
    simp only at hq hqn
    rw [hw]
    refine ⟨(n, q.units, x), ?_, rfl, rfl, r, q, hr2, hq, hqn, hqk, rfl⟩
    simp [showRow, dgetE, hr', hq, bind, Except.bind])
  refine ⟨o', d, rows, ho', hout, ?_, hall⟩
  rw [(showResults_of ho' hout hconf hv).2 (no_iff.mpr hf) b (by rw [hw]; exact hb)]
  simp only [showTable, hrows, ok_bind]

/-- The run of the nonlinear sample, and what is shown. -/
example : Spec.NamesKnown (Ex.knows Ex.algSys [1, 2]) ∧
    resolve (history Ex.alg World.init) = (.ok (), (Ex.ready (resolve (history Ex.alg World.init)).2).w) ∧
    ((Ex.ready (resolve (history Ex.alg World.init)).2).sims[0]?.bind fun o => o.conf.bind fun c => dget c "is_dynamic") = some (.bool false) ∧
    (runSimulation (Ex.knows Ex.algSys [1, 2]) Ex.ratI 0 {} (Ex.ready (resolve (history Ex.alg World.init)).2)).1.toOption = some () ∧
    ((showResults 0 (runSimulation (Ex.knows Ex.algSys [1, 2]) Ex.ratI 0 {} (Ex.ready (resolve (history Ex.alg World.init)).2)).2).1.toOption.map
      fun t => match t with | .table l => l.map fun r => (r.1, r.2.2) | .series _ _ => []) = some [("x_m", 1), ("y_m", 2)] :=
  ⟨(fun _ _ _ _ h => by simp [Ex.knows] at h), Ex.resolved (by decide +kernel), by decide +kernel, by decide +kernel, by decide +kernel⟩

theorem showRows_ok {hs : List String} {y : List (List K)} {t : List K} {i : Nat} (hlen : i + t.length ≤ y.length)
    (hw : ∀ r ∈ y, hs = [] ∨ r.length + 1 = hs.length) : showRows hs y i t = .ok (List.zipWith List.cons t (y.drop i)) := by
  induction t generalizing i with
  | nil => rfl
  | cons a t ih =>
    simp only [List.length_cons] at hlen
    have hi : i < y.length := by omega
    have hy : y[i]? = some y[i] := List.getElem?_eq_getElem hi
    have hd : y.drop i = y[i] :: y.drop (i + 1) := (List.drop_eq_getElem_cons hi)
    have hcond : ¬ (hs ≠ [] ∧ (a :: y[i]).length ≠ hs.length) := by
      rcases hw _ (List.getElem_mem hi) with h | h
      · simp [h]
      · rintro ⟨_, h2⟩; exact h2 (by simpa using h)
    have h1 := ih (i := i + 1) (by omega)
    simp only [showRows, hy, if_neg hcond, h1, ok_bind, hd, List.zipWith_cons_cons]

/-- C79, dynamic results: when they were asked for and as many different headers were given as there are columns, `showResults` shows each time
followed by the values at that time; otherwise nothing is shown: without `is_dynamic` it raises `AttributeError`, without a list of headers
`TypeError`. -/
theorem shown_series {i : SRef} {s : SimWorld K} {o : SimObj K} {c : Conf} {t : List K} {y : List (List K)} {v h : CVal} (ho : s.sims[i]? = some o)
    (hout : o.output = some (.series t y)) (hc : o.conf = some c) (hv : dget c "is_dynamic" = some v) (hh : dget c "output_headers" = some h) :
    (Spec.Yes v → ∀ hs, h = .names hs → hs.Nodup → t.length = y.length → (∀ r ∈ y, r.length + 1 = hs.length) →
      showResults i s = (.ok (.series hs (List.zipWith List.cons t y)), s)) ∧
    (¬ Spec.Yes v → ∀ b, s.w.pr.block = some b → showResults i s = (.error .attributeError, s)) ∧
    (Spec.Yes v → (∀ hs, h ≠ .names hs) → showResults i s = (.error .typeError, s)) := by
  obtain ⟨h1, h2⟩ := showResults_of ho hout hc hv
  rw [yes_iff] at h1
  rw [no_iff] at h2
  have hd : dgetE c "output_headers" = .ok h := by simp [dgetE, hh]
  refine ⟨fun hT hs hhs hn hl hw => ?_, fun hF b hb => ?_, fun hT hno => ?_⟩
  · rw [h1 hT]
    subst hhs
    simp only [showSeries, hd, ok_bind, showHeaders, if_pos hn]
    rw [showRows_ok (by omega) (fun r hr => Or.inr (hw r hr))]
    simp
  · rw [h2 hF b hb]; rfl
  · rw [h1 hT]
    have : showHeaders h = .error .typeError := by
      cases h <;> first | rfl | exact absurd rfl (hno _)
    simp only [showSeries, hd, ok_bind, this, error_bind]

/-- C79: results that do not exist are not shown. -/
theorem shown_before_run {i : SRef} {s : SimWorld K} {o : SimObj K} (ho : s.sims[i]? = some o) (hout : o.output = none) :
    showResults i s = (.error .assertion, s) := by
  unfold showResults
  rw [bind_of_ok (getSim_ok.2 ⟨ho, rfl⟩)]
  simp only [hout]
  rfl

end

/-- A run of the differential sample with headers. -/
def Ex.headed : Conf := Ex.dyn ++ [("output_headers", .names ["t", "x"])]

example : (simHistory Ex.ext Ex.ratI (Ex.odeRun Ex.ode Ex.headed {})).sims[0]?.bind (fun o => o.conf.bind fun c => dget c "output_headers") =
      some (.names ["t", "x"]) ∧
    ((showResults 0 (simHistory Ex.ext Ex.ratI (Ex.odeRun Ex.ode Ex.headed {}))).1.toOption.map
      fun t => match t with | .table _ => ([], []) | .series h l => (h, l)) = some (["t", "x"], [[0, 1], [1/2, 1], [1, 1]]) := by
  refine ⟨by decide +kernel, by decide +kernel⟩

/-- The exception, if any. -/
def Except.err {α : Type} : Except Err α → Option Err
  | .ok _ => none
  | .error e => some e

/-- Has the simulation stored times and states? -/
def Ex.hasSeries (s : SimWorld Rat) : Bool := s.sims[0]?.any fun o => match o.output with | some (.series t _) => t.length == 3 | _ => false

/-- C79 fails for dynamic problems: after a run that stored times and states, nothing is shown with the settings such a run needs and defaults
otherwise. -/
theorem dynamic_results_not_shown : ∃ ops : List (SOp Rat), Ex.hasSeries (simHistory Ex.ext Ex.ratI ops) = true ∧
    Except.err (showResults 0 (simHistory Ex.ext Ex.ratI ops)).1 = some .typeError :=
  ⟨Ex.odeRun Ex.ode Ex.dyn {}, by decide +kernel, by decide +kernel⟩

/-! ## C80: saved settings -/

section
open PyS

/-- A setting that can be written to a file. -/
def Spec.Writable (lists : List (List CVal)) : CVal → Prop
  | .argNames r => ∃ l, lists[r]? = some l ∧ ∀ v ∈ l, v.plain = true
  | v => v.plain = true

/-- The same setting: the same value, or lists with the same entries. -/
def Spec.SameSetting (lists lists' : List (List CVal)) (p p' : String × CVal) : Prop :=
  p.1 = p'.1 ∧ (p.2 = p'.2 ∧ p.2.plain = true ∨ ∃ r r' l, p.2 = .argNames r ∧ p'.2 = .argNames r' ∧ lists[r]? = some l ∧ lists'[r']? = some l)

theorem jsonVal_ok {lists : List (List CVal)} {v : CVal} :
    (∃ j, jsonVal lists v = .ok j) ↔ Spec.Writable lists v := by
  cases v with
  | argNames r =>
    simp only [jsonVal, Spec.Writable]
    cases h : lists[r]? with
    | none => simp
    | some l =>
      by_cases hl : l.all CVal.plain = true
      · simp only [if_pos hl, Except.ok.injEq, exists_eq', true_iff]
        exact ⟨l, rfl, by simpa using hl⟩
      · simp only [if_neg hl, reduceCtorEq, exists_false, false_iff]
        rintro ⟨l', h1, h2⟩
        cases h1
        exact hl (by simpa using h2)
  | _ => simp [jsonVal, Spec.Writable, CVal.plain]

theorem jsonConf_ok {lists : List (List CVal)} {c : Conf} :
    (∃ j, jsonConf lists c = .ok j) ↔ ∀ p ∈ c, Spec.Writable lists p.2 := by
  unfold jsonConf
  induction c with
  | nil => simp [pure, Except.pure]
  | cons p t ih =>
    rw [List.forall_mem_cons, ← ih, ← jsonVal_ok]
    simp only [List.mapM_cons]
    cases jsonVal lists p.2 with
    | error e => simp
    | ok j =>
      simp only [ok_bind, Except.ok.injEq, exists_eq', true_and]
      cases List.mapM (fun p : String × CVal => do let v ← jsonVal lists p.2; Except.ok (p.1, v)) t with
      | error e => simp
      | ok l => simp [pure, Except.pure]

theorem jsonConf_error {lists : List (List CVal)} {c : Conf} {e : Err} (hl : ∀ p ∈ c, ∀ r, p.2 = .argNames r → r < lists.length)
    (h : jsonConf lists c = .error e) : e = .typeError := by
  unfold jsonConf at h
  induction c with
  | nil => simp [pure, Except.pure] at h
  | cons p t ih =>
    simp only [List.mapM_cons] at h
    cases hv : jsonVal lists p.2 with
    | error e' =>
      rw [hv] at h
      simp only [error_bind, Except.error.injEq] at h
      subst h
      have hp := hl p (by simp)
      cases hp2 : p.2 with
      | argNames r =>
        rw [hp2] at hv
        have := hp r hp2
        simp only [jsonVal, List.getElem?_eq_getElem this] at hv
        split at hv <;> simp_all
      | _ => rw [hp2] at hv; simp [jsonVal, CVal.plain] at hv <;> exact hv.symm
    | ok j =>
      rw [hv] at h
      simp only [ok_bind] at h
      cases hm : List.mapM (fun p : String × CVal => do let v ← jsonVal lists p.2; Except.ok (p.1, v)) t with
      | error e' =>
        rw [hm] at h
        simp only [error_bind, Except.error.injEq] at h
        subst h
        exact ih (fun q hq => hl q (by simp [hq])) hm
      | ok l => rw [hm] at h; simp [pure, Except.pure] at h

variable {K : Type}

theorem dumpName_eq (n : String) (f : Option String) : dumpName n f = f.getD (n ++ "-conf.json") := by cases f <;> rfl

/-- C80: saving the settings returns exactly if every one of them can be written (no domain, no array); if it raises, it is `TypeError`.  Other files
are left alone. -/
theorem dump_iff {i : SRef} {s : SimWorld K} {o : SimObj K} {c : Conf} (ho : s.sims[i]? = some o) (hc : o.conf = some c)
    (hl : ∀ p ∈ c, ∀ r, p.2 = .argNames r → r < s.lists.length) (f : Option String) (fs : Files) :
    ((dumpConfigurations i f fs s).1 = .ok () ↔ ∀ p ∈ c, Spec.Writable s.lists p.2) ∧
    ((dumpConfigurations i f fs s).1 ≠ .ok () → (dumpConfigurations i f fs s).1 = .error .typeError) ∧
    ∀ g, g ≠ f.getD (o.name ++ "-conf.json") → dget (dumpConfigurations i f fs s).2 g = dget fs g := by
  simp only [dumpConfigurations, ho, hc, dumpTo, dumpName_eq]
  cases hj : jsonConf s.lists c with
  | ok j =>
    refine ⟨⟨fun _ => jsonConf_ok.1 ⟨j, hj⟩, fun _ => rfl⟩, fun h => absurd rfl h, fun g hg => dget_dset_ne _ _ (Ne.symm hg)⟩
  | error e =>
    obtain rfl := jsonConf_error hl hj
    refine ⟨⟨fun h => (by simp at h), fun h => ?_⟩, fun _ => rfl, fun g hg => dget_dset_ne _ _ (Ne.symm hg)⟩
    obtain ⟨j, hj'⟩ := jsonConf_ok.2 h
    rw [hj] at hj'; cases hj'

theorem loadConf_run (lists : List (List CVal)) (c : Conf) {j : Dict String JVal} (hj : jsonConf lists c = .ok j) (t : SimWorld K) :
    ∃ c' l, loadConf j t = (.ok c', { t with lists := t.lists ++ l }) ∧ List.Forall₂ (Spec.SameSetting lists (t.lists ++ l)) c c' ∧
      ∀ p ∈ c', ∀ r, p.2 = .argNames r → t.lists.length ≤ r := by
  induction c generalizing j t with
  | nil =>
    simp only [jsonConf, List.mapM_nil, pure, Except.pure, Except.ok.injEq] at hj
    subst hj
    exact ⟨[], [], by simp [loadConf, PyS.pure], .nil, by simp⟩
  | cons p c ih =>
    simp only [jsonConf, List.mapM_cons, bind_eq_ok, pure, Except.pure, Except.ok.injEq] at hj
    obtain ⟨x, ⟨v, hv, rfl⟩, js, hjs, rfl⟩ := hj
    have hload : ∃ v' l, loadVal v t = (.ok v', { t with lists := t.lists ++ l }) ∧ (∀ l', Spec.SameSetting lists (t.lists ++ l ++ l') p (p.1, v')) ∧
        ∀ r, v' = .argNames r → t.lists.length ≤ r := by
      obtain ⟨k, u⟩ := p
      simp only at hv ⊢
      cases u with
      | argNames r =>
        simp only [jsonVal] at hv
        cases hr : lists[r]? with
        | none => rw [hr] at hv; cases hv
        | some l =>
          rw [hr] at hv
          simp only at hv
          split at hv
          · simp only [Except.ok.injEq] at hv
            subst hv
            refine ⟨.argNames t.lists.length, [l], rfl, fun l' => ⟨rfl, Or.inr ⟨r, _, l, rfl, rfl, hr, by simp⟩⟩, ?_⟩
            intro r' hr'; cases hr'; exact Nat.le_refl _
          · cases hv
      | _ =>
        simp only [jsonVal, CVal.plain, if_true, Except.ok.injEq, Bool.false_eq_true, if_false, reduceCtorEq] at hv
        try
          subst hv
          refine ⟨_, [], by simp [loadVal, PyS.pure], fun l' => ⟨rfl, Or.inl ⟨rfl, rfl⟩⟩, by simp⟩
    obtain ⟨v', l1, h1, h2, h3⟩ := hload
    obtain ⟨c', l2, h4, h5, h6⟩ := ih hjs { t with lists := t.lists ++ l1 }
    refine ⟨(p.1, v') :: c', l1 ++ l2, ?_, ?_, ?_⟩
    · show (loadVal v >>= fun v => loadConf js >>= fun r => PyS.pure ((p.1, v) :: r)) t = _
      rw [bind_of_ok h1, bind_of_ok h4]
      simp [PyS.pure]
    · rw [← List.append_assoc]; exact .cons (h2 l2) h5
    · intro q hq r hr
      rcases List.mem_cons.1 hq with rfl | hq
      · exact h3 r hr
      · have := h6 q hq r hr
        simp only [List.length_append] at this
        omega

/-- C80: settings that were saved, read back by any simulation of any session, are the same settings (the list of argument names is a new
list with the same entries, shared with no other simulation); the other simulations, and all existing lists, are left alone. -/
theorem dump_load [Field K] [LinearOrder K] {i : SRef} {s : SimWorld K} {o : SimObj K} {c : Conf} (ho : s.sims[i]? = some o) (hc : o.conf = some c)
    {f : Option String} {fs fs' : Files} (h : dumpConfigurations i f fs s = (.ok (), fs')) (t : SimWorld K) {j : SRef} {o' : SimObj K}
    (hj : t.sims[j]? = some o') :
    ∃ t' c' l, setConfigurationsFile j [] (f.getD (o.name ++ "-conf.json")) fs' t = (.ok (), t') ∧
      t' = { t with lists := t.lists ++ l, sims := t.sims.set j { o' with conf := some c' } } ∧
      List.Forall₂ (Spec.SameSetting s.lists t'.lists) c c' ∧ ∀ p ∈ c', ∀ r, p.2 = .argNames r → t.lists.length ≤ r := by
  simp only [dumpConfigurations, ho, hc, dumpTo, dumpName_eq] at h
  cases hjc : jsonConf s.lists c with
  | error e => rw [hjc] at h; simp at h
  | ok js =>
    rw [hjc] at h
    simp only [Prod.mk.injEq, true_and] at h
    subst h
    obtain ⟨c', l, h1, h2, h3⟩ := loadConf_run s.lists c hjc t
    refine ⟨_, c', l, ?_, rfl, h2, h3⟩
    have hb : bindArgs [] = .ok confDefaults := rfl
    have hld : (loadFile (dset fs (f.getD (o.name ++ "-conf.json")) (.json (some js))) (f.getD (o.name ++ "-conf.json")) : PyS K _) t =
        (.ok (some c'), { t with lists := t.lists ++ l }) := by
      simp only [loadFile, dget_dset_self]
      rw [bind_of_ok h1]
      rfl
    unfold setConfigurationsFile
    rw [bind_lift_ok hb, bind_of_ok hld]
    show (setConfigurations j [] (some c') none : PyS K Unit) _ = _
    unfold setConfigurations
    rw [bind_get, bind_lift_ok (settings_file_drops_defaults _ c' none)]
    have hg : getSim j { t with lists := t.lists ++ l } = (.ok o', { t with lists := t.lists ++ l }) := getSim_ok.2 ⟨hj, rfl⟩
    exact (bind_of_ok hg).trans rfl

/-- C80: what is left after saving raised cannot be read. -/
theorem broken_file_refused [Field K] [LinearOrder K] {i : SRef} {s : SimWorld K} {o : SimObj K} (ho : s.sims[i]? = some o)
    {f : Option String} {fs fs' : Files} {e : Err} (h : dumpConfigurations i f fs s = (.error e, fs')) (t : SimWorld K) (j : SRef) (kw : Conf)
    {d : Conf} (hk : bindArgs kw = .ok d) : setConfigurationsFile j kw (f.getD (o.name ++ "-conf.json")) fs' t = (.error .valueError, t) := by
  simp only [dumpConfigurations, ho, dumpName_eq] at h
  have hfs : fs' = dset fs (f.getD (o.name ++ "-conf.json")) .broken := by
    cases hc : o.conf with
    | none => rw [hc] at h; simp [dumpTo] at h
    | some c =>
      rw [hc] at h
      simp only [dumpTo] at h
      split at h
      · simp at h
      · simp only [Prod.mk.injEq] at h; exact h.2.symm
  subst hfs
  unfold setConfigurationsFile
  rw [bind_lift_ok hk]
  refine bind_of_error ?_
  simp only [loadFile, dget_dset_self]
  rfl

end

/-- A simulation with default settings, and one with a domain. -/
def Ex.two : SimWorld Rat := simHistory Ex.ext Ex.ratI [.newSim "s", .newSim "u", .newDomain "d" ["t"], .configure 0 [] none none, .configure 1 Ex.dyn none none]

example : (dumpConfigurations 0 none [] Ex.two).1.toOption = some () ∧ dkeys (dumpConfigurations 0 none [] Ex.two).2 = ["s-conf.json"] ∧
    (Ex.two.sims[0]?.bind fun o => o.conf).isSome = true ∧ (Ex.two.sims[1]?).isSome = true := by decide +kernel

/-- C80 fails: saving settings that contain a domain, as those of a dynamic simulation do, over settings saved before raises and destroys the saved
ones, which could be read before and cannot be read afterwards. -/
theorem dump_destroys_saved : ∃ (s : SimWorld Rat) (fs : Files),
    fs = (dumpConfigurations 0 (some "c.json") [] s).2 ∧ (setConfigurationsFile 0 [] "c.json" fs s).1.toOption = some () ∧
    Except.err (dumpConfigurations 1 (some "c.json") fs s).1 = some .typeError ∧
    Except.err (setConfigurationsFile 0 [] "c.json" (dumpConfigurations 1 (some "c.json") fs s).2 s).1 = some .valueError :=
  ⟨Ex.two, _, rfl, by decide +kernel, by decide +kernel, by decide +kernel⟩

/-! ## C81: plots -/

section
open DomainObj
variable {K : Type} [Inhabited K] [DecidableEq K]

theorem readDomain_of {d : DomainObj K} {v : String} {rest : List String} (hi : d.indep = v :: rest) {l : List String} {r : List (List K)}
    (h : d.getItem [v] l = .ok r) : readDomain d l = .ok r := by simp [readDomain, hi, h]

/-- The `j`-th text, if there are any. -/
def Spec.nth (l : Option (List String)) (j : Nat) : Option String := l.bind fun l => l[j]?

theorem curve_ok {ls : List String} {markers : Option (List String)} {x y : List K} {j : Nat} (hx : x ≠ []) (hl : x.length = y.length)
    (hj : j < ls.length) (hm : ∀ l, markers = some l → j < l.length) :
    curve (some ls) markers x y j = .ok { x, y, label := ls[j], marker := Spec.nth markers j } := by
  cases markers with
  | none => simp [curve, markerOf, itemOf, ok_bind, hj, hl, hx, Spec.nth]
  | some l =>
    have := hm l rfl
    simp [curve, markerOf, itemOf, ok_bind, hj, hl, hx, Spec.nth, this]

/-- C81: what is drawn from a domain.  Under the first independent variable `v`, whose table is `rows`, there is one curve for each asked name, in the
order of asking, with the column of the abscissa, the column of that name, the label at its place and the marker at its place. -/
theorem plot_columns {d : DomainObj K} {v : String} {rest : List String} (hi : d.indep = v :: rest) {f : Frame K} (hf : d.frame v = some f)
    (hn : f.cols.Nodup) (pos : String → Nat) {x : String} {ys : List String} (hc : ∀ s ∈ x :: ys, f.cols[pos s]? = some (.name s))
    (hr : f.rows ≠ []) {ls : List String} (hl : ys.length ≤ ls.length) {markers : Option (List String)}
    (hm : ∀ l, markers = some l → ys.length ≤ l.length) :
    ∃ cs, plotTimeSeries (some d) (some ls) markers (.name x) (.names ys) = .ok cs ∧ cs.length = ys.length ∧
      ∀ j y, ys[j]? = some y → ∃ c, cs[j]? = some c ∧ c.x = f.rows.map (fun r => r.getD (pos x) default) ∧
        c.y = f.rows.map (fun r => r.getD (pos y) default) ∧ ls[j]? = some c.label ∧ c.marker = Spec.nth markers j := by
  have rd : ∀ l : List String, (∀ s ∈ l, f.cols[pos s]? = some (.name s)) →
      readDomain d l = .ok (l.map fun s => f.rows.map fun r => r.getD (pos s) default) := by
    intro l hl
    refine readDomain_of hi ?_
    rw [domain_read (fun _ => f.rows) pos (by simpa using ⟨f, hf, hn, rfl, hl⟩)]
    simp
  have h1 := rd [x] (by simpa using hc x (by simp))
  have h2 := rd ys fun s hs => hc s (by simp [hs])
  simp only [plotTimeSeries, plotX, plotY, h1, h2, ok_bind, List.map_cons, List.map_nil, curves, List.mapM_cons, List.mapM_nil]
  rw [mapM_ok (g := fun p : List K × Nat => { x := f.rows.map (fun r => r.getD (pos x) default), y := p.1, label := ls.getD p.2 "", marker := Spec.nth markers p.2 })]
  · simp only [ok_bind, pure, Except.pure, List.flatten_cons, List.flatten_nil, List.append_nil]
    refine ⟨_, rfl, by simp, fun j y hy => ?_⟩
    have hj : j < ys.length := (List.getElem?_eq_some_iff.1 hy).1
    have hj' : j < ls.length := by omega
    refine ⟨{ x := f.rows.map (fun r => r.getD (pos x) default), y := f.rows.map (fun r => r.getD (pos y) default), label := ls.getD j "", marker := Spec.nth markers j },
      by simp [hy], rfl, rfl, by simp [hj'], rfl⟩
  · rintro ⟨c, j⟩ hp
    obtain ⟨_, h3, h4⟩ := List.mem_zipIdx hp
    simp only [List.length_map, Nat.zero_add] at h3
    have hj' : j < ls.length := by omega
    rw [curve_ok (by simpa using hr) (by simp [h4]) hj' (fun l hl' => by have := hm l hl'; omega)]
    simp [hj']

/-- C81: a name the domain does not have is refused with `ValueError`. -/
theorem plot_unknown {d : DomainObj K} {v : String} {rest : List String} (hi : d.indep = v :: rest) {f : Frame K} (hf : d.frame v = some f)
    {x : String} (hx : Label.name x ∉ f.cols) (labels markers : Option (List String)) (y : PlotArg K) :
    plotTimeSeries (some d) labels markers (.name x) y = .error .valueError := by
  simp [plotTimeSeries, plotX, readDomain, hi, domain_read_unknown hf hx, error_bind]

/-- C81 fails without labels: the default `labels = None` never draws a curve. -/
theorem plot_without_labels (data : Option (DomainObj K)) (markers : Option (List String)) (x y : PlotArg K) {cs : List (Curve K)}
    (h : plotTimeSeries data none markers x y = .ok cs) : cs = [] := by
  have hc : ∀ (a b : List K) j, ∃ e, curve none markers a b j = .error e := by
    intro a b j
    unfold curve
    cases markerOf markers j with
    | error e => exact ⟨e, rfl⟩
    | ok m => exact ⟨_, rfl⟩
  have hm : ∀ (a : List K) (l : List (List K × Nat)) r, l.mapM (fun y => curve none markers a y.1 y.2) = .ok r → r = [] := by
    intro a l r h
    cases l with
    | nil => simp [pure, Except.pure] at h; exact h
    | cons b t =>
      obtain ⟨e, he⟩ := hc a b.1 b.2
      simp [List.mapM_cons, he, error_bind] at h
  have hcs : ∀ xs ys : List (List K), curves none markers xs ys = .ok cs → cs = [] := by
    intro xs ys h
    simp only [curves, bind_eq_ok, Except.ok.injEq] at h
    obtain ⟨l, hl, rfl⟩ := h
    rw [List.flatten_eq_nil_iff]
    intro c hcl
    obtain ⟨j, hj, rfl⟩ := List.getElem_of_mem hcl
    have hf := mapM_forall2.1 hl
    exact hm _ _ _ (hf.get (by rw [hf.length_eq]; exact hj) hj)
  simp only [plotTimeSeries, bind_eq_ok] at h
  obtain ⟨xs, -, ys, -, h⟩ := h
  cases xs <;> cases ys <;> simp only at h
  · exact hcs _ _ h
  all_goals
    split at h
    · simpa using h.symm
    · cases h
end

example : ((simHistory Ex.ext Ex.ratI (Ex.odeRun Ex.ode Ex.dyn {})).doms[0]?.bind fun d =>
    (plotTimeSeries (some d) (some ["x"]) none (.name "t") (.names ["x"])).toOption) =
      some [({ x := [0, 1/2, 1], y := [1, 1, 1], label := "x" } : Curve Rat)] := by decide +kernel

example : ((simHistory Ex.ext Ex.ratI (Ex.odeRun Ex.ode Ex.dyn {})).doms[0]?.bind fun d =>
    (d.frame "t").map fun f => (d.indep, f.cols, f.rows)) =
      some (["t"], [.name "t", .name "x"], [[0, 1], [1/2, 1], [1, 1]]) := by decide +kernel
