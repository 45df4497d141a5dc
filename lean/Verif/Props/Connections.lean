import Verif.Lemmas.Problem
import Verif.Props.Models

/-!
# Properties of connections (C31-C33)
-/

namespace Sloth
open PyM UnitObj

/-! Sample session: `a` has the outputs `u`, `v`, `b` the inputs `x`, `y` (lengths) and `z` (a time); `b` also has a variable `h` that is
not exposed. -/
namespace Ex
def outV (s : String) : VarArgs := { name := s, units := Tmpl.m, exposed := true, vtype := "output" }
def inV (s : String) : VarArgs := { name := s, units := Tmpl.m, exposed := true, vtype := "input" }
def cops : List Op := [.newModel "a" "" {} none, .newModel "b" "" {} none, .var 0 (outV "u"), .var 0 (outV "v"), .var 1 (inV "x"), .var 1 (inV "y"),
  .var 1 { inV "z" with units := Tmpl.s }, .var 1 { name := "h", units := Tmpl.m }]
def cworld : World := history cops World.init
theorem cworld_reach : Reachable cworld := ⟨cops, rfl⟩
end Ex

/-- The variables an argument of `createConnection` stands for. -/
def Spec.args : ConnArg → List Ref
  | .var r => [r]
  | .list l => l
  | .node _ => []

/-- Neither argument is an expression. -/
def Spec.Plain (outs ins : ConnArg) : Prop := (∀ n, outs ≠ .node n) ∧ ∀ n, ins ≠ .node n

theorem args_eq (a : ConnArg) : a.refs = Spec.args a := by cases a <;> rfl

theorem createConnection_plain {outs ins : ConnArg} (h : Spec.Plain outs ins) (src : ConnSrc) (m2 : MRef) (expr : Option ResArg) :
    createConnection src m2 outs ins expr = connectVars src m2 outs ins expr := by
  cases outs with
  | node n => exact absurd rfl (h.1 n)
  | var r => rfl
  | list l => rfl

section
variable {K : Type} [Field K] [LinearOrder K]

/-- The sum of the values of some quantities. -/
def Spec.total (ρ : Atom → K) (l : List Quantity) : K := (l.map (Spec.qVal ρ)).sum

theorem foldl_val (I : Interp K) (ρ : Atom → K) (t : List (Ref × Quantity)) (acc : PyExpr) {v : K} (h : Spec.val I ρ acc = some v) :
    Spec.val I ρ (t.foldl (fun acc b => .bin .add acc (.q b.1 b.2)) acc) = some (v + Spec.total ρ (t.map Prod.snd)) := by
  induction t generalizing acc v with
  | nil => simp [h, Spec.total]
  | cons p t ih =>
    rw [List.foldl_cons, ih (v := v + Spec.qVal ρ p.2) _ (by simp [Spec.val, h, Spec.opVal])]
    simp [Spec.total, add_assoc]

theorem sumE_val (I : Interp K) (ρ : Atom → K) (l : List (Ref × Quantity)) {e : PyExpr} (h : sumE l = some e) :
    Spec.val I ρ e = some (Spec.total ρ (l.map Prod.snd)) := by
  cases l with
  | nil => simp [sumE] at h
  | cons p t =>
    simp only [sumE, Option.some.injEq] at h; subst h
    rw [foldl_val I ρ t _ (v := Spec.qVal ρ p.2) (by simp [Spec.val, Spec.opVal])]
    simp [Spec.total]

theorem sumE_none {l : List (Ref × Quantity)} (h : sumE l = none) : l = [] := by
  cases l with
  | nil => rfl
  | cons p t => simp [sumE] at h

theorem balanceE_val (I : Interp K) (ρ : Atom → K) (ins outs : List (Ref × Quantity)) {e : PyExpr} (h : balanceE ins outs = some e) :
    Spec.val I ρ e = some (Spec.total ρ (ins.map Prod.snd) - Spec.total ρ (outs.map Prod.snd)) := by
  unfold balanceE at h
  cases hi : sumE ins with
  | none =>
    cases ho : sumE outs with
    | none => simp [hi, ho] at h
    | some b =>
      simp only [hi, ho, Option.some.injEq] at h; subst h
      rw [sumE_none hi]
      simp [Spec.val, sumE_val I ρ outs ho, Spec.opVal, Spec.total]
  | some a =>
    cases ho : sumE outs with
    | none =>
      simp only [hi, ho, Option.some.injEq] at h; subst h
      rw [sumE_none ho]
      simp [Spec.val, sumE_val I ρ ins hi, Spec.opVal, Spec.total]
    | some b =>
      simp only [hi, ho, Option.some.injEq] at h; subst h
      simp [Spec.val, sumE_val I ρ ins hi, sumE_val I ρ outs ho, Spec.opVal]

/-! ## C31 -/

theorem pairs_snd {w : World} {l : List (Ref × Quantity)} (h : ∀ p ∈ l, w.qs[p.1]? = some p.2) :
    (l.map Prod.fst).map (fun r => w.qs[r]?) = (l.map Prod.snd).map some := by
  simp only [List.map_map]
  exact List.map_congr_left fun p hp => h p hp

/-- The statement behind a connection. -/
def Spec.connResidual (I : Interp K) (ρ : Atom → K) (qo qi : List Quantity) : Option Stmt → Option K
  | none => some (Spec.total ρ qi - Spec.total ρ qo)
  | some st => Spec.residual I ρ st

/-- A successful connection of variables, its equation given by default or as a statement. -/
theorem connection_ok (I : Interp K) (ρ : Atom → K) (w w' : World) (m1 m2 : MRef) (outs ins : ConnArg) (hp : Spec.Plain outs ins)
    (st : Option Stmt) (a : Option ResArg) (ha : ∀ s, st = some s → ∃ x, a = some x ∧ s.arg = .ok x) (hn : st = none → a = none)
    (h : createConnection (.model m1) m2 outs ins a w = (.ok (), w')) :
    ∃ (qo qi : List Quantity) (mo mi : ModelObj) (e : EqObj) (n : ENode),
      w.ms[m1]? = some mo ∧ w.ms[m2]? = some mi ∧ outs.exposedIn mo.expOut = .ok true ∧ ins.exposedIn mi.expIn = .ok true ∧
      (Spec.args outs).map (fun r => w.qs[r]?) = qo.map some ∧ (Spec.args ins).map (fun r => w.qs[r]?) = qi.map some ∧
      w'.qs = w.qs ∧ w'.es = w.es ++ [e] ∧
      w'.ms = w.ms.set m2 (mi.storeEqn (joinNames qo ++ "--->" ++ joinNames qi) w.es.length) ∧
      e.expr = some n ∧ n.sym.expr.eval I ρ = Spec.connResidual I ρ qo qi st := by
  rw [createConnection_plain hp] at h
  obtain ⟨m1', mo, mi, qo, qi, x, e, key, hs, h1, h2, h3, h4, h5, h6, h7, h8, h9, h10, h11, t, e0, e1, h12, h13, _⟩ := connectVars_ok h
  cases hs
  obtain ⟨n0, hn0, rfl⟩ := EqObj.sweep_ok h13
  rw [args_eq] at h5 h6
  refine ⟨qo, qi, mo, mi, _, n0, h1, h2, h3, h4, h5, h6, h8, h9, h10, hn0, ?_⟩
  cases st with
  | none =>
    have := hn rfl; subst this
    obtain ⟨_, i, o, e1', e2', e3', e4', hb⟩ := connExpr_none h7
    cases hbal : balanceE i o with
    | none => simp only [hbal] at hb; subst hb; simp [EqObj.setResidual] at h12
    | some b =>
      simp only [hbal] at hb
      obtain ⟨n, hn, hv, _⟩ := equation_residual I ρ (.res b) t e0 e1 hb h12
      rw [hn0] at hn; cases hn
      rw [hv]
      simp only [Spec.residual, balanceE_val I ρ i o hbal, Spec.connResidual]
      have k1 := pairs_snd e3'
      have k2 := pairs_snd e4'
      rw [e1', args_eq, h6] at k1
      rw [e2', args_eq, h5] at k2
      rw [List.map_injective_iff.mpr (Option.some_injective _) k1, List.map_injective_iff.mpr (Option.some_injective _) k2]
  | some s =>
    obtain ⟨x', rfl, hx'⟩ := ha s rfl
    simp only [connExpr, PyM.pure_run, Prod.mk.injEq, Except.ok.injEq] at h7
    obtain ⟨rfl, _⟩ := h7
    obtain ⟨n, hn, hv, _⟩ := equation_residual I ρ s t e0 e1 hx' h12
    rw [hn0] at hn; cases hn
    exact hv

/-- C31: when `createConnection` between variables of two models returns, the receiving model has a new equation, which stays for
the rest of the session; without an explicit expression its residual is the sum of the inputs minus the sum of the outputs, so that it vanishes exactly when
the two sums are equal. -/
theorem connection_balances (I : Interp K) (ρ : Atom → K) (before after : List Op) (m1 m2 : MRef) (outs ins : ConnArg)
    (hp : Spec.Plain outs ins) {w' : World} (h : createConnection (.model m1) m2 outs ins none (history before World.init) = (.ok (), w')) :
    let w := history before World.init
    ∃ (qo qi : List Quantity) (r : ERef) (e : EqObj) (n : ENode) (mi mi' : ModelObj) (k : String),
      (Spec.args outs).map (fun r => w.qs[r]?) = qo.map some ∧ (Spec.args ins).map (fun r => w.qs[r]?) = qi.map some ∧
      w.es[r]? = none ∧ w'.ms[m2]? = some mi ∧ dget mi.eqns k = some r ∧
      (history after w').es[r]? = some e ∧ (history after w').ms[m2]? = some mi' ∧ k ∈ dkeys mi'.eqns ∧
      e.expr = some n ∧ n.sym.expr.eval I ρ = some (Spec.total ρ qi - Spec.total ρ qo) ∧
      (n.sym.expr.eval I ρ = some 0 ↔ Spec.total ρ qo = Spec.total ρ qi) := by
  intro w
  obtain ⟨qo, qi, mo, mi, e, n, _, h2, _, _, h5, h6, _, h9, h10, h11, h12⟩ :=
    connection_ok I ρ w w' m1 m2 outs ins hp none none (by simp) (fun _ => rfl) h
  have hlt : m2 < w.ms.length := (List.getElem?_eq_some_iff.mp h2).1
  have hm : w'.ms[m2]? = some (mi.storeEqn (joinNames qo ++ "--->" ++ joinNames qi) w.es.length) := by rw [h10]; simp [hlt]
  have he : w'.es[w.es.length]? = some e := by rw [h9]; simp
  have hle : w'.Le (history after w') := history_le after w'
  obtain ⟨mi', hm', hl⟩ := hle.ms _ _ hm
  refine ⟨qo, qi, w.es.length, e, n, _, mi', joinNames qo ++ "--->" ++ joinNames qi, h5, h6, by simp, hm, by simp [ModelObj.storeEqn], hle.es _ _ he, hm',
    hl.eqns _ (mem_dkeys_of_dget (v := w.es.length) (by simp [ModelObj.storeEqn])), h11, h12, ?_⟩
  rw [h12]
  simp only [Spec.connResidual, Option.some.injEq, sub_eq_zero]
  exact eq_comm

/-- `u + v` of `a` feeds `x + y` of `b`; a single pair works as well. -/
example : (createConnection (.model 0) 1 (.list [0, 1]) (.list [2, 3]) none Ex.cworld).1 = .ok () ∧
    (createConnection (.model 0) 1 (.var 0) (.var 2) none Ex.cworld).1 = .ok () := by decide +kernel
example : Spec.Plain (.list [0, 1]) (.list [2, 3]) ∧ Spec.Plain (.var 0) (.var 2) := by simp [Spec.Plain]

/-- C31, explicit expression: a statement given as `expr` is the connection's equation, whatever the variables are. -/
theorem connection_explicit (I : Interp K) (ρ : Atom → K) (before after : List Op) (m1 m2 : MRef) (outs ins : ConnArg)
    (hp : Spec.Plain outs ins) (st : Stmt) {a : ResArg} (ha : st.arg = .ok a) {w' : World}
    (h : createConnection (.model m1) m2 outs ins (some a) (history before World.init) = (.ok (), w')) :
    ∃ (r : ERef) (e : EqObj) (n : ENode) (mi : ModelObj) (k : String), w'.ms[m2]? = some mi ∧ dget mi.eqns k = some r ∧
      (history after w').es[r]? = some e ∧ e.expr = some n ∧ n.sym.expr.eval I ρ = Spec.residual I ρ st := by
  obtain ⟨qo, qi, mo, mi, e, n, _, h2, _, _, h5, h6, _, h9, h10, h11, h12⟩ :=
    connection_ok I ρ _ w' m1 m2 outs ins hp (some st) (some a) (fun s hs => by cases hs; exact ⟨a, rfl, ha⟩) (by simp) h
  have hlt : m2 < (history before World.init).ms.length := (List.getElem?_eq_some_iff.mp h2).1
  exact ⟨(history before World.init).es.length, e, n, mi.storeEqn (joinNames qo ++ "--->" ++ joinNames qi) (history before World.init).es.length, joinNames qo ++ "--->" ++ joinNames qi,
    by rw [h10]; simp [hlt], by simp [ModelObj.storeEqn], (history_le after w').es _ _ (by rw [h9]; simp), h11, h12⟩

example : ∃ a, Stmt.arg (.res (.binN .mul (.q 2 ((Ex.inV "x").quantity "b")) 2)) = .ok a ∧
    (createConnection (.model 0) 1 (.var 0) (.var 2) (some a) Ex.cworld).1 = .ok () := ⟨_, rfl, by decide +kernel⟩

/-- C31, expressions as arguments: the residual is the input expression minus the output expression. -/
theorem connection_expressions (I : Interp K) (ρ : Atom → K) (w w' : World) (src : ConnSrc) (m2 : MRef) (eo ei : PyExpr) {no ni : ENode}
    (ho : eo.build = .ok no) (hi : ei.build = .ok ni) (expr : Option ResArg)
    (h : createConnection src m2 (.node no) (.node ni) expr w = (.ok (), w')) :
    ∃ (mi : ModelObj) (r : ERef) (e : EqObj) (n : ENode), w'.ms[m2]? = some mi ∧ dget mi.eqns e.name = some r ∧ w.es[r]? = none ∧
      w'.es[r]? = some e ∧ e.expr = some n ∧
      n.sym.expr.eval I ρ = (do some ((← Spec.val I ρ ei) - (← Spec.val I ρ eo))) := by
  simp only [createConnection, connectNodes] at h
  rw [PyM.bind_ok] at h
  obtain ⟨s, w1, h1, h⟩ := h
  have hw1 : w1.ms = w.ms ∧ w1.es = w.es := by
    cases src with
    | model m =>
      simp only [ConnSrc.text] at h1
      rw [PyM.bind_ok] at h1
      obtain ⟨mo, w2, h2, h1⟩ := h1
      unfold getM at h2
      split at h2 <;> simp at h2
      simp only [PyM.pure_run, Prod.mk.injEq] at h1
      rw [← h1.2, ← h2.2]; exact ⟨rfl, rfl⟩
    | str t =>
      simp only [ConnSrc.text] at h1
      rw [PyM.bind_ok] at h1
      obtain ⟨mo, w2, h2, h1⟩ := h1
      simp only [PyM.pure_run, Prod.mk.injEq] at h1
      rw [← h1.2]
      unfold ptagIf at h2
      split at h2 <;> simp only [Prod.mk.injEq] at h2 <;> rw [← h2.2] <;> exact ⟨rfl, rfl⟩
    | other => simp [ConnSrc.text, raise] at h1
  rw [PyM.bind_ok] at h
  obtain ⟨mi, w2, h2, h⟩ := h
  cases hm : w1.ms[m2]? with
  | none => rw [getM_none hm] at h2; simp at h2
  | some mi' =>
    rw [getM_of hm] at h2
    simp only [Prod.mk.injEq, Except.ok.injEq] at h2
    obtain ⟨rfl, rfl⟩ := h2
    cases hd : ni.sub (.node no) with
    | error x => rw [hd] at h; simp [PyM.bind_run, PyM.lift_run] at h
    | ok d =>
      rw [hd, PyM.bind_lift_ok] at h
      have hst : Stmt.arg (.res (.bin .sub ei eo)) = .ok (.node d) := by simp [Stmt.arg, PyExpr.build, hi, ho, ENode.op, hd]
      rcases createEquation_run hm ("conn_" ++ s ++ "-->" ++ mi'.name) ("Connection from " ++ s ++ " to " ++ mi'.name) (some (.node d)) false with
        ⟨x, u, he⟩ | ⟨t, t', e, e', u, he, k1, k2, k3⟩
      · rw [PyM.bind_of_error he] at h; simp at h
      · rw [PyM.bind_of_ok he] at h
        simp only [PyM.pure_run, Prod.mk.injEq, true_and] at h
        subst h
        obtain ⟨e1, k4, rfl⟩ := EqObj.init_some k1
        obtain ⟨n, hn, hee⟩ := EqObj.sweep_ok k2
        obtain ⟨n', hn', hv, _⟩ := equation_residual I ρ _ _ _ _ hst k4
        have hnn : n = n' := Option.some_injective _ (hn.symm.trans hn')
        subst hnn
        have hlt : m2 < w1.ms.length := (List.getElem?_eq_some_iff.mp hm).1
        refine ⟨_, w1.es.length, e', n, withM_getM (w := (w1.withUid u).addE _) hm _, ?_, by rw [← hw1.2]; simp,
          show (w1.es ++ [e'])[w1.es.length]? = some e' from by simp, by rw [hee]; exact hn, ?_⟩
        · simp [ModelObj.storeEqn]
        · rw [hv]; rfl

example : (createConnection (.str "feed") 1 (.node (((Ex.outV "u").quantity "a").call 0)) (.node (((Ex.inV "x").quantity "b").call 2)) none
    Ex.cworld).1 = .ok () := by decide +kernel

end

/-! ## C32 -/

theorem exposedIn_iff {a : ConnArg} (h : ∀ n, a ≠ .node n) (l : List Ref) :
    ∃ b, a.exposedIn l = .ok b ∧ (b = true ↔ ∀ r ∈ Spec.args a, r ∈ l) := by
  cases a with
  | node n => exact absurd rfl (h n)
  | var r => exact ⟨_, rfl, by simp [Spec.args]⟩
  | list l' => exact ⟨_, rfl, by simp [Spec.args]⟩

/-- C32, first half: a connection of variables is only accepted when all outputs are variables that the first model declared as exposed outputs
and all inputs are variables that the second model declared as exposed inputs. -/
theorem connection_requires_exposed (w w' : World) (hw : Reachable w) (m1 m2 : MRef) (outs ins : ConnArg) (hp : Spec.Plain outs ins)
    (a : Option ResArg) (h : createConnection (.model m1) m2 outs ins a w = (.ok (), w')) :
    ∃ mo mi, w.ms[m1]? = some mo ∧ w.ms[m2]? = some mi ∧
      (∀ r ∈ Spec.args outs, r ∈ mo.expOut ∧ ∃ q, w.qs[r]? = some q ∧ q.kind = .variable ∧ q.owner = mo.name ∧ q.isExposed = true ∧ q.vtype = "output") ∧
      (∀ r ∈ Spec.args ins, r ∈ mi.expIn ∧ ∃ q, w.qs[r]? = some q ∧ q.kind = .variable ∧ q.owner = mi.name ∧ q.isExposed = true ∧ q.vtype = "input") := by
  rw [createConnection_plain hp] at h
  obtain ⟨m1', mo, mi, qo, qi, x, e, key, hs, h1, h2, h3, h4, _⟩ := connectVars_ok h
  cases hs
  obtain ⟨b1, e1, f1⟩ := exposedIn_iff hp.1 mo.expOut
  obtain ⟨b2, e2, f2⟩ := exposedIn_iff hp.2 mi.expIn
  rw [e1, Except.ok.injEq] at h3
  rw [e2, Except.ok.injEq] at h4
  have hwf := reachable_wf hw
  exact ⟨mo, mi, h1, h2, fun r hr => ⟨f1.mp h3 r hr, (hwf.ms _ _ h1).expOut r (f1.mp h3 r hr)⟩,
    fun r hr => ⟨f2.mp h4 r hr, (hwf.ms _ _ h2).expIn r (f2.mp h4 r hr)⟩⟩

example : Reachable Ex.cworld ∧ (createConnection (.model 0) 1 (.list [0, 1]) (.list [2, 3]) none Ex.cworld).1 = .ok () :=
  ⟨Ex.cworld_reach, by decide +kernel⟩

theorem connection_rejected {w : World} {m1 m2 : MRef} {mo mi : ModelObj} (h1 : w.ms[m1]? = some mo) (h2 : w.ms[m2]? = some mi)
    {outs ins : ConnArg} (hp : Spec.Plain outs ins) (hne : ¬ ((∀ r ∈ Spec.args outs, r ∈ mo.expOut) ∧ ∀ r ∈ Spec.args ins, r ∈ mi.expIn))
    (a : Option ResArg) : createConnection (.model m1) m2 outs ins a w = (.error (exposedError outs ins), w) := by
  obtain ⟨b1, e1, f1⟩ := exposedIn_iff hp.1 mo.expOut
  obtain ⟨b2, e2, f2⟩ := exposedIn_iff hp.2 mi.expIn
  rw [createConnection_plain hp]
  simp only [connectVars]
  rw [PyM.bind_of_ok (getM_of h2), e2, PyM.bind_lift_ok, PyM.bind_of_ok (getM_of h1), e1, PyM.bind_lift_ok]
  have hb : (b1 && b2) = false := by
    rw [Bool.eq_false_iff]
    intro hb
    simp only [Bool.and_eq_true] at hb
    exact hne ⟨f1.mp hb.1, f2.mp hb.2⟩
  simp [hb, PyM.when, PyM.bind_run, raise]

/-- C32, second half: connecting two variables of which one is not exposed with the right direction raises `ExposedVariableError` and changes nothing. -/
theorem connection_not_exposed (w : World) (m1 m2 : MRef) (mo mi : ModelObj) (h1 : w.ms[m1]? = some mo) (h2 : w.ms[m2]? = some mi) (o i : Ref)
    (hne : o ∉ mo.expOut ∨ i ∉ mi.expIn) (a : Option ResArg) :
    createConnection (.model m1) m2 (.var o) (.var i) a w = (.error .exposedVariable, w) := by
  rw [connection_rejected h1 h2 (by simp [Spec.Plain])]
  · rfl
  · simp only [Spec.args, List.mem_singleton, forall_eq]
    tauto

/-- The variable `h` of `b` is not exposed; `x` of `b` is exposed, but not as an output. -/
example : ∃ mo mi, Ex.cworld.ms[0]? = some mo ∧ Ex.cworld.ms[1]? = some mi ∧ (0 ∈ mo.expOut ∧ 5 ∉ mi.expIn) ∧ 2 ∉ mi.expOut :=
  ⟨_, _, rfl, rfl, by decide +kernel, by decide +kernel⟩

/-- C32 fails for lists: when some member is not exposed, building the message of the exception fails, and `AttributeError` is raised instead of
`ExposedVariableError`. -/
theorem connection_not_exposed_lists (w : World) (m1 m2 : MRef) (mo mi : ModelObj) (h1 : w.ms[m1]? = some mo) (h2 : w.ms[m2]? = some mi)
    (o i : List Ref) (hne : (∃ r ∈ o, r ∉ mo.expOut) ∨ ∃ r ∈ i, r ∉ mi.expIn) (a : Option ResArg) :
    createConnection (.model m1) m2 (.list o) (.list i) a w = (.error .attributeError, w) := by
  rw [connection_rejected h1 h2 (by simp [Spec.Plain])]
  · rfl
  · simp only [Spec.args]
    rintro ⟨k1, k2⟩
    rcases hne with ⟨r, h, h'⟩ | ⟨r, h, h'⟩
    · exact h' (k1 r h)
    · exact h' (k2 r h)

example : ∃ mo mi, Ex.cworld.ms[0]? = some mo ∧ Ex.cworld.ms[1]? = some mi ∧ ∃ r ∈ [2, 5], r ∉ mi.expIn := ⟨_, _, rfl, rfl, 5, by decide +kernel⟩

theorem collect_call_ok {l : List (Ref × Quantity)} {w : World} (h : ∀ p ∈ l, w.qs[p.1]? = some p.2) :
    collect (l.map Prod.fst) (fun r => do let q ← getQ r; PyM.pure (q.call r)) w = (.ok (l.map fun p => p.2.call p.1), w) := by
  induction l with
  | nil => rfl
  | cons p t ih =>
    simp only [List.map_cons, collect, PyM.bind_eq]
    rw [PyM.bind_of_ok (a := p.2.call p.1) (w1 := w) (by rw [PyM.bind_of_ok (getQ_of (h p (by simp)))]; rfl),
      PyM.bind_of_ok (ih fun p hp => h p (by simp [hp]))]
    rfl

/-- A sum of quantities of one dimension can be built. -/
theorem foldl_build (d : Spec.Dim) (t : List (Ref × Quantity)) (ht : ∀ p ∈ t, UReachSI p.2.units ∧ p.2.units.dimVec = d) (acc : PyExpr)
    (hu : Spec.AllUnits UReachSI acc) (hpp : Spec.PlainPowers acc) {n : ENode} (hn : acc.build = .ok n) (hd : n.unit.dimVec = d) :
    let e := t.foldl (fun acc b => PyExpr.bin .add acc (.q b.1 b.2)) acc
    Spec.AllUnits UReachSI e ∧ Spec.PlainPowers e ∧ ∃ n, e.build = .ok n ∧ n.unit.dimVec = d := by
  induction t generalizing acc n with
  | nil => exact ⟨hu, hpp, n, hn, hd⟩
  | cons p t ih =>
    obtain ⟨hp1, hp2⟩ := ht p (by simp)
    have hq : (PyExpr.q p.1 p.2).build = .ok (p.2.call p.1) := rfl
    have hqu : (p.2.call p.1).unit.dimVec = d := by
      have := (expr_dimension_partial (.q p.1 p.2) hp1 trivial hq).2
      rw [← hp2]
      simpa [Spec.dim] using this.symm
    have g := (expr_sum_gate acc (.q p.1 p.2) hu hp1 hn hq).1 (by rw [hd, hqu])
    obtain ⟨r, _, hr, _⟩ := g
    have hu' : Spec.AllUnits UReachSI (.bin .add acc (.q p.1 p.2)) := ⟨hu, hp1⟩
    have hpp' : Spec.PlainPowers (.bin .add acc (.q p.1 p.2)) := ⟨hpp, trivial, by simp⟩
    refine ih (fun p hp => ht p (by simp [hp])) (.bin .add acc (.q p.1 p.2)) hu' hpp' hr ?_
    have h1 := (expr_dimension_partial _ hu' hpp' hr).2
    have h2 := (expr_dimension_partial _ hu hpp hn).2
    simp only [Spec.dim, h2, hd, hp2, Option.bind_eq_bind, Option.bind_some] at h1
    simpa using h1.symm

theorem sumE_build (d : Spec.Dim) (p : Ref × Quantity) (t : List (Ref × Quantity))
    (ht : ∀ x ∈ p :: t, UReachSI x.2.units ∧ x.2.units.dimVec = d) :
    ∃ e n, sumE (p :: t) = some e ∧ Spec.AllUnits UReachSI e ∧ e.build = .ok n ∧ n.unit.dimVec = d := by
  obtain ⟨hp1, hp2⟩ := ht p (by simp)
  obtain ⟨n, hn⟩ : ∃ n, (PyExpr.nbin .add 0 (.q p.1 p.2)).build = .ok n := ⟨_, rfl⟩
  have hd : n.unit.dimVec = d := by
    have := (expr_dimension_partial (.nbin .add 0 (.q p.1 p.2)) hp1 trivial hn).2
    rw [← hp2]
    simpa [Spec.dim] using this.symm
  obtain ⟨h1, h2, n', h3, h4⟩ := foldl_build d t (fun x hx => ht x (by simp [hx])) (.nbin .add 0 (.q p.1 p.2)) hp1 trivial hn hd
  exact ⟨_, n', rfl, h1, h3, h4⟩

theorem connExpr_ok {ins outs : List (Ref × Quantity)} {w : World} (hi : ∀ p ∈ ins, w.qs[p.1]? = some p.2)
    (ho : ∀ p ∈ outs, w.qs[p.1]? = some p.2) (d : Spec.Dim) (hd : ∀ p ∈ ins ++ outs, UReachSI p.2.units ∧ p.2.units.dimVec = d)
    (hne : ins ++ outs ≠ []) : ∃ n, connExpr (ins.map Prod.fst) (outs.map Prod.fst) none w = (.ok (.node n), w) := by
  have sub_ok : ∀ (a : ENode) (q : Rat), ∃ n, a.sub (.num q) = .ok n := fun a q => ⟨_, rfl⟩
  have rsub_ok : ∀ (a : ENode) (q : Rat), ∃ n, a.rsub (.num q) = .ok n := fun a q => ⟨_, rfl⟩
  simp only [connExpr]
  rw [PyM.bind_of_ok (collect_call_ok hi), PyM.bind_of_ok (collect_call_ok ho), sumNodes_build, sumNodes_build]
  cases ins with
  | nil =>
    cases outs with
    | nil => exact absurd rfl hne
    | cons p t =>
      obtain ⟨e, n, h1, h2, h3, h4⟩ := sumE_build d p t (by simpa using hd)
      obtain ⟨n', hn'⟩ := rsub_ok n 0
      rw [h1]
      simp only [h3, ok_bind, sumE, PyM.bind_lift_ok]
      exact ⟨n', by simp [sumDiff, hn', PyM.lift_run]⟩
  | cons q s =>
    obtain ⟨e, n, h1, h2, h3, h4⟩ := sumE_build d q s (fun x hx => hd x (by simp only [List.mem_append]; exact Or.inl hx))
    cases outs with
    | nil =>
      obtain ⟨n', hn'⟩ := sub_ok n 0
      rw [h1]
      simp only [h3, ok_bind, PyM.bind_lift_ok]
      exact ⟨n', by simp [sumE, PyM.bind_lift_ok, sumDiff, hn', PyM.lift_run]⟩
    | cons p t =>
      obtain ⟨e', n', h1', h2', h3', h4'⟩ := sumE_build d p t (fun x hx => hd x (by simp only [List.mem_append]; exact Or.inr hx))
      rw [h1, h1']
      simp only [h3, h3', ok_bind, PyM.bind_lift_ok]
      obtain ⟨_, r, _, hr⟩ := (expr_sum_gate e e' h2 h2' h3 h3').1 (by rw [h4, h4'])
      simp only [PyExpr.build, h3, h3', ok_bind, ENode.op] at hr
      exact ⟨r, by simp [sumDiff, hr, PyM.lift_run]⟩

theorem pairs_of {w : World} {l : List Ref} (h : ∀ r ∈ l, ∃ q, w.qs[r]? = some q) :
    ∃ ps : List (Ref × Quantity), ps.map Prod.fst = l ∧ ∀ p ∈ ps, w.qs[p.1]? = some p.2 ∧ p.1 ∈ l := by
  induction l with
  | nil => exact ⟨[], rfl, by simp⟩
  | cons r t ih =>
    obtain ⟨q, hq⟩ := h r (by simp)
    obtain ⟨ps, h1, h2⟩ := ih fun r hr => h r (by simp [hr])
    refine ⟨(r, q) :: ps, by simp [h1], fun p hp => ?_⟩
    rcases List.mem_cons.mp hp with rfl | hp
    · exact ⟨hq, by simp⟩
    · exact ⟨(h2 p hp).1, by simp [(h2 p hp).2]⟩

/-- Stating a connection with a node as its expression succeeds for variables. -/
theorem createModelConnection_ok {w : World} {m : MRef} {mo : ModelObj} (h : w.ms[m]? = some mo) {outs ins : List (Ref × Quantity)}
    (ho : ∀ p ∈ outs, w.qs[p.1]? = some p.2 ∧ p.2.kind = .variable) (hi : ∀ p ∈ ins, w.qs[p.1]? = some p.2 ∧ p.2.kind = .variable) (n : ENode) :
    ∃ r w', createModelConnection m (outs.map Prod.fst) (ins.map Prod.fst) (.node n) w = (.ok r, w') ∧
      w'.ms.length = w.ms.length ∧ w'.qs = w.qs := by
  have k1 := collect_getQ_ok (pairs_snd fun p hp => (ho p hp).1)
  have k2 := collect_getQ_ok (pairs_snd fun p hp => (hi p hp).1)
  simp only [createModelConnection]
  rw [PyM.bind_of_ok (getM_of h), PyM.bind_of_ok k1, PyM.bind_of_ok k2]
  have hv : ((ins.map Prod.snd).all (fun q => q.kind == .variable) && (outs.map Prod.snd).all (fun q => q.kind == .variable)) = true := by
    simp only [Bool.and_eq_true, List.all_eq_true, List.mem_map, beq_iff_eq]
    exact ⟨fun q ⟨p, hp, e⟩ => e ▸ (hi p hp).2, fun q ⟨p, hp, e⟩ => e ▸ (ho p hp).2⟩
  rw [hv, Bool.not_true, PyM.when_false, PyM.bind_of_ok (show PyM.pure () w = (.ok (), w) from rfl)]
  rw [PyM.bind_of_ok (show tagIf (ResArg.needsTag (some (.node n))) w = (.ok "", w) from rfl)]
  simp only [EqObj.init, EqObj.setResidual, EqObj.finish, PyM.bind_lift_ok]
  rw [PyM.bind_of_ok (show tagIf (ResArg.needsTag (some (.node n))) w = (.ok "", w) from rfl)]
  simp only [EqObj.setResidual, EqObj.finish, PyM.bind_lift_ok, EqObj.sweep, PyM.bind_run, newE, setM, PyM.pure_run]
  exact ⟨_, _, rfl, by simp, rfl⟩

/-- C32, converse: variables exposed with the right direction, at least one, all of one dimension, can be connected. -/
theorem connection_succeeds (w : World) (hw : Reachable w) (m1 m2 : MRef) (mo mi : ModelObj) (h1 : w.ms[m1]? = some mo) (h2 : w.ms[m2]? = some mi)
    (outs ins : ConnArg) (hp : Spec.Plain outs ins) (ho : ∀ r ∈ Spec.args outs, r ∈ mo.expOut) (hi : ∀ r ∈ Spec.args ins, r ∈ mi.expIn)
    (d : Spec.Dim) (hd : ∀ r ∈ Spec.args ins ++ Spec.args outs, ∀ q, w.qs[r]? = some q → UReachSI q.units ∧ q.units.dimVec = d)
    (hne : Spec.args ins ++ Spec.args outs ≠ []) : ∃ w', createConnection (.model m1) m2 outs ins none w = (.ok (), w') := by
  have hwf := reachable_wf hw
  have exO := (hwf.ms _ _ h1).expOut
  have exI := (hwf.ms _ _ h2).expIn
  obtain ⟨po, o1, o2⟩ := pairs_of (w := w) (l := Spec.args outs) fun r hr => (exO r (ho r hr)).imp fun _ h => h.1
  obtain ⟨pi, i1, i2⟩ := pairs_of (w := w) (l := Spec.args ins) fun r hr => (exI r (hi r hr)).imp fun _ h => h.1
  have kO : ∀ p ∈ po, w.qs[p.1]? = some p.2 ∧ p.2.kind = .variable := fun p hp => by
    obtain ⟨q, a, b, _⟩ := exO p.1 (ho _ (o2 p hp).2)
    rw [(o2 p hp).1, Option.some.injEq] at a
    exact ⟨(o2 p hp).1, a ▸ b⟩
  have kI : ∀ p ∈ pi, w.qs[p.1]? = some p.2 ∧ p.2.kind = .variable := fun p hp => by
    obtain ⟨q, a, b, _⟩ := exI p.1 (hi _ (i2 p hp).2)
    rw [(i2 p hp).1, Option.some.injEq] at a
    exact ⟨(i2 p hp).1, a ▸ b⟩
  obtain ⟨b1, e1, f1⟩ := exposedIn_iff hp.1 mo.expOut
  obtain ⟨b2, e2, f2⟩ := exposedIn_iff hp.2 mi.expIn
  have hb1 := f1.mpr ho
  have hb2 := f2.mpr hi
  subst hb1 hb2
  obtain ⟨n, hn⟩ := connExpr_ok (w := w) (ins := pi) (outs := po) (fun p hp => (kI p hp).1) (fun p hp => (kO p hp).1) d
    (fun p hp => by
      rcases List.mem_append.mp hp with hp | hp
      · exact hd p.1 (List.mem_append.mpr (Or.inl (i2 p hp).2)) _ (i2 p hp).1
      · exact hd p.1 (List.mem_append.mpr (Or.inr (o2 p hp).2)) _ (o2 p hp).1)
    (fun h => hne (by
      obtain ⟨h1, h2⟩ := List.append_eq_nil_iff.mp h
      rw [← i1, ← o1, h1, h2]; rfl))
  obtain ⟨r, w', hc, hlen, _⟩ := createModelConnection_ok h2 kO kI n
  have k1 := collect_getQ_ok (pairs_snd fun p hp => (kO p hp).1)
  have k2 := collect_getQ_ok (pairs_snd fun p hp => (kI p hp).1)
  rw [o1] at k1 hc hn
  rw [i1] at k2 hc hn
  have g : ∀ m (mo : ModelObj), w.ms[m]? = some mo → ∃ mo', w'.ms[m]? = some mo' := fun m mo h =>
    ⟨w'.ms[m]'(by rw [hlen]; exact (List.getElem?_eq_some_iff.mp h).1), List.getElem?_eq_getElem _⟩
  obtain ⟨mo', g1⟩ := g m1 mo h1
  obtain ⟨mi', g2⟩ := g m2 mi h2
  rw [createConnection_plain hp]
  simp only [connectVars]
  rw [PyM.bind_of_ok (getM_of h2), e2, PyM.bind_lift_ok, PyM.bind_of_ok (getM_of h1), e1, PyM.bind_lift_ok]
  simp only [Bool.and_self, Bool.not_true, PyM.when_false]
  rw [PyM.bind_of_ok (show PyM.pure () w = (.ok (), w) from rfl), args_eq, args_eq, PyM.bind_of_ok hn]
  simp only [createDirectConnection]
  rw [PyM.bind_of_ok k1, PyM.bind_of_ok k2, PyM.bind_of_ok hc, PyM.bind_of_ok (getM_of g1), PyM.bind_of_ok (getM_of g2)]
  exact ⟨_, rfl⟩

/-- `u + v` and `x + y` are lengths. -/
example : ∃ mo mi, Ex.cworld.ms[0]? = some mo ∧ Ex.cworld.ms[1]? = some mi ∧ (∀ r ∈ [0, 1], r ∈ mo.expOut) ∧ (∀ r ∈ [2, 3], r ∈ mi.expIn) ∧
    ∀ r ∈ ([2, 3] ++ [0, 1] : List Ref), ∀ q, Ex.cworld.qs[r]? = some q → UReachSI q.units ∧ q.units.dimVec = Tmpl.m.dimVec := by
  refine ⟨_, _, rfl, rfl, by decide +kernel, by decide +kernel, ?_⟩
  intro r hr q hq
  have h : ∀ r ∈ ([2, 3] ++ [0, 1] : List Ref), (Ex.cworld.qs[r]?.map Quantity.units) = some Tmpl.m := by decide +kernel
  have := h r hr
  rw [hq, Option.map_some, Option.some.injEq] at this
  rw [this]; exact ⟨Ex.m_si, rfl⟩

/-- C32, a source that is not a model: refused with `AttributeError`; nothing changes unless the list of outputs is empty and all inputs are exposed. -/
theorem connection_not_model (w : World) (src : ConnSrc) (hs : ∀ m, src ≠ .model m) (m2 : MRef) (mi : ModelObj) (h2 : w.ms[m2]? = some mi) (outs ins : ConnArg)
    (hp : Spec.Plain outs ins) (hne : outs ≠ .list [] ∨ ∃ r ∈ Spec.args ins, r ∉ mi.expIn) (a : Option ResArg) :
    createConnection src m2 outs ins a w = (.error .attributeError, w) := by
  obtain ⟨b2, e2, f2⟩ := exposedIn_iff hp.2 mi.expIn
  have hb : (outs.isEmptyList && b2) = false := by
    rw [Bool.eq_false_iff]
    intro hb
    simp only [Bool.and_eq_true] at hb
    rcases hne with h | ⟨r, hr, h⟩
    · refine h ?_
      cases outs with
      | list l => cases l with
        | nil => rfl
        | cons x t => exact absurd hb.1 (by simp [ConnArg.isEmptyList])
      | var r => exact absurd hb.1 (by simp [ConnArg.isEmptyList])
      | node n => exact absurd rfl (hp.1 n)
    · exact h (f2.mp hb.2 r hr)
  rw [createConnection_plain hp]
  cases src with
  | model m => exact absurd rfl (hs m)
  | str s =>
    simp only [connectVars]
    rw [PyM.bind_of_ok (getM_of h2), e2, PyM.bind_lift_ok]
    simp [hb, PyM.when, PyM.bind_run, raise]
  | other =>
    simp only [connectVars]
    rw [PyM.bind_of_ok (getM_of h2), e2, PyM.bind_lift_ok]
    simp [hb, PyM.when, PyM.bind_run, raise]

example : (∀ m, ConnSrc.str "feed" ≠ .model m) ∧ (∃ mi, Ex.cworld.ms[1]? = some mi) ∧ Spec.Plain (.list [0, 1]) (.list [2, 3]) ∧ ConnArg.list [0, 1] ≠ .list [] :=
  ⟨nofun, ⟨_, rfl⟩, by simp [Spec.Plain], by simp⟩

/-- C32, a source that is not a model, an empty list of outputs and exposed inputs: the call raises, but the receiving model keeps a new equation. -/
theorem connection_not_model_leaves : ∃ w w' : World, Reachable w ∧ createConnection (.str "feed") 1 (.list []) (.var 2) none w = (.error .attributeError, w') ∧
    (w.ms[1]?.map fun mo => mo.eqns.length) = some 0 ∧ (w'.ms[1]?.map fun mo => mo.eqns.length) = some 1 := by
  have h : (createConnection (.str "feed") 1 (.list []) (.var 2) none Ex.cworld).1.toOption = none ∧
      (createConnection (.str "feed") 1 (.list []) (.var 2) none Ex.cworld).1 = .error .attributeError := by decide +kernel
  exact ⟨Ex.cworld, (createConnection (.str "feed") 1 (.list []) (.var 2) none Ex.cworld).2, Ex.cworld_reach, Prod.ext h.2 rfl, by decide +kernel, by decide +kernel⟩

/-- C32, no variables at all: refused with `UnexpectedValueError`. -/
theorem connection_empty (w : World) (m1 m2 : MRef) (mo mi : ModelObj) (h1 : w.ms[m1]? = some mo) (h2 : w.ms[m2]? = some mi) :
    createConnection (.model m1) m2 (.list []) (.list []) none w = (.error .unexpectedValue, w) := by
  simp only [createConnection, connectVars]
  rw [PyM.bind_of_ok (getM_of h2)]
  simp only [ConnArg.exposedIn, PyM.bind_lift_ok]
  rw [PyM.bind_of_ok (getM_of h1)]
  simp only [List.all_nil, Bool.and_self, Bool.not_true, PyM.when_false, PyM.bind_lift_ok, ConnArg.refs]
  rw [PyM.bind_of_ok (show PyM.pure () w = (.ok (), w) from rfl),
    PyM.bind_of_ok (show connExpr [] [] none w = (.ok .other, w) from rfl)]
  simp only [createDirectConnection]
  rw [PyM.bind_of_ok (show collect [] getQ w = (.ok [], w) from rfl), PyM.bind_of_ok (show collect [] getQ w = (.ok [], w) from rfl)]
  rcases createModelConnection_run h2 [] [] .other with ⟨x, u, he⟩ | ⟨qo, qi, t, t', d, e, e', u, he, _, _, _, k, _⟩
  · have : createModelConnection m2 [] [] .other w = (.error .unexpectedValue, w) := by
      simp only [createModelConnection]
      rw [PyM.bind_of_ok (getM_of h2)]
      rfl
    rw [PyM.bind_of_error this]
  · simp [EqObj.init, EqObj.setResidual] at k

/-! ## C33 -/

/-- A name as a Python program uses it: not empty, without comma and hyphen. -/
def Spec.PlainName (s : String) : Prop := s ≠ "" ∧ ',' ∉ s.toList ∧ '-' ∉ s.toList

/-- Cutting at the first occurrence of a character is unambiguous. -/
theorem split_first {c : Char} {a b a' b' : List Char} (ha : c ∉ a) (ha' : c ∉ a') (h : a ++ c :: b = a' ++ c :: b') : a = a' ∧ b = b' := by
  induction a generalizing a' with
  | nil =>
    cases a' with
    | nil => simpa using h
    | cons x t =>
      simp only [List.nil_append, List.cons_append, List.cons.injEq] at h
      exact absurd (by rw [h.1]; simp) ha'
  | cons x t ih =>
    cases a' with
    | nil =>
      simp only [List.nil_append, List.cons_append, List.cons.injEq] at h
      exact absurd (by rw [h.1]; simp) ha
    | cons y t' =>
      simp only [List.cons_append, List.cons.injEq] at h
      obtain ⟨h1, h2⟩ := ih (a' := t') (fun hc => ha (by simp [hc])) (fun hc => ha' (by simp [hc])) h.2
      exact ⟨by rw [h.1, h1], h2⟩

theorem pyJoin_ne {l : List String} (hl : l ≠ []) (h : ∀ s ∈ l, Spec.PlainName s) : pyJoin "," l ≠ "" := by
  cases l with
  | nil => exact absurd rfl hl
  | cons a t =>
    cases t with
    | nil => exact (h a (by simp)).1
    | cons b t =>
      intro he
      have := congrArg String.toList he
      simp only [pyJoin, String.toList_append] at this
      simp at this

theorem pyJoin_no_hyphen {l : List String} (h : ∀ s ∈ l, Spec.PlainName s) : '-' ∉ (pyJoin "," l).toList := by
  induction l with
  | nil => simp [pyJoin]
  | cons a t ih =>
    cases t with
    | nil => exact (h a (by simp)).2.2
    | cons b t =>
      simp only [pyJoin, String.toList_append, List.mem_append, not_or]
      exact ⟨⟨(h a (by simp)).2.2, by decide⟩, ih fun s hs => h s (by simp [hs])⟩

theorem pyJoin_inj {l l' : List String} (h : ∀ s ∈ l, Spec.PlainName s) (h' : ∀ s ∈ l', Spec.PlainName s) (he : pyJoin "," l = pyJoin "," l') :
    l = l' := by
  induction l generalizing l' with
  | nil =>
    by_contra hne
    exact pyJoin_ne (Ne.symm hne) h' he.symm
  | cons a t ih =>
    cases l' with
    | nil => exact absurd he (pyJoin_ne (by simp) h)
    | cons a' t' =>
      have ha := (h a (by simp)).2.1
      have ha' := (h' a' (by simp)).2.1
      cases t with
      | nil =>
        cases t' with
        | nil => simp only [pyJoin] at he; rw [he]
        | cons b' t' =>
          refine absurd ?_ ha
          simp only [pyJoin] at he
          rw [he]; simp [String.toList_append]
      | cons b t =>
        cases t' with
        | nil =>
          refine absurd ?_ ha'
          simp only [pyJoin] at he
          rw [← he]; simp [String.toList_append]
        | cons b' t' =>
          have := congrArg String.toList he
          simp only [pyJoin, String.toList_append] at this
          rw [List.append_assoc, List.append_assoc] at this
          obtain ⟨h1, h2⟩ := split_first (c := ',') ha ha' this
          rw [String.toList_inj.mp h1, ih (fun s hs => h s (by simp [hs])) (fun s hs => h' s (by simp [hs])) (String.toList_inj.mp h2)]

theorem key_inj {a b a' b' : List String} (ha : ∀ s ∈ a, Spec.PlainName s) (hb : ∀ s ∈ b, Spec.PlainName s)
    (ha' : ∀ s ∈ a', Spec.PlainName s) (hb' : ∀ s ∈ b', Spec.PlainName s)
    (h : pyJoin "," a ++ "--->" ++ pyJoin "," b = pyJoin "," a' ++ "--->" ++ pyJoin "," b') : a = a' ∧ b = b' := by
  have := congrArg String.toList h
  simp only [String.toList_append] at this
  rw [List.append_assoc, List.append_assoc] at this
  obtain ⟨h1, h2⟩ := split_first (c := '-') (pyJoin_no_hyphen ha) (pyJoin_no_hyphen ha') this
  refine ⟨pyJoin_inj ha ha' (String.toList_inj.mp h1), pyJoin_inj hb hb' (String.toList_inj.mp ?_)⟩
  have h3 : ("--->".toList.tail ++ (pyJoin "," b).toList) = ("--->".toList.tail ++ (pyJoin "," b').toList) := h2
  exact List.append_cancel_left h3

/-- A connection of variables between two models. -/
structure Spec.Conn where
  m1 : MRef
  m2 : MRef
  outs : List Ref
  ins : List Ref

/-- The connections are made one after the other. -/
def connectAll (cs : List Spec.Conn) : PyM Unit := each cs fun c => createConnection (.model c.m1) c.m2 (.list c.outs) (.list c.ins) none

/-- The quantities referred to. -/
def Spec.qtys (w : World) (l : List Ref) : List Quantity := l.filterMap fun r => w.qs[r]?

theorem qtys_of {w : World} {l : List Ref} {qs : List Quantity} (h : l.map (fun r => w.qs[r]?) = qs.map some) : Spec.qtys w l = qs := by
  unfold Spec.qtys
  rw [show l.filterMap (fun r => w.qs[r]?) = (l.map fun r => w.qs[r]?).filterMap id by simp [List.filterMap_map], h]
  simp [List.filterMap_map]

/-- The name under which a connection is stored. -/
def connKey (w : World) (c : Spec.Conn) : String :=
  pyJoin "," ((Spec.qtys w c.outs).map Quantity.name) ++ "--->" ++ pyJoin "," ((Spec.qtys w c.ins).map Quantity.name)

/-- The names of the variables of two connections differ. -/
def Spec.Differ (w : World) (c d : Spec.Conn) : Prop :=
  c.m2 = d.m2 → (Spec.qtys w c.outs).map Quantity.name ≠ (Spec.qtys w d.outs).map Quantity.name ∨
    (Spec.qtys w c.ins).map Quantity.name ≠ (Spec.qtys w d.ins).map Quantity.name

section
variable {K : Type} [Field K] [LinearOrder K]

/-- The connection is among the equations of its receiving model. -/
def Spec.Present (I : Interp K) (w0 w : World) (c : Spec.Conn) (r : ERef) : Prop :=
  ∃ mi e n, w.ms[c.m2]? = some mi ∧ r ∈ dvalues mi.eqns ∧ w.es[r]? = some e ∧ e.expr = some n ∧
    ∀ ρ : Atom → K, n.sym.expr.eval I ρ = some (Spec.total ρ (Spec.qtys w0 c.ins) - Spec.total ρ (Spec.qtys w0 c.outs))

/-- One connection. -/
theorem connect_one (I : Interp K) {w w' : World} {c : Spec.Conn}
    (h : createConnection (.model c.m1) c.m2 (.list c.outs) (.list c.ins) none w = (.ok (), w')) :
    w'.qs = w.qs ∧ ∃ e n mi, w'.es = w.es ++ [e] ∧ e.expr = some n ∧ w.ms[c.m2]? = some mi ∧
      w'.ms = w.ms.set c.m2 (mi.storeEqn (connKey w c) w.es.length) ∧
      ∀ ρ : Atom → K, n.sym.expr.eval I ρ = some (Spec.total ρ (Spec.qtys w c.ins) - Spec.total ρ (Spec.qtys w c.outs)) := by
  obtain ⟨qo, qi, mo, mi, e, n, _, h2, _, _, h5, h6, h7, h8, h9, h10, h11⟩ :=
    connection_ok I (fun _ => 0) w w' c.m1 c.m2 (.list c.outs) (.list c.ins) (by simp [Spec.Plain]) none none (by simp) (fun _ => rfl) h
  refine ⟨h7, e, n, mi, h8, h10, h2, ?_, fun ρ => ?_⟩
  · have k5 : Spec.qtys w c.outs = qo := qtys_of h5
    have k6 : Spec.qtys w c.ins = qi := qtys_of h6
    rw [h9, connKey, k5, k6]; rfl
  · obtain ⟨qo', qi', _, _, e', n', _, _, _, _, k5, k6, _, k8, _, k10, k11⟩ :=
      connection_ok I ρ w w' c.m1 c.m2 (.list c.outs) (.list c.ins) (by simp [Spec.Plain]) none none (by simp) (fun _ => rfl) h
    have he : e' = e := by
      rw [h8] at k8
      have := List.append_cancel_left k8
      simp only [List.cons.injEq, and_true] at this
      exact this.symm
    subst he
    rw [h10, Option.some.injEq] at k10
    subst k10
    have g5 : Spec.qtys w c.outs = qo' := qtys_of k5
    have g6 : Spec.qtys w c.ins = qi' := qtys_of k6
    rw [k11, Spec.connResidual, g5, g6]

/-- Later connections under other names keep an equation. -/
theorem connect_keeps (cs : List Spec.Conn) {w w' : World} (h : connectAll cs w = (.ok (), w')) (m : MRef) (k : String) (r : ERef)
    (hk : ∀ c ∈ cs, c.m2 = m → connKey w c ≠ k) {mo : ModelObj} (hm : w.ms[m]? = some mo) (hr : dget mo.eqns k = some r) :
    (∃ mo', w'.ms[m]? = some mo' ∧ dget mo'.eqns k = some r) ∧ w'.qs = w.qs ∧ w.es.length + cs.length = w'.es.length ∧
      ∀ (x : ERef) (e : EqObj), w.es[x]? = some e → w'.es[x]? = some e := by
  induction cs generalizing w mo with
  | nil =>
    simp only [connectAll, each, PyM.pure_run, Prod.mk.injEq, true_and] at h; subst h
    exact ⟨⟨mo, hm, hr⟩, rfl, rfl, fun _ _ h => h⟩
  | cons c t ih =>
    simp only [connectAll, each, PyM.bind_eq] at h
    rw [PyM.bind_ok] at h
    obtain ⟨⟨⟩, w1, h1, h⟩ := h
    obtain ⟨q1, e, n, mi, e1, _, m1, m2, _⟩ := connect_one Ex.I h1
    have hlt : c.m2 < w.ms.length := (List.getElem?_eq_some_iff.mp m1).1
    have key : ∃ mo1, w1.ms[m]? = some mo1 ∧ dget mo1.eqns k = some r := by
      by_cases hcm : c.m2 = m
      · subst hcm
        rw [hm, Option.some.injEq] at m1; subst m1
        refine ⟨mo.storeEqn (connKey w c) w.es.length, by rw [m2]; simp [hlt], ?_⟩
        simp only [ModelObj.storeEqn]
        rw [dget_dset_ne _ _ (hk c (by simp) rfl)]; exact hr
      · exact ⟨mo, by rw [m2, List.getElem?_set_ne hcm]; exact hm, hr⟩
    obtain ⟨mo1, k1, k2⟩ := key
    have hk' : ∀ c ∈ t, c.m2 = m → connKey w1 c ≠ k := fun d hd hdm => by
      have := hk d (by simp [hd]) hdm
      simpa only [connKey, Spec.qtys, q1] using this
    obtain ⟨i1, i2, i3, i4⟩ := ih h hk' k1 k2
    refine ⟨i1, i2.trans q1, ?_, fun x e' hx => i4 x e' ?_⟩
    · rw [← i3, e1]; simp; omega
    · rw [e1, List.getElem?_append_left (List.getElem?_eq_some_iff.mp hx).1]; exact hx

/-- C33 (partial): when a sequence of connections between variables succeeds, and no two of them with the same receiving model have variables with
the same names, then afterwards all of them are present: each has its own equation among the equations of the receiving model, with the
right residual.  (Names are supposed to be non-empty and without comma and hyphen.)
Missing: connections of expressions, where the second one between the same two models replaces the first
(`connections_of_expressions_overwrite`). -/
theorem connections_accumulate_partial (I : Interp K) (cs : List Spec.Conn) (w w' : World) (h : connectAll cs w = (.ok (), w'))
    (hd : cs.Pairwise (Spec.Differ w))
    (hn : ∀ c ∈ cs, ∀ q ∈ Spec.qtys w c.outs ++ Spec.qtys w c.ins, Spec.PlainName q.name) :
    ∃ rs : List ERef, rs.Nodup ∧ (∀ r ∈ rs, w.es[r]? = none) ∧ List.Forall₂ (Spec.Present I w w') cs rs := by
  have main : ∀ (cs : List Spec.Conn) (v : World), v.qs = w.qs → connectAll cs v = (.ok (), w') → cs.Pairwise (Spec.Differ w) →
      (∀ c ∈ cs, ∀ q ∈ Spec.qtys w c.outs ++ Spec.qtys w c.ins, Spec.PlainName q.name) →
      List.Forall₂ (Spec.Present I w w') cs (List.range' v.es.length cs.length) := by
    intro cs
    induction cs with
    | nil => intro v _ _ _ _; exact .nil
    | cons c t ih =>
      intro v hv h hd hn
      simp only [connectAll, each, PyM.bind_eq] at h
      rw [PyM.bind_ok] at h
      obtain ⟨⟨⟩, w1, h1, h⟩ := h
      obtain ⟨q1, e, n, mi, e1, e2, m1, m2, hval⟩ := connect_one I h1
      have hlt : c.m2 < v.ms.length := (List.getElem?_eq_some_iff.mp m1).1
      rw [List.pairwise_cons] at hd
      have hq : ∀ l, Spec.qtys v l = Spec.qtys w l := fun l => by simp only [Spec.qtys, hv]
      have hq1 : ∀ l, Spec.qtys w1 l = Spec.qtys w l := fun l => by simp only [Spec.qtys, q1, hv]
      simp only [List.length_cons, List.range'_succ]
      refine .cons ?_ ?_
      · have hk : ∀ d ∈ t, d.m2 = c.m2 → connKey w1 d ≠ connKey v c := by
          intro d hdt hm he
          simp only [connKey, hq, hq1] at he
          have nd := hn d (by simp [hdt])
          have nc := hn c (by simp)
          obtain ⟨k1, k2⟩ := key_inj (fun s hs => by
              obtain ⟨q, hq, rfl⟩ := List.mem_map.mp hs; exact nd q (List.mem_append.mpr (Or.inl hq)))
            (fun s hs => by obtain ⟨q, hq, rfl⟩ := List.mem_map.mp hs; exact nd q (List.mem_append.mpr (Or.inr hq)))
            (fun s hs => by obtain ⟨q, hq, rfl⟩ := List.mem_map.mp hs; exact nc q (List.mem_append.mpr (Or.inl hq)))
            (fun s hs => by obtain ⟨q, hq, rfl⟩ := List.mem_map.mp hs; exact nc q (List.mem_append.mpr (Or.inr hq))) he
          rcases hd.1 d hdt hm.symm with h | h
          · exact h k1.symm
          · exact h k2.symm
        obtain ⟨⟨mo', i1, i2⟩, _, _, i4⟩ := connect_keeps t h c.m2 (connKey v c) v.es.length hk
          (mo := mi.storeEqn (connKey v c) v.es.length) (by rw [m2]; simp [hlt]) (by simp [ModelObj.storeEqn])
        refine ⟨mo', e, n, i1, ?_, i4 _ _ (by rw [e1]; simp), e2, fun ρ => ?_⟩
        · have := mem_of_dget i2
          exact List.mem_map.mpr ⟨_, this, rfl⟩
        · rw [hval ρ, hq, hq]
      · have := ih w1 (q1.trans hv) h hd.2 (fun d hd => hn d (by simp [hd]))
        rw [e1] at this
        simpa using this
  refine ⟨_, List.nodup_range' (n := cs.length), fun r hr => ?_, main cs w rfl h hd hn⟩
  rw [List.mem_range'_1] at hr
  exact List.getElem?_eq_none hr.1

end

/-- Two connections between the models `a` and `b`. -/
example : (connectAll [⟨0, 1, [0], [2]⟩, ⟨0, 1, [1], [3]⟩] Ex.cworld).1 = .ok () ∧
    List.Pairwise (Spec.Differ Ex.cworld) [⟨0, 1, [0], [2]⟩, ⟨0, 1, [1], [3]⟩] ∧
    ∀ c ∈ [(⟨0, 1, [0], [2]⟩ : Spec.Conn), ⟨0, 1, [1], [3]⟩], ∀ q ∈ Spec.qtys Ex.cworld c.outs ++ Spec.qtys Ex.cworld c.ins, Spec.PlainName q.name := by
  refine ⟨by decide +kernel, ?_, ?_⟩
  · simp only [List.pairwise_cons, List.mem_singleton, forall_eq, List.not_mem_nil, false_implies, implies_true, List.Pairwise.nil, and_true]
    exact fun _ => Or.inl (by decide +kernel)
  · simp only [Spec.PlainName]
    decide +kernel

/-- C33 fails for connections of expressions: of two connections between the models `a` and `b` only the second one is left. -/
theorem connections_of_expressions_overwrite : ∃ (o o' i i' : PyExpr) (no no' ni ni' : ENode),
    o.build = .ok no ∧ o'.build = .ok no' ∧ i.build = .ok ni ∧ i'.build = .ok ni' ∧
    (createConnection (.model 0) 1 (.node no) (.node ni) none Ex.cworld).1 = .ok () ∧
    (createConnection (.model 0) 1 (.node no') (.node ni') none (createConnection (.model 0) 1 (.node no) (.node ni) none Ex.cworld).2).1 = .ok () ∧
    ((createConnection (.model 0) 1 (.node no') (.node ni') none (createConnection (.model 0) 1 (.node no) (.node ni) none Ex.cworld).2).2.ms[1]?.map
      fun mi => dvalues mi.eqns) = some [1] ∧
    ((createConnection (.model 0) 1 (.node no) (.node ni) none Ex.cworld).2.ms[1]?.map fun mi => dvalues mi.eqns) = some [0] :=
  ⟨.q 0 ((Ex.outV "u").quantity "a"), .q 1 ((Ex.outV "v").quantity "a"), .q 2 ((Ex.inV "x").quantity "b"), .q 3 ((Ex.inV "y").quantity "b"),
    _, _, _, _, rfl, rfl, rfl, rfl, by decide +kernel, by decide +kernel, by decide +kernel, by decide +kernel⟩

end Sloth
