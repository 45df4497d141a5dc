import Verif.Lemmas.Incorporate

/-!
# Properties of models (C25-C30)
-/

namespace Sloth
open PyM

/-! A sample session: model 0 "tank" with a variable, a parameter and an equation; model 1 "valve", empty. -/
namespace Ex
/-- `x` of the tank -/
def varX : VarArgs := { name := "x", units := Tmpl.m }
def parP : ParArgs := { name := "p", units := Tmpl.m, value := 2 }
/-- the session -/
def ops : List Op := [.newModel "tank" "" {} none, .newModel "valve" "" {} none, .var 0 varX, .par 0 parP]
def world : World := history ops World.init
/-- the tank's `x` and `p` as expressions -/
abbrev TX : PyExpr := .q 0 (varX.quantity "tank")
abbrev TP : PyExpr := .q 1 (parP.parameter "tank")
/-- `x() == p()` -/
def stXP : Stmt := .eqn TX TP
/-- its evaluation -/
def argXP : ResArg := .eqn ((varX.quantity "tank").call 0) ((parP.parameter "tank").call 1)
theorem stXP_arg : stXP.arg = .ok argXP := rfl
/-- the tank with the equation `x() == p()` -/
def opsE : List Op := ops ++ [.eqn 0 "e" "" (some argXP) true]
def worldE : World := history opsE World.init
end Ex

section
variable {K : Type} [Field K] [LinearOrder K]

/-! ## C25, C26 -/

/-- The names a model has declared. -/
def Spec.Declared (mo : ModelObj) (s : String) : Prop := s ∈ dkeys mo.vars ∨ s ∈ dkeys mo.pars ∨ s ∈ dkeys mo.cons

theorem declared_iff (mo : ModelObj) (s : String) : s ∈ mo.declared ↔ Spec.Declared mo s := by
  simp [ModelObj.declared, Spec.Declared, or_assoc]

theorem Spec.Declared.mono {n : Nat} {mo mo' : ModelObj} (h : mo.Le n mo') {s : String} (hs : Spec.Declared mo s) : Spec.Declared mo' s :=
  hs.imp (h.vars s) (Or.imp (h.pars s) (h.cons s))

/-- C25 (partial): when a session states an equation with checking on and the call returns, then the equation stored is the one stated, and
it and the quantities it is about stay: in every later state the model still has an equation of that name, the equation object
is unchanged, and every quantity the statement mentions is declared in the model.
Missing: the independent variable of a derivative, which is not checked (`undeclared_independent_variable`). -/
theorem accepted_equations_declared_partial (I : Interp K) (ρ : Atom → K) (before after : List Op) (m : MRef) (name description : String)
    (st : Stmt) {a : ResArg} (ha : st.arg = .ok a) {r : ERef} {w : World}
    (h : createEquation m name description (some a) true (history before World.init) = (.ok r, w)) :
    ∃ mo mo' e n, w.ms[m]? = some mo ∧ dget mo.eqns e.name = some r ∧
      (history after w).ms[m]? = some mo' ∧ (history after w).es[r]? = some e ∧ e.name ∈ dkeys mo'.eqns ∧
      (name ≠ "" → e.name = name ++ "_" ++ mo.name) ∧ e.owner = mo.name ∧ e.expr = some n ∧ n.sym.expr.eval I ρ = Spec.residual I ρ st ∧
      ∀ x ∈ Spec.parts st, ∀ p ∈ Spec.quantities x, Spec.Declared mo p.2.name ∧ Spec.Declared mo' p.2.name := by
  generalize history before World.init = w0 at h
  cases hm : w0.ms[m]? with
  | none => rw [createEquation_none hm] at h; simp at h
  | some mo0 =>
    rcases createEquation_run hm name description (some a) true with ⟨x, u, he⟩ | ⟨t, t', e, e', u, he, hi, hs, hc⟩ <;> rw [he] at h
    · simp at h
    simp only [Prod.mk.injEq, Except.ok.injEq] at h
    obtain ⟨rfl, rfl⟩ := h
    obtain ⟨n, hn, he'⟩ := EqObj.sweep_ok hs
    obtain ⟨f1, f2, f3, f4⟩ := EqObj.init_fields hi
    obtain ⟨e1, hset, rfl⟩ := EqObj.init_some hi
    obtain ⟨n1, hn1, hv, _⟩ := equation_residual I ρ st t' _ e1 ha hset
    obtain ⟨n2, hn2, _, _, _, _, _, _, hq, _⟩ := stmt_free st t' _ e1 ha hset
    have hnn : n1 = n := by have : e1.expr = some n := hn; rw [hn1] at this; cases this; rfl
    have hnn2 : n2 = n := by have : e1.expr = some n := hn; rw [hn2] at this; cases this; rfl
    subst hnn; subst hnn2
    have hlen := (List.getElem?_eq_some_iff.mp hm).1
    have o1 : e'.name = e1.name ++ "_" ++ mo0.name := by rw [he']
    have o2 : e'.owner = mo0.name := by rw [he']
    have o3 : e'.expr = some n2 := by rw [he']; exact hn
    have o4 : e'.objects = some n2.symMap := by rw [he']
    clear he'
    set w1 := ((w0.withUid u).addE e').withM m (mo0.storeEqn e'.name w0.es.length) with hw1
    have g1 : w1.ms[m]? = some (mo0.storeEqn e'.name w0.es.length) := by simp [w1, World.withM, World.addE, World.withUid, hlen]
    have g2 : w1.es[w0.es.length]? = some e' := by simp [w1, World.withM, World.addE, World.withUid]
    have hle := history_le after w1
    obtain ⟨mo', k1, k2⟩ := hle.ms _ _ g1
    have hdecl : ∀ s ∈ dkeys n2.symMap, Spec.Declared mo0 s := by
      have := hc rfl
      unfold ModelObj.checkEquation at this
      rw [o4] at this
      simp only at this
      split at this
      · rename_i hall
        intro s hs
        have := List.all_eq_true.mp hall s hs
        exact (declared_iff mo0 s).mp (List.contains_iff_mem.mp this)
      · simp at this
    refine ⟨_, mo', e', n2, g1, ?_, k1, hle.es _ _ g2, ?_, ?_, o2, o3, hv, ?_⟩
    · simp [ModelObj.storeEqn]
    · exact k2.eqns _ (by simp [ModelObj.storeEqn, mem_dkeys_dset])
    · intro hne
      have : e1.name = name := by simpa [hne] using f1
      simp [o1, this, ModelObj.storeEqn]
    · intro x hx p hp
      have h0 : Spec.Declared mo0 p.2.name := hdecl _ ((hq p.2.name).mpr ⟨x, hx, p, hp, rfl⟩)
      exact ⟨h0, Spec.Declared.mono k2 h0⟩

/-- The equation `x() == p()` is accepted in the tank. -/
example : ∃ r w, createEquation 0 "e" "" (some Ex.argXP) true Ex.world = (.ok r, w) ∧ w.es.length = 1 :=
  ⟨0, _, by rfl, by decide +kernel⟩

/-- C25, the test itself: a statement that can be stated at all is accepted by a checked `createEquation` exactly when every quantity it
mentions is declared in the model; otherwise `UnexpectedObjectDeclarationError` is raised. -/
theorem equation_check_iff (w : World) (m : MRef) (mo : ModelObj) (hm : w.ms[m]? = some mo) (name description : String) (st : Stmt)
    {a : ResArg} (ha : st.arg = .ok a) (hok : ∀ tag e, (EqObj.setResidual tag e a).1 = .ok ()) :
    ((∃ r, (createEquation m name description (some a) true w).1 = .ok r) ↔
      ∀ x ∈ Spec.parts st, ∀ p ∈ Spec.quantities x, Spec.Declared mo p.2.name) ∧
    ((createEquation m name description (some a) true w).1 = .error .unexpectedObjectDeclaration ↔
      ¬ ∀ x ∈ Spec.parts st, ∀ p ∈ Spec.quantities x, Spec.Declared mo p.2.name) := by
  classical
  have key : (createEquation m name description (some a) true w).1 =
      if (∀ x ∈ Spec.parts st, ∀ p ∈ Spec.quantities x, Spec.Declared mo p.2.name) then .ok w.es.length
      else .error .unexpectedObjectDeclaration := by
    unfold createEquation
    rw [PyM.bind_of_ok (getM_of hm)]
    obtain ⟨t, u, ht⟩ := tagIf_run (name == "") w
    rw [PyM.bind_of_ok ht]
    obtain ⟨t', u', ht'⟩ := tagIf_run (ResArg.needsTag (some a)) (w.withUid u)
    rw [PyM.bind_of_ok ht']
    have h1 := hok t' { name := if name = "" then t else name, description }
    obtain ⟨e1, he1⟩ : ∃ e1, EqObj.setResidual t' { name := if name = "" then t else name, description } a = (.ok (), e1) :=
      ⟨_, Prod.ext h1 rfl⟩
    have hi : EqObj.init t t' name description (some a) mo.name = .ok { e1 with owner := mo.name } := by
      simp only [EqObj.init, he1]
    obtain ⟨n, hn, _, _, _, _, _, _, hq, _⟩ := stmt_free st t' _ e1 ha he1
    rw [hi, PyM.bind_lift_ok]
    have hs : EqObj.sweep { e1 with owner := mo.name, name := e1.name ++ "_" ++ mo.name } =
        .ok { e1 with owner := mo.name, name := e1.name ++ "_" ++ mo.name, objects := some n.symMap } := by
      simp only [EqObj.sweep, hn]
    rw [hs, PyM.bind_lift_ok]
    have hall : (dkeys n.symMap).all (fun k => mo.declared.contains k) = true ↔
        ∀ x ∈ Spec.parts st, ∀ p ∈ Spec.quantities x, Spec.Declared mo p.2.name := by
      simp only [← declared_iff]
      rw [List.all_eq_true]
      constructor
      · intro h x hx p hp
        exact List.contains_iff_mem.mp (h _ ((hq p.2.name).mpr ⟨x, hx, p, hp, rfl⟩))
      · intro h s hs
        obtain ⟨x, hx, p, hp, rfl⟩ := (hq s).mp hs
        exact List.contains_iff_mem.mpr (h x hx p hp)
    simp only [PyM.when_true, ModelObj.checkEquation]
    by_cases hd : ∀ x ∈ Spec.parts st, ∀ p ∈ Spec.quantities x, Spec.Declared mo p.2.name
    · rw [if_pos (hall.mpr hd), if_pos hd]; rfl
    · rw [if_neg (mt hall.mp hd), if_neg hd]; rfl
  rw [key]
  by_cases hd : ∀ x ∈ Spec.parts st, ∀ p ∈ Spec.quantities x, Spec.Declared mo p.2.name
  · rw [if_pos hd]; exact ⟨⟨fun _ => hd, fun _ => ⟨_, rfl⟩⟩, ⟨fun h => (by cases h), fun h => absurd hd h⟩⟩
  · rw [if_neg hd]; exact ⟨⟨fun ⟨r, h⟩ => (by cases h), fun h => absurd h hd⟩, ⟨fun _ => hd, fun _ => rfl⟩⟩

/-- In the tank the equation is accepted, in the valve it is refused. -/
example : (createEquation 0 "e" "" (some Ex.argXP) true Ex.world).1 = .ok 0 ∧
    (createEquation 1 "e" "" (some Ex.argXP) true Ex.world).1 = .error .unexpectedObjectDeclaration ∧
    (∀ tag e, (EqObj.setResidual tag e Ex.argXP).1 = .ok ()) := by
  refine ⟨by decide +kernel, by decide +kernel, fun tag e => ?_⟩
  have h : ∃ d, ((Ex.varX.quantity "tank").call 0).sub (.node ((Ex.parP.parameter "tank").call 1)) = .ok d := ⟨_, rfl⟩
  obtain ⟨d, hd⟩ := h
  simp only [Ex.argXP, EqObj.setResidual, hd, EqObj.finish]

/-- C25 fails for independent variables: model 1 accepts the residual `Diff(y, t)` although `t` is declared in model 0 only. -/
theorem undeclared_independent_variable : ∃ (ops : List Op) (st : Stmt) (a : ResArg) (r : ERef) (mo : ModelObj),
    st.arg = .ok a ∧ (createEquation 1 "e" "" (some a) true (history ops World.init)).1 = .ok r ∧
    (history ops World.init).ms[1]? = some mo ∧
    (∃ x y : Quantity, st = .res (.diff 1 y (some (0, x))) ∧ (history ops World.init).qs[0]? = some x ∧ ¬ Spec.Declared mo x.name) := by
  refine ⟨[.newModel "a" "" {} none, .newModel "b" "" {} none, .var 0 { name := "t", units := Tmpl.s },
      .cmd 1 (.var "y" { name := "y", units := Tmpl.m }), .cmd 1 (.distribute { attr := "y" })],
    .res (.diff 1 (mkVariable "y_b" Tmpl.m (latex := "y") (owner := "b") (hasDomain := true))
      (some (0, mkVariable "t_a" Tmpl.s (latex := "t") (owner := "a")))), _, 0, _, rfl, by decide +kernel, rfl, _, _, rfl, by decide +kernel, ?_⟩
  simp only [Spec.Declared, not_or]
  decide +kernel

/-- C26: a `createEquation` that raises changes nothing but the counter of generated names, in any state. -/
theorem rejected_equation_changes_nothing (w w' : World) (m : MRef) (name description : String) (a : Option ResArg) (check : Bool) (x : Err)
    (h : createEquation m name description a check w = (.error x, w')) : w' = { w with uid := w'.uid } := by
  cases hm : w.ms[m]? with
  | none => rw [createEquation_none hm] at h; cases h; rfl
  | some mo =>
    rcases createEquation_run hm name description a check with ⟨x, u, he⟩ | ⟨t, t', e, e', u, he, hi, hs, hc⟩ <;> rw [he] at h
    · cases h; rfl
    · simp at h

/-- The same for a statement in the body of a model. -/
theorem rejected_equation_in_body (w w' : World) (m : MRef) (attr name description : String) (st : AStmt) (check : Bool) (x : Err)
    (h : Cmd.run m (.eqn attr name description st check) w = (.error x, w')) : w' = { w with uid := w'.uid } := by
  simp only [Cmd.run] at h
  rw [PyM.bind_run] at h
  cases he : AStmt.eval m st w with
  | mk r w1 =>
    have hw : w1 = w := by
      have : (AStmt.eval m st w).2 = w := rfl
      rw [he] at this; exact this
    subst hw
    rw [he] at h
    cases r with
    | error e => simp only [Prod.mk.injEq] at h; rw [← h.2]
    | ok a =>
      simp only at h
      rw [PyM.bind_run] at h
      cases hc : createEquation m name description (some a) check w1 with
      | mk r w2 =>
        rw [hc] at h
        cases r with
        | error e =>
          simp only [Prod.mk.injEq] at h
          rw [← h.2]
          exact rejected_equation_changes_nothing _ _ _ _ _ _ _ _ hc
        | ok r =>
          simp only at h
          cases hm : w2.ms[m]? with
          | some mo => rw [setAttr_run hm] at h; simp at h
          | none =>
            exfalso
            cases hm0 : w1.ms[m]? with
            | none => rw [createEquation_none hm0] at hc; simp at hc
            | some mo =>
              have := (le_elem.eqn m name description (some a) check (fun _ _ => trivial) w1).ms m mo hm0
              rw [hc] at this
              obtain ⟨_, h1, _⟩ := this
              rw [hm] at h1; simp at h1

/-- An unnamed undeclared equation: it is refused, the counter has moved. -/
example : (createEquation 1 "" "" (some Ex.argXP) true Ex.world).1 = .error .unexpectedObjectDeclaration ∧
    (createEquation 1 "" "" (some Ex.argXP) true Ex.world).2.uid ≠ Ex.world.uid := by decide +kernel

end

/-! ## C27 -/

/-- C27 (partial): inside one model distinct declared names of a class get distinct global names, and later declarations never remove an
earlier name; across models the global names are distinct when the models' names are distinct and contain no underscore.
Missing: the claim across classes (`variable_and_parameter_share_name`) and for models with underscores
(`names_of_models_clash`). -/
theorem declared_names_partial (before between after : List Op) (m : MRef) (a b : VarArgs) (hne : a.name ≠ b.name)
    {r1 r2 : Ref} {w1 w2 : World} (h1 : createVariable m a (history before World.init) = (.ok r1, w1))
    (h2 : createVariable m b (history between w1) = (.ok r2, w2)) :
    ∃ mo q1 q2, (history after w2).ms[m]? = some mo ∧ (history after w2).qs[r1]? = some q1 ∧ (history after w2).qs[r2]? = some q2 ∧
      r1 ≠ r2 ∧ q1.name = a.name ++ "_" ++ mo.name ∧ q2.name = b.name ++ "_" ++ mo.name ∧ q1.name ≠ q2.name ∧
      q1.name ∈ dkeys mo.vars ∧ q2.name ∈ dkeys mo.vars := by
  generalize history before World.init = w0 at h1
  cases hm : w0.ms[m]? with
  | none => rw [createVariable_none hm] at h1; simp at h1
  | some mo0 =>
    rw [createVariable_run hm] at h1
    simp only [Prod.mk.injEq] at h1
    obtain ⟨e1, rfl⟩ := h1
    have e1 : r1 = w0.qs.length := by split at e1 <;> simp at e1; exact e1.symm
    subst e1
    set w1 := (w0.addQ (a.quantity mo0.name)).withM m ((mo0.storeVar (a.quantity mo0.name).name w0.qs.length).exposeAs a w0.qs.length)
    have hlen := (List.getElem?_eq_some_iff.mp hm).1
    have p1 : w1.ms[m]? = some ((mo0.storeVar (a.quantity mo0.name).name w0.qs.length).exposeAs a w0.qs.length) :=
      withM_getM (w := w0.addQ _) hm _
    have p2 : w1.qs[w0.qs.length]? = some (a.quantity mo0.name) := by simp [w1, World.withM, World.addQ]
    have hl1 := history_le between w1
    generalize history between w1 = w3 at h2 hl1
    obtain ⟨mo3, p3, p4⟩ := hl1.ms _ _ p1
    rw [createVariable_run p3] at h2
    simp only [Prod.mk.injEq] at h2
    obtain ⟨e2, rfl⟩ := h2
    have e2 : r2 = w3.qs.length := by split at e2 <;> simp at e2; exact e2.symm
    subst e2
    set w2 := (w3.addQ (b.quantity mo3.name)).withM m ((mo3.storeVar (b.quantity mo3.name).name w3.qs.length).exposeAs b w3.qs.length)
    have p5 : w2.ms[m]? = some ((mo3.storeVar (b.quantity mo3.name).name w3.qs.length).exposeAs b w3.qs.length) :=
      withM_getM (w := w3.addQ _) p3 _
    have p6 : w2.qs[w3.qs.length]? = some (b.quantity mo3.name) := by simp [w2, World.withM, World.addQ]
    have hl2 : w3.Le w2 := World.Le.addQ_withM _ p3 (ModelObj.Le.exposeAs _ _ _ _)
    have hl3 := history_le after w2
    obtain ⟨mo, p7, p8⟩ := hl3.ms _ _ p5
    obtain ⟨q1, p9, p10⟩ := (hl1.trans (hl2.trans hl3)).qs _ _ p2
    obtain ⟨q2, p11, p12⟩ := hl3.qs _ _ p6
    have hexp : ∀ (x : ModelObj) (c : VarArgs) (r : Ref), (x.exposeAs c r).name = x.name ∧ (x.exposeAs c r).vars = x.vars := by
      intro x c r; unfold ModelObj.exposeAs; split
      · exact ⟨rfl, rfl⟩
      · split <;> exact ⟨rfl, rfl⟩
    have n3 : mo3.name = mo0.name := by rw [p4.name, (hexp _ _ _).1]; rfl
    have n' : mo.name = mo3.name := by rw [p8.name, (hexp _ _ _).1]; rfl
    have hn1 : q1.name = a.name ++ "_" ++ mo.name := by rw [p10.name, n', n3]; rfl
    have hn2 : q2.name = b.name ++ "_" ++ mo.name := by rw [p12.name, n']; rfl
    refine ⟨mo, q1, q2, p7, p9, p11, ?_, hn1, hn2, ?_, ?_, ?_⟩
    · have := hl1.len
      have : w1.qs.length = w0.qs.length + 1 := by simp [w1, World.withM, World.addQ]
      show (w0.qs.length : Nat) ≠ w3.qs.length
      omega
    · rw [hn1, hn2]; exact fun h => hne (name_inj h)
    · rw [p10.name]
      apply p8.vars
      rw [(hexp _ _ _).2]
      simp only [ModelObj.storeVar, mem_dkeys_dset]
      right
      apply p4.vars
      rw [(hexp _ _ _).2]
      simp [ModelObj.storeVar, mem_dkeys_dset]
    · rw [p12.name]
      apply p8.vars
      rw [(hexp _ _ _).2]
      simp [ModelObj.storeVar, mem_dkeys_dset]

example : ∃ w1 w2, createVariable 1 { name := "x", units := Tmpl.m } (history Ex.ops World.init) = (.ok 2, w1) ∧
    createVariable 1 { name := "y", units := Tmpl.m } (history [.par 1 Ex.parP] w1) = (.ok 4, w2) := ⟨_, _, rfl, rfl⟩

/-- C27, across models: in a session that never gives a model inlets and never incorporates without renaming, objects of owners with
different underscore-free names have different names. -/
theorem names_of_different_models (ops : List Op) (hp : Plain ops) (r1 r2 : Ref) (q1 q2 : Quantity)
    (h1 : (history ops World.init).qs[r1]? = some q1) (h2 : (history ops World.init).qs[r2]? = some q2)
    (u1 : '_' ∉ q1.owner.toList) (u2 : '_' ∉ q2.owner.toList) (hne : q1.owner ≠ q2.owner) : q1.name ≠ q2.name := by
  obtain ⟨b1, e1⟩ := (plain_named hp).qs q1 (List.mem_of_getElem? h1)
  obtain ⟨b2, e2⟩ := (plain_named hp).qs q2 (List.mem_of_getElem? h2)
  intro h
  rw [e1, e2] at h
  exact hne (name_split h u1 u2).2

example : Plain (Ex.ops ++ [.var 1 Ex.varX]) ∧ ∃ q1 q2, (history (Ex.ops ++ [.var 1 Ex.varX]) World.init).qs[0]? = some q1 ∧
    (history (Ex.ops ++ [.var 1 Ex.varX]) World.init).qs[2]? = some q2 ∧ q1.owner = "tank" ∧ q2.owner = "valve" := by
  refine ⟨?_, _, _, rfl, rfl, rfl, rfl⟩
  intro o ho
  simp only [Ex.ops, List.cons_append, List.nil_append, List.mem_cons, List.not_mem_nil, or_false] at ho
  rcases ho with rfl | rfl | rfl | rfl | rfl <;> trivial

/-- C27 fails when a model's name contains an underscore: `x` of model `a_b` and `x_a` of model `b` are two variables called `x_a_b`. -/
theorem names_of_models_clash : ∃ (ops : List Op) (q1 q2 : Quantity), Plain ops ∧ (history ops World.init).qs[0]? = some q1 ∧
    (history ops World.init).qs[1]? = some q2 ∧ q1.owner ≠ q2.owner ∧ q1.name = q2.name := by
  refine ⟨[.newModel "a_b" "" {} none, .newModel "b" "" {} none, .var 0 { name := "x", units := Tmpl.m },
    .var 1 { name := "x_a", units := Tmpl.m }], _, _, ?_, rfl, rfl, by decide, by decide⟩
  intro o ho
  simp only [List.mem_cons, List.not_mem_nil, or_false] at ho
  rcases ho with rfl | rfl | rfl | rfl <;> trivial

/-- C27 fails across classes: a variable and a parameter of one model can have the same global name. -/
theorem variable_and_parameter_share_name : ∃ (ops : List Op) (mo : ModelObj) (k : String),
    (history ops World.init).ms[0]? = some mo ∧ k ∈ dkeys mo.vars ∧ k ∈ dkeys mo.pars ∧ dget mo.vars k ≠ dget mo.pars k :=
  ⟨[.newModel "a" "" {} none, .var 0 { name := "x", units := Tmpl.m }, .par 0 { name := "x", units := Tmpl.s }], _, "x_a", rfl,
    by decide, by decide, by decide⟩

/-! ## C28 -/

section
variable {K : Type} [Field K] [LinearOrder K]

theorem mem_dofList {α β : Type} [DecidableEq α] {l : List (α × β)} {p : α × β} (h : p ∈ dofList l) : p ∈ l := by
  have : ∀ (d : Dict α β) (e : List (α × β)), p ∈ dupdate d e → p ∈ d ∨ p ∈ e := by
    intro d e
    induction e generalizing d with
    | nil => exact Or.inl
    | cons x t ih =>
      intro h
      rcases ih _ h with h | h
      · obtain ⟨k, v⟩ := p
        rcases mem_dset h with ⟨h1, h2⟩ | h
        · exact Or.inr (by simp [h1, h2])
        · exact Or.inl h
      · exact Or.inr (by simp [h])
  simpa using this [] l h

theorem nameOf_dofList (l : List String) (g : String → String) (k : String) :
    nameOf (dofList (l.map fun k => (k, g k))) k = if k ∈ l then g k else k := by
  unfold nameOf
  cases h : dget (dofList (l.map fun k => (k, g k))) k with
  | some v =>
    have := mem_dofList (mem_of_dget h)
    simp only [List.mem_map, Prod.mk.injEq] at this
    obtain ⟨k', h1, rfl, rfl⟩ := this
    simp [h1]
  | none =>
    rw [dget_eq_none_iff] at h
    have hk : k ∉ l := by
      intro hk; apply h
      have : k ∈ dkeys (l.map fun k => (k, g k)) := by simpa [dkeys] using hk
      exact (mem_dkeys_dupdate [] _ k).mpr (Or.inr this)
    simp [hk]

theorem dkeys_dofList_map (l : List String) (g : String → String) (k : String) :
    k ∈ dkeys (dofList (l.map fun k => (k, g k))) ↔ k ∈ l := by
  have := mem_dkeys_dupdate ([] : Dict String String) (l.map fun k => (k, g k)) k
  simp only [dkeys_nil, List.not_mem_nil, false_or] at this
  rw [show dofList (l.map fun k => (k, g k)) = dupdate [] (l.map fun k => (k, g k)) from rfl, this]
  simp [dkeys]

/-- A renaming that moves the declared names of one model to another one. -/
def Spec.Moves (source : ModelObj) (target : String) (f : String → String) : Prop :=
  (∀ b : String, Spec.Declared source (b ++ "_" ++ source.name) → f (b ++ "_" ++ source.name) = b ++ "_" ++ target) ∧
  ∀ s, ¬ Spec.Declared source s → f s = s

/-- What a copied quantity differs in. -/
def Spec.copyQ (q : Quantity) (name owner : String) : Quantity := { q with name := name, owner := owner }

/-- All entries of a dictionary of quantities have been copied. -/
def Spec.CopiedQ (w w' : World) (s t : String) (d d' : Dict String Ref) : Prop :=
  (∀ k ∈ dkeys d, ∃ b : String, k = b ++ "_" ++ s) ∧
  ∀ (b : String) (r : Ref) (q : Quantity), dget d (b ++ "_" ++ s) = some r → w.qs[r]? = some q →
    ∃ r', dget d' (b ++ "_" ++ t) = some r' ∧ w'.qs[r']? = some (Spec.copyQ q (b ++ "_" ++ t) t)

theorem decl_owned {w : World} (hw : w.Named) {k : Kind} {o : String} {d : Dict String Ref} (h : w.Decl k o d) :
    ∀ k ∈ dkeys d, ∃ b : String, k = b ++ "_" ++ o := by
  intro k hk
  obtain ⟨r, hr⟩ := exists_dget_of_mem hk
  obtain ⟨q, h1, h2, _, h4⟩ := h.2 _ (mem_of_dget hr)
  obtain ⟨b, hb⟩ := hw.qs q (List.mem_of_getElem? h1)
  exact ⟨b, by rw [h4] at hb; exact h2.symm.trans hb⟩

theorem copied_of_loop {w w1 w' : World} (hw : w.Named) {k : Kind} {s t : String} (hs : s ≠ "") {d d' : Dict String Ref}
    (h : w.Decl k s d) (hq1 : ∀ (r : Ref) (q : Quantity), w.qs[r]? = some q → w1.qs[r]? = some q)
    (hl : ∀ r ∈ dvalues d, ∀ q, w1.qs[r]? = some q →
      ((∀ r' ∈ dvalues d, ∀ q', w1.qs[r']? = some q' → (q'.copyTo true t).name = (q.copyTo true t).name → q' = q) →
        ∃ r', dget d' (q.copyTo true t).name = some r' ∧ w'.qs[r']? = some (q.copyTo true t))) :
    Spec.CopiedQ w w' s t d d' := by
  have hcopy : ∀ (r : Ref) (q : Quantity) (b : String), dget d (b ++ "_" ++ s) = some r → w.qs[r]? = some q → (q.copyTo true t).name = b ++ "_" ++ t := by
    intro r q b hr hq
    obtain ⟨q', h1, h2, _, h4⟩ := h.2 _ (mem_of_dget hr)
    simp only at h1 h2 h4
    rw [hq] at h1; cases h1
    have : objectName q.name q.owner = b := by rw [h2, h4]; exact objectName_owned b hs
    unfold Quantity.copyTo newName; simp only [if_true]; rw [this]
  refine ⟨decl_owned hw h, fun b r q hr hq => ?_⟩
  have hmem : r ∈ dvalues d := List.mem_map.mpr ⟨_, mem_of_dget hr, rfl⟩
  obtain ⟨r', h1, h2⟩ := hl r hmem q (hq1 r q hq) (by
    intro r2 hr2 q2 hq2 he
    obtain ⟨⟨k2, r2'⟩, hp2, rfl⟩ := List.mem_map.mp hr2
    obtain ⟨q2', g1, g2, _, g4⟩ := h.2 _ hp2
    simp only at g1 g2 g4 hq2
    have := hq1 _ _ g1
    rw [hq2] at this; cases this
    obtain ⟨b2, hb2⟩ := decl_owned hw h k2 (mem_dkeys_of_mem hp2)
    subst hb2
    rw [hcopy r2' q2 b2 (dget_of_mem h.1 hp2) g1, hcopy r q b hr hq] at he
    have hb := name_inj he
    subst hb
    have := dget_of_mem h.1 hp2
    rw [hr] at this; cases this
    rw [hq] at g1; cases g1; rfl)
  rw [hcopy r q b hr hq] at h1
  have hc := hcopy r q b hr hq
  refine ⟨r', h1, ?_⟩
  rw [h2, ← hc]
  rfl

/-- What incorporation leaves behind, with the rewriting of each equation. -/
theorem incorporated (I : Interp K) (ops : List Op) (hp : Plain ops) (m src : MRef) (mo so : ModelObj)
    (hm : (history ops World.init).ms[m]? = some mo) (hs : (history ops World.init).ms[src]? = some so) (hne : m ≠ src)
    (hn : so.name ≠ "") (hu : '_' ∉ so.name.toList) (hu' : '_' ∉ mo.name.toList)
    (hown : ∀ p ∈ so.eqns, ∀ e, (history ops World.init).es[p.2]? = some e → e.owner = so.name)
    {w' : World} (h : incorporate m src {} (history ops World.init) = (.ok (), w')) :
    let w := history ops World.init
    w'.ms[src]? = some so ∧ (∀ (r : Ref) (q : Quantity), w.qs[r]? = some q → w'.qs[r]? = some q) ∧
    (∀ (r : ERef) (e : EqObj), w.es[r]? = some e → w'.es[r]? = some e) ∧
    ∃ mo', w'.ms[m]? = some mo' ∧ mo'.name = mo.name ∧
      Spec.CopiedQ w w' so.name mo.name so.vars mo'.vars ∧ Spec.CopiedQ w w' so.name mo.name so.pars mo'.pars ∧
      Spec.CopiedQ w w' so.name mo.name so.cons mo'.cons ∧
      (∀ k ∈ dkeys so.eqns, ∃ b : String, k = b ++ "_" ++ so.name) ∧
      (∀ (b : String) (r : ERef) (e : EqObj), dget so.eqns (b ++ "_" ++ so.name) = some r → w.es[r]? = some e →
        ∃ r' e' n n', dget mo'.eqns (b ++ "_" ++ mo.name) = some r' ∧ w'.es[r']? = some e' ∧
          e'.name = b ++ "_" ++ mo.name ∧ e'.owner = mo.name ∧ e'.type = e.type ∧ e'.form = e.form ∧
          e.expr = some n ∧ e'.expr = some n' ∧
          (∀ f, Spec.Moves so mo.name f → ∀ ρ ρ', Spec.Renamed f ρ ρ' → n'.sym.expr.eval I ρ' = n.sym.expr.eval I ρ) ∧
          (∀ s ∈ dkeys n'.symMap, Spec.Declared mo' s ∧ ∃ k ∈ n.repr.free, ∀ f, Spec.Moves so mo.name f → s = f k) ∧
          ∃ names whole, (e.copyTo mo.name).convert names whole = .ok e' ∧ ∀ f, Spec.Moves so mo.name f → ∀ a : Sym, a.subsNames names = a.ren f) := by
  intro w
  have hw : w.WF := reachable_wf ⟨ops, rfl⟩
  have hN : w.Named := plain_named hp
  change incorporate m src {} w = _ at h
  change w.ms[m]? = some mo at hm
  change w.ms[src]? = some so at hs
  have hso := hw.ms src so hs
  unfold incorporate at h
  rw [PyM.bind_of_ok (getM_of hs)] at h
  simp only [PyM.when_true] at h
  rw [PyM.bind_ok] at h
  obtain ⟨_, w1, h1, h⟩ := h
  have hdom : ∀ {k o} {d : Dict String Ref}, w.Decl k o d → ∀ r ∈ dvalues d, ∃ q, w.qs[r]? = some q := by
    intro k o d hd r hr
    obtain ⟨p, hp, rfl⟩ := List.mem_map.mp hr
    obtain ⟨q, hq, _⟩ := hd.2 p hp
    exact ⟨q, hq⟩
  obtain ⟨G1, _, mo1, m1, s1, _, k1, c1⟩ := copyLoop (copyVars m) _ w w1 mo hm (hdom hso.vars) h1
  rw [PyM.bind_of_ok (getM_of ((G1.ms src hne.symm).trans hs)), PyM.bind_ok] at h
  obtain ⟨_, w2, h2, h⟩ := h
  obtain ⟨G2, _, mo2, m2, s2, _, k2, c2⟩ := copyLoop (copyPars m) _ w1 w2 mo1 m1 (fun r hr => (hdom hso.pars r hr).imp fun _ hx => G1.getQ hx) h2
  have G12 := (grown_preRel m).trans _ _ _ G1 G2
  rw [PyM.bind_of_ok (getM_of ((G12.ms src hne.symm).trans hs)), PyM.bind_ok] at h
  obtain ⟨_, w3, h3, h⟩ := h
  obtain ⟨G3, _, mo3, m3, s3, _, k3, c3⟩ := copyLoop (copyCons m) _ w2 w3 mo2 m2 (fun r hr => (hdom hso.cons r hr).imp fun _ hx => G12.getQ hx) h3
  have G13 := (grown_preRel m).trans _ _ _ G12 G3
  rw [PyM.bind_of_ok (getM_of ((G13.ms src hne.symm).trans hs)), PyM.bind_of_ok (getM_of m3)] at h
  obtain ⟨G4, q4, mo4, m4, s4, _, c4⟩ := copyEqns _ w3 w' mo3 m3 (fun r hr => by
    obtain ⟨p, hp, rfl⟩ := List.mem_map.mp hr
    obtain ⟨e, he, _⟩ := hso.eqns.2 p hp
    exact ⟨e, G13.getE he⟩) h
  have G := (grown_preRel m).trans _ _ _ G13 G4
  unfold ModelObj.SameButVars at s1
  unfold ModelObj.SameButPars at s2
  unfold ModelObj.SameButCons at s3
  unfold ModelObj.SameButEqns at s4
  have n1 : mo1.name = mo.name := by rw [s1]
  have n2 : mo2.name = mo.name := by rw [s2]; exact n1
  have n3 : mo3.name = mo.name := by rw [s3]; exact n2
  have n4 : mo4.name = mo.name := by rw [s4]; exact n3
  have v4 : mo4.vars = mo1.vars := by rw [s4]; show mo3.vars = _; rw [s3]; show mo2.vars = _; rw [s2]
  have p4 : mo4.pars = mo2.pars := by rw [s4]; show mo3.pars = _; rw [s3]
  have c4' : mo4.cons = mo3.cons := by rw [s4]
  have G34 := (grown_preRel m).trans _ _ _ G3 G4
  have G24 := (grown_preRel m).trans _ _ _ G2 G34
  refine ⟨(G.ms src hne.symm).trans hs, fun r q => G.getQ, fun r e => G.getE, mo4, m4, n4, ?_, ?_, ?_, ?_, ?_⟩
  · rw [v4]
    refine copied_of_loop (w1 := w) hN hn hso.vars (fun _ _ => id) ?_
    intro r hr q hq hinj
    obtain ⟨r', a1, a2⟩ := (c1 r hr q hq).2 hinj
    exact ⟨r', a1, G24.getQ a2⟩
  · rw [p4]
    refine copied_of_loop (w1 := w1) hN hn hso.pars (fun _ _ => G1.getQ) ?_
    intro r hr q hq hinj
    rw [n1] at c2
    obtain ⟨r', a1, a2⟩ := (c2 r hr q hq).2 hinj
    exact ⟨r', a1, G34.getQ a2⟩
  · rw [c4']
    refine copied_of_loop (w1 := w2) hN hn hso.cons (fun _ _ => G12.getQ) ?_
    intro r hr q hq hinj
    rw [n2] at c3
    obtain ⟨r', a1, a2⟩ := (c3 r hr q hq).2 hinj
    exact ⟨r', a1, G4.getQ a2⟩
  · intro k hk
    obtain ⟨r, hr⟩ := exists_dget_of_mem hk
    obtain ⟨e, h1, h2, _⟩ := hso.eqns.2 _ (mem_of_dget hr)
    have ho := hown _ (mem_of_dget hr) e h1
    obtain ⟨b, hb⟩ := hN.es e (List.mem_of_getElem? h1) (by rw [ho]; exact hn)
    exact ⟨b, by rw [ho] at hb; exact h2.symm.trans hb⟩
  · intro b r e hr he
    have hmem : ∀ {k r}, dget so.eqns k = some r → r ∈ dvalues so.eqns := fun hr => List.mem_map.mpr ⟨_, mem_of_dget hr, rfl⟩
    have hcopy : ∀ (r : ERef) (e : EqObj) (b : String), dget so.eqns (b ++ "_" ++ so.name) = some r → w.es[r]? = some e →
        (e.copyTo mo.name).name = b ++ "_" ++ mo.name := by
      intro r e b hr he
      obtain ⟨e', h1, h2, _⟩ := hso.eqns.2 _ (mem_of_dget hr)
      simp only at h1 h2
      rw [he] at h1; cases h1
      have ho := hown _ (mem_of_dget hr) e he
      have : objectName e.name e.owner = b := by rw [h2, ho]; exact objectName_owned b hn
      unfold EqObj.copyTo newName; simp only [if_true]; rw [this]
    have hkey : ∀ p ∈ so.eqns, ∃ b : String, p.1 = b ++ "_" ++ so.name := by
      intro p hp
      obtain ⟨e, h1, h2, _⟩ := hso.eqns.2 _ hp
      have ho := hown _ hp e h1
      obtain ⟨b, hb⟩ := hN.es e (List.mem_of_getElem? h1) (by rw [ho]; exact hn)
      exact ⟨b, by rw [ho] at hb; exact h2.symm.trans hb⟩
    rw [n3] at c4
    obtain ⟨e', hc, hst⟩ := c4 r (hmem hr) e (G13.getE he)
    obtain ⟨r', d1, d2⟩ := hst (by
      intro r2 hr2 e2 he2 hee
      obtain ⟨⟨k2, r2'⟩, hp2, rfl⟩ := List.mem_map.mp hr2
      obtain ⟨e2', g1, g2, _⟩ := hso.eqns.2 _ hp2
      simp only at g1 g2 he2
      have := G13.getE g1
      rw [he2] at this; cases this
      obtain ⟨b2, hb2⟩ := hkey _ hp2
      simp only at hb2
      subst hb2
      rw [hcopy r2' e2 b2 (dget_of_mem hso.eqns.1 hp2) g1, hcopy r e b hr he] at hee
      have hb := name_inj hee
      subst hb
      have := dget_of_mem hso.eqns.1 hp2
      rw [hr] at this; cases this
      rw [he] at g1; cases g1; rfl)
    -- the renaming table
    have hdecl : ∀ k, k ∈ dkeys so.vars ++ dkeys so.pars ++ dkeys so.cons ↔ Spec.Declared so k := declared_iff so
    have hform : ∀ k, Spec.Declared so k → ∃ b : String, k = b ++ "_" ++ so.name := by
      rintro k (h | h | h)
      · exact decl_owned hN hso.vars k h
      · exact decl_owned hN hso.pars k h
      · exact decl_owned hN hso.cons k h
    have htab : ∀ f, Spec.Moves so mo.name f → ∀ k, nameOf (namesMap so mo.name) k = f k := by
      intro f hf k
      unfold namesMap
      rw [nameOf_dofList]
      by_cases hk : Spec.Declared so k
      · rw [if_pos ((hdecl k).mpr hk)]
        obtain ⟨b, rfl⟩ := hform k hk
        rw [pyDropEnd_owned, hf.1 b hk]
      · rw [if_neg (fun h => hk ((hdecl k).mp h)), hf.2 k hk]
    have hchain : NoChain (namesMap so mo.name) := by
      intro p hp hin
      have h1 := mem_dofList hp
      simp only [List.mem_map] at h1
      obtain ⟨k, hk, rfl⟩ := h1
      unfold namesMap at hin
      rw [dkeys_dofList_map] at hin
      obtain ⟨b, rfl⟩ := hform k ((hdecl k).mp hk)
      obtain ⟨b', hb'⟩ := hform _ ((hdecl _).mp hin)
      simp only [pyDropEnd_owned] at hb' ⊢
      obtain ⟨_, h3⟩ := name_split hb' hu' hu
      rw [h3]
    obtain ⟨n, n', x1, x2, x3, x4, _, _, x5, x6, x7, _⟩ := equation_rename_partial I _ e' _ _ (dofList_nodup _) hchain hc
    have hcf := EqObj.convert_fields hc
    refine ⟨r', e', n, n', ?_, d2, ?_, hcf.2.1, x4, x3, x1, x2, ?_, ?_, namesMap so mo.name, wholeMap mo3, hc, fun f hf a => ?_⟩
    · rw [← hcopy r e b hr he]; exact d1
    · rw [hcf.1, hcopy r e b hr he]
    · intro f hf ρ ρ' hren
      refine (x5 ρ ρ' ?_).1
      have : nameOf (namesMap so mo.name) = f := funext (htab f hf)
      unfold namesMap at this
      rw [this]; exact hren
    · intro s hs'
      refine ⟨?_, ?_⟩
      · obtain ⟨rr, hrr⟩ := exists_dget_of_mem hs'
        have h9 := mem_dkeys_of_dget (x7 s rr hrr)
        unfold wholeMap at h9
        simp only [mem_dkeys_dupdate, dkeys_nil, List.not_mem_nil, false_or] at h9
        have v3 : mo4.vars = mo3.vars := by rw [s4]
        have p3 : mo4.pars = mo3.pars := by rw [s4]
        unfold Spec.Declared
        rw [v3, p3, c4']
        rcases h9 with (h9 | h9) | h9
        · exact Or.inr (Or.inr h9)
        · exact Or.inr (Or.inl h9)
        · exact Or.inl h9
      · obtain ⟨k, hk, rfl⟩ := (x6 s).mp hs'
        exact ⟨k, hk, fun f hf => htab f hf k⟩
    · rw [subsNames_eq (namesMap so mo.name) (dofList_nodup _) hchain, show nameOf (namesMap so mo.name) = f from funext (htab f hf)]

/-- C28 (partial): in a session without inlets and without incorporation under the old names, when `incorporateFromExternalModel` returns
for two models with underscore-free names, the source model and all existing objects are unchanged, the target has a renamed copy
of every variable, parameter and constant of the source, and a renamed copy of every equation: it has the same value under the
moved assignment, the same kind and form, and mentions only names declared in the target.
Missing: sources with an exposed variable (`incorporate_exposed_raises`); connection equations, which carry no owner; names with
underscores (`incorporate_merges_variables`). -/
theorem incorporate_copies_partial (I : Interp K) (ops : List Op) (hp : Plain ops) (m src : MRef) (mo so : ModelObj)
    (hm : (history ops World.init).ms[m]? = some mo) (hs : (history ops World.init).ms[src]? = some so) (hne : m ≠ src)
    (hn : so.name ≠ "") (hu : '_' ∉ so.name.toList) (hu' : '_' ∉ mo.name.toList)
    (hown : ∀ p ∈ so.eqns, ∀ e, (history ops World.init).es[p.2]? = some e → e.owner = so.name)
    {w' : World} (h : incorporate m src {} (history ops World.init) = (.ok (), w')) :
    let w := history ops World.init
    w'.ms[src]? = some so ∧ (∀ (r : Ref) (q : Quantity), w.qs[r]? = some q → w'.qs[r]? = some q) ∧
    (∀ (r : ERef) (e : EqObj), w.es[r]? = some e → w'.es[r]? = some e) ∧
    ∃ mo', w'.ms[m]? = some mo' ∧ mo'.name = mo.name ∧
      Spec.CopiedQ w w' so.name mo.name so.vars mo'.vars ∧ Spec.CopiedQ w w' so.name mo.name so.pars mo'.pars ∧
      Spec.CopiedQ w w' so.name mo.name so.cons mo'.cons ∧
      (∀ k ∈ dkeys so.eqns, ∃ b : String, k = b ++ "_" ++ so.name) ∧
      (∀ (b : String) (r : ERef) (e : EqObj), dget so.eqns (b ++ "_" ++ so.name) = some r → w.es[r]? = some e →
        ∃ r' e' n n', dget mo'.eqns (b ++ "_" ++ mo.name) = some r' ∧ w'.es[r']? = some e' ∧
          e'.name = b ++ "_" ++ mo.name ∧ e'.owner = mo.name ∧ e'.type = e.type ∧ e'.form = e.form ∧
          e.expr = some n ∧ e'.expr = some n' ∧
          (∀ f, Spec.Moves so mo.name f → ∀ ρ ρ', Spec.Renamed f ρ ρ' → n'.sym.expr.eval I ρ' = n.sym.expr.eval I ρ) ∧
          (∀ s ∈ dkeys n'.symMap, Spec.Declared mo' s ∧ ∃ k ∈ n.repr.free, ∀ f, Spec.Moves so mo.name f → s = f k)) := by
  obtain ⟨h1, h2, h3, mo', h4, h5, h6, h7, h8, h9, h10⟩ := incorporated I ops hp m src mo so hm hs hne hn hu hu' hown h
  refine ⟨h1, h2, h3, mo', h4, h5, h6, h7, h8, h9, fun b r e hr he => ?_⟩
  obtain ⟨r', e', n, n', q1, q2, q3, q4, q5, q6, q7, q8, q9, q10, _⟩ := h10 b r e hr he
  exact ⟨r', e', n, n', q1, q2, q3, q4, q5, q6, q7, q8, q9, q10⟩

/-- The valve incorporates the tank with its equation. -/
example : (incorporate 1 0 {} Ex.worldE).1 = .ok () ∧ ((incorporate 1 0 {} Ex.worldE).2.ms[1]?.map fun mo => (dkeys mo.vars, dkeys mo.pars, dkeys mo.eqns)) =
    some (["x_valve"], ["p_valve"], ["e_valve"]) ∧ (Ex.worldE.ms[0]?.map fun so => so.eqns.map fun p => (Ex.worldE.es[p.2]?.map EqObj.owner)) =
    some [some "tank"] := by decide +kernel
example : Plain Ex.opsE := by
  intro o ho
  simp only [Ex.opsE, Ex.ops, List.cons_append, List.nil_append, List.mem_cons, List.not_mem_nil, or_false] at ho
  rcases ho with rfl | rfl | rfl | rfl | rfl <;> first | trivial | exact fun _ _ => trivial

end

/-- C28 fails for exposed variables: a model with an exposed variable can never be incorporated (with its variables) into another one. -/
theorem incorporate_exposed_raises (ops : List Op) (m src : MRef) (mo so : ModelObj)
    (hm : (history ops World.init).ms[m]? = some mo) (hs : (history ops World.init).ms[src]? = some so)
    (hex : ∃ p ∈ so.vars, ∃ q, (history ops World.init).qs[p.2]? = some q ∧ q.isExposed = true) (w' : World) :
    incorporate m src {} (history ops World.init) ≠ (.ok (), w') := by
  intro h
  have hw : (history ops World.init).WF := reachable_wf ⟨ops, rfl⟩
  unfold incorporate at h
  rw [PyM.bind_of_ok (getM_of hs)] at h
  simp only [PyM.when_true] at h
  rw [PyM.bind_ok] at h
  obtain ⟨_, w1, h1, h⟩ := h
  obtain ⟨_, _, mo1, m1, s1, _, k1, c1⟩ := copyLoop (copyVars m) _ _ w1 mo hm (fun r hr => by
    obtain ⟨p, hp, rfl⟩ := List.mem_map.mp hr
    obtain ⟨q, hq, _⟩ := (hw.ms src so hs).vars.2 p hp
    exact ⟨q, hq⟩) h1
  obtain ⟨p, hp, q, hq, he⟩ := hex
  have := (c1 p.2 (List.mem_map.mpr ⟨p, hp, rfl⟩) q hq).1
  rw [he] at this
  simp at this

example : ∃ (ops : List Op) (mo so : ModelObj), (history ops World.init).ms[1]? = some mo ∧ (history ops World.init).ms[0]? = some so ∧
    ∃ p ∈ so.vars, ∃ q, (history ops World.init).qs[p.2]? = some q ∧ q.isExposed = true :=
  ⟨[.newModel "a" "" {} none, .newModel "b" "" {} none, .var 0 { name := "x", units := Tmpl.m, exposed := true, vtype := "input" }], _, _,
    rfl, rfl, ("x_a", 0), by decide, _, rfl, rfl⟩

/-- C28 fails for names with underscores: model `t` incorporates model `s_t`, whose variables are `v` and `v_s`; the copy of the equation
`v - v_s` is `v_t - v_t`, which holds always. -/
theorem incorporate_merges_variables : ∃ ops : List Op, Plain ops ∧
    (incorporate 1 0 {} (history ops World.init)).1 = .ok () ∧
    ((history ops World.init).es[0]?.bind EqObj.expr).map (fun n => n.sym.expr) = some (.sub (.atom (.v "v_s_t")) (.atom (.v "v_s_s_t"))) ∧
    ((incorporate 1 0 {} (history ops World.init)).2.es[1]?.bind EqObj.expr).map (fun n => n.sym.expr) =
      some (.sub (.atom (.v "v_t")) (.atom (.v "v_t"))) := by
  refine ⟨[.newModel "s_t" "" {} none, .newModel "t" "" {} none, .var 0 { name := "v", units := Tmpl.m },
    .var 0 { name := "v_s", units := Tmpl.m }, .eqn 0 "e" "" (some (.eqn
      ((VarArgs.quantity { name := "v", units := Tmpl.m } "s_t").call 0) ((VarArgs.quantity { name := "v_s", units := Tmpl.m } "s_t").call 1))) true],
    ?_, by decide +kernel, by decide +kernel, by decide +kernel⟩
  intro o ho
  simp only [List.mem_cons, List.not_mem_nil, or_false] at ho
  rcases ho with rfl | rfl | rfl | rfl | rfl <;> first | trivial | exact fun _ _ => trivial

/-- Incorporation replaces a variable of the target that has the name of a variable of the source; equations the target already has
keep referring to the replaced one. -/
theorem incorporate_overwrites_own_variable : ∃ (ops : List Op) (mo mo' : ModelObj) (r r' : Ref),
    (history ops World.init).ms[1]? = some mo ∧ (incorporate 1 0 {} (history ops World.init)).1 = .ok () ∧
    (incorporate 1 0 {} (history ops World.init)).2.ms[1]? = some mo' ∧
    dget mo.vars "x_b" = some r ∧ dget mo'.vars "x_b" = some r' ∧ r ≠ r' :=
  ⟨[.newModel "a" "" {} none, .newModel "b" "" {} none, .var 0 { name := "x", units := Tmpl.m }, .var 1 { name := "x", units := Tmpl.s }],
    _, _, 1, 2, rfl, by decide +kernel, rfl, by decide +kernel, by decide +kernel, by decide⟩

/-! ## C29 -/

/-- C29: in every state after a variable has been created, its model lists it as exposed input (output) exactly when it was created exposed
with that type, and no model lists it otherwise. -/
theorem exposed_recorded (before after : List Op) (m : MRef) (a : VarArgs) {r : Ref} {w : World}
    (h : createVariable m a (history before World.init) = (.ok r, w)) :
    (∃ mo, (history after w).ms[m]? = some mo ∧ (r ∈ mo.expIn ↔ a.exposed = true ∧ a.vtype = "input") ∧
      (r ∈ mo.expOut ↔ a.exposed = true ∧ a.vtype = "output")) ∧
    (∀ (k : MRef) (mo : ModelObj), (history after w).ms[k]? = some mo →
      (r ∈ mo.expIn → a.exposed = true ∧ a.vtype = "input") ∧ (r ∈ mo.expOut → a.exposed = true ∧ a.vtype = "output")) := by
  have hw0 : (history before World.init).WF := reachable_wf ⟨before, rfl⟩
  generalize history before World.init = w0 at h hw0
  have hw : w.WF := by
    have := wf_elem.var m a w0 hw0
    rw [h] at this; exact this
  cases hm : w0.ms[m]? with
  | none => rw [createVariable_none hm] at h; simp at h
  | some mo0 =>
    rw [createVariable_run hm] at h
    simp only [Prod.mk.injEq] at h
    obtain ⟨e1, rfl⟩ := h
    have e1 : r = w0.qs.length := by split at e1 <;> simp at e1; exact e1.symm
    subst e1
    set w1 := (w0.addQ (a.quantity mo0.name)).withM m ((mo0.storeVar (a.quantity mo0.name).name w0.qs.length).exposeAs a w0.qs.length)
    have p1 : w1.ms[m]? = some ((mo0.storeVar (a.quantity mo0.name).name w0.qs.length).exposeAs a w0.qs.length) :=
      withM_getM (w := w0.addQ _) hm _
    have p2 : w1.qs[w0.qs.length]? = some (a.quantity mo0.name) := by simp [w1, World.withM, World.addQ]
    have hle := history_le after w1
    have hwf := history_wf after hw
    obtain ⟨q, p3, p4⟩ := hle.qs _ _ p2
    have all : ∀ (k : MRef) (mo : ModelObj), (history after w1).ms[k]? = some mo →
      (w0.qs.length ∈ mo.expIn → a.exposed = true ∧ a.vtype = "input") ∧ (w0.qs.length ∈ mo.expOut → a.exposed = true ∧ a.vtype = "output") := by
      intro k mo hk
      have := hwf.ms k mo hk
      constructor
      · intro hr
        obtain ⟨q', h1, _, _, h4, h5⟩ := this.expIn _ hr
        rw [p3] at h1; cases h1
        rw [p4.exposed] at h4; rw [p4.vtype] at h5
        exact ⟨h4, h5⟩
      · intro hr
        obtain ⟨q', h1, _, _, h4, h5⟩ := this.expOut _ hr
        rw [p3] at h1; cases h1
        rw [p4.exposed] at h4; rw [p4.vtype] at h5
        exact ⟨h4, h5⟩
    obtain ⟨mo, p5, p6⟩ := hle.ms _ _ p1
    refine ⟨⟨mo, p5, ⟨(all m mo p5).1, ?_⟩, ⟨(all m mo p5).2, ?_⟩⟩, all⟩
    · rintro ⟨ha, hb⟩
      apply p6.expIn
      simp [ModelObj.exposeAs, ha, hb]
    · rintro ⟨ha, hb⟩
      apply p6.expOut
      simp [ModelObj.exposeAs, ha, hb]

example : ∃ w, createVariable 1 { name := "z", units := Tmpl.m, exposed := true, vtype := "output" } Ex.world = (.ok 2, w) ∧
    (w.ms[1]?.map ModelObj.expOut) = some [2] := ⟨_, rfl, by decide +kernel⟩

/-- C29, the remaining calls: exposing a variable with another type raises `KeyError`, but the variable is declared all the same and in
neither list. -/
theorem exposed_bad_type (w : World) (m : MRef) (mo : ModelObj) (hm : w.ms[m]? = some mo) (a : VarArgs) (he : a.exposed = true)
    (h1 : a.vtype ≠ "input") (h2 : a.vtype ≠ "output") :
    ∃ w' mo', createVariable m a w = (.error .keyError, w') ∧ w'.ms[m]? = some mo' ∧
      dget mo'.vars (a.name ++ "_" ++ mo.name) = some w.qs.length ∧ mo'.expIn = mo.expIn ∧ mo'.expOut = mo.expOut := by
  refine ⟨_, _, by rw [createVariable_run hm, if_pos ⟨he, h1, h2⟩], withM_getM (w := w.addQ _) hm _, ?_, ?_, ?_⟩ <;>
    simp [ModelObj.exposeAs, h1, h2, ModelObj.storeVar, VarArgs.quantity, mkVariable]

example : ∃ mo, Ex.world.ms[0]? = some mo ∧ ({ name := "z", units := Tmpl.m, exposed := true, vtype := "inlet" } : VarArgs).vtype ≠ "input" :=
  ⟨_, rfl, by decide⟩

/-! ## C30 -/

/-- Inlets of existing models are kept. -/
def SameInlets (w w' : World) : Prop := ∀ (m : MRef) (mo : ModelObj), w.ms[m]? = some mo → ∃ mo', w'.ms[m]? = some mo' ∧ mo'.inlets = mo.inlets

theorem SameInlets.of_withM {w w' : World} (m : MRef) (mo mo' : ModelObj) (hm : w.ms[m]? = some mo)
    (hw : w'.ms = w.ms.set m mo') (hi : mo'.inlets = mo.inlets) : SameInlets w w' := by
  intro k x hk
  by_cases hkm : k = m
  · subst hkm
    rw [hm] at hk; cases hk
    exact ⟨mo', by rw [hw]; simp [(List.getElem?_eq_some_iff.mp hm).1], hi⟩
  · exact ⟨x, by rw [hw, List.getElem?_set_ne (Ne.symm hkm)]; exact hk, rfl⟩

theorem sameInlets_elem : Elem { inl := False } SameInlets where
  refl := fun w m mo h => ⟨mo, h, rfl⟩
  trans := fun a b c h h' m mo hm => by
    obtain ⟨mo1, h1, h2⟩ := h m mo hm
    obtain ⟨mo2, h3, h4⟩ := h' m mo1 h1
    exact ⟨mo2, h3, h4.trans h2⟩
  newP := fun p w m mo h => ⟨mo, h, rfl⟩
  newM := fun n d b p w m mo h => by
    rcases newModel_run n d b p w with ⟨x, hx⟩ | ⟨ps, _, hx⟩ <;> rw [hx]
    · exact ⟨mo, h, rfl⟩
    · exact ⟨mo, by simp only; rw [List.getElem?_append_left (List.getElem?_eq_some_iff.mp h).1, h], rfl⟩
  attr := fun m a v w => by
    cases h : w.ms[m]? with
    | none => rw [setAttr_none h]; exact fun m mo h => ⟨mo, h, rfl⟩
    | some mo => rw [setAttr_run h]; exact SameInlets.of_withM m mo _ h rfl rfl
  var := fun m a w => by
    cases h : w.ms[m]? with
    | none => rw [createVariable_none h]; exact fun m mo h => ⟨mo, h, rfl⟩
    | some mo => rw [createVariable_run h]; exact SameInlets.of_withM m mo _ h rfl (by simp only [ModelObj.exposeAs]; split_ifs <;> rfl)
  par := fun m a w => by
    cases h : w.ms[m]? with
    | none => rw [createParameter_none h]; exact fun m mo h => ⟨mo, h, rfl⟩
    | some mo => rw [createParameter_run h]; exact SameInlets.of_withM m mo _ h rfl rfl
  con := fun m a w => by
    cases h : w.ms[m]? with
    | none => rw [createConstant_none h]; exact fun m mo h => ⟨mo, h, rfl⟩
    | some mo => rw [createConstant_run h]; exact SameInlets.of_withM m mo _ h rfl rfl
  built := fun _ _ _ => trivial
  eqn := fun m n d a c _ w => by
    cases h : w.ms[m]? with
    | none => rw [createEquation_none h]; exact fun m mo h => ⟨mo, h, rfl⟩
    | some mo =>
      rcases createEquation_run h n d a c with ⟨x, u, he⟩ | ⟨t, t', e, e', u, he, _⟩ <;> rw [he]
      · exact fun m mo h => ⟨mo, h, rfl⟩
      · exact SameInlets.of_withM m mo _ h rfl rfl
  inc := fun m s fl _ => by
    have S : PreRel SameInlets := ⟨fun w m mo h => ⟨mo, h, rfl⟩, fun a b c h h' m mo hm => by
      obtain ⟨mo1, h1, h2⟩ := h m mo hm
      obtain ⟨mo2, h3, h4⟩ := h' m mo1 h1
      exact ⟨mo2, h3, h4.trans h2⟩⟩
    refine S.incorporate m s fl (fun r w => ?_) (fun r w => ?_) (fun r w => ?_) (fun n wh r w => ?_)
    · cases hm : w.ms[m]? with
      | none => unfold addVariableDirectly; rw [PyM.bind_of_error (getM_none hm)]; exact S.refl w
      | some mo =>
        cases hq : w.qs[r]? with
        | none => unfold addVariableDirectly; rw [PyM.bind_of_ok (getM_of hm), PyM.bind_of_error (getQ_none hq)]; exact S.refl w
        | some q => rw [addVariableDirectly_run hm hq]; split <;> exact SameInlets.of_withM m mo _ hm rfl rfl
    · cases hm : w.ms[m]? with
      | none => unfold addParameterDirectly; rw [PyM.bind_of_error (getM_none hm)]; exact S.refl w
      | some mo =>
        cases hq : w.qs[r]? with
        | none => unfold addParameterDirectly; rw [PyM.bind_of_ok (getM_of hm), PyM.bind_of_error (getQ_none hq)]; exact S.refl w
        | some q => rw [addParameterDirectly_run hm hq]; exact SameInlets.of_withM m mo _ hm rfl rfl
    · cases hm : w.ms[m]? with
      | none => unfold addConstantDirectly; rw [PyM.bind_of_error (getM_none hm)]; exact S.refl w
      | some mo =>
        cases hq : w.qs[r]? with
        | none => unfold addConstantDirectly; rw [PyM.bind_of_ok (getM_of hm), PyM.bind_of_error (getQ_none hq)]; exact S.refl w
        | some q => rw [addConstantDirectly_run hm hq]; exact SameInlets.of_withM m mo _ hm rfl rfl
    · cases hm : w.ms[m]? with
      | none => unfold addEquationDirectly; rw [PyM.bind_of_error (getM_none hm)]; exact S.refl w
      | some mo =>
        cases hq : w.es[r]? with
        | none => unfold addEquationDirectly; rw [PyM.bind_of_ok (getM_of hm), PyM.bind_of_error (getE_none hq)]; exact S.refl w
        | some e =>
          rw [addEquationDirectly_run hm hq]
          split
          · exact S.refl w
          · exact SameInlets.of_withM m mo _ hm rfl rfl
  inlets := fun h => h.elim
  conn := fun m o i a _ w => by
    cases hm : w.ms[m]? with
    | none => unfold createModelConnection; rw [PyM.bind_of_error (getM_none hm)]; exact fun m mo h => ⟨mo, h, rfl⟩
    | some mo =>
      rcases createModelConnection_run hm o i a with ⟨x, u, he⟩ | ⟨qo, qi, t, t', d, e, e', u, he, _⟩ <;> rw [he]
      · exact fun m mo h => ⟨mo, h, rfl⟩
      · exact SameInlets.of_withM m mo _ hm rfl rfl
  value := fun r v u w => by
    rcases setValueM_run r v u w with ⟨x, hx⟩ | ⟨q, q', hq, hs, hx⟩ <;> rw [hx] <;> exact fun m mo h => ⟨mo, h, rfl⟩
  dist := fun r w => by
    rcases distributeM_run r w with ⟨x, hx⟩ | ⟨q, hq, hx⟩ <;> rw [hx] <;> exact fun m mo h => ⟨mo, h, rfl⟩
  pr := fun w _ p _ _ m mo h => ⟨mo, h, rfl⟩
  puid := fun w u _ m mo h => ⟨mo, h, rfl⟩

/-- A session that does not set inlets. -/
def NoSetInlets (ops : List Op) : Prop := ∀ o ∈ ops, o.Allowed { inl := False }

theorem setInlets_get {w : World} {m : MRef} {mo : ModelObj} {p : Ports} (h : w.ms[m]? = some mo) (hp : w.ps[mo.ports]? = some p)
    (l : List MRef) (nm : String) : ∃ w' mo', setInlets m l nm w = (.ok (), w') ∧ w'.ms[m]? = some mo' ∧ mo'.ports = mo.ports ∧
      mo'.inlets = mo.inlets ++ (dvalues (dset p nm ((dget p nm).getD [] ++ l))).flatten ∧
      w'.ps[mo.ports]? = some (dset p nm ((dget p nm).getD [] ++ l)) ∧ ∀ k, k ≠ m → w'.ms[k]? = w.ms[k]? := by
  refine ⟨_, { mo with inlets := mo.inlets ++ (dvalues (dset p nm ((dget p nm).getD [] ++ l))).flatten }, setInlets_run h hp l nm, ?_, rfl,
    rfl, ?_, ?_⟩
  · simp [(List.getElem?_eq_some_iff.mp h).1]
  · simp [(List.getElem?_eq_some_iff.mp hp).1]
  · intro k hk
    exact List.getElem?_set_ne (Ne.symm hk)

/-- C30 (partial): a model without inlets whose port dictionary is still empty gets, by one call, exactly the inlets given, and keeps them
as long as no inlets are set.
Missing: a second call (`inlets_set_twice_duplicate`) and models that share a port dictionary, which is the default
(`inlets_leak_between_models`). -/
theorem inlets_registered_partial (w : World) (m : MRef) (mo : ModelObj) (hm : w.ms[m]? = some mo) (h0 : mo.inlets = [])
    (hp : w.ps[mo.ports]? = some []) (l : List MRef) (n : String) (after : List Op) (ha : NoSetInlets after) :
    ∃ w' mo', setInlets m l n w = (.ok (), w') ∧ (history after w').ms[m]? = some mo' ∧ mo'.inlets = l := by
  obtain ⟨w1, mo1, h1, h2, _, h3, _⟩ := setInlets_get hm hp l n
  obtain ⟨mo', h4, h5⟩ := Stable.history (sameInlets_elem.stable trivial) after ha w1 m mo1 h2
  exact ⟨w1, mo', h1, h4, by rw [h5, h3, h0]; simp [dset, dvalues, dget]⟩

/-- A model with its own port dictionary gets models 0 and 1 as inlets. -/
example : ∃ mo, (history (Ex.ops ++ [.newPorts, .newModel "mix" "" {} (some 1)]) World.init).ms[2]? = some mo ∧ mo.inlets = [] ∧
    (history (Ex.ops ++ [.newPorts, .newModel "mix" "" {} (some 1)]) World.init).ps[mo.ports]? = some [] ∧ NoSetInlets [.var 2 Ex.varX] :=
  ⟨_, rfl, rfl, rfl, by intro o ho; rw [List.mem_singleton.mp ho]; trivial⟩

/-- C30 fails for models created without their own `ports`: the inlets given to one model become inlets of the other one too. -/
theorem inlets_leak_between_models (w : World) (m1 m2 : MRef) (mo1 mo2 : ModelObj) (h1 : w.ms[m1]? = some mo1) (h2 : w.ms[m2]? = some mo2)
    (hne : m1 ≠ m2) (hp : mo2.ports = mo1.ports) (hd : w.ps[mo1.ports]? = some []) (h0 : mo2.inlets = []) (l1 l2 : List MRef) (n : String) :
    ∃ w1 w2 mo, setInlets m1 l1 n w = (.ok (), w1) ∧ setInlets m2 l2 n w1 = (.ok (), w2) ∧ w2.ms[m2]? = some mo ∧ mo.inlets = l1 ++ l2 := by
  obtain ⟨w1, _, a1, _, _, _, a5, a6⟩ := setInlets_get h1 hd l1 n
  rw [← hp] at a5
  obtain ⟨w2, mo, b1, b2, _, b4, _⟩ := setInlets_get (w := w1) (m := m2) (by rw [a6 m2 (Ne.symm hne)]; exact h2) a5 l2 n
  exact ⟨w1, w2, mo, a1, b1, b2, by rw [b4, h0]; simp [dset, dvalues, dget]⟩

example : ∃ mo1 mo2, Ex.world.ms[0]? = some mo1 ∧ Ex.world.ms[1]? = some mo2 ∧ mo2.ports = mo1.ports ∧ Ex.world.ps[mo1.ports]? = some [] ∧
    mo2.inlets = [] := ⟨_, _, rfl, rfl, rfl, rfl, rfl⟩

/-- C30 fails for a second call on the same model: the streams of the first call are listed twice. -/
theorem inlets_set_twice_duplicate (w : World) (m : MRef) (mo : ModelObj) (hm : w.ms[m]? = some mo) (h0 : mo.inlets = [])
    (hp : w.ps[mo.ports]? = some []) (l1 l2 : List MRef) (n : String) :
    ∃ w1 w2 mo', setInlets m l1 n w = (.ok (), w1) ∧ setInlets m l2 n w1 = (.ok (), w2) ∧ w2.ms[m]? = some mo' ∧ mo'.inlets = l1 ++ (l1 ++ l2) := by
  obtain ⟨w1, mo1, a1, a2, a3, a4, a5, _⟩ := setInlets_get hm hp l1 n
  rw [← a3] at a5
  obtain ⟨w2, mo2, b1, b2, _, b4, _⟩ := setInlets_get a2 a5 l2 n
  exact ⟨w1, w2, mo2, a1, b1, b2, by rw [b4, a4, h0]; simp [dset, dvalues, dget]⟩

end Sloth
