import Verif.Props.Problems

/-!
# Resolving a problem twice (C53)
-/

namespace Sloth
open PyM UnitObj

/-! ## Declarations that are there already -/

/-- What the command declares is there. -/
def Cmd.Done (mo : ModelObj) : Cmd → Prop
  | .var _ a => a.name ++ "_" ++ mo.name ∈ dkeys mo.vars
  | .par _ a => a.name ++ "_" ++ mo.name ∈ dkeys mo.pars
  | .con _ a => a.name ++ "_" ++ mo.name ∈ dkeys mo.cons
  | .eqn _ n _ _ _ => n ++ "_" ++ mo.name ∈ dkeys mo.eqns
  | _ => True

/-- An equation is given a name. -/
def Spec.Named : Cmd → Prop
  | .eqn _ n _ _ _ => n ≠ ""
  | _ => True

/-- All models have the same declarations by name. -/
structure SameNames (w w' : World) : Prop where
  len : w'.ms.length = w.ms.length
  ms : ∀ (m : MRef) (mo : ModelObj), w.ms[m]? = some mo → ∃ mo', w'.ms[m]? = some mo' ∧ mo'.name = mo.name ∧ mo'.body = mo.body ∧
    mo'.inlets = mo.inlets ∧ dkeys mo'.vars = dkeys mo.vars ∧ dkeys mo'.pars = dkeys mo.pars ∧ dkeys mo'.cons = dkeys mo.cons ∧
    dkeys mo'.eqns = dkeys mo.eqns

theorem SameNames.refl (w : World) : SameNames w w := ⟨rfl, fun m mo h => ⟨mo, h, rfl, rfl, rfl, rfl, rfl, rfl, rfl⟩⟩

theorem SameNames.trans {a b c : World} (h : SameNames a b) (h' : SameNames b c) : SameNames a c :=
  ⟨h'.len.trans h.len, fun m mo hm => by
    obtain ⟨mo1, h1, a1, a2, a3, a4, a5, a6, a7⟩ := h.ms m mo hm
    obtain ⟨mo2, h2, b1, b2, b3, b4, b5, b6, b7⟩ := h'.ms m mo1 h1
    exact ⟨mo2, h2, b1.trans a1, b2.trans a2, b3.trans a3, b4.trans a4, b5.trans a5, b6.trans a6, b7.trans a7⟩⟩

theorem SameNames.pre : PreRel SameNames := ⟨SameNames.refl, fun _ _ _ => SameNames.trans⟩

theorem SameNames.of_ms {w w' : World} (h : w'.ms = w.ms) : SameNames w w' :=
  ⟨by rw [h], fun m mo hm => ⟨mo, by rw [h]; exact hm, rfl, rfl, rfl, rfl, rfl, rfl, rfl⟩⟩

theorem SameNames.of_set {w w' : World} {m : MRef} {mo mo' : ModelObj} (hm : w.ms[m]? = some mo) (hw : w'.ms = w.ms.set m mo')
    (h1 : mo'.name = mo.name) (h2 : mo'.body = mo.body) (h3 : mo'.inlets = mo.inlets) (h4 : dkeys mo'.vars = dkeys mo.vars)
    (h5 : dkeys mo'.pars = dkeys mo.pars) (h6 : dkeys mo'.cons = dkeys mo.cons) (h7 : dkeys mo'.eqns = dkeys mo.eqns) : SameNames w w' := by
  refine ⟨by rw [hw, List.length_set], fun k x hk => ?_⟩
  by_cases hkm : k = m
  · subst hkm
    rw [hm] at hk; cases hk
    exact ⟨mo', by rw [hw]; simp [(List.getElem?_eq_some_iff.mp hm).1], h1, h2, h3, h4, h5, h6, h7⟩
  · exact ⟨x, by rw [hw, List.getElem?_set_ne (Ne.symm hkm)]; exact hk, rfl, rfl, rfl, rfl, rfl, rfl, rfl⟩

theorem sameNames_setAttr (m : MRef) (a : String) (v : Attr) : Pres SameNames (setAttr m a v) := fun w => by
  cases h : w.ms[m]? with
  | none => rw [setAttr_none h]; exact SameNames.refl w
  | some mo => rw [setAttr_run h]; exact SameNames.of_set h rfl rfl rfl rfl rfl rfl rfl rfl

theorem rel_bind {R : World → World → Prop} (S : PreRel R) {α β : Type} {x : PyM α} {f : α → PyM β} {w : World} (hx : R w (x w).2)
    (hf : ∀ a, Pres R (f a)) : R w ((x >>= f) w).2 := by
  rw [PyM.bind_run]
  cases h : x w with
  | mk r w1 =>
    rw [h] at hx
    cases r with
    | ok a => exact S.trans _ _ _ hx (hf a w1)
    | error e => exact hx

theorem dkeys_dset_mem {β : Type} {d : Dict String β} {k : String} (h : k ∈ dkeys d) (v : β) : dkeys (dset d k v) = dkeys d := by
  rw [dkeys_dset, if_pos h]

/-- Declaring again what is there adds nothing. -/
theorem Cmd.Done.run {w : World} {m : MRef} {mo : ModelObj} (hm : w.ms[m]? = some mo) {c : Cmd} (hn : Spec.Named c) (hd : c.Done mo) :
    SameNames w (c.run m w).2 := by
  cases c with
  | var attr a =>
    refine rel_bind SameNames.pre ?_ fun _ => sameNames_setAttr _ _ _
    rw [createVariable_run hm]
    have hk : dkeys (mo.storeVar (a.quantity mo.name).name w.qs.length).vars = dkeys mo.vars := dkeys_dset_mem hd _
    refine SameNames.of_set hm rfl ?_ ?_ ?_ ?_ ?_ ?_ ?_ <;> simp only [ModelObj.exposeAs] <;> split_ifs <;> first | rfl | exact hk
  | par attr a =>
    refine rel_bind SameNames.pre ?_ fun _ => sameNames_setAttr _ _ _
    rw [createParameter_run hm]
    exact SameNames.of_set hm rfl rfl rfl rfl rfl (dkeys_dset_mem hd _) rfl rfl
  | con attr a =>
    refine rel_bind SameNames.pre ?_ fun _ => sameNames_setAttr _ _ _
    rw [createConstant_run hm]
    exact SameNames.of_set hm rfl rfl rfl rfl rfl rfl (dkeys_dset_mem hd _) rfl
  | eqn attr n d st ck =>
    simp only [Cmd.run]
    rw [PyM.bind_run]
    simp only [AStmt.eval]
    cases st.toStmt w m >>= Stmt.arg with
    | error e => exact SameNames.refl w
    | ok x =>
      refine rel_bind SameNames.pre ?_ fun _ => sameNames_setAttr _ _ _
      rcases createEquation_run hm n d (some x) ck with ⟨y, u, he⟩ | ⟨t, t', e, e', u, he, hi, hs, _⟩ <;> rw [he]
      · exact SameNames.of_ms rfl
      · refine SameNames.of_set hm rfl rfl rfl rfl rfl rfl rfl ?_
        have hne : e'.name = n ++ "_" ++ mo.name := by
          obtain ⟨k, _, rfl⟩ := EqObj.sweep_ok hs
          simp only [(EqObj.init_fields hi).1]
          rw [if_neg hn]
        rw [hne]
        exact dkeys_dset_mem hd _
  | setValue p v u =>
    simp only [Cmd.run]
    refine SameNames.pre.bind (SameNames.pre.lookupM _ _) (fun x => SameNames.pre.bind ?_ fun y => ?_) w
    · cases v with
      | qty p => exact SameNames.pre.bind (SameNames.pre.lookupM _ _) fun _ => SameNames.pre.ret _
      | _ => exact SameNames.pre.ret _
    · intro w
      rcases setValueM_run x.1 y u w with ⟨_, hx⟩ | ⟨q, q', hq, hs, hx⟩ <;> rw [hx] <;> exact SameNames.of_ms rfl
  | distribute p =>
    refine SameNames.pre.bind (SameNames.pre.lookupM _ _) (fun x => ?_) w
    intro w
    rcases distributeM_run x.1 w with ⟨_, hx⟩ | ⟨q, hq, hx⟩ <;> rw [hx] <;> exact SameNames.of_ms rfl
  | fail e => exact SameNames.refl w

theorem Cmd.Done.le {n : Nat} {mo mo' : ModelObj} (h : mo.Le n mo') {c : Cmd} (hd : c.Done mo) : c.Done mo' := by
  cases c with
  | var attr a => simp only [Cmd.Done, h.name] at *; exact h.vars _ hd
  | par attr a => simp only [Cmd.Done, h.name] at *; exact h.pars _ hd
  | con attr a => simp only [Cmd.Done, h.name] at *; exact h.cons _ hd
  | eqn attr n d st ck => simp only [Cmd.Done, h.name] at *; exact h.eqns _ hd
  | _ => trivial

theorem setAttr_keeps {w w' : World} {m : MRef} {mo : ModelObj} (hm : w.ms[m]? = some mo) {a : String} {v : Attr}
    (h : setAttr m a v w = (.ok (), w')) : ∃ at', w'.ms[m]? = some { mo with attrs := at' } := by
  rw [setAttr_run hm] at h
  simp only [Prod.mk.injEq, true_and] at h
  exact ⟨_, h ▸ withM_getM hm _⟩

/-- A command that returns leaves its declaration behind. -/
theorem Cmd.run_done {w w' : World} {m : MRef} {mo : ModelObj} (hm : w.ms[m]? = some mo) {c : Cmd} (hn : Spec.Named c)
    (h : c.run m w = (.ok (), w')) : ∃ mo', w'.ms[m]? = some mo' ∧ c.Done mo' := by
  have le : ∃ mo', w'.ms[m]? = some mo' := by
    have := le_stable.cmd m c w
    rw [h] at this
    obtain ⟨mo', h1, _⟩ := this.ms m mo hm
    exact ⟨mo', h1⟩
  cases c with
  | var attr a =>
    simp only [Cmd.run, PyM.bind_ok] at h
    obtain ⟨r, w1, h1, h2⟩ := h
    rw [createVariable_run hm] at h1
    simp only [Prod.mk.injEq] at h1
    obtain ⟨_, rfl⟩ := h1
    have hg := withM_getM (w := w.addQ (a.quantity mo.name)) hm ((mo.storeVar (a.quantity mo.name).name w.qs.length).exposeAs a w.qs.length)
    obtain ⟨at', h3⟩ := setAttr_keeps hg h2
    refine ⟨_, h3, ?_⟩
    have e1 : ((mo.storeVar (a.quantity mo.name).name w.qs.length).exposeAs a w.qs.length).vars = dset mo.vars (a.name ++ "_" ++ mo.name) w.qs.length := by
      simp only [ModelObj.exposeAs]; split_ifs <;> rfl
    have e2 : ((mo.storeVar (a.quantity mo.name).name w.qs.length).exposeAs a w.qs.length).name = mo.name := by
      simp only [ModelObj.exposeAs]; split_ifs <;> rfl
    simp only [Cmd.Done, e1, e2]
    exact (mem_dkeys_dset _ _ _ _).mpr (Or.inl rfl)
  | par attr a =>
    simp only [Cmd.run, PyM.bind_ok] at h
    obtain ⟨r, w1, h1, h2⟩ := h
    rw [createParameter_run hm] at h1
    simp only [Prod.mk.injEq] at h1
    obtain ⟨_, rfl⟩ := h1
    obtain ⟨at', h3⟩ := setAttr_keeps (withM_getM (w := w.addQ (a.parameter mo.name)) hm _) h2
    exact ⟨_, h3, (mem_dkeys_dset _ _ _ _).mpr (Or.inl rfl)⟩
  | con attr a =>
    simp only [Cmd.run, PyM.bind_ok] at h
    obtain ⟨r, w1, h1, h2⟩ := h
    rw [createConstant_run hm] at h1
    simp only [Prod.mk.injEq] at h1
    obtain ⟨_, rfl⟩ := h1
    obtain ⟨at', h3⟩ := setAttr_keeps (withM_getM (w := w.addQ (a.constant mo.name)) hm _) h2
    exact ⟨_, h3, (mem_dkeys_dset _ _ _ _).mpr (Or.inl rfl)⟩
  | eqn attr n d st ck =>
    simp only [Cmd.run, PyM.bind_ok, AStmt.eval, Prod.mk.injEq] at h
    obtain ⟨x, _, ⟨_, rfl⟩, r, w1, h1, h2⟩ := h
    rcases createEquation_run hm n d (some x) ck with ⟨y, u, he⟩ | ⟨t, t', e, e', u, he, hi, hs, _⟩ <;> rw [he] at h1
    · simp at h1
    · simp only [Prod.mk.injEq] at h1
      obtain ⟨_, rfl⟩ := h1
      obtain ⟨at', h3⟩ := setAttr_keeps (withM_getM (w := (w.withUid u).addE e') hm _) h2
      refine ⟨_, h3, ?_⟩
      have hne : e'.name = n ++ "_" ++ mo.name := by
        obtain ⟨k, _, rfl⟩ := EqObj.sweep_ok hs
        simp only [(EqObj.init_fields hi).1]
        rw [if_neg hn]
      refine (mem_dkeys_dset _ _ _ _).mpr (Or.inl ?_)
      rw [hne]; rfl
  | _ => obtain ⟨mo', h1⟩ := le; exact ⟨mo', h1, trivial⟩

theorem Cmd.each_done {w w' : World} {m : MRef} {mo : ModelObj} (hm : w.ms[m]? = some mo) {l : List Cmd} (hn : ∀ c ∈ l, Spec.Named c)
    (h : each l (Cmd.run m) w = (.ok (), w')) : ∃ mo', w'.ms[m]? = some mo' ∧ ∀ c ∈ l, c.Done mo' := by
  induction l generalizing w mo with
  | nil =>
    simp only [PyM.each_nil, PyM.pure_run, Prod.mk.injEq, true_and] at h
    exact ⟨mo, h ▸ hm, by simp⟩
  | cons c t ih =>
    rw [PyM.each_cons, PyM.bind_ok] at h
    obtain ⟨⟨⟩, w1, h1, h2⟩ := h
    obtain ⟨mo1, h3, h4⟩ := Cmd.run_done hm (hn c (by simp)) h1
    obtain ⟨mo2, h5, h6⟩ := ih h3 (fun c hc => hn c (by simp [hc])) h2
    have hl := le_stable.cmds m t w1
    rw [h2] at hl
    obtain ⟨mo3, h7, h8⟩ := hl.ms m mo1 h3
    rw [h5] at h7; cases h7
    refine ⟨mo2, h5, fun x hx => ?_⟩
    rcases List.mem_cons.mp hx with rfl | hx
    · exact h4.le h8
    · exact h6 x hx

theorem Cmd.Done.same {mo mo' : ModelObj} (h0 : mo'.name = mo.name) (h1 : dkeys mo'.vars = dkeys mo.vars) (h2 : dkeys mo'.pars = dkeys mo.pars)
    (h3 : dkeys mo'.cons = dkeys mo.cons) (h4 : dkeys mo'.eqns = dkeys mo.eqns) {c : Cmd} (hd : c.Done mo) : c.Done mo' := by
  cases c <;> simp only [Cmd.Done, h0, h1, h2, h3, h4] at * <;> exact hd

theorem Cmd.each_again {w : World} {m : MRef} {mo : ModelObj} (hm : w.ms[m]? = some mo) {l : List Cmd} (hn : ∀ c ∈ l, Spec.Named c)
    (hd : ∀ c ∈ l, c.Done mo) : SameNames w (each l (Cmd.run m) w).2 := by
  induction l generalizing w mo with
  | nil => exact SameNames.refl w
  | cons c t ih =>
    rw [PyM.each_cons, PyM.bind_run]
    have h1 := (hd c (by simp)).run hm (hn c (by simp))
    cases hr : c.run m w with
    | mk r w1 =>
      rw [hr] at h1
      cases r with
      | error e => exact h1
      | ok x =>
        obtain ⟨mo', h2, e1, _, _, e4, e5, e6, e7⟩ := h1.ms m mo hm
        exact h1.trans (ih h2 (fun c hc => hn c (by simp [hc])) fun c hc => (hd c (by simp [hc])).same e1 e4 e5 e6 e7)

/-- All commands of the body. -/
def Spec.cmds (b : Body) : List Cmd := b.cons ++ b.pars ++ b.vars ++ b.eqns

/-- Without inlets a call of a model runs the commands of its body one after the other. -/
theorem call_each {w : World} {m : MRef} {mo : ModelObj} (hm : w.ms[m]? = some mo) (hi : mo.inlets = []) :
    Model.call m w = each (Spec.cmds mo.body) (Cmd.run m) w := by
  let P : World → Prop := fun w => ∃ mo', w.ms[m]? = some mo' ∧ mo'.inlets = [] ∧ mo'.body = mo.body
  have key : ∀ (l l' : List Cmd) (k : PyM Unit) (w : World), P w → (∀ w, P w → k w = each l' (Cmd.run m) w) →
      (each l (Cmd.run m) >>= fun _ => k) w = each (l ++ l') (Cmd.run m) w := by
    intro l l' k w ⟨mo', hm, hi, hb⟩ hk
    rw [each_append, PyM.bind_run, PyM.bind_run]
    have hs : SameInlets w (each l (Cmd.run m) w).2 := sameInlets_elem.toPreRel.each l (fun c => sameInlets_elem.cmd m c) w
    have hl : w.Le (each l (Cmd.run m) w).2 := le_stable.cmds m l w
    cases h : each l (Cmd.run m) w with
    | mk r w1 =>
      rw [h] at hs hl
      cases r with
      | error e => rfl
      | ok x =>
        obtain ⟨mo1, h1, h2⟩ := hs m mo' hm
        obtain ⟨mo2, h3, h4⟩ := hl.ms m mo' hm
        rw [h1] at h3; cases h3
        exact hk w1 ⟨mo1, h1, h2.trans hi, h4.body.trans hb⟩
  have h0 : P w := ⟨mo, hm, hi, rfl⟩
  unfold Model.call Spec.cmds
  rw [PyM.bind_of_ok (getM_of hm), List.append_assoc, List.append_assoc]
  refine key _ _ _ w h0 fun w h0 => key _ _ _ w h0 fun w h0 => key _ _ _ w h0 fun w h0 => ?_
  obtain ⟨mo', h1, h2, h3⟩ := h0
  rw [PyM.bind_of_ok (getM_of h1), h2, h3]
  rfl

/-! ## A model called twice -/

/-- The model has no inlets, its equations are named and everything it declares is there. -/
def Settled (w : World) (m : MRef) : Prop :=
  ∃ mo, w.ms[m]? = some mo ∧ mo.inlets = [] ∧ (∀ c ∈ Spec.cmds mo.body, Spec.Named c) ∧ ∀ c ∈ Spec.cmds mo.body, c.Done mo

theorem Settled.same {w w' : World} {m : MRef} (h : Settled w m) (hs : SameNames w w') : Settled w' m := by
  obtain ⟨mo, h1, h2, h3, h4⟩ := h
  obtain ⟨mo', a0, a1, a2, a3, a4, a5, a6, a7⟩ := hs.ms m mo h1
  exact ⟨mo', a0, a3.trans h2, by rw [a2]; exact h3, by rw [a2]; exact fun c hc => (h4 c hc).same a1 a4 a5 a6 a7⟩

theorem Settled.call {w : World} {m : MRef} (h : Settled w m) : SameNames w (Model.call m w).2 := by
  obtain ⟨mo, h1, h2, h3, h4⟩ := h
  rw [call_each h1 h2]
  exact Cmd.each_again h1 h3 h4

theorem Settled.calls {w : World} {l : List MRef} (h : ∀ m ∈ l, Settled w m) : SameNames w (each l Model.call w).2 := by
  induction l generalizing w with
  | nil => exact SameNames.refl w
  | cons m t ih =>
    rw [PyM.each_cons, PyM.bind_run]
    have h1 := (h m (by simp)).call
    cases hr : Model.call m w with
    | mk r w1 =>
      rw [hr] at h1
      cases r with
      | error e => exact h1
      | ok x => exact h1.trans (ih fun k hk => (h k (by simp [hk])).same h1)

/-- The model has no inlets and its equations are named. -/
def Spec.Repeatable (w : World) (m : MRef) : Prop := ∃ mo, w.ms[m]? = some mo ∧ mo.inlets = [] ∧ ∀ c ∈ Spec.cmds mo.body, Spec.Named c

/-- Calls of other models do not give a model inlets. -/
theorem sameInlets_call {w : World} {m : MRef} (h : Spec.Repeatable w m) : SameInlets w (Model.call m w).2 := by
  obtain ⟨mo, h1, h2, h3⟩ := h
  rw [call_each h1 h2]
  exact sameInlets_elem.toPreRel.each _ (fun c => sameInlets_elem.cmd m c) w

theorem Spec.Repeatable.next {w w' : World} {m : MRef} (h : Spec.Repeatable w m) (hs : SameInlets w w') (hl : w.Le w') : Spec.Repeatable w' m := by
  obtain ⟨mo, h1, h2, h3⟩ := h
  obtain ⟨mo', a1, a2⟩ := hs m mo h1
  obtain ⟨mo'', b1, b2⟩ := hl.ms m mo h1
  rw [a1] at b1; cases b1
  exact ⟨mo', a1, a2.trans h2, by rw [b2.body]; exact h3⟩

theorem calls_settle {w w' : World} {l : List MRef} (h : ∀ m ∈ l, Spec.Repeatable w m) (hr : each l Model.call w = (.ok (), w')) :
    (∀ m ∈ l, Settled w' m) ∧ SameInlets w w' := by
  induction l generalizing w with
  | nil =>
    simp only [PyM.each_nil, PyM.pure_run, Prod.mk.injEq, true_and] at hr
    subst hr
    exact ⟨by simp, sameInlets_elem.refl w⟩
  | cons m t ih =>
    rw [PyM.each_cons, PyM.bind_ok] at hr
    obtain ⟨⟨⟩, w1, h1, h2⟩ := hr
    have hs := sameInlets_call (h m (by simp))
    have hl := le_stable.call m w
    rw [h1] at hs hl
    obtain ⟨h3, h4⟩ := ih (fun k hk => (h k (by simp [hk])).next hs hl) h2
    refine ⟨fun k hk => ?_, sameInlets_elem.trans _ _ _ hs h4⟩
    rcases List.mem_cons.mp hk with rfl | hk
    · obtain ⟨mo, a1, a2, a3⟩ := h k (by simp)
      rw [call_each a1 a2] at h1
      obtain ⟨mo1, b1, b2⟩ := Cmd.each_done a1 a3 h1
      obtain ⟨mo1', c1, c2⟩ := hs k mo a1
      obtain ⟨mo1'', d1, d2⟩ := hl.ms k mo a1
      rw [b1] at c1 d1; cases c1; cases d1
      have hl' := le_stable.each t le_stable.call w1
      rw [h2] at hl'
      obtain ⟨mo2, e1, e2⟩ := hl'.ms k mo1 b1
      obtain ⟨mo2', f1, f2⟩ := h4 k mo1 b1
      rw [e1] at f1; cases f1
      refine ⟨mo2, e1, f2.trans (c2.trans a2), ?_, ?_⟩ <;> rw [e2.body, d2.body]
      · exact a3
      · exact fun c hc => (b2 c hc).le e2
    · exact h3 k hk

/-! ## C53 -/

/-- C53 (partial): when a problem over models without inlets and with named equations has been resolved, resolving it again gives no model
another declaration: the names of variables, parameters, constants and equations of every model in the session stay the same, and so do the
problem's models, variables and parameters; when it succeeds, the system has as many equations as before.
Missing: unnamed equations are added again (`resolve_twice_adds_equations`), exposed variables are exposed again
(`resolve_twice_exposes_again`), and variables and parameters are declared anew, which loses the values they were given
(`resolve_loses_values`); with inlets nothing can be resolved (`model_with_inlets_never_resolves`). -/
theorem resolve_twice_partial {w w1 : World} (h : resolve w = (.ok (), w1)) (hp : ∀ m ∈ dvalues w.pr.models, Spec.Repeatable w m) :
    SameNames w1 (resolve w1).2 ∧ (resolve w1).2.pr.models = w1.pr.models ∧ (resolve w1).2.pr.variableDict = w1.pr.variableDict ∧
      (resolve w1).2.pr.parameterDict = w1.pr.parameterDict ∧
      ((resolve w1).1 = .ok () → ∃ b1 b2, w1.pr.block = some b1 ∧ (resolve w1).2.pr.block = some b2 ∧ b2.equations.length = b1.equations.length) := by
  have hs : SameNames w1 (resolve w1).2 := by
    obtain ⟨w0, g, b, h1, h2, h3, rfl, h5, h6⟩ := resolve_ok h
    have h7 : ∀ m ∈ dvalues w.pr.models, Settled w0 m := (calls_settle hp h1).1
    refine rel_bind SameNames.pre ?_ fun _ => SameNames.pre.bind (fun w => ?_) fun _ w => ?_
    · change SameNames _ (each _ Model.call _).2
      refine Settled.calls fun m hm => ?_
      simp only [h2] at hm
      exact (h7 m hm).same (SameNames.of_ms rfl)
    · unfold buildEquationBlock; split
      · exact SameNames.refl w
      · exact SameNames.of_ms rfl
    · unfold callBlock; split
      · exact SameNames.refl w
      · split
        · exact SameNames.refl w
        · exact SameNames.of_ms rfl
  obtain ⟨e1, e2, e3⟩ := models_snapshot w1 [.resolve] (by simp)
  change (resolve w1).2.pr.models = _ at e1
  change (resolve w1).2.pr.variableDict = _ at e2
  change (resolve w1).2.pr.parameterDict = _ at e3
  refine ⟨hs, e1, e2, e3, fun hok => ?_⟩
  obtain ⟨b1, g1, p1, p2, _, _, _, _, p3, _⟩ := resolved_block h
  obtain ⟨b2, g2, q1, q2, _, _, _, _, q3, _⟩ := resolved_block (run_ok hok)
  refine ⟨b1, b2, p1, q1, ?_⟩
  obtain ⟨l1, r1, r2⟩ := gather_equations p3 p2
  obtain ⟨l2, t1, t2⟩ := gather_equations q3 q2
  rw [e1] at t2
  rw [r1, t1]
  generalize dvalues w1.pr.models = ms at r2 t2
  generalize (resolve w1).2 = w2 at *
  clear r1 t1
  induction r2 generalizing l2 with
  | nil => cases t2; rfl
  | cons ha _ ih =>
    cases t2 with
    | cons hb t2 =>
      simp only [List.flatten_cons, List.length_append]
      rw [ih _ t2]
      congr 1
      obtain ⟨mo, ha, rfl⟩ := ha
      obtain ⟨mo', hb, rfl⟩ := hb
      obtain ⟨mo'', hc, _, _, _, _, _, _, hk⟩ := hs.ms _ _ ha
      rw [hb] at hc; cases hc
      have := congrArg List.length hk
      simpa [dkeys, dvalues] using this

/-- A model whose body declares everything, called before it is added. -/
def Ex.bodied : List Op := [.newModel "m" "" { pars := [Ex.dp "p"], vars := [Ex.dv "x"], eqns := [Ex.eq_ "e" (.res (.bin .sub (Ex.at_ "x") (Ex.at_ "p")))] } none,
  .call 0, .addModels (.leaf 0)]

example : (resolve (history Ex.bodied World.init)).1 = .ok () ∧ (resolve (resolve (history Ex.bodied World.init)).2).1 = .ok () ∧
    ∀ m ∈ dvalues (history Ex.bodied World.init).pr.models, Spec.Repeatable (history Ex.bodied World.init) m := by
  refine ⟨by decide +kernel, by decide +kernel, ?_⟩
  have h : dvalues (history Ex.bodied World.init).pr.models = [0] := by decide +kernel
  rw [h]
  intro m hm
  rw [List.mem_singleton] at hm; subst hm
  have : ((history Ex.bodied World.init).ms[0]?.map fun mo => (mo.inlets, Spec.cmds mo.body)) =
    some ([], [Ex.dp "p", Ex.dv "x", Ex.eq_ "e" (.res (.bin .sub (Ex.at_ "x") (Ex.at_ "p")))]) := by decide +kernel
  simp only [Option.map_eq_some_iff, Prod.mk.injEq] at this
  obtain ⟨mo, h1, h2, h3⟩ := this
  refine ⟨mo, h1, h2, ?_⟩
  intro c hc
  rw [h3] at hc
  simp only [List.mem_cons, List.not_mem_nil, or_false] at hc
  rcases hc with rfl | rfl | rfl <;> simp [Spec.Named, Ex.dp, Ex.dv, Ex.eq_]

/-- The body is empty and there are no inlets: everything was declared from outside. -/
def Spec.Bare (w : World) (m : MRef) : Prop := ∃ mo, w.ms[m]? = some mo ∧ mo.inlets = [] ∧ mo.body = {}

theorem call_bare {w : World} {m : MRef} (h : Spec.Bare w m) : Model.call m w = (.ok (), w) := by
  obtain ⟨mo, h1, h2, h3⟩ := h
  rw [call_each h1 h2, h3]; rfl

theorem calls_bare {w : World} {l : List MRef} (h : ∀ m ∈ l, Spec.Bare w m) : each l Model.call w = (.ok (), w) := by
  induction l with
  | nil => rfl
  | cons m t ih => rw [PyM.each_cons, PyM.bind_of_ok (call_bare (h m (by simp))), ih fun k hk => h k (by simp [hk])]

/-- C53 (partial): for models whose declarations were all made from outside, resolving a second time succeeds and changes nothing at all. -/
theorem resolve_twice_bare_partial {w w1 : World} (h : resolve w = (.ok (), w1)) (hp : ∀ m ∈ dvalues w.pr.models, Spec.Bare w m) :
    resolve w1 = (.ok (), w1) := by
  have h' := h
  have hr : ∀ w : World, (∀ m ∈ dvalues w.pr.models, Spec.Bare w m) → reloadModels w = (.ok (), w) := fun w h => calls_bare h
  unfold resolve at h ⊢
  rw [PyM.bind_of_ok (hr w hp)] at h
  have hm : w1.pr.models = w.pr.models ∧ w1.ms = w.ms ∧ w1.es = w.es ∧ w1.qs = w.qs ∧ w1.pr.variableDict = w.pr.variableDict ∧ w1.pr.parameterDict = w.pr.parameterDict := by
    obtain ⟨w0, g, b, h1, h2, h3, rfl, h5, h6⟩ := resolve_ok h'
    rw [hr w hp] at h1
    simp only [Prod.mk.injEq, true_and] at h1
    subst h1
    exact ⟨rfl, rfl, rfl, rfl, rfl, rfl⟩
  have hp1 : ∀ m ∈ dvalues w1.pr.models, Spec.Bare w1 m := by
    intro m h1
    rw [hm.1] at h1
    obtain ⟨mo, h2, h3⟩ := hp m h1
    exact ⟨mo, by rw [hm.2.1]; exact h2, h3⟩
  rw [PyM.bind_of_ok (hr w1 hp1)]
  obtain ⟨w0, g, b, h1, h2, h3, rfl, h5, h6⟩ := resolve_ok h'
  rw [hr w hp] at h1
  simp only [Prod.mk.injEq, true_and] at h1
  subst h1
  have hg : (dvalues w.pr.models).foldlM (Gather.model { w with pr := { w.pr with equationList := some g.eqs, block := some b } }) {} = .ok g := h3
  rw [PyM.bind_run]
  unfold buildEquationBlock
  simp only [hg]
  rw [PyM.bind_run] at h
  unfold buildEquationBlock at h
  simp only [h3] at h
  unfold callBlock at h ⊢
  simp only at h ⊢
  cases hc : (Block.mk' w.es g.eqs (w.pr.variableDict.filter fun p => g.varNames.contains p.1) (w.pr.parameterDict.filter fun p => g.parNames.contains p.1)).call w.es with
  | error e => rw [hc] at h; simp at h
  | ok b' =>
    rw [hc] at h
    simp only [Prod.mk.injEq, true_and] at h
    have : b' = b := by
      have := congrArg (fun x => x.pr.block) h
      simpa using this
    rw [this]

example : (resolve (history Ex.dae World.init)).1 = .ok () ∧ ∀ m ∈ dvalues (history Ex.dae World.init).pr.models, Spec.Bare (history Ex.dae World.init) m := by
  refine ⟨by decide +kernel, ?_⟩
  have h : dvalues (history Ex.dae World.init).pr.models = [0] := by decide +kernel
  rw [h]
  intro m hm
  rw [List.mem_singleton] at hm; subst hm
  have : ((history Ex.dae World.init).ms[0]?.map fun mo => (mo.inlets, mo.body)) = some ([], ({} : Body)) := by decide +kernel
  simp only [Option.map_eq_some_iff, Prod.mk.injEq] at this
  exact this

/-- The number of equations of the problem's system. -/
def Spec.nEqs (w : World) : Option Nat := w.pr.block.map fun b => b.equations.length

/-- A model whose body states an equation without a name. -/
def Ex.unnamed : List Op := [.newModel "m" "" { vars := [Ex.dv "x"], eqns := [.eqn "e" "" "" (.res (.binN .sub (Ex.at_ "x") 1)) true] } none, .addModels (.leaf 0)]

/-- C53 fails for equations without a name: each time the problem is resolved the body is run again and adds its equations under new names. -/
theorem resolve_twice_adds_equations : ∃ w1 w2, resolve (history Ex.unnamed World.init) = (.ok (), w1) ∧ resolve w1 = (.ok (), w2) ∧
    Spec.nEqs w1 = some 1 ∧ Spec.nEqs w2 = some 2 :=
  ⟨_, _, run_ok (by decide +kernel), run_ok (by decide +kernel), by decide +kernel, by decide +kernel⟩

/-- A variable declared as output, and a model whose body declares it. -/
def Ex.outx : Cmd := .var "x" { name := "x", units := Tmpl.dimless, exposed := true, vtype := "output" }
def Ex.outlet : List Op := [.newModel "m" "" { vars := [Ex.outx], eqns := [Ex.eq_ "e" (.res (.binN .sub (Ex.at_ "x") 1))] } none, .addModels (.leaf 0)]

/-- C53 fails for exposed variables: the list of outputs of the model gets a second entry, and the first one is no longer among the model's variables. -/
theorem resolve_twice_exposes_again : ∃ w1 w2, resolve (history Ex.outlet World.init) = (.ok (), w1) ∧ resolve w1 = (.ok (), w2) ∧
    (w1.ms[0]?.map ModelObj.expOut) = some [0] ∧ (w2.ms[0]?.map ModelObj.expOut) = some [0, 1] ∧ (w2.ms[0]?.map fun mo => dvalues mo.vars) = some [1] :=
  ⟨_, _, run_ok (by decide +kernel), run_ok (by decide +kernel), by decide +kernel, by decide +kernel, by decide +kernel⟩

/-- C53 fails for values: a model is called, its parameter is given the value 5, and resolving (which calls the model again) puts a new parameter
without value in its place. -/
theorem resolve_loses_values : ∃ w1 w2, history (Ex.bodied ++ [.setValue 0 (.float 5) none]) World.init = w1 ∧ resolve w1 = (.ok (), w2) ∧
    (w1.ms[0]?.bind fun mo => (dget mo.pars "p_m").bind fun r => w1.qs[r]?.map fun q => (q.value, q.isSpecified)) = some (5, true) ∧
    (w2.ms[0]?.bind fun mo => (dget mo.pars "p_m").bind fun r => w2.qs[r]?.map fun q => (q.value, q.isSpecified)) = some (0, false) :=
  ⟨_, _, rfl, run_ok (by decide +kernel), by decide +kernel, by decide +kernel⟩

end Sloth
