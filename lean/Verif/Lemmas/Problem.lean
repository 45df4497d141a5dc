import Verif.Lemmas.Incorporate

/-!
# The problem object and its equation block
-/

namespace Sloth
open PyM

/-! ## Which calls leave the problem alone -/

theorem samePr_elem : Elem { pr := fun _ => False } (fun w w' => w'.pr = w.pr) where
  refl := fun _ => rfl
  trans := fun _ _ _ h h' => h'.trans h
  newP := fun p w => rfl
  newM := fun n d b p w => by rcases newModel_run n d b p w with ⟨x, hx⟩ | ⟨ps, _, hx⟩ <;> rw [hx]
  attr := fun m a v w => by
    cases h : w.ms[m]? with
    | none => rw [setAttr_none h]
    | some mo => rw [setAttr_run h]; rfl
  var := fun m a w => by
    cases h : w.ms[m]? with
    | none => rw [createVariable_none h]
    | some mo => rw [createVariable_run h]; rfl
  par := fun m a w => by
    cases h : w.ms[m]? with
    | none => rw [createParameter_none h]
    | some mo => rw [createParameter_run h]; rfl
  con := fun m a w => by
    cases h : w.ms[m]? with
    | none => rw [createConstant_none h]
    | some mo => rw [createConstant_run h]; rfl
  built := fun _ _ _ => trivial
  eqn := fun m n d a c _ w => by
    cases h : w.ms[m]? with
    | none => rw [createEquation_none h]
    | some mo => rcases createEquation_run h n d a c with ⟨x, u, he⟩ | ⟨t, t', e, e', u, he, _⟩ <;> rw [he] <;> rfl
  inc := fun m s fl _ => by
    have S : PreRel (fun w w' : World => w'.pr = w.pr) := ⟨fun _ => rfl, fun _ _ _ h h' => h'.trans h⟩
    refine S.incorporate m s fl (fun r w => ?_) (fun r w => ?_) (fun r w => ?_) (fun n wh r w => ?_)
    · cases hm : w.ms[m]? with
      | none => unfold addVariableDirectly; rw [PyM.bind_of_error (getM_none hm)]
      | some mo =>
        cases hq : w.qs[r]? with
        | none => unfold addVariableDirectly; rw [PyM.bind_of_ok (getM_of hm), PyM.bind_of_error (getQ_none hq)]
        | some q => rw [addVariableDirectly_run hm hq]; split <;> rfl
    · cases hm : w.ms[m]? with
      | none => unfold addParameterDirectly; rw [PyM.bind_of_error (getM_none hm)]
      | some mo =>
        cases hq : w.qs[r]? with
        | none => unfold addParameterDirectly; rw [PyM.bind_of_ok (getM_of hm), PyM.bind_of_error (getQ_none hq)]
        | some q => rw [addParameterDirectly_run hm hq]; rfl
    · cases hm : w.ms[m]? with
      | none => unfold addConstantDirectly; rw [PyM.bind_of_error (getM_none hm)]
      | some mo =>
        cases hq : w.qs[r]? with
        | none => unfold addConstantDirectly; rw [PyM.bind_of_ok (getM_of hm), PyM.bind_of_error (getQ_none hq)]
        | some q => rw [addConstantDirectly_run hm hq]; rfl
    · cases hm : w.ms[m]? with
      | none => unfold addEquationDirectly; rw [PyM.bind_of_error (getM_none hm)]
      | some mo =>
        cases hq : w.es[r]? with
        | none => unfold addEquationDirectly; rw [PyM.bind_of_ok (getM_of hm), PyM.bind_of_error (getE_none hq)]
        | some e => rw [addEquationDirectly_run hm hq]; split <;> rfl
  inlets := fun _ m l n w => by
    cases hm : w.ms[m]? with
    | none => unfold setInlets; rw [PyM.bind_of_error (getM_none hm)]
    | some mo =>
      cases hp : w.ps[mo.ports]? with
      | none => unfold setInlets; rw [PyM.bind_of_ok (getM_of hm)]; simp [PyM.bind_run, getP, hp]
      | some p => rw [setInlets_run hm hp]
  conn := fun m o i a _ w => by
    cases hm : w.ms[m]? with
    | none => unfold createModelConnection; rw [PyM.bind_of_error (getM_none hm)]
    | some mo => rcases createModelConnection_run hm o i a with ⟨x, u, he⟩ | ⟨qo, qi, t, t', d, e, e', u, he, _⟩ <;> rw [he] <;> rfl
  value := fun r v u w => by rcases setValueM_run r v u w with ⟨x, hx⟩ | ⟨q, q', hq, hs, hx⟩ <;> rw [hx]
  dist := fun r w => by rcases distributeM_run r w with ⟨x, hx⟩ | ⟨q, hq, hx⟩ <;> rw [hx]
  pr := fun w k p h => h.elim
  puid := fun w u _ => rfl

theorem samePr_stable : Stable { pr := fun _ => False } (fun w w' => w'.pr = w.pr) := samePr_elem.stable trivial

theorem reloadModels_pr (w : World) : (reloadModels w).2.pr = w.pr :=
  samePr_stable.bind samePr_stable.getPr (fun _ => samePr_stable.each _ fun _ => samePr_stable.call _) w

/-- A relation between problem objects is kept by every call that is allowed to change the problem in ways that keep it. -/
theorem prRel_stable (A : PrKind → Prop) (R : ProblemObj → ProblemObj → Prop) (refl : ∀ p, R p p) (trans : ∀ a b c, R a b → R b c → R a c)
    (step : ∀ w k p, A k → PrStep w k p → R w.pr p) : Stable { pr := A } (fun w w' => R w.pr w'.pr) :=
  have of (α : Type) (x : PyM α) (h : Pres (fun w w' : World => w'.pr = w.pr) x) : Pres (fun w w' : World => R w.pr w'.pr) x :=
    fun w => by have := h w; simp only at this ⊢; rw [this]; exact refl _
  Elem.stable (A := { pr := A }) {
    refl := fun w => refl _
    trans := fun a b c h h' => trans _ _ _ h h'
    newP := fun p => of _ _ (samePr_elem.newP p)
    newM := fun n d b p => of _ _ (samePr_elem.newM n d b p)
    attr := fun m a v => of _ _ (samePr_elem.attr m a v)
    var := fun m a => of _ _ (samePr_elem.var m a)
    par := fun m a => of _ _ (samePr_elem.par m a)
    con := fun m a => of _ _ (samePr_elem.con m a)
    built := fun _ _ _ => trivial
    eqn := fun m n d a c h => of _ _ (samePr_elem.eqn m n d a c h)
    inc := fun m s fl h => of _ _ (samePr_elem.inc m s fl h)
    inlets := fun h m l n => of _ _ (samePr_elem.inlets h m l n)
    conn := fun m o i a h => of _ _ (samePr_elem.conn m o i a h)
    value := fun r v u => of _ _ (samePr_elem.value r v u)
    dist := fun r => of _ _ (samePr_elem.dist r)
    pr := fun w k p hk hp => step w k p hk hp
    puid := fun w u _ => refl _ } trivial

/-! ## What the sweep over all equations collects -/

/-- Seen objects have their names recorded. -/
structure Gather.Inv (qs : List Quantity) (g : Gather) : Prop where
  vars : ∀ r ∈ g.vars, ∀ q, qs[r]? = some q → q.name ∈ g.varNames
  pars : ∀ r ∈ g.pars, ∀ q, qs[r]? = some q → q.name ∈ g.parNames

/-- The names of the given class among the objects. -/
def NamesOf (qs : List Quantity) (k : Kind) (l : List Ref) (s : String) : Prop := ∃ r ∈ l, ∃ q, qs[r]? = some q ∧ q.kind = k ∧ q.name = s

/-- What a part of the sweep adds. -/
structure Gather.Adds (qs : List Quantity) (g g' : Gather) (eqs : List ERef) (l : List Ref) : Prop where
  inv : g'.Inv qs
  eqs : g'.eqs = g.eqs ++ eqs
  vars : ∀ s, s ∈ g'.varNames ↔ s ∈ g.varNames ∨ NamesOf qs .variable l s
  pars : ∀ s, s ∈ g'.parNames ↔ s ∈ g.parNames ∨ NamesOf qs .parameter l s

namespace Gather
variable {qs : List Quantity}

theorem Adds.refl {g : Gather} (h : g.Inv qs) : g.Adds qs g [] [] := ⟨h, by simp, by simp [NamesOf], by simp [NamesOf]⟩

theorem Adds.trans {a b c : Gather} {e1 e2 : List ERef} {l1 l2 : List Ref} (h : a.Adds qs b e1 l1) (h' : b.Adds qs c e2 l2) :
    a.Adds qs c (e1 ++ e2) (l1 ++ l2) where
  inv := h'.inv
  eqs := by rw [h'.eqs, h.eqs, List.append_assoc]
  vars := fun s => by
    rw [h'.vars, h.vars]
    simp only [NamesOf, List.mem_append, or_and_right, exists_or, or_assoc]
  pars := fun s => by
    rw [h'.pars, h.pars]
    simp only [NamesOf, List.mem_append, or_and_right, exists_or, or_assoc]

theorem obj_adds {g g' : Gather} {r : Ref} (hi : g.Inv qs) (h : g.obj qs r = .ok g') : g.Adds qs g' [] [r] := by
  unfold obj at h
  cases hq : qs[r]? with
  | none => simp [hq] at h
  | some q =>
    have hn : ∀ k s, NamesOf qs k [r] s ↔ q.kind = k ∧ q.name = s := by
      intro k s
      simp only [NamesOf, List.mem_singleton, exists_eq_left, hq, Option.some.injEq, exists_eq_left']
    simp only [hq] at h
    split at h
    · rename_i hc
      simp only [Except.ok.injEq] at h; subst h
      refine ⟨⟨fun r' hr q' hq' => ?_, hi.pars⟩, by simp, fun s => ?_, fun s => ?_⟩
      · simp only [List.mem_append, List.mem_singleton] at hr ⊢
        rcases hr with hr | rfl
        · exact Or.inl (hi.vars r' hr q' hq')
        · rw [hq] at hq'; cases hq'; exact Or.inr rfl
      · rw [hn]; simp [hc.2, eq_comm]
      · rw [hn]; simp [hc.2]
    · rename_i hv
      split at h
      · rename_i hc
        simp only [Except.ok.injEq] at h; subst h
        refine ⟨⟨hi.vars, fun r' hr q' hq' => ?_⟩, by simp, fun s => ?_, fun s => ?_⟩
        · simp only [List.mem_append, List.mem_singleton] at hr ⊢
          rcases hr with hr | rfl
          · exact Or.inl (hi.pars r' hr q' hq')
          · rw [hq] at hq'; cases hq'; exact Or.inr rfl
        · rw [hn]; simp [hc.2]
        · rw [hn]; simp [hc.2, eq_comm]
      · rename_i hp
        simp only [Except.ok.injEq] at h; subst h
        refine ⟨hi, by simp, fun s => ?_, fun s => ?_⟩
        · rw [hn]
          constructor
          · exact Or.inl
          · rintro (h | ⟨h1, rfl⟩)
            · exact h
            · refine hi.vars r ?_ q hq
              by_contra hx
              exact hv ⟨by simpa using hx, h1⟩
        · rw [hn]
          constructor
          · exact Or.inl
          · rintro (h | ⟨h1, rfl⟩)
            · exact h
            · refine hi.pars r ?_ q hq
              by_contra hx
              exact hp ⟨by simpa using hx, h1⟩

theorem objs_adds (l : List Ref) {g g' : Gather} (hi : g.Inv qs) (h : l.foldlM (obj qs) g = .ok g') : g.Adds qs g' [] l := by
  induction l generalizing g with
  | nil => simp only [List.foldlM_nil, pure, Except.pure, Except.ok.injEq] at h; subst h; exact .refl hi
  | cons r t ih =>
    simp only [List.foldlM_cons, bind_eq_ok] at h
    obtain ⟨g1, h1, h2⟩ := h
    exact (obj_adds hi h1).trans (ih (obj_adds hi h1).inv h2)

/-- The objects of an equation. -/
def objsOf (w : World) (r : ERef) : List Ref :=
  match w.es[r]? with
  | some e => match e.objects with
    | some d => dvalues d
    | none => []
  | none => []

theorem eqn_adds {w : World} {g g' : Gather} {r : ERef} (hi : g.Inv w.qs) (h : g.eqn w r = .ok g') : g.Adds w.qs g' [r] (objsOf w r) := by
  unfold eqn at h
  unfold objsOf
  cases he : w.es[r]? with
  | none => simp [he] at h
  | some e =>
    simp only [he] at h ⊢
    cases ho : e.objects with
    | none => simp [ho] at h
    | some d =>
      simp only [ho] at h ⊢
      have h1 : g.Adds w.qs { g with eqs := g.eqs ++ [r] } [r] [] := ⟨⟨hi.vars, hi.pars⟩, rfl, by simp [NamesOf], by simp [NamesOf]⟩
      exact h1.trans (objs_adds _ h1.inv h)

theorem eqns_adds {w : World} (l : List ERef) {g g' : Gather} (hi : g.Inv w.qs) (h : l.foldlM (eqn w) g = .ok g') :
    g.Adds w.qs g' l (l.flatMap (objsOf w)) := by
  induction l generalizing g with
  | nil => simp only [List.foldlM_nil, pure, Except.pure, Except.ok.injEq] at h; subst h; exact .refl hi
  | cons r t ih =>
    simp only [List.foldlM_cons, bind_eq_ok] at h
    obtain ⟨g1, h1, h2⟩ := h
    exact (eqn_adds hi h1).trans (ih (eqn_adds hi h1).inv h2)

/-- The equations of a model. -/
def eqnsOf (w : World) (m : MRef) : List ERef :=
  match w.ms[m]? with
  | some mo => dvalues mo.eqns
  | none => []

theorem model_adds {w : World} {g g' : Gather} {m : MRef} (hi : g.Inv w.qs) (h : g.model w m = .ok g') :
    g.Adds w.qs g' (eqnsOf w m) ((eqnsOf w m).flatMap (objsOf w)) := by
  unfold model at h
  unfold eqnsOf
  cases hm : w.ms[m]? with
  | none => simp [hm] at h
  | some mo => simp only [hm] at h ⊢; exact eqns_adds _ hi h

theorem models_adds {w : World} (l : List MRef) {g g' : Gather} (hi : g.Inv w.qs) (h : l.foldlM (model w) g = .ok g') :
    g.Adds w.qs g' (l.flatMap (eqnsOf w)) ((l.flatMap (eqnsOf w)).flatMap (objsOf w)) := by
  induction l generalizing g with
  | nil => simp only [List.foldlM_nil, pure, Except.pure, Except.ok.injEq] at h; subst h; exact .refl hi
  | cons r t ih =>
    simp only [List.foldlM_cons, bind_eq_ok] at h
    obtain ⟨g1, h1, h2⟩ := h
    have := (model_adds hi h1).trans (ih (model_adds hi h1).inv h2)
    simpa [List.flatMap_append] using this

theorem gather {w : World} {g : Gather} (h : (dvalues w.pr.models).foldlM (model w) {} = .ok g) :
    g.eqs = (dvalues w.pr.models).flatMap (eqnsOf w) ∧
    (∀ s, s ∈ g.varNames ↔ NamesOf w.qs .variable (((dvalues w.pr.models).flatMap (eqnsOf w)).flatMap (objsOf w)) s) ∧
    (∀ s, s ∈ g.parNames ↔ NamesOf w.qs .parameter (((dvalues w.pr.models).flatMap (eqnsOf w)).flatMap (objsOf w)) s) := by
  have := models_adds (g := {}) _ ⟨by simp, by simp⟩ h
  exact ⟨by rw [this.eqs]; rfl, fun s => by rw [this.vars]; simp, fun s => by rw [this.pars]; simp⟩

/-- In a well-formed heap the sweep succeeds when all models exist. -/
theorem gather_ok {w : World} (hw : w.WF) (l : List MRef) (hl : ∀ m ∈ l, m < w.ms.length)
    (hq : ∀ (r : ERef) (e : EqObj), w.es[r]? = some e → ∀ d, e.objects = some d → ∀ x ∈ dvalues d, x < w.qs.length) (g : Gather) :
    ∃ g', l.foldlM (model w) g = .ok g' := by
  have h1 : ∀ (l : List Ref) (g : Gather), (∀ x ∈ l, x < w.qs.length) → ∃ g', l.foldlM (obj w.qs) g = .ok g' := by
    intro l
    induction l with
    | nil => exact fun g _ => ⟨g, rfl⟩
    | cons a t ih =>
      intro g h
      have ha : w.qs[a]? = some (w.qs[a]'(h a (by simp))) := List.getElem?_eq_getElem _
      obtain ⟨g1, hg⟩ : ∃ g1, g.obj w.qs a = .ok g1 := by
        unfold obj; rw [ha]; simp only; split
        · exact ⟨_, rfl⟩
        · split <;> exact ⟨_, rfl⟩
      obtain ⟨g2, hg2⟩ := ih g1 fun x hx => h x (by simp [hx])
      exact ⟨g2, by simp [List.foldlM_cons, hg, hg2]⟩
  have h2 : ∀ (l : List ERef) (g : Gather), (∀ x ∈ l, ∃ e, w.es[x]? = some e) → ∃ g', l.foldlM (eqn w) g = .ok g' := by
    intro l
    induction l with
    | nil => exact fun g _ => ⟨g, rfl⟩
    | cons a t ih =>
      intro g h
      obtain ⟨e, he⟩ := h a (by simp)
      obtain ⟨n, _, ho, _⟩ := hw.es a e he
      obtain ⟨g1, hg⟩ : ∃ g1, g.eqn w a = .ok g1 := by
        unfold eqn; simp only [he, ho]
        exact h1 _ _ (hq a e he _ ho)
      obtain ⟨g2, hg2⟩ := ih g1 fun x hx => h x (by simp [hx])
      exact ⟨g2, by simp [List.foldlM_cons, hg, hg2]⟩
  induction l generalizing g with
  | nil => exact ⟨g, rfl⟩
  | cons a t ih =>
    have ha : w.ms[a]? = some (w.ms[a]'(hl a (by simp))) := List.getElem?_eq_getElem _
    obtain ⟨g1, hg⟩ : ∃ g1, g.model w a = .ok g1 := by
      unfold model; simp only [ha]
      refine h2 _ _ fun x hx => ?_
      obtain ⟨p, hp, rfl⟩ := List.mem_map.mp hx
      obtain ⟨e, he, _⟩ := (hw.ms a _ ha).eqns.2 p hp
      exact ⟨e, he⟩
    obtain ⟨g2, hg2⟩ := ih (fun x hx => hl x (by simp [hx])) g1
    exact ⟨g2, by simp [List.foldlM_cons, hg, hg2]⟩

end Gather

/-! ## Resolving -/

theorem getEquationList_ok {es : List EqObj} {form : Option EqForm} {side : EqObj.Side} {l : List ERef} {ss : List SObj}
    (h : Block.getEquationList es form side l = .ok ss) :
    List.Forall₂ (fun r s => ∃ e, es[r]? = some e ∧ e.symbolicObject form side = .ok s) l ss := by
  induction l generalizing ss with
  | nil => simp only [Block.getEquationList, Except.ok.injEq] at h; subst h; exact .nil
  | cons r t ih =>
    unfold Block.getEquationList at h
    cases he : es[r]? with
    | none => simp [he] at h
    | some e =>
      simp only [he, bind_eq_ok, Except.ok.injEq] at h
      obtain ⟨s, hs, ss', hss, rfl⟩ := h
      exact .cons ⟨e, he, hs⟩ (ih hss)

/-- A block after its call. -/
def Block.resolved (es : List EqObj) (eqs : List ERef) (vd pd : Dict String Ref) (ss : List SObj) : Block :=
  Block.assignGroups es ⟨eqs, vd, pd, [], [], [], [], dkeys vd, ss⟩

/-- The block a successful `resolve` leaves. -/
theorem resolve_ok {w w' : World} (h : resolve w = (.ok (), w')) :
    ∃ w1 g b, reloadModels w = (.ok (), w1) ∧ w1.pr = w.pr ∧ (dvalues w1.pr.models).foldlM (Gather.model w1) {} = .ok g ∧
      w' = { w1 with pr := { w1.pr with equationList := some g.eqs, block := some b } } ∧
      Block.getEquationList w1.es none .rhs g.eqs = .ok b.equationsList ∧
      b = Block.resolved w1.es g.eqs (w.pr.variableDict.filter fun p => g.varNames.contains p.1)
        (w.pr.parameterDict.filter fun p => g.parNames.contains p.1) b.equationsList := by
  unfold resolve at h
  rw [PyM.bind_ok] at h
  obtain ⟨⟨⟩, w1, h1, h⟩ := h
  have hp := reloadModels_pr w
  rw [h1] at hp
  simp only at hp
  rw [PyM.bind_ok] at h
  obtain ⟨⟨⟩, w2, h2, h3⟩ := h
  unfold buildEquationBlock at h2
  split at h2
  · simp at h2
  · rename_i g hg
    simp only [Prod.mk.injEq, true_and] at h2
    subst h2
    unfold callBlock at h3
    simp only [Block.call, Block.mk', Block.assignGroups] at h3
    cases hl : Block.getEquationList w1.es none .rhs g.eqs with
    | error e => simp [hl] at h3
    | ok ss =>
      simp only [hl, ok_bind, Prod.mk.injEq, true_and] at h3
      subst h3
      exact ⟨w1, g, _, h1, hp, hg, rfl, hl, by rw [hp]; rfl⟩

/-! ## Invariants that speak about the problem -/

/-- A property of the problem object in a well-formed heap that growing heaps and all changes to the problem keep, holds for ever. -/
theorem prInv_stable (A : PrKind → Prop) (P : World → ProblemObj → Prop) (mono : ∀ w w' p, World.Le w w' → P w p → P w' p)
    (step : ∀ w k p, A k → w.WF → PrStep w k p → P w w.pr → P w p) :
    Stable { pr := A } (fun w w' => w.WF ∧ P w w.pr → w'.WF ∧ P w' w'.pr) :=
  have of (α : Type) (x : PyM α) (h : Pres (fun w w' : World => w'.pr = w.pr) x) (hl : Pres World.Le x)
      (hw : Pres (fun w w' => World.WF w → World.WF w') x) :
      Pres (fun w w' : World => w.WF ∧ P w w.pr → w'.WF ∧ P w' w'.pr) x :=
    fun w hwp => ⟨hw w hwp.1, by have := h w; simp only at this; rw [this]; exact mono _ _ _ (hl w) hwp.2⟩
  Elem.stable (A := { pr := A }) {
    refl := fun w => id
    trans := fun a b c h h' => h' ∘ h
    newP := fun p => of _ _ (samePr_elem.newP p) (le_elem.newP p) (wf_elem.newP p)
    newM := fun n d b p => of _ _ (samePr_elem.newM n d b p) (le_elem.newM n d b p) (wf_elem.newM n d b p)
    attr := fun m a v => of _ _ (samePr_elem.attr m a v) (le_elem.attr m a v) (wf_elem.attr m a v)
    var := fun m a => of _ _ (samePr_elem.var m a) (le_elem.var m a) (wf_elem.var m a)
    par := fun m a => of _ _ (samePr_elem.par m a) (le_elem.par m a) (wf_elem.par m a)
    con := fun m a => of _ _ (samePr_elem.con m a) (le_elem.con m a) (wf_elem.con m a)
    built := fun _ _ _ => trivial
    eqn := fun m n d a c h => of _ _ (samePr_elem.eqn m n d a c h) (le_elem.eqn m n d a c h) (wf_elem.eqn m n d a c h)
    inc := fun m s fl h => of _ _ (samePr_elem.inc m s fl h) (le_elem.inc m s fl h) (wf_elem.inc m s fl h)
    inlets := fun h m l n => of _ _ (samePr_elem.inlets h m l n) (le_elem.inlets h m l n) (wf_elem.inlets h m l n)
    conn := fun m o i a h => of _ _ (samePr_elem.conn m o i a h) (le_elem.conn m o i a h) (wf_elem.conn m o i a h)
    value := fun r v u => of _ _ (samePr_elem.value r v u) (le_elem.value r v u) (wf_elem.value r v u)
    dist := fun r => of _ _ (samePr_elem.dist r) (le_elem.dist r) (wf_elem.dist r)
    pr := fun w k p hk hp h => ⟨wf_elem.pr w k p trivial hp h.1, mono _ _ _ (World.Le.pr w p) (step w k p hk h.1 hp h.2)⟩
    puid := fun w u hu h => ⟨wf_elem.puid w u hu h.1, mono _ _ _ (World.Le.puid w u) h.2⟩ } trivial

/-- A dictionary of the problem refers to quantities of that name and class. -/
def World.Listed (w : World) (k : Kind) (d : Dict String Ref) : Prop :=
  DNodup d ∧ ∀ p ∈ d, ∃ q, w.qs[p.2]? = some q ∧ q.name = p.1 ∧ q.kind = k

/-- The problem object is well formed. -/
structure ProblemObj.WF (w : World) (p : ProblemObj) : Prop where
  models : DNodup p.models ∧ ∀ x ∈ p.models, ∃ mo, w.ms[x.2]? = some mo ∧ mo.name = x.1
  vars : w.Listed .variable p.variableDict
  pars : w.Listed .parameter p.parameterDict

theorem mem_dupdate {α β : Type} [DecidableEq α] {d e : Dict α β} {p : α × β} (h : p ∈ dupdate d e) : p ∈ d ∨ p ∈ e := by
  induction e generalizing d with
  | nil => exact Or.inl h
  | cons x t ih =>
    rw [dupdate_cons] at h
    rcases ih h with h | h
    · rcases mem_dset h with ⟨h1, h2⟩ | h
      · exact Or.inr (by rw [show p = x from Prod.ext h1 h2]; simp)
      · exact Or.inl h
    · exact Or.inr (by simp [h])

theorem World.Listed.update {w : World} {k : Kind} {o : String} {d e : Dict String Ref} (hd : w.Listed k d) (he : w.Decl k o e) :
    w.Listed k (dupdate d e) :=
  ⟨hd.1.dupdate e, fun p hp => (mem_dupdate hp).elim (hd.2 p) fun h => by
    obtain ⟨q, h1, h2, h3, _⟩ := he.2 p h
    exact ⟨q, h1, h2, h3⟩⟩

theorem World.Listed.mono {w w' : World} (h : w.Le w') {k : Kind} {d : Dict String Ref} (hd : w.Listed k d) : w'.Listed k d :=
  ⟨hd.1, fun p hp => by
    obtain ⟨q, h1, h2, h3⟩ := hd.2 p hp
    obtain ⟨q', h1', hl⟩ := h.qs _ _ h1
    exact ⟨q', h1', hl.name.trans h2, hl.kind.trans h3⟩⟩

theorem ProblemObj.WF.mono {w w' : World} (h : w.Le w') {p : ProblemObj} (hp : p.WF w) : p.WF w' :=
  ⟨⟨hp.models.1, fun x hx => by
      obtain ⟨mo, h1, h2⟩ := hp.models.2 x hx
      obtain ⟨mo', h3, h4⟩ := h.ms _ _ h1
      exact ⟨mo', h3, h4.name.trans h2⟩⟩, hp.vars.mono h, hp.pars.mono h⟩

theorem problem_stable : Stable { pr := fun _ => True } (fun w w' => w.WF ∧ w.pr.WF w → w'.WF ∧ w'.pr.WF w') :=
  prInv_stable (fun _ => True) (fun w p => p.WF w) (fun _ _ _ h hp => hp.mono h) (fun w k p _ hw hs hp => by
    cases hs with
    | model m mo hm =>
      refine ⟨⟨hp.models.1.dset _ _, fun x hx => ?_⟩, hp.vars.update (hw.ms m mo hm).vars, hp.pars.update (hw.ms m mo hm).pars⟩
      rcases mem_dset hx with ⟨h1, h2⟩ | h
      · exact ⟨mo, by rw [h2]; exact hm, h1.symm⟩
      · exact hp.models.2 x h
    | time l => exact ⟨hp.models, hp.vars, hp.pars⟩
    | initial c => exact ⟨hp.models, hp.vars, hp.pars⟩
    | conn k r => exact ⟨hp.models, hp.vars, hp.pars⟩
    | build g h => exact ⟨hp.models, hp.vars, hp.pars⟩
    | call b b' h h' => exact ⟨hp.models, hp.vars, hp.pars⟩)

theorem history_problem (ops : List Op) {w : World} (h : w.WF) (hp : w.pr.WF w) : (history ops w).pr.WF (history ops w) :=
  (problem_stable.history ops (fun o _ => by cases o <;> simp [Op.Allowed]) w ⟨h, hp⟩).2

theorem reachable_problem {w : World} (h : Reachable w) : w.pr.WF w := by
  obtain ⟨ops, rfl⟩ := h
  refine history_problem ops init_wf ⟨⟨List.nodup_nil, ?_⟩, ⟨List.nodup_nil, ?_⟩, ⟨List.nodup_nil, ?_⟩⟩ <;>
    · intro x hx; simp [World.init] at hx

/-! ## A connection between variables -/

/-- What a successful connection of variables does. -/
theorem connectVars_ok {src : ConnSrc} {m2 : MRef} {outs ins : ConnArg} {expr : Option ResArg} {w w' : World}
    (h : connectVars src m2 outs ins expr w = (.ok (), w')) :
    ∃ m1 mo mi qo qi a e key, src = .model m1 ∧ w.ms[m1]? = some mo ∧ w.ms[m2]? = some mi ∧
      outs.exposedIn mo.expOut = .ok true ∧ ins.exposedIn mi.expIn = .ok true ∧
      outs.refs.map (fun r => w.qs[r]?) = qo.map some ∧ ins.refs.map (fun r => w.qs[r]?) = qi.map some ∧
      connExpr ins.refs outs.refs expr w = (.ok a, w) ∧
      w'.qs = w.qs ∧ w'.es = w.es ++ [e] ∧ w'.ms = w.ms.set m2 (mi.storeEqn (joinNames qo ++ "--->" ++ joinNames qi) w.es.length) ∧
      w'.pr = { w.pr with connections := dset w.pr.connections key w.es.length } ∧
      ∃ t e0 e1, EqObj.setResidual t e0 a = (.ok (), e1) ∧ e1.sweep = .ok e ∧ ∃ t' n d, EqObj.init "" t' n d (some a) = .ok e0 := by
  cases src with
  | model m1 =>
    simp only [connectVars] at h
    cases hi : w.ms[m2]? with
    | none => rw [PyM.bind_of_error (getM_none hi)] at h; simp at h
    | some mi =>
      rw [PyM.bind_of_ok (getM_of hi)] at h
      rw [PyM.bind_ok] at h
      obtain ⟨bi, w1, h1, h⟩ := h
      simp only [PyM.lift_run, Prod.mk.injEq] at h1
      obtain ⟨h1, rfl⟩ := h1
      cases ho : w.ms[m1]? with
      | none => rw [PyM.bind_of_error (getM_none ho)] at h; simp at h
      | some mo =>
        rw [PyM.bind_of_ok (getM_of ho)] at h
        rw [PyM.bind_ok] at h
        obtain ⟨bo, w2, h2, h⟩ := h
        simp only [PyM.lift_run, Prod.mk.injEq] at h2
        obtain ⟨h2, rfl⟩ := h2
        cases hb : (bo && bi) with
        | false => simp [hb, PyM.when, PyM.bind_run, raise] at h
        | true =>
          simp only [Bool.and_eq_true] at hb
          obtain ⟨rfl, rfl⟩ := hb
          simp only [Bool.and_self, Bool.not_true, PyM.when_false] at h
          rw [PyM.bind_of_ok (show PyM.pure () w = (.ok (), w) from rfl), PyM.bind_ok] at h
          obtain ⟨a, w3, h3, h⟩ := h
          have hw3 : w3 = w := by
            cases expr with
            | none => exact (connExpr_none h3).1
            | some x => simp only [connExpr, PyM.pure_run, Prod.mk.injEq] at h3; exact h3.2.symm
          subst hw3
          unfold createDirectConnection at h
          rw [PyM.bind_ok] at h
          obtain ⟨qo, w4, h4, h⟩ := h
          rcases collect_getQ outs.refs w3 with ⟨qo', ho', hq'⟩ | he
          swap
          · rw [he] at h4; simp at h4
          rw [ho'] at h4
          simp only [Prod.mk.injEq, Except.ok.injEq] at h4
          obtain ⟨rfl, rfl⟩ := h4
          rw [PyM.bind_ok] at h
          obtain ⟨qi, w5, h5, h⟩ := h
          rcases collect_getQ ins.refs w3 with ⟨qi', hi', hqi'⟩ | he
          swap
          · rw [he] at h5; simp at h5
          rw [hi'] at h5
          simp only [Prod.mk.injEq, Except.ok.injEq] at h5
          obtain ⟨rfl, rfl⟩ := h5
          rcases createModelConnection_run hi outs.refs ins.refs a with ⟨x, u, he⟩ | ⟨qo2, qi2, t, t', d, e, e', u, he, k1, k2, _, k4, k5, k6⟩
          · rw [PyM.bind_of_error he] at h; simp at h
          · rw [PyM.bind_of_ok he] at h
            rw [k1] at hq'; rw [k2] at hqi'
            have e1 : qo2 = qo' := List.map_injective_iff.mpr (Option.some_injective _) hq'
            have e2 : qi2 = qi' := List.map_injective_iff.mpr (Option.some_injective _) hqi'
            subst e1 e2
            rw [PyM.bind_ok] at h
            obtain ⟨mo', w6, h6, h⟩ := h
            rw [PyM.bind_ok] at h
            obtain ⟨mi', w7, h7, h⟩ := h
            have g6 : w6 = ((w3.withUid u).addE e').withM m2 (mi.storeEqn (joinNames qo2 ++ "--->" ++ joinNames qi2) w3.es.length) := by
              unfold getM at h6; split at h6 <;> simp at h6; exact h6.2.symm
            have g7 : w7 = w6 := by unfold getM at h7; split at h7 <;> simp at h7; exact h7.2.symm
            subst g7 g6
            simp only [PyM.bind_run, getPr, setPr, Prod.mk.injEq, true_and] at h
            subst h
            exact ⟨m1, mo, mi, qo2, qi2, a, e', _, rfl, ho, rfl, h2, h1, k1, k2, h3, rfl, rfl, rfl, rfl, t', e, _, Prod.ext k5 rfl, k6, t, _, d, k4⟩
  | str s =>
    simp only [connectVars] at h
    iterate 5
      rw [PyM.bind_ok] at h
      obtain ⟨_, _, _, h⟩ := h
    simp [raise] at h
  | other =>
    simp only [connectVars] at h
    iterate 5
      rw [PyM.bind_ok] at h
      obtain ⟨_, _, _, h⟩ := h
    simp [raise] at h

end Sloth
