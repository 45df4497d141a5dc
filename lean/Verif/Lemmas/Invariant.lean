import Verif.Lemmas.Heap

/-!
# What is true of every heap of a session
-/

namespace Sloth
open PyM

/-! ## Equation objects -/

theorem EqObj.setResidual_fields (tag : String) (e : EqObj) (a : ResArg) :
    (e.setResidual tag a).2.name = e.name ∧ (e.setResidual tag a).2.owner = e.owner ∧
    (e.setResidual tag a).2.description = e.description := by
  have hf : ∀ e : EqObj, e.finish.2.name = e.name ∧ e.finish.2.owner = e.owner ∧ e.finish.2.description = e.description := by
    intro e; unfold EqObj.finish; split <;> exact ⟨rfl, rfl, rfl⟩
  cases a with
  | eqn l r => simp only [EqObj.setResidual]; split <;> [exact ⟨rfl, rfl, rfl⟩; exact hf _]
  | eqnNum l q => simp only [EqObj.setResidual]; split <;> [exact ⟨rfl, rfl, rfl⟩; exact hf _]
  | eqnOther l => exact hf _
  | node n => exact hf _
  | other => exact ⟨rfl, rfl, rfl⟩

theorem EqObj.setResidual_ok {tag : String} {e : EqObj} {a : ResArg} (h : (e.setResidual tag a).1 = .ok ()) :
    ∃ n, (e.setResidual tag a).2.expr = some n ∧ (e.setResidual tag a).2.type = EqObj.kindOf n.ty := by
  have hf : ∀ e : EqObj, e.finish.1 = .ok () → ∃ n, e.finish.2.expr = some n ∧ e.finish.2.type = EqObj.kindOf n.ty := by
    intro e h; unfold EqObj.finish at h ⊢
    split
    · rename_i n hn; exact ⟨n, hn, rfl⟩
    · rename_i hn; simp [hn] at h
  cases a with
  | eqn l r =>
    simp only [EqObj.setResidual] at h ⊢
    split
    · rename_i hd; simp [hd] at h
    · rename_i hd; simp only [hd] at h; exact hf _ h
  | eqnNum l q =>
    simp only [EqObj.setResidual] at h ⊢
    split
    · rename_i hd; simp [hd] at h
    · rename_i hd; simp only [hd] at h; exact hf _ h
  | eqnOther l => exact hf _ h
  | node n => exact hf _ h
  | other => simp [EqObj.setResidual] at h

/-- What the constructor does with a statement. -/
theorem EqObj.init_some {tag tag' name d owner : String} {a : ResArg} {e : EqObj} (h : EqObj.init tag tag' name d (some a) owner = .ok e) :
    ∃ e1, EqObj.setResidual tag' { name := if name = "" then tag else name, description := d } a = (.ok (), e1) ∧ e = { e1 with owner } := by
  simp only [EqObj.init] at h
  split at h
  · rename_i e1 h1; simp only [Except.ok.injEq] at h; exact ⟨e1, h1, h.symm⟩
  · cases h

theorem EqObj.init_fields {tag tag' name d owner : String} {a : Option ResArg} {e : EqObj} (h : EqObj.init tag tag' name d a owner = .ok e) :
    e.name = (if name = "" then tag else name) ∧ e.owner = owner ∧ e.description = d ∧ (∀ n, e.expr = some n → e.type = EqObj.kindOf n.ty) := by
  cases a with
  | none => simp only [EqObj.init, Except.ok.injEq] at h; subst h; simp
  | some a =>
    obtain ⟨e1, h1, rfl⟩ := EqObj.init_some h
    have hf := EqObj.setResidual_fields tag' { name := if name = "" then tag else name, description := d } a
    obtain ⟨n, hn, ht⟩ := EqObj.setResidual_ok (by rw [h1])
    rw [h1] at hf hn ht
    refine ⟨hf.1, rfl, hf.2.2, ?_⟩
    intro n' hn'
    rw [ht]
    have : e1.expr = some n' := hn'
    rw [hn] at this; cases this; rfl

theorem EqObj.sweep_ok {e e' : EqObj} (h : e.sweep = .ok e') : ∃ n, e.expr = some n ∧ e' = { e with objects := some n.symMap } := by
  unfold EqObj.sweep at h
  split at h
  · rename_i n hn; simp only [Except.ok.injEq] at h; exact ⟨n, hn, h.symm⟩
  · cases h

theorem EqObj.convert_fields {e e' : EqObj} {names : Dict String String} {whole : Dict String Ref} (h : e.convert names whole = .ok e') :
    e'.name = e.name ∧ e'.owner = e.owner ∧ ∃ n n', e.expr = some n ∧ e'.expr = some n' ∧ n'.ty = n.ty ∧ e'.type = e.type ∧
      e'.objects = some n'.symMap := by
  unfold EqObj.convert at h
  cases hx : e.expr with
  | none => simp [hx] at h
  | some n =>
    simp only [hx, EqObj.convertNode, bind_eq_ok, EqObj.sweep, Except.ok.injEq] at h
    obtain ⟨s, hs, el, hel, m, hm, rfl⟩ := h
    exact ⟨rfl, rfl, n, _, rfl, rfl, rfl, rfl, rfl⟩

theorem mem_dset {α β : Type} [DecidableEq α] {d : Dict α β} {k x : α} {v y : β} (h : (x, y) ∈ dset d k v) : (x = k ∧ y = v) ∨ (x, y) ∈ d := by
  induction d with
  | nil => simp only [dset, List.mem_singleton, Prod.mk.injEq] at h; exact Or.inl h
  | cons p t ih =>
    obtain ⟨k', v'⟩ := p
    simp only [dset] at h
    split at h
    · rename_i hk
      rcases List.mem_cons.mp h with h | h
      · simp only [Prod.mk.injEq] at h; exact Or.inl ⟨h.1.trans hk, h.2⟩
      · exact Or.inr (by simp [h])
    · rcases List.mem_cons.mp h with h | h
      · exact Or.inr (by simp [h])
      · exact (ih h).imp id (fun h => by simp [h])

/-! ## Well-formed heaps -/

/-- The entry of a dictionary refers to a quantity of that name, class and owner. -/
def World.Decl (w : World) (k : Kind) (owner : String) (d : Dict String Ref) : Prop :=
  DNodup d ∧ ∀ p ∈ d, ∃ q, w.qs[p.2]? = some q ∧ q.name = p.1 ∧ q.kind = k ∧ q.owner = owner

/-- The members of an exposure list were declared exposed with that type. -/
def World.Exposes (w : World) (owner vtype : String) (l : List Ref) : Prop :=
  ∀ r ∈ l, ∃ q, w.qs[r]? = some q ∧ q.kind = .variable ∧ q.owner = owner ∧ q.isExposed = true ∧ q.vtype = vtype

/-- A model is well formed. -/
structure ModelObj.WF (w : World) (mo : ModelObj) : Prop where
  ports : mo.ports < w.ps.length
  vars : w.Decl .variable mo.name mo.vars
  pars : w.Decl .parameter mo.name mo.pars
  cons : w.Decl .constant mo.name mo.cons
  eqns : DNodup mo.eqns ∧ ∀ p ∈ mo.eqns, ∃ e, w.es[p.2]? = some e ∧ e.name = p.1 ∧ (e.owner = mo.name ∨ e.owner = "")
  expIn : w.Exposes mo.name "input" mo.expIn
  expOut : w.Exposes mo.name "output" mo.expOut

/-- A stored equation is well formed. -/
def EqObj.WF (e : EqObj) : Prop := ∃ n, e.expr = some n ∧ e.objects = some n.symMap ∧ e.type = EqObj.kindOf n.ty

/-- A heap is well formed. -/
structure World.WF (w : World) : Prop where
  ms : ∀ (m : MRef) (mo : ModelObj), w.ms[m]? = some mo → mo.WF w
  es : ∀ (r : ERef) (e : EqObj), w.es[r]? = some e → e.WF

theorem World.Decl.mono {w w' : World} (h : w.Le w') {k : Kind} {o : String} {d : Dict String Ref} (hd : w.Decl k o d) : w'.Decl k o d :=
  ⟨hd.1, fun p hp => by
    obtain ⟨q, h1, h2, h3, h4⟩ := hd.2 p hp
    obtain ⟨q', h1', hl⟩ := h.qs _ _ h1
    exact ⟨q', h1', hl.name.trans h2, hl.kind.trans h3, hl.owner.trans h4⟩⟩

theorem World.Exposes.mono {w w' : World} (h : w.Le w') {o t : String} {l : List Ref} (hd : w.Exposes o t l) : w'.Exposes o t l :=
  fun r hr => by
    obtain ⟨q, h1, h2, h3, h4, h5⟩ := hd r hr
    obtain ⟨q', h1', hl⟩ := h.qs _ _ h1
    exact ⟨q', h1', hl.kind.trans h2, hl.owner.trans h3, hl.exposed.trans h4, hl.vtype.trans h5⟩

theorem ModelObj.WF.mono {w w' : World} (h : w.Le w') {mo : ModelObj} (hm : mo.WF w) : mo.WF w' where
  ports := lt_of_lt_of_le hm.ports h.ps
  vars := hm.vars.mono h
  pars := hm.pars.mono h
  cons := hm.cons.mono h
  eqns := ⟨hm.eqns.1, fun p hp => by
    obtain ⟨e, h1, h2⟩ := hm.eqns.2 p hp
    exact ⟨e, h.es _ _ h1, h2⟩⟩
  expIn := hm.expIn.mono h
  expOut := hm.expOut.mono h

/-- One more declaration. -/
theorem World.Decl.add {w : World} {k : Kind} {o : String} {d : Dict String Ref} (hd : w.Decl k o d) {q : Quantity} (hk : q.kind = k)
    (ho : q.owner = o) : (w.addQ q).Decl k o (dset d q.name w.qs.length) := by
  refine ⟨hd.1.dset _ _, ?_⟩
  rintro ⟨x, r⟩ hp
  rcases mem_dset hp with ⟨rfl, rfl⟩ | hp
  · exact ⟨q, by simp [World.addQ], rfl, hk, ho⟩
  · exact (hd.mono (World.Le.addQ w q)).2 _ hp

/-- Replacing one model by a well-formed one in a larger heap. -/
theorem World.WF.replace {w w' : World} (h : w.WF) (hl : w.Le w') (m : MRef) (mo' : ModelObj)
    (hms : ∀ k, k ≠ m → w'.ms[k]? = w.ms[k]?) (hm : ∀ x, w'.ms[m]? = some x → x = mo') (hw : mo'.WF w')
    (hes : ∀ (r : ERef) (e : EqObj), w'.es[r]? = some e → e.WF) : w'.WF where
  ms := fun k mo hk => by
    by_cases hkm : k = m
    · subst hkm; rw [hm mo hk]; exact hw
    · exact (h.ms k mo (by rw [← hms k hkm, hk])).mono hl
  es := hes

theorem World.WF.addQ_withM {w : World} (h : w.WF) {m : MRef} {mo mo' : ModelObj} {q : Quantity} (hm : w.ms[m]? = some mo)
    (hl : mo.Le w.qs.length mo') (hw : mo'.WF (w.addQ q)) : ((w.addQ q).withM m mo').WF := by
  have hle := World.Le.addQ_withM q hm hl
  refine h.replace hle m mo' (fun k hk => by simp [World.withM, World.addQ, List.getElem?_set_ne (Ne.symm hk)]) (fun x hx => ?_) ?_ h.es
  · rw [withM_getM (w := w.addQ q) hm] at hx; cases hx; rfl
  · exact { hw with }

theorem World.WF.addE_withM {w : World} (h : w.WF) {m : MRef} {mo mo' : ModelObj} {e : EqObj} {u : Uid} (hm : w.ms[m]? = some mo)
    (hl : mo.Le w.qs.length mo') (hw : mo'.WF (w.addE e)) (he : e.WF) : (((w.withUid u).addE e).withM m mo').WF := by
  have hle := World.Le.addE_withM e u hm hl
  refine h.replace hle m mo' (fun k hk => by simp [World.withM, World.addE, World.withUid, List.getElem?_set_ne (Ne.symm hk)]) (fun x hx => ?_) ?_ ?_
  · rw [withM_getM (w := (w.withUid u).addE e) hm] at hx; cases hx; rfl
  · exact { hw with }
  · intro r x hx
    simp only [World.withM, World.addE, World.withUid] at hx
    rw [List.getElem?_append] at hx
    split at hx
    · exact h.es r x hx
    · have := List.mem_of_getElem? hx
      simp only [List.mem_singleton] at this
      subst this; exact he

theorem World.WF.withM {w : World} (h : w.WF) {m : MRef} {mo mo' : ModelObj} (hm : w.ms[m]? = some mo) (hl : mo.Le w.qs.length mo')
    (hw : mo'.WF w) : (w.withM m mo').WF := by
  refine h.replace (World.Le.withM hm hl) m mo' (fun k hk => by simp [World.withM, List.getElem?_set_ne (Ne.symm hk)]) (fun x hx => ?_) ?_ h.es
  · rw [withM_getM hm] at hx; cases hx; rfl
  · exact { hw with }

theorem ModelObj.WF.storeVar {w : World} {mo : ModelObj} (h : mo.WF w) {q : Quantity} (hk : q.kind = .variable) (ho : q.owner = mo.name)
    (ats : Dict String Attr) : ModelObj.WF (w.addQ q) { mo.storeVar q.name w.qs.length with attrs := ats } :=
  { h.mono (World.Le.addQ w q) with vars := h.vars.add hk ho }
theorem ModelObj.WF.storePar {w : World} {mo : ModelObj} (h : mo.WF w) {q : Quantity} (hk : q.kind = .parameter) (ho : q.owner = mo.name)
    (ats : Dict String Attr) : ModelObj.WF (w.addQ q) { mo.storePar q.name w.qs.length with attrs := ats } :=
  { h.mono (World.Le.addQ w q) with pars := h.pars.add hk ho }
theorem ModelObj.WF.storeCon {w : World} {mo : ModelObj} (h : mo.WF w) {q : Quantity} (hk : q.kind = .constant) (ho : q.owner = mo.name)
    (ats : Dict String Attr) : ModelObj.WF (w.addQ q) { mo.storeCon q.name w.qs.length with attrs := ats } :=
  { h.mono (World.Le.addQ w q) with cons := h.cons.add hk ho }
theorem ModelObj.WF.storeEqn {w : World} {mo : ModelObj} (h : mo.WF w) {e : EqObj} (ho : e.owner = mo.name ∨ e.owner = "") (ats : Dict String Attr) :
    ModelObj.WF (w.addE e) { mo.storeEqn e.name w.es.length with attrs := ats } :=
  { h.mono (World.Le.addE w e) with eqns := ⟨h.eqns.1.dset _ _, by
      rintro ⟨x, r⟩ hp
      rcases mem_dset hp with ⟨rfl, rfl⟩ | hp
      · exact ⟨e, by simp [World.addE], rfl, ho⟩
      · exact (h.mono (World.Le.addE w e)).eqns.2 _ hp⟩ }

theorem ModelObj.WF.exposeAs {w : World} {mo : ModelObj} (h : mo.WF w) (a : VarArgs) :
    ModelObj.WF (w.addQ (a.quantity mo.name)) ((mo.storeVar (a.quantity mo.name).name w.qs.length).exposeAs a w.qs.length) := by
  have hs := h.storeVar (q := a.quantity mo.name) rfl rfl mo.attrs
  have key : ∀ t l, World.Exposes (w.addQ (a.quantity mo.name)) mo.name t l → a.exposed = true → a.vtype = t →
      World.Exposes (w.addQ (a.quantity mo.name)) mo.name t (l ++ [w.qs.length]) := by
    intro t l hl he ht r hr
    rcases List.mem_append.mp hr with hr | hr
    · exact hl r hr
    · rw [List.mem_singleton.mp hr]
      exact ⟨a.quantity mo.name, by simp [World.addQ], rfl, rfl, he, ht⟩
  unfold ModelObj.exposeAs
  split
  · rename_i hc
    exact { hs with expIn := key _ _ hs.expIn hc.1 hc.2 }
  · split
    · rename_i hc
      exact { hs with expOut := key _ _ hs.expOut hc.1 hc.2 }
    · exact hs

/-- Invariants as relations. -/
theorem inv_preRel (P : World → Prop) : PreRel (fun w w' => P w → P w') := ⟨fun _ => id, fun _ _ _ h h' => h' ∘ h⟩

/-- The references point to quantities of one class. -/
def World.AllKind (w : World) (k : Kind) (l : List Ref) : Prop := ∀ r ∈ l, ∃ q, w.qs[r]? = some q ∧ q.kind = k

theorem World.AllKind.mono {w w' : World} (h : w.Le w') {k : Kind} {l : List Ref} (hd : w.AllKind k l) : w'.AllKind k l := fun r hr => by
  obtain ⟨q, h1, h2⟩ := hd r hr
  obtain ⟨q', h1', hl⟩ := h.qs _ _ h1
  exact ⟨q', h1', hl.kind.trans h2⟩

theorem World.Decl.allKind {w : World} {k : Kind} {o : String} {d : Dict String Ref} (h : w.Decl k o d) : w.AllKind k (dvalues d) :=
  fun r hr => by
    obtain ⟨p, hp, rfl⟩ := List.mem_map.mp hr
    obtain ⟨q, h1, _, h3, _⟩ := h.2 p hp
    exact ⟨q, h1, h3⟩

theorem copyTo_fields (q : Quantity) (b : Bool) (o : String) : (q.copyTo b o).kind = q.kind ∧ (q.copyTo b o).owner = o := ⟨rfl, rfl⟩

/-- A loop over references of one class keeps well-formedness when each step does. -/
theorem each_wf {k : Kind} {f : Ref → PyM Unit} (hle : ∀ r, Pres World.Le (f r))
    (hf : ∀ (r : Ref) (w : World) (q : Quantity), w.WF → w.qs[r]? = some q → q.kind = k → (f r w).2.WF) (l : List Ref) (w : World) (h : w.WF)
    (hl : w.AllKind k l) : (each l f w).2.WF := by
  induction l generalizing w with
  | nil => exact h
  | cons r t ih =>
    obtain ⟨q, hq, hk⟩ := hl r (by simp)
    have h1 := hf r w q h hq hk
    have h2 := hle r w
    rw [PyM.each_cons, PyM.bind_run]
    cases hr : f r w with
    | mk x w1 =>
      rw [hr] at h1 h2
      cases x with
      | error e => exact h1
      | ok a => exact ih w1 h1 (fun r' hr' => hl.mono h2 r' (by simp [hr']))

theorem addVar_wf (m : MRef) (b : Bool) (r : Ref) (w : World) (q : Quantity) (h : w.WF) (hq : w.qs[r]? = some q) (hk : q.kind = .variable) :
    (addVariableDirectly m b r w).2.WF := by
  cases hm : w.ms[m]? with
  | none => unfold addVariableDirectly; rw [PyM.bind_of_error (getM_none hm)]; exact h
  | some mo =>
    rw [addVariableDirectly_run hm hq]
    have hs := fun ats => (h.ms m mo hm).storeVar (q := q.copyTo b mo.name) hk rfl ats
    split
    · exact h.addQ_withM hm (ModelObj.Le.storeVar _ _ _ _ mo.attrs) (hs mo.attrs)
    · exact h.addQ_withM hm (ModelObj.Le.storeVar _ _ _ _ _) (hs _)

theorem addPar_wf (m : MRef) (b : Bool) (r : Ref) (w : World) (q : Quantity) (h : w.WF) (hq : w.qs[r]? = some q) (hk : q.kind = .parameter) :
    (addParameterDirectly m b r w).2.WF := by
  cases hm : w.ms[m]? with
  | none => unfold addParameterDirectly; rw [PyM.bind_of_error (getM_none hm)]; exact h
  | some mo =>
    rw [addParameterDirectly_run hm hq]
    exact h.addQ_withM hm (ModelObj.Le.storePar _ _ _ _ _) ((h.ms m mo hm).storePar (q := q.copyTo b mo.name) hk rfl _)

theorem addCon_wf (m : MRef) (b : Bool) (r : Ref) (w : World) (q : Quantity) (h : w.WF) (hq : w.qs[r]? = some q) (hk : q.kind = .constant) :
    (addConstantDirectly m b r w).2.WF := by
  cases hm : w.ms[m]? with
  | none => unfold addConstantDirectly; rw [PyM.bind_of_error (getM_none hm)]; exact h
  | some mo =>
    rw [addConstantDirectly_run hm hq]
    exact h.addQ_withM hm (ModelObj.Le.storeCon _ _ _ _ _) ((h.ms m mo hm).storeCon (q := q.copyTo b mo.name) hk rfl _)

theorem convert_wf {e e' : EqObj} {names : Dict String String} {whole : Dict String Ref} (h : e.WF)
    {nm o : String} (hc : EqObj.convert { e with name := nm, owner := o } names whole = .ok e') : e'.WF := by
  obtain ⟨_, _, n, n', h1, h2, h3, h4, h5⟩ := EqObj.convert_fields hc
  obtain ⟨m, g1, _, g3⟩ := h
  have : m = n := by
    have : e.expr = some n := h1
    rw [g1] at this; cases this; rfl
  subst this
  exact ⟨n', h2, h5, by rw [h3, h4]; exact g3⟩

theorem addEqn_wf (m : MRef) (n : Dict String String) (wh : Dict String Ref) (b : Bool) (r : Ref) (w : World) (h : w.WF) :
    (addEquationDirectly m n wh b r w).2.WF := by
  cases hm : w.ms[m]? with
  | none => unfold addEquationDirectly; rw [PyM.bind_of_error (getM_none hm)]; exact h
  | some mo =>
    cases hq : w.es[r]? with
    | none => unfold addEquationDirectly; rw [PyM.bind_of_ok (getM_of hm), PyM.bind_of_error (getE_none hq)]; exact h
    | some e =>
      rw [addEquationDirectly_run hm hq]
      split
      · exact h
      · rename_i e' hc
        exact h.addE_withM (u := w.uid) hm (ModelObj.Le.storeEqn _ _ _ _ _) ((h.ms m mo hm).storeEqn (Or.inl (EqObj.convert_fields hc).2.1) _)
          (convert_wf (h.es r e hq) hc)

/-- Reading a model inside an invariant argument. -/
theorem getM_bind_inv {P : World → Prop} {m : MRef} {α : Type} {f : ModelObj → PyM α} {w : World} (hw : P w)
    (h : ∀ mo, w.ms[m]? = some mo → P (f mo w).2) : P ((getM m >>= f) w).2 := by
  cases hm : w.ms[m]? with
  | none => rw [PyM.bind_of_error (getM_none hm)]; exact hw
  | some mo => rw [PyM.bind_of_ok (getM_of hm)]; exact h mo hm

theorem bind_inv {P : World → Prop} {α β : Type} {x : PyM α} {f : α → PyM β} {w : World} (hx : P (x w).2)
    (h : ∀ a w', P w' → P (f a w').2) : P ((x >>= f) w).2 := by
  rw [PyM.bind_run]
  cases hr : x w with
  | mk r w1 =>
    rw [hr] at hx
    cases r with
    | error e => exact hx
    | ok a => exact h a w1 hx

theorem when_inv {P : World → Prop} {b : Bool} {x : PyM Unit} {w : World} (hw : P w) (hx : P (x w).2) : P ((PyM.when b x) w).2 := by
  cases b
  · exact hw
  · exact hx

theorem incorporate_wf (m s : MRef) (fl : IncFlags) (w : World) (h : w.WF) : (incorporate m s fl w).2.WF := by
  unfold incorporate
  refine getM_bind_inv h fun so hs => bind_inv (when_inv h (each_wf (addVar_le m fl.rewrite) (addVar_wf m fl.rewrite) _ w h
    (h.ms s so hs).vars.allKind)) fun _ w h => ?_
  refine getM_bind_inv h fun so hs => bind_inv (when_inv h (each_wf (addPar_le m fl.rewrite) (addPar_wf m fl.rewrite) _ w h
    (h.ms s so hs).pars.allKind)) fun _ w h => ?_
  refine getM_bind_inv h fun so hs => bind_inv (when_inv h (each_wf (addCon_le m fl.rewrite) (addCon_wf m fl.rewrite) _ w h
    (h.ms s so hs).cons.allKind)) fun _ w h => ?_
  refine getM_bind_inv h fun so hs => getM_bind_inv h fun mo hm => when_inv h ?_
  exact (inv_preRel World.WF).each _ (fun r w h => addEqn_wf m _ _ fl.rewrite r w h) w h

theorem wf_elem : Elem {} (fun w w' => World.WF w → World.WF w') where
  toPreRel := inv_preRel _
  newP := fun p w h => ⟨fun m mo hm => (h.ms m mo hm).mono (le_elem.newP p w), h.es⟩
  newM := fun n d b p w h => by
    rcases newModel_run n d b p w with ⟨x, hx⟩ | ⟨ps, hp, hx⟩ <;> rw [hx]
    · exact h
    · refine ⟨fun k mo hk => ?_, h.es⟩
      simp only at hk
      rw [List.getElem?_append] at hk
      split at hk
      · exact { h.ms k mo hk with }
      · have := List.mem_of_getElem? hk
        simp only [List.mem_singleton] at this
        subst this
        exact ⟨(List.getElem?_eq_some_iff.mp hp).1, ⟨DNodup.nil, by simp⟩, ⟨DNodup.nil, by simp⟩, ⟨DNodup.nil, by simp⟩,
          ⟨DNodup.nil, by simp⟩, by simp [World.Exposes], by simp [World.Exposes]⟩
  attr := fun m a v w h => by
    cases hm : w.ms[m]? with
    | none => rw [setAttr_none hm]; exact h
    | some mo => rw [setAttr_run hm]; exact h.withM hm { ModelObj.Le.refl w.qs.length mo with } { h.ms m mo hm with }
  var := fun m a w h => by
    cases hm : w.ms[m]? with
    | none => rw [createVariable_none hm]; exact h
    | some mo => rw [createVariable_run hm]; exact h.addQ_withM hm (ModelObj.Le.exposeAs _ _ _ _) ((h.ms m mo hm).exposeAs a)
  par := fun m a w h => by
    cases hm : w.ms[m]? with
    | none => rw [createParameter_none hm]; exact h
    | some mo =>
      rw [createParameter_run hm]
      exact h.addQ_withM hm (ModelObj.Le.storePar _ _ _ _ mo.attrs) ((h.ms m mo hm).storePar (q := a.parameter mo.name) rfl rfl mo.attrs)
  con := fun m a w h => by
    cases hm : w.ms[m]? with
    | none => rw [createConstant_none hm]; exact h
    | some mo =>
      rw [createConstant_run hm]
      exact h.addQ_withM hm (ModelObj.Le.storeCon _ _ _ _ mo.attrs) ((h.ms m mo hm).storeCon (q := a.constant mo.name) rfl rfl mo.attrs)
  built := fun _ _ _ => trivial
  eqn := fun m n d a c _ w h => by
    cases hm : w.ms[m]? with
    | none => rw [createEquation_none hm]; exact h
    | some mo =>
      rcases createEquation_run hm n d a c with ⟨x, u, he⟩ | ⟨t, t', e, e', u, he, hi, hs, _⟩ <;> rw [he]
      · exact ⟨fun k x hx => { h.ms k x hx with }, h.es⟩
      · obtain ⟨n', hn, rfl⟩ := EqObj.sweep_ok hs
        exact h.addE_withM hm (ModelObj.Le.storeEqn _ _ _ _ mo.attrs) ((h.ms m mo hm).storeEqn (by exact Or.inl (EqObj.init_fields hi).2.1) mo.attrs)
          ⟨n', hn, rfl, (EqObj.init_fields hi).2.2.2 n' hn⟩
  inc := fun m s fl _ w h => incorporate_wf m s fl w h
  inlets := fun _ m l n w h => by
    cases hm : w.ms[m]? with
    | none => unfold setInlets; rw [PyM.bind_of_error (getM_none hm)]; exact h
    | some mo =>
      cases hp : w.ps[mo.ports]? with
      | none => unfold setInlets; rw [PyM.bind_of_ok (getM_of hm), PyM.bind_of_error (getP_none hp)]; exact h
      | some p =>
        rw [setInlets_run hm hp]
        have hl : mo.Le w.qs.length { mo with inlets := mo.inlets ++ (dvalues (dset p n ((dget p n).getD [] ++ l))).flatten } :=
          { ModelObj.Le.refl w.qs.length mo with inlets := List.prefix_append _ _ }
        have := h.withM hm hl { h.ms m mo hm with }
        exact ⟨fun k x hx => { this.ms k x hx with ports := by simpa [World.withM] using (this.ms k x hx).ports }, this.es⟩
  conn := fun m o i a _ w h => by
    cases hm : w.ms[m]? with
    | none => unfold createModelConnection; rw [PyM.bind_of_error (getM_none hm)]; exact h
    | some mo =>
      rcases createModelConnection_run hm o i a with ⟨x, u, he⟩ | ⟨qo, qi, t, t', d, e, e', u, he, _, _, _, hi, hr, hs⟩ <;> rw [he]
      · exact ⟨fun k x hx => { h.ms k x hx with }, h.es⟩
      · obtain ⟨n', hn, rfl⟩ := EqObj.sweep_ok hs
        obtain ⟨n2, hn2, ht⟩ := EqObj.setResidual_ok hr
        rw [hn] at hn2; cases hn2
        have hname : (e.setResidual t' a).2.name = joinNames qo ++ "--->" ++ joinNames qi := by
          rw [(EqObj.setResidual_fields t' e a).1, (EqObj.init_fields hi).1, if_neg]
          intro h0
          have := congrArg (fun s => s.toList.length) h0
          simp [String.toList_append] at this
        have hs' := (h.ms m mo hm).storeEqn (e := { (e.setResidual t' a).2 with objects := some n'.symMap })
          (Or.inr (by simp only; rw [(EqObj.setResidual_fields t' e a).2.1, (EqObj.init_fields hi).2.1])) mo.attrs
        have hk : (({ (e.setResidual t' a).2 with objects := some n'.symMap } : EqObj)).name = joinNames qo ++ "--->" ++ joinNames qi := hname
        rw [hk] at hs'
        exact h.addE_withM hm (ModelObj.Le.storeEqn _ _ _ _ mo.attrs) hs' ⟨n', hn, rfl, ht⟩
  value := fun r v u w h => by
    rcases setValueM_run r v u w with ⟨x, hx⟩ | ⟨q, q', hq, hs, hx⟩ <;> rw [hx]
    · exact h
    · exact ⟨fun m mo hm => (h.ms m mo hm).mono (World.Le.setQ hq (setValue_le hs)), h.es⟩
  dist := fun r w h => by
    rcases distributeM_run r w with ⟨x, hx⟩ | ⟨q, hq, hx⟩ <;> rw [hx]
    · exact h
    · exact ⟨fun m mo hm => (h.ms m mo hm).mono (World.Le.setQ (q' := { q with hasDomain := true }) hq ⟨rfl, id, fun _ => rfl⟩), h.es⟩
  pr := fun w _ p _ _ h => ⟨fun k x hx => { h.ms k x hx with }, h.es⟩
  puid := fun w u _ h => ⟨fun k x hx => { h.ms k x hx with }, h.es⟩

theorem init_wf : World.init.WF := ⟨fun m mo h => by simp [World.init] at h, fun r e h => by simp [World.init] at h⟩

theorem history_wf (ops : List Op) {w : World} (h : w.WF) : (history ops w).WF :=
  (wf_elem.stable trivial).history ops (fun o _ => by cases o <;> simp [Op.Allowed]) w h

/-- Every heap that occurs is well formed. -/
theorem reachable_wf {w : World} (h : Reachable w) : w.WF := by
  obtain ⟨ops, rfl⟩ := h; exact history_wf ops init_wf

/-! ## Names carry their owner -/

/-- The name is a declared name followed by the owner's. -/
def Owned (name owner : String) : Prop := ∃ b : String, name = b ++ "_" ++ owner

/-- All quantities and equations carry their owner's name, and no model has inlets. -/
structure World.Named (w : World) : Prop where
  qs : ∀ q ∈ w.qs, Owned q.name q.owner
  es : ∀ e ∈ w.es, e.owner ≠ "" → Owned e.name e.owner
  ms : ∀ mo ∈ w.ms, mo.inlets = []

namespace World.Named

theorem addQ_withM {w : World} (h : w.Named) {q : Quantity} {m : MRef} {mo mo' : ModelObj} (hq : Owned q.name q.owner)
    (hm : w.ms[m]? = some mo) (hi : mo'.inlets = mo.inlets) : ((w.addQ q).withM m mo').Named where
  qs := fun x hx => by
    rcases List.mem_append.mp hx with hx | hx
    · exact h.qs x hx
    · rw [List.mem_singleton.mp hx]; exact hq
  es := h.es
  ms := fun x hx => by
    rcases List.mem_or_eq_of_mem_set hx with hx | rfl
    · exact h.ms x hx
    · rw [hi]; exact h.ms mo (List.mem_of_getElem? hm)

theorem addE_withM {w : World} (h : w.Named) {e : EqObj} {u : Uid} {m : MRef} {mo mo' : ModelObj} (he : e.owner ≠ "" → Owned e.name e.owner)
    (hm : w.ms[m]? = some mo) (hi : mo'.inlets = mo.inlets) : (((w.withUid u).addE e).withM m mo').Named where
  qs := h.qs
  es := fun x hx => by
    rcases List.mem_append.mp hx with hx | hx
    · exact h.es x hx
    · rw [List.mem_singleton.mp hx]; exact he
  ms := fun x hx => by
    rcases List.mem_or_eq_of_mem_set hx with hx | rfl
    · exact h.ms x hx
    · rw [hi]; exact h.ms mo (List.mem_of_getElem? hm)

theorem withM {w : World} (h : w.Named) {m : MRef} {mo mo' : ModelObj}
    (hm : w.ms[m]? = some mo) (hi : mo'.inlets = mo.inlets) : (w.withM m mo').Named where
  qs := h.qs
  es := h.es
  ms := fun x hx => by
    rcases List.mem_or_eq_of_mem_set hx with hx | rfl
    · exact h.ms x hx
    · rw [hi]; exact h.ms mo (List.mem_of_getElem? hm)

theorem setQ {w : World} (h : w.Named) {r : Ref} {q q' : Quantity} (hq : w.qs[r]? = some q) (hl : q.Le q') :
    ({ w with qs := w.qs.set r q' } : World).Named where
  qs := fun x hx => by
    rcases List.mem_or_eq_of_mem_set hx with hx | rfl
    · exact h.qs x hx
    · rw [hl.name, hl.owner]; exact h.qs q (List.mem_of_getElem? hq)
  es := h.es
  ms := h.ms

end World.Named

theorem exposeAs_inlets (mo : ModelObj) (a : VarArgs) (r : Ref) : (mo.exposeAs a r).inlets = mo.inlets := by
  unfold ModelObj.exposeAs; split
  · rfl
  · split <;> rfl

theorem copyTo_owned (q : Quantity) (o : String) : Owned (q.copyTo true o).name (q.copyTo true o).owner := ⟨_, rfl⟩

theorem named_incorporate (m s : MRef) (fl : IncFlags) (hf : fl.rewrite = true) : Pres (fun w w' => World.Named w → World.Named w') (incorporate m s fl) := by
  refine (inv_preRel World.Named).incorporate m s fl (fun r w h => ?_) (fun r w h => ?_) (fun r w h => ?_) (fun n wh r w h => ?_) <;> rw [hf]
  · cases hm : w.ms[m]? with
    | none => unfold addVariableDirectly; rw [PyM.bind_of_error (getM_none hm)]; exact h
    | some mo =>
      cases hq : w.qs[r]? with
      | none => unfold addVariableDirectly; rw [PyM.bind_of_ok (getM_of hm), PyM.bind_of_error (getQ_none hq)]; exact h
      | some q =>
        rw [addVariableDirectly_run hm hq]
        split <;> exact h.addQ_withM (copyTo_owned q mo.name) hm rfl
  · cases hm : w.ms[m]? with
    | none => unfold addParameterDirectly; rw [PyM.bind_of_error (getM_none hm)]; exact h
    | some mo =>
      cases hq : w.qs[r]? with
      | none => unfold addParameterDirectly; rw [PyM.bind_of_ok (getM_of hm), PyM.bind_of_error (getQ_none hq)]; exact h
      | some q =>
        rw [addParameterDirectly_run hm hq]
        exact h.addQ_withM (copyTo_owned q mo.name) hm rfl
  · cases hm : w.ms[m]? with
    | none => unfold addConstantDirectly; rw [PyM.bind_of_error (getM_none hm)]; exact h
    | some mo =>
      cases hq : w.qs[r]? with
      | none => unfold addConstantDirectly; rw [PyM.bind_of_ok (getM_of hm), PyM.bind_of_error (getQ_none hq)]; exact h
      | some q =>
        rw [addConstantDirectly_run hm hq]
        exact h.addQ_withM (copyTo_owned q mo.name) hm rfl
  · cases hm : w.ms[m]? with
    | none => unfold addEquationDirectly; rw [PyM.bind_of_error (getM_none hm)]; exact h
    | some mo =>
      cases hq : w.es[r]? with
      | none => unfold addEquationDirectly; rw [PyM.bind_of_ok (getM_of hm), PyM.bind_of_error (getE_none hq)]; exact h
      | some e =>
        rw [addEquationDirectly_run hm hq]
        split
        · exact h
        · rename_i e' hc
          obtain ⟨h1, h2, _⟩ := EqObj.convert_fields hc
          exact h.addE_withM (u := w.uid) (fun _ => by rw [h1, h2]; exact ⟨_, rfl⟩) hm rfl

theorem named_elem : Elem { inc := fun fl => fl.rewrite = true, inl := False } (fun w w' => World.Named w → World.Named w') where
  toPreRel := inv_preRel _
  newP := fun p w h => ⟨h.qs, h.es, h.ms⟩
  newM := fun n d b p w h => by
    rcases newModel_run n d b p w with ⟨x, hx⟩ | ⟨ps, hp, hx⟩ <;> rw [hx]
    · exact h
    · refine ⟨h.qs, h.es, fun mo hm => ?_⟩
      rcases List.mem_append.mp hm with hm | hm
      · exact h.ms mo hm
      · rw [List.mem_singleton.mp hm]
  attr := fun m a v w h => by
    cases hm : w.ms[m]? with
    | none => rw [setAttr_none hm]; exact h
    | some mo => rw [setAttr_run hm]; exact h.withM hm rfl
  var := fun m a w h => by
    cases hm : w.ms[m]? with
    | none => rw [createVariable_none hm]; exact h
    | some mo => rw [createVariable_run hm]; exact h.addQ_withM ⟨_, rfl⟩ hm (by rw [exposeAs_inlets]; rfl)
  par := fun m a w h => by
    cases hm : w.ms[m]? with
    | none => rw [createParameter_none hm]; exact h
    | some mo => rw [createParameter_run hm]; exact h.addQ_withM ⟨_, rfl⟩ hm rfl
  con := fun m a w h => by
    cases hm : w.ms[m]? with
    | none => rw [createConstant_none hm]; exact h
    | some mo => rw [createConstant_run hm]; exact h.addQ_withM ⟨_, rfl⟩ hm rfl
  built := fun _ _ _ => trivial
  eqn := fun m n d a c _ w h => by
    cases hm : w.ms[m]? with
    | none => rw [createEquation_none hm]; exact h
    | some mo =>
      rcases createEquation_run hm n d a c with ⟨x, u, he⟩ | ⟨t, t', e, e', u, he, hi, hs, _⟩ <;> rw [he]
      · exact ⟨h.qs, h.es, h.ms⟩
      · obtain ⟨n', hn, rfl⟩ := EqObj.sweep_ok hs
        exact h.addE_withM (fun _ => ⟨e.name, by rw [(EqObj.init_fields hi).2.1]⟩) hm rfl
  inc := fun m s fl hf => named_incorporate m s fl hf
  inlets := fun h => h.elim
  conn := fun m o i a _ w h => by
    cases hm : w.ms[m]? with
    | none => unfold createModelConnection; rw [PyM.bind_of_error (getM_none hm)]; exact h
    | some mo =>
      rcases createModelConnection_run hm o i a with ⟨x, u, he⟩ | ⟨qo, qi, t, t', d, e, e', u, he, _, _, _, hi, hr, hs⟩ <;> rw [he]
      · exact ⟨h.qs, h.es, h.ms⟩
      · obtain ⟨n', hn, rfl⟩ := EqObj.sweep_ok hs
        refine h.addE_withM (fun hne => absurd ?_ hne) hm rfl
        rw [(EqObj.setResidual_fields t' e a).2.1, (EqObj.init_fields hi).2.1]
  value := fun r v u w h => by
    rcases setValueM_run r v u w with ⟨x, hx⟩ | ⟨q, q', hq, hs, hx⟩ <;> rw [hx]
    · exact h
    · exact h.setQ hq (setValue_le hs)
  dist := fun r w h => by
    rcases distributeM_run r w with ⟨x, hx⟩ | ⟨q, hq, hx⟩ <;> rw [hx]
    · exact h
    · exact h.setQ (q' := { q with hasDomain := true }) hq ⟨rfl, id, fun _ => rfl⟩
  pr := fun w _ p _ _ h => ⟨h.qs, h.es, h.ms⟩
  puid := fun w u _ h => ⟨h.qs, h.es, h.ms⟩

theorem named_stable : Stable { inc := fun fl => fl.rewrite = true, inl := False } (fun w w' => World.Named w → World.Named w') :=
  { named_elem with tot := fun _ _ mo hm hi h => absurd (h.ms mo (List.mem_of_getElem? hm)) hi }

/-- A session that never gives a model inlets and never incorporates without renaming. -/
def Plain (ops : List Op) : Prop := ∀ o ∈ ops, o.Allowed { inc := fun fl => fl.rewrite = true, inl := False }

theorem plain_named {ops : List Op} (h : Plain ops) : (history ops World.init).Named :=
  named_stable.history ops h _ ⟨by simp [World.init], by simp [World.init], by simp [World.init]⟩

/-! ## Text -/

theorem append_sep_cancel {α : Type} {c : α} {l1 l2 r1 r2 : List α} (h : l1 ++ c :: r1 = l2 ++ c :: r2) (h1 : c ∉ r1) (h2 : c ∉ r2) :
    l1 = l2 ∧ r1 = r2 := by
  rcases List.append_eq_append_iff.mp h with ⟨a, ha, hb⟩ | ⟨a, ha, hb⟩
  · cases a with
    | nil => simp_all
    | cons x t => simp only [List.cons_append, List.cons.injEq] at hb; exact absurd (hb.2 ▸ by simp) h1
  · cases a with
    | nil => simp_all
    | cons x t => simp only [List.cons_append, List.cons.injEq] at hb; exact absurd (hb.2 ▸ by simp) h2

theorem name_toList (b o : String) : (b ++ "_" ++ o).toList = b.toList ++ '_' :: o.toList := by
  simp [String.toList_append]

/-- The last underscore splits a name. -/
theorem name_split {b1 b2 o1 o2 : String} (h : b1 ++ "_" ++ o1 = b2 ++ "_" ++ o2) (h1 : '_' ∉ o1.toList) (h2 : '_' ∉ o2.toList) :
    b1 = b2 ∧ o1 = o2 := by
  have h' := congrArg String.toList h
  rw [name_toList, name_toList] at h'
  obtain ⟨ha, hb⟩ := append_sep_cancel h' h1 h2
  exact ⟨String.toList_injective ha, String.toList_injective hb⟩

theorem name_inj {b1 b2 o : String} (h : b1 ++ "_" ++ o = b2 ++ "_" ++ o) : b1 = b2 := by
  have h' := congrArg String.toList h
  rw [name_toList, name_toList] at h'
  exact String.toList_injective (List.append_cancel_right h')

/-- Cutting the owner off a name gives back the declared name. -/
theorem objectName_owned (b : String) {o : String} (h : o ≠ "") : objectName (b ++ "_" ++ o) o = b := by
  unfold objectName pyDropEnd
  rw [if_neg h, name_toList]
  apply String.toList_injective
  rw [String.toList_ofList]
  have : o.length = o.toList.length := String.length_toList.symm
  rw [this]
  have e : (b.toList ++ '_' :: o.toList).length - (1 + o.toList.length) = b.toList.length := by simp; omega
  rw [e, List.take_left]

theorem pyDropEnd_owned (b o : String) : pyDropEnd (b ++ "_" ++ o) (1 + o.length) = b := by
  unfold pyDropEnd
  rw [name_toList]
  apply String.toList_injective
  rw [String.toList_ofList]
  have : o.length = o.toList.length := String.length_toList.symm
  rw [this]
  have e : (b.toList ++ '_' :: o.toList).length - (1 + o.toList.length) = b.toList.length := by simp; omega
  rw [e, List.take_left]

end Sloth
