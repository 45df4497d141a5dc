import Verif.Lemmas.Frame

/-!
# How the heap changes during a session, and what is true of every heap
-/

namespace Sloth
open PyM

/-! ## Order -/

/-- A quantity only changes its value, its specification mark and its domain mark; the marks are never removed. -/
structure Quantity.Le (q q' : Quantity) : Prop where
  same : q' = { q with value := q'.value, isSpecified := q'.isSpecified, hasDomain := q'.hasDomain }
  spec : q.isSpecified = true → q'.isSpecified = true
  dom : q.hasDomain = true → q'.hasDomain = true

namespace Quantity.Le
variable {q q' q'' : Quantity}

theorem refl (q : Quantity) : q.Le q := ⟨rfl, id, id⟩

theorem trans (h : q.Le q') (h' : q'.Le q'') : q.Le q'' := by
  refine ⟨?_, h'.spec ∘ h.spec, h'.dom ∘ h.dom⟩
  rw [h'.same, h.same]

theorem name (h : q.Le q') : q'.name = q.name := by rw [h.same]
theorem kind (h : q.Le q') : q'.kind = q.kind := by rw [h.same]
theorem owner (h : q.Le q') : q'.owner = q.owner := by rw [h.same]
theorem units (h : q.Le q') : q'.units = q.units := by rw [h.same]
theorem exposed (h : q.Le q') : q'.isExposed = q.isExposed := by rw [h.same]
theorem vtype (h : q.Le q') : q'.vtype = q.vtype := by rw [h.same]

end Quantity.Le

/-- A model only gains declarations, exposed variables (among the objects created later than `n`) and inlets. -/
structure ModelObj.Le (n : Nat) (mo mo' : ModelObj) : Prop where
  name : mo'.name = mo.name
  body : mo'.body = mo.body
  ports : mo'.ports = mo.ports
  vars : ∀ k ∈ dkeys mo.vars, k ∈ dkeys mo'.vars
  pars : ∀ k ∈ dkeys mo.pars, k ∈ dkeys mo'.pars
  cons : ∀ k ∈ dkeys mo.cons, k ∈ dkeys mo'.cons
  eqns : ∀ k ∈ dkeys mo.eqns, k ∈ dkeys mo'.eqns
  expIn : ∀ r ∈ mo.expIn, r ∈ mo'.expIn
  expOut : ∀ r ∈ mo.expOut, r ∈ mo'.expOut
  expIn' : ∀ r ∈ mo'.expIn, r ∈ mo.expIn ∨ n ≤ r
  expOut' : ∀ r ∈ mo'.expOut, r ∈ mo.expOut ∨ n ≤ r
  inlets : mo.inlets <+: mo'.inlets

theorem ModelObj.Le.refl (n : Nat) (mo : ModelObj) : mo.Le n mo :=
  ⟨rfl, rfl, rfl, fun _ => id, fun _ => id, fun _ => id, fun _ => id, fun _ => id, fun _ => id, fun _ => Or.inl, fun _ => Or.inl,
    List.prefix_refl _⟩

theorem ModelObj.Le.trans {n n' : Nat} (hn : n ≤ n') {a b c : ModelObj} (h : a.Le n b) (h' : b.Le n' c) : a.Le n c where
  name := by rw [h'.name, h.name]
  body := by rw [h'.body, h.body]
  ports := by rw [h'.ports, h.ports]
  vars := fun k hk => h'.vars k (h.vars k hk)
  pars := fun k hk => h'.pars k (h.pars k hk)
  cons := fun k hk => h'.cons k (h.cons k hk)
  eqns := fun k hk => h'.eqns k (h.eqns k hk)
  expIn := fun k hk => h'.expIn k (h.expIn k hk)
  expOut := fun k hk => h'.expOut k (h.expOut k hk)
  expIn' := fun r hr => (h'.expIn' r hr).elim (fun h1 => h.expIn' r h1) (fun h1 => Or.inr (by omega))
  expOut' := fun r hr => (h'.expOut' r hr).elim (fun h1 => h.expOut' r h1) (fun h1 => Or.inr (by omega))
  inlets := h.inlets.trans h'.inlets

/-- Nothing is ever removed from the heap, equations never change. -/
structure World.Le (w w' : World) : Prop where
  len : w.qs.length ≤ w'.qs.length
  qs : ∀ (r : Ref) (q : Quantity), w.qs[r]? = some q → ∃ q', w'.qs[r]? = some q' ∧ q.Le q'
  es : ∀ (r : ERef) (e : EqObj), w.es[r]? = some e → w'.es[r]? = some e
  ms : ∀ (m : MRef) (mo : ModelObj), w.ms[m]? = some mo → ∃ mo', w'.ms[m]? = some mo' ∧ mo.Le w.qs.length mo'
  ps : w.ps.length ≤ w'.ps.length
  pe : ∀ (i : PRef) (p : Ports), w.ps[i]? = some p → ∃ p', w'.ps[i]? = some p' ∧ (p ≠ [] → p' ≠ [])

namespace World.Le

theorem refl (w : World) : w.Le w :=
  ⟨le_refl _, fun _ q h => ⟨q, h, Quantity.Le.refl q⟩, fun _ _ h => h, fun _ mo h => ⟨mo, h, ModelObj.Le.refl _ mo⟩, le_refl _,
    fun _ p h => ⟨p, h, id⟩⟩

theorem trans {a b c : World} (h : a.Le b) (h' : b.Le c) : a.Le c where
  len := h.len.trans h'.len
  qs := fun r q hq => by
    obtain ⟨q', h1, h2⟩ := h.qs r q hq
    obtain ⟨q'', h3, h4⟩ := h'.qs r q' h1
    exact ⟨q'', h3, h2.trans h4⟩
  es := fun r e he => h'.es r e (h.es r e he)
  ms := fun r q hq => by
    obtain ⟨q', h1, h2⟩ := h.ms r q hq
    obtain ⟨q'', h3, h4⟩ := h'.ms r q' h1
    exact ⟨q'', h3, h2.trans h.len h4⟩
  ps := h.ps.trans h'.ps
  pe := fun i p hp => by
    obtain ⟨p', h1, h2⟩ := h.pe i p hp
    obtain ⟨p'', h3, h4⟩ := h'.pe i p' h1
    exact ⟨p'', h3, h4 ∘ h2⟩

theorem withUid (w : World) (u : Uid) : w.Le (w.withUid u) := { refl w with }
theorem pr (w : World) (p : ProblemObj) : w.Le { w with pr := p } := { refl w with }
theorem puid (w : World) (u : Uid) : w.Le { w with puid := u } := { refl w with }

theorem addQ (w : World) (q : Quantity) : w.Le (w.addQ q) where
  len := by simp [World.addQ]
  qs := fun r x h => ⟨x, by
    have : r < w.qs.length := (List.getElem?_eq_some_iff.mp h).1
    simp only [World.addQ]; rw [List.getElem?_append_left this, h], Quantity.Le.refl x⟩
  es := fun _ _ h => h
  ms := fun _ mo h => ⟨mo, h, ModelObj.Le.refl _ mo⟩
  ps := le_refl _
  pe := fun _ p h => ⟨p, h, id⟩

theorem addE (w : World) (e : EqObj) : w.Le (w.addE e) where
  len := le_refl _
  qs := fun _ x h => ⟨x, h, Quantity.Le.refl x⟩
  es := fun r x h => by
    have : r < w.es.length := (List.getElem?_eq_some_iff.mp h).1
    simp only [World.addE]; rw [List.getElem?_append_left this, h]
  ms := fun _ mo h => ⟨mo, h, ModelObj.Le.refl _ mo⟩
  ps := le_refl _
  pe := fun _ p h => ⟨p, h, id⟩

theorem withM {w : World} {m : MRef} {mo mo' : ModelObj} (h : w.ms[m]? = some mo) (hl : mo.Le w.qs.length mo') : w.Le (w.withM m mo') where
  len := le_refl _
  qs := fun _ x h => ⟨x, h, Quantity.Le.refl x⟩
  es := fun _ _ h => h
  ms := fun k x hx => by
    by_cases hk : m = k
    · subst hk
      rw [h] at hx; cases hx
      exact ⟨mo', withM_getM h mo', hl⟩
    · exact ⟨x, by simp only [World.withM]; rw [List.getElem?_set_ne hk, hx], ModelObj.Le.refl _ x⟩
  ps := le_refl _
  pe := fun _ p h => ⟨p, h, id⟩

/-- A new quantity and the model changed with it, its exposure lists possibly containing the new one. -/
theorem addQ_withM {w : World} {m : MRef} {mo mo' : ModelObj} (q : Quantity) (h : w.ms[m]? = some mo) (hl : mo.Le w.qs.length mo') :
    w.Le ((w.addQ q).withM m mo') where
  len := (addQ w q).len
  qs := (addQ w q).qs
  es := fun _ _ h => h
  ms := (withM h hl).ms
  ps := le_refl _
  pe := fun _ p h => ⟨p, h, id⟩

theorem addE_withM {w : World} {m : MRef} {mo mo' : ModelObj} (e : EqObj) (u : Uid) (h : w.ms[m]? = some mo) (hl : mo.Le w.qs.length mo') :
    w.Le (((w.withUid u).addE e).withM m mo') where
  len := le_refl _
  qs := fun _ x h => ⟨x, h, Quantity.Le.refl x⟩
  es := (addE w e).es
  ms := (withM h hl).ms
  ps := le_refl _
  pe := fun _ p h => ⟨p, h, id⟩

theorem setQ {w : World} {r : Ref} {q q' : Quantity} (h : w.qs[r]? = some q) (hl : q.Le q') : w.Le { w with qs := w.qs.set r q' } where
  len := by simp
  qs := fun k x hx => by
    by_cases hk : r = k
    · subst hk
      rw [h] at hx; cases hx
      have : r < w.qs.length := (List.getElem?_eq_some_iff.mp h).1
      exact ⟨q', by simp [this], hl⟩
    · exact ⟨x, by simp only; rw [List.getElem?_set_ne hk, hx], Quantity.Le.refl x⟩
  es := fun _ _ h => h
  ms := fun _ mo h => ⟨mo, h, ModelObj.Le.refl _ mo⟩
  ps := le_refl _
  pe := fun _ p h => ⟨p, h, id⟩

end World.Le

theorem ModelObj.Le.storeVar (n : Nat) (mo : ModelObj) (k : String) (r : Ref) (ats : Dict String Attr) :
    mo.Le n { mo.storeVar k r with attrs := ats } :=
  { ModelObj.Le.refl n mo with vars := fun x hx => (mem_dkeys_dset _ _ _ _).mpr (Or.inr hx) }
theorem ModelObj.Le.storePar (n : Nat) (mo : ModelObj) (k : String) (r : Ref) (ats : Dict String Attr) :
    mo.Le n { mo.storePar k r with attrs := ats } :=
  { ModelObj.Le.refl n mo with pars := fun x hx => (mem_dkeys_dset _ _ _ _).mpr (Or.inr hx) }
theorem ModelObj.Le.storeCon (n : Nat) (mo : ModelObj) (k : String) (r : Ref) (ats : Dict String Attr) :
    mo.Le n { mo.storeCon k r with attrs := ats } :=
  { ModelObj.Le.refl n mo with cons := fun x hx => (mem_dkeys_dset _ _ _ _).mpr (Or.inr hx) }
theorem ModelObj.Le.storeEqn (n : Nat) (mo : ModelObj) (k : String) (r : Ref) (ats : Dict String Attr) :
    mo.Le n { mo.storeEqn k r with attrs := ats } :=
  { ModelObj.Le.refl n mo with eqns := fun x hx => (mem_dkeys_dset _ _ _ _).mpr (Or.inr hx) }

theorem ModelObj.Le.exposeAs (mo : ModelObj) (k : String) (a : VarArgs) (r : Ref) : mo.Le r ((mo.storeVar k r).exposeAs a r) := by
  have h := ModelObj.Le.storeVar r mo k r mo.attrs
  have hin : ∀ l : List Ref, ∀ x ∈ l ++ [r], x ∈ l ∨ r ≤ x := fun l x hx => by
    rcases List.mem_append.mp hx with hx | hx
    · exact Or.inl hx
    · exact Or.inr (by rw [List.mem_singleton.mp hx])
  unfold ModelObj.exposeAs
  split
  · exact { h with expIn := fun _ hx => List.mem_append.mpr (Or.inl hx), expIn' := hin _ }
  · split
    · exact { h with expOut := fun _ hx => List.mem_append.mpr (Or.inl hx), expOut' := hin _ }
    · exact h

theorem setValueM_run (r : Ref) (v : SVArg) (u : Option UnitObj) (w : World) :
    (∃ x, setValueM r v u w = (.error x, w)) ∨
    ∃ q q', w.qs[r]? = some q ∧ q.setValue v u = .ok q' ∧ setValueM r v u w = (.ok (), { w with qs := w.qs.set r q' }) := by
  unfold setValueM
  cases hq : w.qs[r]? with
  | none => exact Or.inl ⟨_, by rw [PyM.bind_of_error (getQ_none hq)]⟩
  | some q =>
    rw [PyM.bind_of_ok (getQ_of hq)]
    cases hs : q.setValue v u with
    | error x => exact Or.inl ⟨x, by rw [PyM.bind_run]; rfl⟩
    | ok q' => exact Or.inr ⟨q, q', rfl, hs, rfl⟩

theorem setValue_fields {q q' : Quantity} {v : SVArg} {u : Option UnitObj} (h : q.setValue v u = .ok q') :
    q' = { q with value := q'.value, isSpecified := true } := by
  unfold Quantity.setValue at h
  cases v with
  | qty x =>
    simp only at h
    split at h
    · cases u with
      | none =>
        simp only [bind_eq_ok] at h
        obtain ⟨b, _, h⟩ := h
        split at h
        · cases h; rfl
        · cases h
      | some u => cases h
    · cases h
  | float x => cases h; rfl
  | int x =>
    simp only at h
    split at h
    · cases h; rfl
    · simp only [bind_eq_ok] at h
      obtain ⟨b, _, h⟩ := h
      split at h
      · cases h; rfl
      · cases h
  | other => cases h

theorem setValue_le {q q' : Quantity} {v : SVArg} {u : Option UnitObj} (h : q.setValue v u = .ok q') : q.Le q' := by
  have := setValue_fields h
  refine ⟨?_, fun _ => by rw [this], fun hd => by rw [this]; exact hd⟩
  rw [this]

theorem distributeM_run (r : Ref) (w : World) :
    (∃ x, distributeM r w = (.error x, w)) ∨
    ∃ q, w.qs[r]? = some q ∧ distributeM r w = (.ok (), { w with qs := w.qs.set r { q with hasDomain := true } }) := by
  unfold distributeM
  cases hq : w.qs[r]? with
  | none => exact Or.inl ⟨_, by rw [PyM.bind_of_error (getQ_none hq)]⟩
  | some q => exact Or.inr ⟨q, rfl, by rw [PyM.bind_of_ok (getQ_of hq)]; rfl⟩

theorem newModel_run (n d : String) (b : Body) (p : Option PRef) (w : World) :
    (∃ x, newModel n d b p w = (.error x, w)) ∨
    ∃ ps, w.ps[p.getD 0]? = some ps ∧
      newModel n d b p w = (.ok w.ms.length, { w with ms := w.ms ++ [{ name := n, description := d, body := b, ports := p.getD 0 }] }) := by
  unfold newModel
  cases hp : w.ps[p.getD 0]? with
  | none => exact Or.inl ⟨_, by rw [PyM.bind_of_error (getP_none hp)]⟩
  | some ps => exact Or.inr ⟨ps, rfl, by rw [PyM.bind_of_ok (getP_of hp)]; rfl⟩

/-- Incorporation keeps what the elementary additions keep. -/
theorem PreRel.incorporate {R : World → World → Prop} (S : PreRel R) (m s : MRef) (fl : IncFlags)
    (addVar : ∀ r, Pres R (addVariableDirectly m fl.rewrite r)) (addPar : ∀ r, Pres R (addParameterDirectly m fl.rewrite r))
    (addCon : ∀ r, Pres R (addConstantDirectly m fl.rewrite r)) (addEqn : ∀ n wh r, Pres R (addEquationDirectly m n wh fl.rewrite r)) :
    Pres R (incorporate m s fl) := by
  unfold Sloth.incorporate
  refine S.bind (S.getM _) fun _ => S.bind (S.when _ (S.each _ addVar)) fun _ => S.bind (S.getM _) fun _ =>
    S.bind (S.when _ (S.each _ addPar)) fun _ => S.bind (S.getM _) fun _ => S.bind (S.when _ (S.each _ addCon)) fun _ =>
    S.bind (S.getM _) fun _ => S.bind (S.getM _) fun _ => S.when _ (S.each _ (addEqn _ _))

theorem le_preRel : PreRel World.Le := ⟨World.Le.refl, fun _ _ _ => World.Le.trans⟩

theorem addVar_le (m : MRef) (b : Bool) (r : Ref) : Pres World.Le (addVariableDirectly m b r) := fun w => by
  cases h : w.ms[m]? with
  | none => unfold addVariableDirectly; rw [PyM.bind_of_error (getM_none h)]; exact World.Le.refl w
  | some mo =>
    cases hq : w.qs[r]? with
    | none => unfold addVariableDirectly; rw [PyM.bind_of_ok (getM_of h), PyM.bind_of_error (getQ_none hq)]; exact World.Le.refl w
    | some q =>
      rw [addVariableDirectly_run h hq]
      split
      · exact World.Le.addQ_withM _ h (ModelObj.Le.storeVar _ _ _ _ mo.attrs)
      · exact World.Le.addQ_withM _ h (ModelObj.Le.storeVar _ _ _ _ _)

theorem addPar_le (m : MRef) (b : Bool) (r : Ref) : Pres World.Le (addParameterDirectly m b r) := fun w => by
  cases h : w.ms[m]? with
  | none => unfold addParameterDirectly; rw [PyM.bind_of_error (getM_none h)]; exact World.Le.refl w
  | some mo =>
    cases hq : w.qs[r]? with
    | none => unfold addParameterDirectly; rw [PyM.bind_of_ok (getM_of h), PyM.bind_of_error (getQ_none hq)]; exact World.Le.refl w
    | some q => rw [addParameterDirectly_run h hq]; exact World.Le.addQ_withM _ h (ModelObj.Le.storePar _ _ _ _ _)

theorem addCon_le (m : MRef) (b : Bool) (r : Ref) : Pres World.Le (addConstantDirectly m b r) := fun w => by
  cases h : w.ms[m]? with
  | none => unfold addConstantDirectly; rw [PyM.bind_of_error (getM_none h)]; exact World.Le.refl w
  | some mo =>
    cases hq : w.qs[r]? with
    | none => unfold addConstantDirectly; rw [PyM.bind_of_ok (getM_of h), PyM.bind_of_error (getQ_none hq)]; exact World.Le.refl w
    | some q => rw [addConstantDirectly_run h hq]; exact World.Le.addQ_withM _ h (ModelObj.Le.storeCon _ _ _ _ _)

theorem addEqn_le (m : MRef) (n : Dict String String) (wh : Dict String Ref) (b : Bool) (r : Ref) :
    Pres World.Le (addEquationDirectly m n wh b r) := fun w => by
  cases h : w.ms[m]? with
  | none => unfold addEquationDirectly; rw [PyM.bind_of_error (getM_none h)]; exact World.Le.refl w
  | some mo =>
    cases hq : w.es[r]? with
    | none => unfold addEquationDirectly; rw [PyM.bind_of_ok (getM_of h), PyM.bind_of_error (getE_none hq)]; exact World.Le.refl w
    | some q =>
      rw [addEquationDirectly_run h hq]
      split
      · exact World.Le.refl w
      · exact World.Le.addE_withM _ w.uid h (ModelObj.Le.storeEqn _ _ _ _ _)

theorem le_elem : Elem {} World.Le where
  toPreRel := le_preRel
  newP := fun p w => { World.Le.refl w with
    ps := by simp [PyM.newP]
    pe := fun i x h => ⟨x, by
      have : i < w.ps.length := (List.getElem?_eq_some_iff.mp h).1
      simp only [PyM.newP]; rw [List.getElem?_append_left this, h], id⟩ }
  newM := fun n d b p w => by
    rcases newModel_run n d b p w with ⟨x, h⟩ | ⟨ps, _, h⟩ <;> rw [h]
    · exact World.Le.refl w
    · exact { World.Le.refl w with ms := fun k x hx => ⟨x, by
        have : k < w.ms.length := (List.getElem?_eq_some_iff.mp hx).1
        simp only; rw [List.getElem?_append_left this, hx], ModelObj.Le.refl _ x⟩ }
  attr := fun m a v w => by
    cases h : w.ms[m]? with
    | none => rw [setAttr_none h]; exact World.Le.refl w
    | some mo => rw [setAttr_run h]; exact World.Le.withM h { ModelObj.Le.refl w.qs.length mo with }
  var := fun m a w => by
    cases h : w.ms[m]? with
    | none => rw [createVariable_none h]; exact World.Le.refl w
    | some mo => rw [createVariable_run h]; exact World.Le.addQ_withM _ h (ModelObj.Le.exposeAs _ _ _ _)
  par := fun m a w => by
    cases h : w.ms[m]? with
    | none => rw [createParameter_none h]; exact World.Le.refl w
    | some mo => rw [createParameter_run h]; exact World.Le.addQ_withM _ h (ModelObj.Le.storePar _ _ _ _ mo.attrs)
  con := fun m a w => by
    cases h : w.ms[m]? with
    | none => rw [createConstant_none h]; exact World.Le.refl w
    | some mo => rw [createConstant_run h]; exact World.Le.addQ_withM _ h (ModelObj.Le.storeCon _ _ _ _ mo.attrs)
  built := fun _ _ _ => trivial
  eqn := fun m n d a c _ w => by
    cases h : w.ms[m]? with
    | none => rw [createEquation_none h]; exact World.Le.refl w
    | some mo =>
      rcases createEquation_run h n d a c with ⟨x, u, he⟩ | ⟨t, t', e, e', u, he, _⟩ <;> rw [he]
      · exact World.Le.withUid w u
      · exact World.Le.addE_withM _ _ h (ModelObj.Le.storeEqn _ _ _ _ mo.attrs)
  inc := fun m s fl _ => le_preRel.incorporate m s fl (addVar_le _ _) (addPar_le _ _) (addCon_le _ _) (fun _ _ _ => addEqn_le _ _ _ _ _)
  inlets := fun _ m l n w => by
    cases h : w.ms[m]? with
    | none => unfold setInlets; rw [PyM.bind_of_error (getM_none h)]; exact World.Le.refl w
    | some mo =>
      cases hp : w.ps[mo.ports]? with
      | none => unfold setInlets; rw [PyM.bind_of_ok (getM_of h), PyM.bind_of_error (getP_none hp)]; exact World.Le.refl w
      | some p =>
        rw [setInlets_run h hp]
        have hl : mo.Le w.qs.length { mo with inlets := mo.inlets ++ (dvalues (dset p n ((dget p n).getD [] ++ l))).flatten } :=
          { ModelObj.Le.refl w.qs.length mo with inlets := List.prefix_append _ _ }
        exact { World.Le.withM h hl with
          ps := by simp
          pe := fun i x hx => by
            by_cases hi : mo.ports = i
            · subst hi
              have : mo.ports < w.ps.length := (List.getElem?_eq_some_iff.mp hx).1
              refine ⟨dset p n ((dget p n).getD [] ++ l), by simp [this], fun _ h0 => ?_⟩
              have : n ∈ dkeys (dset p n ((dget p n).getD [] ++ l)) := (mem_dkeys_dset _ _ _ _).mpr (Or.inl rfl)
              rw [h0] at this; simp [dkeys] at this
            · exact ⟨x, by simp only; rw [List.getElem?_set_ne hi, hx], id⟩ }
  conn := fun m o i a _ w => by
    cases h : w.ms[m]? with
    | none => unfold createModelConnection; rw [PyM.bind_of_error (getM_none h)]; exact World.Le.refl w
    | some mo =>
      rcases createModelConnection_run h o i a with ⟨x, u, he⟩ | ⟨qo, qi, t, t', d, e, e', u, he, _⟩ <;> rw [he]
      · exact World.Le.withUid w u
      · exact World.Le.addE_withM _ _ h (ModelObj.Le.storeEqn _ _ _ _ mo.attrs)
  value := fun r v u w => by
    rcases setValueM_run r v u w with ⟨x, h⟩ | ⟨q, q', hq, hs, h⟩ <;> rw [h]
    · exact World.Le.refl w
    · exact World.Le.setQ hq (setValue_le hs)
  dist := fun r w => by
    rcases distributeM_run r w with ⟨x, h⟩ | ⟨q, hq, h⟩ <;> rw [h]
    · exact World.Le.refl w
    · exact World.Le.setQ hq ⟨rfl, id, fun _ => rfl⟩
  pr := fun w _ p _ _ => World.Le.pr w p
  puid := fun w u _ => World.Le.puid w u

theorem le_stable : Stable {} World.Le := le_elem.stable trivial

/-- Over any session the heap only grows. -/
theorem history_le (ops : List Op) (w : World) : w.Le (history ops w) :=
  le_stable.history ops (fun o _ => by cases o <;> simp [Op.Allowed]) w

end Sloth
