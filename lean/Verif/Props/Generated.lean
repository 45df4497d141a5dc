import Verif.Lemmas.Heap
import Verif.Lemmas.Invariant
import Verif.Props.Errors

/-!
# Generated names within a session (C88)

An equation created without a name takes one from a counter (equation.py l.15-23), as does the node made for a numeric right side
(equation.py l.371-376).  Within one thread no two of them are ever the same, whatever is called in between.
-/

namespace Sloth
open PyM

/-- The counters (of equation.py and of problem.py) only grow. -/
def World.Counts (w w' : World) : Prop := w.uid.getD 0 ≤ w'.uid.getD 0 ∧ w.puid.getD 0 ≤ w'.puid.getD 0

theorem counts_preRel : PreRel World.Counts := ⟨fun _ => ⟨le_refl _, le_refl _⟩, fun _ _ _ h h' => ⟨h.1.trans h'.1, h.2.trans h'.2⟩⟩

theorem counts_of_eq {w w' : World} (h : w'.uid = w.uid) (h' : w'.puid = w.puid) : w.Counts w' := by
  unfold World.Counts; rw [h, h']; exact ⟨le_refl _, le_refl _⟩

theorem tagIf_counts (b : Bool) : Pres World.Counts (tagIf b) := fun w => by
  unfold tagIf World.Counts
  cases b <;> simp [genRndStr]

theorem newE_counts (e : EqObj) : Pres World.Counts (newE e) := fun _ => counts_of_eq rfl rfl
theorem newQ_counts (q : Quantity) : Pres World.Counts (newQ q) := fun _ => counts_of_eq rfl rfl
theorem setM_counts (m : MRef) (mo : ModelObj) : Pres World.Counts (setM m mo) := fun _ => counts_of_eq rfl rfl

theorem createEquation_counts (m : MRef) (n d : String) (a : Option ResArg) (c : Bool) : Pres World.Counts (createEquation m n d a c) :=
  counts_preRel.bind (counts_preRel.getM _) fun _ => counts_preRel.bind (tagIf_counts _) fun _ => counts_preRel.bind (tagIf_counts _) fun _ =>
    counts_preRel.bind (counts_preRel.lift _) fun _ => counts_preRel.bind (counts_preRel.lift _) fun _ =>
    counts_preRel.bind (counts_preRel.when _ (counts_preRel.lift _)) fun _ => counts_preRel.bind (newE_counts _) fun _ =>
    counts_preRel.bind (setM_counts _ _) fun _ => counts_preRel.ret _

theorem createModelConnection_counts (m : MRef) (o i : List Ref) (a : ResArg) : Pres World.Counts (createModelConnection m o i a) :=
  counts_preRel.bind (counts_preRel.getM _) fun _ => counts_preRel.bind (counts_preRel.collect _ counts_preRel.getQ) fun _ =>
    counts_preRel.bind (counts_preRel.collect _ counts_preRel.getQ) fun _ => counts_preRel.bind (counts_preRel.when _ (counts_preRel.raise _)) fun _ =>
    counts_preRel.bind (tagIf_counts _) fun _ => counts_preRel.bind (counts_preRel.lift _) fun _ => counts_preRel.bind (tagIf_counts _) fun _ =>
    counts_preRel.bind (counts_preRel.lift _) fun _ => counts_preRel.bind (counts_preRel.lift _) fun _ => counts_preRel.bind (newE_counts _) fun _ =>
    counts_preRel.bind (setM_counts _ _) fun _ => counts_preRel.ret _

theorem counts_elem : Elem {} World.Counts where
  toPreRel := counts_preRel
  newP := fun _ _ => counts_of_eq rfl rfl
  newM := fun n d b p w => by
    rcases newModel_run n d b p w with ⟨x, h⟩ | ⟨ps, _, h⟩ <;> rw [h] <;> exact counts_of_eq rfl rfl
  attr := fun m a v w => by
    cases h : w.ms[m]? with
    | none => rw [setAttr_none h]; exact counts_of_eq rfl rfl
    | some mo => rw [setAttr_run h]; exact counts_of_eq rfl rfl
  var := fun m a w => by
    cases h : w.ms[m]? with
    | none => rw [createVariable_none h]; exact counts_of_eq rfl rfl
    | some mo => rw [createVariable_run h]; exact counts_of_eq rfl rfl
  par := fun m a w => by
    cases h : w.ms[m]? with
    | none => rw [createParameter_none h]; exact counts_of_eq rfl rfl
    | some mo => rw [createParameter_run h]; exact counts_of_eq rfl rfl
  con := fun m a w => by
    cases h : w.ms[m]? with
    | none => rw [createConstant_none h]; exact counts_of_eq rfl rfl
    | some mo => rw [createConstant_run h]; exact counts_of_eq rfl rfl
  built := fun _ _ _ => trivial
  eqn := fun m n d a c _ => createEquation_counts m n d a c
  inc := fun m s fl _ => counts_preRel.incorporate m s fl
    (fun r w => by
      cases h : w.ms[m]? with
      | none => unfold addVariableDirectly; rw [PyM.bind_of_error (getM_none h)]; exact counts_of_eq rfl rfl
      | some mo =>
        cases hq : w.qs[r]? with
        | none => unfold addVariableDirectly; rw [PyM.bind_of_ok (getM_of h), PyM.bind_of_error (getQ_none hq)]; exact counts_of_eq rfl rfl
        | some q => rw [addVariableDirectly_run h hq]; split <;> exact counts_of_eq rfl rfl)
    (fun r w => by
      cases h : w.ms[m]? with
      | none => unfold addParameterDirectly; rw [PyM.bind_of_error (getM_none h)]; exact counts_of_eq rfl rfl
      | some mo =>
        cases hq : w.qs[r]? with
        | none => unfold addParameterDirectly; rw [PyM.bind_of_ok (getM_of h), PyM.bind_of_error (getQ_none hq)]; exact counts_of_eq rfl rfl
        | some q => rw [addParameterDirectly_run h hq]; exact counts_of_eq rfl rfl)
    (fun r w => by
      cases h : w.ms[m]? with
      | none => unfold addConstantDirectly; rw [PyM.bind_of_error (getM_none h)]; exact counts_of_eq rfl rfl
      | some mo =>
        cases hq : w.qs[r]? with
        | none => unfold addConstantDirectly; rw [PyM.bind_of_ok (getM_of h), PyM.bind_of_error (getQ_none hq)]; exact counts_of_eq rfl rfl
        | some q => rw [addConstantDirectly_run h hq]; exact counts_of_eq rfl rfl)
    (fun n wh r w => by
      cases h : w.ms[m]? with
      | none => unfold addEquationDirectly; rw [PyM.bind_of_error (getM_none h)]; exact counts_of_eq rfl rfl
      | some mo =>
        cases hq : w.es[r]? with
        | none => unfold addEquationDirectly; rw [PyM.bind_of_ok (getM_of h), PyM.bind_of_error (getE_none hq)]; exact counts_of_eq rfl rfl
        | some q => rw [addEquationDirectly_run h hq]; split <;> exact counts_of_eq rfl rfl)
  inlets := fun _ m l n w => by
    cases h : w.ms[m]? with
    | none => unfold setInlets; rw [PyM.bind_of_error (getM_none h)]; exact counts_of_eq rfl rfl
    | some mo =>
      cases hp : w.ps[mo.ports]? with
      | none => unfold setInlets; rw [PyM.bind_of_ok (getM_of h), PyM.bind_of_error (getP_none hp)]; exact counts_of_eq rfl rfl
      | some p => rw [setInlets_run h hp]; exact counts_of_eq rfl rfl
  conn := fun m o i a _ => createModelConnection_counts m o i a
  value := fun r v u w => by
    rcases setValueM_run r v u w with ⟨x, h⟩ | ⟨q, q', hq, hs, h⟩ <;> rw [h] <;> exact counts_of_eq rfl rfl
  dist := fun r w => by
    rcases distributeM_run r w with ⟨x, h⟩ | ⟨q, hq, h⟩ <;> rw [h] <;> exact counts_of_eq rfl rfl
  pr := fun _ _ _ _ _ => counts_of_eq rfl rfl
  puid := fun _ _ hu => ⟨le_refl _, hu⟩

/-- Over any session the counter only grows. -/
theorem history_counts (ops : List Op) (w : World) : w.Counts (history ops w) :=
  (counts_elem.stable trivial).history ops (fun o _ => by cases o <;> simp [Op.Allowed]) w

/-! ## One call -/

/-- The text printed for the `k`-th name. -/
def Spec.tag (k : Nat) : String := Nat.repr k

theorem tagIf_true (w : World) : tagIf true w = (.ok (Spec.tag (w.uid.getD 0 + 1)), w.withUid (some (w.uid.getD 0 + 1))) := rfl
theorem tagIf_false (w : World) : tagIf false w = (.ok "", w) := rfl

theorem tag_inj {k k' : Nat} : Spec.tag k = Spec.tag k' ↔ k = k' := ⟨fun h => Nat.repr_injective h, fun h => by rw [h]⟩

theorem tag_suffix_inj {k k' : Nat} {s s' : String} (h : Spec.tag k ++ "_" ++ s = Spec.tag k' ++ "_" ++ s') : k = k' := by
  have no : ∀ n : Nat, '_' ∉ (Spec.tag n).toList := fun n hn => by
    have := natText_digit n _ hn
    simp [Char.isDigit] at this
  have h1 := congrArg String.toList h
  simp only [String.toList_append, List.append_assoc] at h1
  have h2 := split_inj (c := '_') (z := s.toList) (w := s'.toList) (no k) (no k') (by simpa using h1)
  exact tag_inj.1 (String.toList_inj.1 h2.1)

/-- The numbers of the names a call takes. -/
theorem tagIf_spec (b : Bool) (w : World) : ∃ t u, tagIf b w = (.ok t, w.withUid u) ∧ w.uid.getD 0 ≤ u.getD 0 ∧
    (b = true → t = Spec.tag (u.getD 0) ∧ w.uid.getD 0 < u.getD 0) := by
  cases b
  · exact ⟨_, w.uid, rfl, le_refl _, by simp⟩
  · exact ⟨_, some (w.uid.getD 0 + 1), rfl, Nat.le_succ _, fun _ => ⟨rfl, Nat.lt_succ_self _⟩⟩

theorem EqObj.setResidual_name (t : String) (e : EqObj) (a : ResArg) : (e.setResidual t a).2.name = e.name := by
  cases a with
  | eqn l r =>
    simp only [EqObj.setResidual]
    split <;> simp only [EqObj.finish]
  | eqnNum l q =>
    simp only [EqObj.setResidual]
    split <;> simp only [EqObj.finish]
  | eqnOther l => simp only [EqObj.setResidual, EqObj.finish]; split <;> rfl
  | node n => simp only [EqObj.setResidual, EqObj.finish]
  | other => rfl

theorem EqObj.init_name {t t' n d o : String} {a : Option ResArg} {e : EqObj} (h : EqObj.init t t' n d a o = .ok e) :
    e.name = (if n = "" then t else n) := by
  unfold EqObj.init at h
  cases a with
  | none => simp only [Except.ok.injEq] at h; rw [← h]
  | some a =>
    simp only at h
    split at h
    · rename_i u e1 hs
      simp only [Except.ok.injEq] at h
      rw [← h]
      have := EqObj.setResidual_name t' { name := if n = "" then t else n, description := d } a
      rw [hs] at this
      exact this
    · cases h

theorem EqObj.init_number {t t' n d o : String} {l : ENode} {q : Rat} {e : EqObj} (h : EqObj.init t t' n d (some (.eqnNum l q)) o = .ok e) :
    e.elem = some (l, EqObj.numNode t' q l.unit) := by
  unfold EqObj.init at h
  simp only [EqObj.setResidual] at h
  cases hs : l.sub (.node (EqObj.numNode t' q l.unit)) with
  | error x => rw [hs] at h; simp at h
  | ok k =>
    rw [hs] at h
    simp only [EqObj.finish, Except.ok.injEq] at h
    rw [← h]

/-- The names a successful `createEquation` takes: for the equation when it has none, for a numeric right side always. -/
theorem createEquation_names {w w1 : World} {m : MRef} {n d : String} {a : Option ResArg} {c : Bool} {r : ERef}
    (h : createEquation m n d a c w = (.ok r, w1)) : ∃ (mo : ModelObj) (e : EqObj), w.ms[m]? = some mo ∧ w1.es[r]? = some e ∧
      w1.ms[m]? = some { mo with eqns := dset mo.eqns e.name r } ∧
      (n ≠ "" → e.name = n ++ "_" ++ mo.name) ∧
      (n = "" → ∃ k, w.uid.getD 0 < k ∧ k ≤ w1.uid.getD 0 ∧ e.name = Spec.tag k ++ "_" ++ mo.name) ∧
      (∀ l q, a = some (.eqnNum l q) → ∃ k g, w.uid.getD 0 < k ∧ k ≤ w1.uid.getD 0 ∧ e.elem = some (l, g) ∧ g.name = "constant" ++ Spec.tag k) := by
  unfold createEquation at h
  cases hm : w.ms[m]? with
  | none => rw [PyM.bind_of_error (getM_none hm)] at h; cases h
  | some mo =>
    rw [PyM.bind_of_ok (getM_of hm)] at h
    obtain ⟨t, u, ht, hu, hu'⟩ := tagIf_spec (n == "") w
    rw [PyM.bind_of_ok ht] at h
    obtain ⟨t', u', ht', hv, hv'⟩ := tagIf_spec (ResArg.needsTag a) (w.withUid u)
    rw [PyM.bind_of_ok ht'] at h
    cases hi : EqObj.init t t' n d a mo.name with
    | error x => rw [hi] at h; cases h
    | ok e =>
      rw [hi, PyM.bind_lift_ok] at h
      cases hs : EqObj.sweep { e with name := e.name ++ "_" ++ mo.name } with
      | error x => rw [hs] at h; cases h
      | ok e' =>
        rw [hs, PyM.bind_lift_ok] at h
        obtain ⟨k, _, he'⟩ := EqObj.sweep_ok hs
        have hw : r = w.es.length ∧ w1 = ((w.withUid u').addE e').withM m (mo.storeEqn e'.name w.es.length) := by
          cases c with
          | false => cases h; exact ⟨rfl, rfl⟩
          | true =>
            cases hc : mo.checkEquation e' with
            | error x => rw [hc] at h; cases h
            | ok v => rw [hc] at h; cases h; exact ⟨rfl, rfl⟩
        obtain ⟨rfl, rfl⟩ := hw
        have hn : e'.name = (if n = "" then t else n) ++ "_" ++ mo.name := by rw [he', ← EqObj.init_name hi]
        have huid : ∀ x : World, ((x.withUid u').addE e').uid = u' := fun _ => rfl
        refine ⟨mo, e', rfl, by simp [World.withM, World.addE, World.withUid], ?_, fun h0 => ?_, fun h0 => ?_, fun l q ha => ?_⟩
        · exact withM_getM (w := (w.withUid u').addE e') (by exact hm) _
        · rw [hn, if_neg h0]
        · obtain ⟨h1, h2⟩ := hu' (by simp [h0])
          exact ⟨u.getD 0, h2, hv, by rw [hn, if_pos h0, h1]⟩
        · subst ha
          obtain ⟨h1, h2⟩ := hv' rfl
          refine ⟨u'.getD 0, EqObj.numNode t' q l.unit, lt_of_le_of_lt hu h2, le_refl _, ?_, by rw [h1]; rfl⟩
          have := EqObj.init_number hi
          rw [he']; exact this

/-! ## Two calls with anything in between -/

/-- **C88.** Two equations created without a name never have the same name, so the second does not replace the first in its model,
whichever models they belong to and whatever happens in between. -/
theorem nameless_equations_differ {w w1 w2 : World} {m m' : MRef} {d d' : String} {a a' : Option ResArg} {c c' : Bool} {r r' : ERef}
    (h : createEquation m "" d a c w = (.ok r, w1)) (ops : List Op)
    (h' : createEquation m' "" d' a' c' (history ops w1) = (.ok r', w2)) :
    ∃ (e e' : EqObj) (mo mo' : ModelObj), w2.es[r]? = some e ∧ w2.es[r']? = some e' ∧ e.name ≠ e'.name ∧
      (history ops w1).ms[m']? = some mo ∧ w2.ms[m']? = some mo' ∧
      dget mo'.eqns e'.name = some r' ∧ dget mo'.eqns e.name = dget mo.eqns e.name := by
  obtain ⟨mo, e, _, he, _, _, hk, _⟩ := createEquation_names h
  obtain ⟨mo', e', hm', he', hs', _, hk', _⟩ := createEquation_names h'
  obtain ⟨k, _, hk1, hk2⟩ := hk rfl
  obtain ⟨k', hk1', _, hk2'⟩ := hk' rfl
  have hc := (history_counts ops w1).1
  have hne : e.name ≠ e'.name := fun hn => by
    rw [hk2, hk2'] at hn
    have := tag_suffix_inj hn
    omega
  have hl := le_elem.eqn m' "" d' a' c' (fun _ _ => trivial) (history ops w1)
  rw [h'] at hl
  refine ⟨e, e', mo', _, hl.es _ _ ((history_le ops w1).es _ _ he), he', hne, hm', hs', ?_, ?_⟩
  · simp
  · exact dget_dset_ne _ _ (Ne.symm hne)

/-- **C88.** The nodes made for two numeric right sides never have the same name. -/
theorem numeric_sides_differ {w w1 w2 : World} {m m' : MRef} {n n' d d' : String} {l l' : ENode} {q q' : Rat} {c c' : Bool} {r r' : ERef}
    (h : createEquation m n d (some (.eqnNum l q)) c w = (.ok r, w1)) (ops : List Op)
    (h' : createEquation m' n' d' (some (.eqnNum l' q')) c' (history ops w1) = (.ok r', w2)) :
    ∃ (e e' : EqObj) (g g' : ENode), w2.es[r]? = some e ∧ w2.es[r']? = some e' ∧ e.elem = some (l, g) ∧ e'.elem = some (l', g') ∧
      g.name ≠ g'.name := by
  obtain ⟨mo, e, _, he, _, _, _, hk⟩ := createEquation_names h
  obtain ⟨mo', e', _, he', _, _, _, hk'⟩ := createEquation_names h'
  obtain ⟨k, g, _, hk1, hg, hk2⟩ := hk l q rfl
  obtain ⟨k', g', hk1', _, hg', hk2'⟩ := hk' l' q' rfl
  have hc := (history_counts ops w1).1
  have hl := le_elem.eqn m' n' d' (some (.eqnNum l' q')) c' (fun _ _ => trivial) (history ops w1)
  rw [h'] at hl
  refine ⟨e, e', g, g', hl.es _ _ ((history_le ops w1).es _ _ he), he', hg, hg', fun hn => ?_⟩
  rw [hk2, hk2'] at hn
  have h1 := congrArg String.toList hn
  simp only [String.toList_append, List.append_cancel_left_eq] at h1
  have := tag_inj.1 (String.toList_inj.1 h1)
  omega

theorem ptagIf_true (w : World) : ptagIf true w = (.ok (Spec.tag (w.puid.getD 0 + 1)), { w with puid := some (w.puid.getD 0 + 1) }) := rfl

/-- The equation made for a connection of expressions whose source has no name. -/
theorem nameless_connection {w w1 : World} {m : MRef} {o i : ENode} {x : Option ResArg} (h : createConnection (.str "") m (.node o) (.node i) x w = (.ok (), w1)) :
    ∃ (r : ERef) (mo mo' : ModelObj) (e : EqObj) (k : Nat), w.ms[m]? = some mo ∧ w1.es[r]? = some e ∧ w1.ms[m]? = some mo' ∧
      mo'.eqns = dset mo.eqns e.name r ∧ w.puid.getD 0 < k ∧ k ≤ w1.puid.getD 0 ∧ r = w.es.length ∧
      e.name = "conn_" ++ Spec.tag k ++ "-->" ++ mo.name ++ "_" ++ mo.name := by
  unfold createConnection connectNodes at h
  simp only at h
  have ht : (ConnSrc.str "").text w = (.ok (Spec.tag (w.puid.getD 0 + 1)), { w with puid := some (w.puid.getD 0 + 1) }) := by
    rfl
  rw [PyM.bind_of_ok ht] at h
  generalize hw0 : ({ w with puid := some (w.puid.getD 0 + 1) } : World) = w0 at h
  cases hm : w.ms[m]? with
  | none => rw [PyM.bind_of_error (getM_none (by rw [← hw0]; exact hm))] at h; cases h
  | some mo =>
    rw [PyM.bind_of_ok (getM_of (show w0.ms[m]? = some mo by rw [← hw0]; exact hm))] at h
    cases hd : i.sub (.node o) with
    | error x => rw [hd] at h; cases h
    | ok d =>
      rw [hd, PyM.bind_lift_ok] at h
      rw [PyM.bind_run] at h
      cases hc : createEquation m ("conn_" ++ Spec.tag (w.puid.getD 0 + 1) ++ "-->" ++ mo.name)
          ("Connection from " ++ Spec.tag (w.puid.getD 0 + 1) ++ " to " ++ mo.name) (some (.node d)) false w0 with
      | mk r w2 =>
        rw [hc] at h
        cases r with
        | error x => cases h
        | ok r =>
          cases h
          obtain ⟨mo1, e, h1, h2, h3, h4, _, _⟩ := createEquation_names hc
          have hcount := (createEquation_counts m ("conn_" ++ Spec.tag (w.puid.getD 0 + 1) ++ "-->" ++ mo.name)
            ("Connection from " ++ Spec.tag (w.puid.getD 0 + 1) ++ " to " ++ mo.name) (some (.node d)) false w0).2
          rw [hc] at hcount
          have hmo : mo1 = mo := by rw [← hw0] at h1; exact Option.some.inj (h1.symm.trans hm)
          subst hmo
          have hr : r = w.es.length := by
            rcases createEquation_run h1 ("conn_" ++ Spec.tag (w.puid.getD 0 + 1) ++ "-->" ++ mo1.name)
              ("Connection from " ++ Spec.tag (w.puid.getD 0 + 1) ++ " to " ++ mo1.name) (some (.node d)) false with ⟨x, u, he⟩ | ⟨t, t', e, e', u, he, _⟩
            · rw [hc] at he; cases he
            · rw [hc] at he
              simp only [Prod.mk.injEq, Except.ok.injEq] at he
              rw [he.1, ← hw0]
          refine ⟨r, mo1, _, e, w.puid.getD 0 + 1, rfl, h2, h3, rfl, Nat.lt_succ_self _, ?_, hr, h4 ?_⟩
          · rw [← hw0] at hcount; exact hcount
          · intro h0
            have := congrArg String.toList h0
            simp [String.toList_append] at this

/-- **C88.** Two connections of expressions from sources without a name never have the same name: the second adds an equation and leaves the first. -/
theorem nameless_connections_differ {w w1 w2 : World} {m m' : MRef} {o i o' i' : ENode} {x x' : Option ResArg}
    (h : createConnection (.str "") m (.node o) (.node i) x w = (.ok (), w1)) (ops : List Op)
    (h' : createConnection (.str "") m' (.node o') (.node i') x' (history ops w1) = (.ok (), w2)) :
    ∃ (r r' : ERef) (e e' : EqObj) (mo mo' : ModelObj), r ≠ r' ∧ w2.es[r]? = some e ∧ w2.es[r']? = some e' ∧ e.name ≠ e'.name ∧
      (history ops w1).ms[m']? = some mo ∧ w2.ms[m']? = some mo' ∧
      dget mo'.eqns e'.name = some r' ∧ dget mo'.eqns e.name = dget mo.eqns e.name := by
  obtain ⟨r, mo, mo1, e, k, _, he, _, _, _, hk, hr, hn⟩ := nameless_connection h
  obtain ⟨r', mo', mo1', e', k', hm', he', hs', heq', hk', _, hr', hn'⟩ := nameless_connection h'
  have hc := (history_counts ops w1).2
  have no : ∀ n : Nat, '-' ∉ (Spec.tag n).toList := fun n hn => by
    have := natText_digit n _ hn
    simp [Char.isDigit] at this
  have hne : e.name ≠ e'.name := fun hee => by
    rw [hn, hn'] at hee
    have h1 := congrArg String.toList hee
    simp only [String.toList_append, List.append_assoc, List.append_cancel_left_eq] at h1
    have h2 := split_inj (c := '-') (x := (Spec.tag k).toList) (y := (Spec.tag k').toList) (z := "->".toList ++ (mo.name.toList ++ ("_".toList ++ mo.name.toList)))
      (w := "->".toList ++ (mo'.name.toList ++ ("_".toList ++ mo'.name.toList))) (no k) (no k') (by simpa using h1)
    have := tag_inj.1 (String.toList_inj.1 h2.1)
    omega
  have hle := (history_le ops w1).es _ _ he
  have hl := le_stable.connection (.str "") m' (.node o') (.node i') x' (by simp [Op.Allowed]) (history ops w1)
  rw [h'] at hl
  refine ⟨r, r', e, e', mo', mo1', fun hrr => ?_, hl.es _ _ hle, he', hne, hm', hs', ?_, ?_⟩
  · have := hl.es _ _ hle
    rw [hrr, he'] at this
    exact hne (congrArg EqObj.name (Option.some.inj this).symm)
  · rw [heq']; simp
  · rw [heq']; exact dget_dset_ne _ _ (Ne.symm hne)

namespace Ex
/-- A model with the variable `x`. -/
def genWorld : World := history [.newModel "tank" "" {} none, .cmd 0 (.var "x" { name := "x", units := Tmpl.dimless })] World.init
/-- The node of `x`. -/
def genNode : ENode := { name := "x_tank", sym := { isPy := false, expr := .atom (.v "x_tank") }, symMap := [("x_tank", 0)], varMap := [("x_tank", 0)], unit := Tmpl.dimless, latex := "x", repr := .num 0 }
/-- The first equation, `x == 3`; another one, `x == 4`, with a name; the second equation, `x == 5`. -/
def genOne : Except Err ERef × World := createEquation 0 "" "" (some (.eqnNum genNode 3)) true genWorld
def genOps : List Op := [.eqn 0 "mine" "" (some (.eqnNum genNode 4)) true]
def genTwo : Except Err ERef × World := createEquation 0 "" "" (some (.eqnNum genNode 5)) true (history genOps genOne.2)
end Ex

/-- The hypotheses of both theorems: the two calls return, with a call in between that takes a number as well; the names are the first, fourth and
(in between) the given one, the names of the sides the second, third and fifth. -/
example : Ex.genOne.1.toOption = some 0 ∧ Ex.genTwo.1.toOption = some 2 ∧
    (Ex.genTwo.2.es.map fun e => (e.name, e.elem.map fun p => p.2.name)) =
      [("1_tank", some "constant2"), ("mine_tank", some "constant3"), ("4_tank", some "constant5")] := by
  decide +kernel

/-- Two connections of expressions from sources without a name, with others in between. -/
example : (history [.connect (.str "") 0 (.node Ex.genNode) (.node Ex.genNode) none, .connect (.str "a") 0 (.node Ex.genNode) (.node Ex.genNode) none,
    .connect (.str "") 0 (.node Ex.genNode) (.node Ex.genNode) none] Ex.genWorld).es.map (fun e => e.name) =
      ["conn_1-->tank_tank", "conn_a-->tank_tank", "conn_2-->tank_tank"] := by
  decide +kernel

end Sloth
