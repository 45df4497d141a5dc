import Verif.Lemmas.Problem

/-!
# Properties of all equations of a heap
-/

namespace Sloth
open PyM

/-- The equation is fresh when an expression understood to be zero is stated. -/
def EqObj.Fresh (e : EqObj) (a : ResArg) : Prop := e.form = .residual ∨ ∀ n, a ≠ .node n

theorem EqObj.init_fresh {t t' n d o : String} {a : ResArg} {e : EqObj} (h : EqObj.init t t' n d (some a) o = .ok e) :
    ∃ e0 e1 : EqObj, e0.form = .residual ∧ e0.setResidual t' a = (.ok (), e1) ∧ e = { e1 with owner := o } := by
  unfold EqObj.init at h
  simp only at h
  split at h
  · rename_i u e1 hs
    simp only [Except.ok.injEq] at h
    exact ⟨_, e1, rfl, hs, h.symm⟩
  · simp at h

theorem EqObj.setResidual_node_form {t : String} {e e' : EqObj} {n : ENode} (h : e.setResidual t (.node n) = (.ok (), e')) :
    e'.form = e.form := by
  simp only [EqObj.setResidual] at h
  obtain ⟨m, _, rfl⟩ := EqObj.finish_ok h
  rfl

/-- A tuple ending with neither node nor number is never accepted. -/
theorem EqObj.init_not_other {t t' n d o : String} {a : ResArg} {e : EqObj} (h : EqObj.init t t' n d (some a) o = .ok e) (l : ENode) : a ≠ .eqnOther l := by
  rintro rfl
  simp [EqObj.init, EqObj.setResidual, EqObj.finish] at h

/-- A property of equations that stating an equation establishes and that incorporation keeps holds of all equations for ever. -/
theorem eqInv_elem' (A : Allow) (P : EqObj → Prop) (built : ∀ (st : Stmt) a, st.arg = .ok a → A.arg a)
    (set : ∀ t (e0 e : EqObj) a n o d, A.arg a → (∀ l, a ≠ .eqnOther l) → e0.Fresh a → e0.setResidual t a = (.ok (), e) →
      P { e with name := n, owner := o, objects := some d })
    (conv : ∀ fl, A.inc fl → fl.eqns = true → ∀ (e e' : EqObj) n o names whole, P e →
      EqObj.convert { e with name := n, owner := o } names whole = .ok e' → P e') :
    Elem A (fun w w' => (∀ e ∈ w.es, P e) → ∀ e ∈ w'.es, P e) where
  refl := fun w => id
  trans := fun a b c h h' => h' ∘ h
  newP := fun p w => id
  newM := fun n d b p w => by rcases newModel_run n d b p w with ⟨x, hx⟩ | ⟨ps, _, hx⟩ <;> rw [hx] <;> exact id
  attr := fun m a v w => by
    cases h : w.ms[m]? with
    | none => rw [setAttr_none h]; exact id
    | some mo => rw [setAttr_run h]; exact id
  var := fun m a w => by
    cases h : w.ms[m]? with
    | none => rw [createVariable_none h]; exact id
    | some mo => rw [createVariable_run h]; exact id
  par := fun m a w => by
    cases h : w.ms[m]? with
    | none => rw [createParameter_none h]; exact id
    | some mo => rw [createParameter_run h]; exact id
  con := fun m a w => by
    cases h : w.ms[m]? with
    | none => rw [createConstant_none h]; exact id
    | some mo => rw [createConstant_run h]; exact id
  built := built
  eqn := fun m n d a c ha w h => by
    cases hm : w.ms[m]? with
    | none => rw [createEquation_none hm]; exact h
    | some mo =>
      rcases createEquation_run hm n d a c with ⟨x, u, he⟩ | ⟨t, t', e, e', u, he, hi, hs, _⟩ <;> rw [he]
      · exact h
      · intro y hy
        simp only [World.withM, World.addE, World.withUid, List.mem_append, List.mem_singleton] at hy
        rcases hy with hy | rfl
        · exact h y hy
        · obtain ⟨k, hk, rfl⟩ := EqObj.sweep_ok hs
          cases a with
          | none =>
            simp only [EqObj.init, Except.ok.injEq] at hi
            subst hi
            simp at hk
          | some a =>
            obtain ⟨e0, e1, hf, h1, rfl⟩ := EqObj.init_fresh hi
            exact set t' e0 e1 a _ _ _ (ha a rfl) (EqObj.init_not_other hi) (Or.inl hf) h1
  inc := fun m s fl hfl => by
    have S : PreRel (fun w w' : World => (∀ e ∈ w.es, P e) → ∀ e ∈ w'.es, P e) := inv_preRel (fun w => ∀ e ∈ w.es, P e)
    have addVar : ∀ r, Pres (fun w w' : World => (∀ e ∈ w.es, P e) → ∀ e ∈ w'.es, P e) (addVariableDirectly m fl.rewrite r) := fun r w => by
      cases hm : w.ms[m]? with
      | none => unfold addVariableDirectly; rw [PyM.bind_of_error (getM_none hm)]; exact id
      | some mo =>
        cases hq : w.qs[r]? with
        | none => unfold addVariableDirectly; rw [PyM.bind_of_ok (getM_of hm), PyM.bind_of_error (getQ_none hq)]; exact id
        | some q => rw [addVariableDirectly_run hm hq]; split <;> exact id
    have addPar : ∀ r, Pres (fun w w' : World => (∀ e ∈ w.es, P e) → ∀ e ∈ w'.es, P e) (addParameterDirectly m fl.rewrite r) := fun r w => by
      cases hm : w.ms[m]? with
      | none => unfold addParameterDirectly; rw [PyM.bind_of_error (getM_none hm)]; exact id
      | some mo =>
        cases hq : w.qs[r]? with
        | none => unfold addParameterDirectly; rw [PyM.bind_of_ok (getM_of hm), PyM.bind_of_error (getQ_none hq)]; exact id
        | some q => rw [addParameterDirectly_run hm hq]; exact id
    have addCon : ∀ r, Pres (fun w w' : World => (∀ e ∈ w.es, P e) → ∀ e ∈ w'.es, P e) (addConstantDirectly m fl.rewrite r) := fun r w => by
      cases hm : w.ms[m]? with
      | none => unfold addConstantDirectly; rw [PyM.bind_of_error (getM_none hm)]; exact id
      | some mo =>
        cases hq : w.qs[r]? with
        | none => unfold addConstantDirectly; rw [PyM.bind_of_ok (getM_of hm), PyM.bind_of_error (getQ_none hq)]; exact id
        | some q => rw [addConstantDirectly_run hm hq]; exact id
    unfold incorporate
    refine S.bind (S.getM _) fun _ => S.bind (S.when _ (S.each _ addVar)) fun _ => S.bind (S.getM _) fun _ =>
      S.bind (S.when _ (S.each _ addPar)) fun _ => S.bind (S.getM _) fun _ => S.bind (S.when _ (S.each _ addCon)) fun _ =>
      S.bind (S.getM _) fun _ => S.bind (S.getM _) fun _ => ?_
    cases hq : fl.eqns with
    | false => exact S.ret ()
    | true =>
      refine S.each _ fun r w h => ?_
      cases hm : w.ms[m]? with
      | none => unfold addEquationDirectly; rw [PyM.bind_of_error (getM_none hm)]; exact h
      | some mo =>
        cases he : w.es[r]? with
        | none => unfold addEquationDirectly; rw [PyM.bind_of_ok (getM_of hm), PyM.bind_of_error (getE_none he)]; exact h
        | some e =>
          rw [addEquationDirectly_run hm he]
          split
          · exact h
          · rename_i e' hc
            intro y hy
            simp only [World.withM, World.addE, List.mem_append, List.mem_singleton] at hy
            rcases hy with hy | rfl
            · exact h y hy
            · exact conv fl hfl hq e y _ _ _ _ (h e (List.mem_of_getElem? he)) hc
  inlets := fun _ m l n w => by
    cases hm : w.ms[m]? with
    | none => unfold setInlets; rw [PyM.bind_of_error (getM_none hm)]; exact id
    | some mo =>
      cases hp : w.ps[mo.ports]? with
      | none => unfold setInlets; rw [PyM.bind_of_ok (getM_of hm), PyM.bind_of_error (getP_none hp)]; exact id
      | some p => rw [setInlets_run hm hp]; exact id
  conn := fun m o i a ha w h => by
    cases hm : w.ms[m]? with
    | none => unfold createModelConnection; rw [PyM.bind_of_error (getM_none hm)]; exact h
    | some mo =>
      rcases createModelConnection_run hm o i a with ⟨x, u, he⟩ | ⟨qo, qi, t, t', d, e, e', u, he, _, _, _, hi, hr, hs⟩ <;> rw [he]
      · exact h
      · intro y hy
        simp only [World.withM, World.addE, World.withUid, List.mem_append, List.mem_singleton] at hy
        rcases hy with hy | rfl
        · exact h y hy
        · obtain ⟨k, hk, rfl⟩ := EqObj.sweep_ok hs
          obtain ⟨e0, e1, hf, h1, rfl⟩ := EqObj.init_fresh hi
          refine set t' { e1 with owner := "" } _ a _ _ _ ha (EqObj.init_not_other hi) ?_ (Prod.ext hr rfl)
          by_cases hn : ∃ n, a = .node n
          · obtain ⟨n, rfl⟩ := hn
            exact Or.inl ((EqObj.setResidual_node_form h1).trans hf)
          · exact Or.inr fun n hx => hn ⟨n, hx⟩
  value := fun r v u w => by rcases setValueM_run r v u w with ⟨x, hx⟩ | ⟨q, q', hq, hs, hx⟩ <;> rw [hx] <;> exact id
  dist := fun r w => by rcases distributeM_run r w with ⟨x, hx⟩ | ⟨q, hq, hx⟩ <;> rw [hx] <;> exact id
  pr := fun w k p _ _ => id
  puid := fun w u _ => id

/-- The same without knowing that such tuples are refused. -/
theorem eqInv_elem (A : Allow) (P : EqObj → Prop) (built : ∀ (st : Stmt) a, st.arg = .ok a → A.arg a)
    (set : ∀ t (e0 e : EqObj) a n o d, A.arg a → e0.Fresh a → e0.setResidual t a = (.ok (), e) →
      P { e with name := n, owner := o, objects := some d })
    (conv : ∀ fl, A.inc fl → fl.eqns = true → ∀ (e e' : EqObj) n o names whole, P e →
      EqObj.convert { e with name := n, owner := o } names whole = .ok e' → P e') :
    Elem A (fun w w' => (∀ e ∈ w.es, P e) → ∀ e ∈ w'.es, P e) :=
  eqInv_elem' A P built (fun t e0 e a n o d ha _ => set t e0 e a n o d ha) conv

end Sloth
