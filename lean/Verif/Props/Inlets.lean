import Verif.Props.Problems
import Verif.Lemmas.Unit

/-!
# The inlet variables of a model with inlets (C89)

Calling a model with inlets raises (C59), but not before the variables of the totalized inlet are declared.
-/

namespace Sloth
open PyM

/-- Attributes are never removed from models. -/
def World.Keeps (w w' : World) : Prop :=
  ∀ (m : MRef) (mo : ModelObj), w.ms[m]? = some mo → ∃ mo', w'.ms[m]? = some mo' ∧ ∀ k ∈ dkeys mo.attrs, k ∈ dkeys mo'.attrs

namespace World.Keeps

theorem of_ms {w w' : World} (h : w'.ms = w.ms) : w.Keeps w' := fun _ mo hm => ⟨mo, by rw [h]; exact hm, fun _ => id⟩

theorem preRel : PreRel World.Keeps := ⟨fun _ => of_ms rfl, fun _ _ _ h h' m mo hm => by
  obtain ⟨mo1, h1, h2⟩ := h m mo hm
  obtain ⟨mo2, h3, h4⟩ := h' m mo1 h1
  exact ⟨mo2, h3, fun k hk => h4 k (h2 k hk)⟩⟩

theorem withM {w w' : World} {m : MRef} {mo mo' : ModelObj} (h : w.ms[m]? = some mo) (hw : w'.ms = w.ms)
    (hk : ∀ k ∈ dkeys mo.attrs, k ∈ dkeys mo'.attrs) : w.Keeps (w'.withM m mo') := fun j x hx => by
  have h' : w'.ms[m]? = some mo := by rw [hw]; exact h
  by_cases hj : m = j
  · subst hj
    rw [h] at hx; cases hx
    exact ⟨mo', withM_getM h' mo', hk⟩
  · exact ⟨x, by simp only [World.withM]; rw [List.getElem?_set_ne hj, hw]; exact hx, fun _ => id⟩

theorem dset_keys (mo : ModelObj) (a : String) (v : Attr) : ∀ k ∈ dkeys mo.attrs, k ∈ dkeys (dset mo.attrs a v) :=
  fun _ hk => (mem_dkeys_dset _ _ _ _).mpr (Or.inr hk)

theorem exposeAs_attrs (mo : ModelObj) (a : VarArgs) (r : Ref) : (mo.exposeAs a r).attrs = mo.attrs := by
  unfold ModelObj.exposeAs
  split
  · rfl
  · split <;> rfl

end World.Keeps

open World.Keeps in
theorem keeps_elem : Elem {} World.Keeps where
  toPreRel := preRel
  newP := fun _ _ => of_ms rfl
  newM := fun n d b p w => by
    rcases newModel_run n d b p w with ⟨x, h⟩ | ⟨ps, _, h⟩ <;> rw [h]
    · exact of_ms rfl
    · exact fun k x hx => ⟨x, by
        have : k < w.ms.length := (List.getElem?_eq_some_iff.mp hx).1
        simp only; rw [List.getElem?_append_left this, hx], fun _ => id⟩
  attr := fun m a v w => by
    cases h : w.ms[m]? with
    | none => rw [setAttr_none h]; exact of_ms rfl
    | some mo => rw [setAttr_run h]; exact withM h rfl (dset_keys _ _ _)
  var := fun m a w => by
    cases h : w.ms[m]? with
    | none => rw [createVariable_none h]; exact of_ms rfl
    | some mo => rw [createVariable_run h]; exact withM h rfl (by rw [exposeAs_attrs]; exact fun _ => id)
  par := fun m a w => by
    cases h : w.ms[m]? with
    | none => rw [createParameter_none h]; exact of_ms rfl
    | some mo => rw [createParameter_run h]; exact withM h rfl fun _ => id
  con := fun m a w => by
    cases h : w.ms[m]? with
    | none => rw [createConstant_none h]; exact of_ms rfl
    | some mo => rw [createConstant_run h]; exact withM h rfl fun _ => id
  built := fun _ _ _ => trivial
  eqn := fun m n d a c _ w => by
    cases h : w.ms[m]? with
    | none => rw [createEquation_none h]; exact of_ms rfl
    | some mo =>
      rcases createEquation_run h n d a c with ⟨x, u, he⟩ | ⟨t, t', e, e', u, he, _⟩ <;> rw [he]
      · exact of_ms rfl
      · exact withM h rfl fun _ => id
  inc := fun m s fl _ => preRel.incorporate m s fl
    (fun r w => by
      cases h : w.ms[m]? with
      | none => unfold addVariableDirectly; rw [PyM.bind_of_error (getM_none h)]; exact of_ms rfl
      | some mo =>
        cases hq : w.qs[r]? with
        | none => unfold addVariableDirectly; rw [PyM.bind_of_ok (getM_of h), PyM.bind_of_error (getQ_none hq)]; exact of_ms rfl
        | some q =>
          rw [addVariableDirectly_run h hq]
          split
          · exact withM h rfl fun _ => id
          · exact withM h rfl (dset_keys _ _ _))
    (fun r w => by
      cases h : w.ms[m]? with
      | none => unfold addParameterDirectly; rw [PyM.bind_of_error (getM_none h)]; exact of_ms rfl
      | some mo =>
        cases hq : w.qs[r]? with
        | none => unfold addParameterDirectly; rw [PyM.bind_of_ok (getM_of h), PyM.bind_of_error (getQ_none hq)]; exact of_ms rfl
        | some q => rw [addParameterDirectly_run h hq]; exact withM h rfl (dset_keys _ _ _))
    (fun r w => by
      cases h : w.ms[m]? with
      | none => unfold addConstantDirectly; rw [PyM.bind_of_error (getM_none h)]; exact of_ms rfl
      | some mo =>
        cases hq : w.qs[r]? with
        | none => unfold addConstantDirectly; rw [PyM.bind_of_ok (getM_of h), PyM.bind_of_error (getQ_none hq)]; exact of_ms rfl
        | some q => rw [addConstantDirectly_run h hq]; exact withM h rfl (dset_keys _ _ _))
    (fun n wh r w => by
      cases h : w.ms[m]? with
      | none => unfold addEquationDirectly; rw [PyM.bind_of_error (getM_none h)]; exact of_ms rfl
      | some mo =>
        cases hq : w.es[r]? with
        | none => unfold addEquationDirectly; rw [PyM.bind_of_ok (getM_of h), PyM.bind_of_error (getE_none hq)]; exact of_ms rfl
        | some q =>
          rw [addEquationDirectly_run h hq]
          split
          · exact of_ms rfl
          · exact withM h rfl (dset_keys _ _ _))
  inlets := fun _ m l n w => by
    cases h : w.ms[m]? with
    | none => unfold setInlets; rw [PyM.bind_of_error (getM_none h)]; exact of_ms rfl
    | some mo =>
      cases hp : w.ps[mo.ports]? with
      | none => unfold setInlets; rw [PyM.bind_of_ok (getM_of h), PyM.bind_of_error (getP_none hp)]; exact of_ms rfl
      | some p => rw [setInlets_run h hp]; exact withM (w' := { w with ps := _ }) h rfl fun _ => id
  conn := fun m o i a _ w => by
    cases h : w.ms[m]? with
    | none => unfold createModelConnection; rw [PyM.bind_of_error (getM_none h)]; exact of_ms rfl
    | some mo =>
      rcases createModelConnection_run h o i a with ⟨x, u, he⟩ | ⟨qo, qi, t, t', d, e, e', u, he, _⟩ <;> rw [he]
      · exact of_ms rfl
      · exact withM h rfl fun _ => id
  value := fun r v u w => by
    rcases setValueM_run r v u w with ⟨x, h⟩ | ⟨q, q', hq, hs, h⟩ <;> rw [h] <;> exact of_ms rfl
  dist := fun r w => by
    rcases distributeM_run r w with ⟨x, h⟩ | ⟨q, hq, h⟩ <;> rw [h] <;> exact of_ms rfl
  pr := fun _ _ _ _ _ => of_ms rfl
  puid := fun _ _ _ => of_ms rfl

theorem keeps_stable : Stable {} World.Keeps := keeps_elem.stable trivial

theorem history_keeps (ops : List Op) (w : World) : w.Keeps (history ops w) :=
  keeps_stable.history ops (fun o _ => by cases o <;> simp [Op.Allowed]) w

/-! ## The five variables -/

/-- The variables of the totalized inlet and what they measure: pressure, temperature, mass and molar flux, molar enthalpy. -/
def Spec.inletVars : List (String × Spec.Dim) := [("P_in", .pressure), ("T_in", .base .K), ("mdot_in", .div (.base .kg) (.base .s)),
  ("ndot_in", .div (.base .mol) (.base .s)), ("H_in", .div .energy (.base .mol))]

/-- Model `m` has a variable declared as `a` and exposed as input, of dimension `d`. -/
def Spec.Inlet (w : World) (m : MRef) (a : String) (d : Spec.Dim) : Prop := ∃ (mo : ModelObj) (r : Ref) (q : Quantity), w.ms[m]? = some mo ∧
  a ++ "_" ++ mo.name ∈ dkeys mo.vars ∧ r ∈ mo.expIn ∧ w.qs[r]? = some q ∧ q.name = a ++ "_" ++ mo.name ∧ q.kind = .variable ∧ q.isExposed = true ∧
  q.owner = mo.name ∧ q.units.dimVec = d

theorem Spec.Inlet.mono {w w' : World} {m : MRef} {a : String} {d : Spec.Dim} (h : Spec.Inlet w m a d) (hl : w.Le w') : Spec.Inlet w' m a d := by
  obtain ⟨mo, r, q, h1, h2, h3, h4, h5, h6, h7, h8, h9⟩ := h
  obtain ⟨mo', h1', hm⟩ := hl.ms m mo h1
  obtain ⟨q', h4', hq⟩ := hl.qs r q h4
  refine ⟨mo', r, q', h1', ?_, hm.expIn r h3, h4', ?_, by rw [hq.kind, h6], by rw [hq.exposed, h7], by rw [hq.owner, hm.name, h8], by rw [hq.units, h9]⟩
  · rw [hm.name]; exact hm.vars _ h2
  · rw [hq.name, hm.name, h5]

/-- What making sure of one variable does: nothing when the model has the attribute, otherwise the variable is declared. -/
theorem ensureInlet_step {w : World} {m : MRef} {mo : ModelObj} (h : w.ms[m]? = some mo) (a d : String) (u : UnitObj) (l : String) :
    ∃ w' mo', ensureInlet m a d u l w = (.ok (), w') ∧ w.Le w' ∧ w'.ms[m]? = some mo' ∧ (∀ k, k ∈ dkeys mo'.attrs ↔ k = a ∨ k ∈ dkeys mo.attrs) ∧
      (a ∈ dkeys mo.attrs → w' = w) ∧ (a ∉ dkeys mo.attrs → Spec.Inlet w' m a u.dimVec) := by
  have hle := le_stable.ensureInlet m a d u l w
  by_cases ha : a ∈ dkeys mo.attrs
  · refine ⟨w, mo, ?_, World.Le.refl w, h, fun k => ⟨Or.inr, fun hk => hk.elim (fun hk => hk ▸ ha) id⟩, fun _ => rfl, fun h => absurd ha h⟩
    unfold ensureInlet
    rw [PyM.bind_of_ok (getM_of h)]
    have : (dget mo.attrs a == none) = false := by
      obtain ⟨v, hv⟩ := exists_dget_of_mem ha
      simp [hv]
    rw [this]; rfl
  · have hn : dget mo.attrs a = none := (dget_eq_none_iff _ _).2 ha
    let x : VarArgs := { name := a, units := u, description := d, exposed := true, vtype := "input", latex := l }
    let mo1 : ModelObj := (mo.storeVar (x.quantity mo.name).name w.qs.length).exposeAs x w.qs.length
    have hm1 : ((w.addQ (x.quantity mo.name)).withM m mo1).ms[m]? = some mo1 := withM_getM (w := w.addQ (x.quantity mo.name)) h mo1
    have hrun : ensureInlet m a d u l w = (.ok (), ((w.addQ (x.quantity mo.name)).withM m mo1).withM m { mo1 with attrs := dset mo1.attrs a (.qty w.qs.length) }) := by
      unfold ensureInlet
      rw [PyM.bind_of_ok (getM_of h), hn]
      show (createVariable m x >>= fun r => setAttr m a (.qty r)) w = _
      have hc := createVariable_run h x
      rw [if_neg (by simp [x])] at hc
      rw [PyM.bind_of_ok hc, setAttr_run hm1]
    rw [hrun] at hle
    have hm2 := withM_getM hm1 { mo1 with attrs := dset mo1.attrs a (.qty w.qs.length) }
    refine ⟨_, _, hrun, hle, hm2, fun k => ?_, fun h => absurd h ha, fun _ => ?_⟩
    · rw [mem_dkeys_dset, World.Keeps.exposeAs_attrs]; rfl
    · refine ⟨_, w.qs.length, x.quantity mo.name, hm2, ?_, ?_, ?_, rfl, rfl, rfl, rfl, rfl⟩
      · show a ++ "_" ++ mo.name ∈ dkeys mo1.vars
        exact (mem_dkeys_dset _ _ _ _).mpr (Or.inl rfl)
      · show w.qs.length ∈ mo1.expIn
        simp [mo1, ModelObj.exposeAs, x]
      · simp [World.withM, World.addQ]

/-- The totalization declares the variables before it raises. -/
theorem totalize_declares {w : World} {m : MRef} {mo : ModelObj} (h : w.ms[m]? = some mo) :
    ∃ w', w.Le w' ∧ w'.Le (totalizeInlets m w).2 ∧ w'.Keeps (totalizeInlets m w).2 ∧
      ∀ p ∈ Spec.inletVars, (∃ mo', w'.ms[m]? = some mo' ∧ p.1 ∈ dkeys mo'.attrs) ∧ (p.1 ∉ dkeys mo.attrs → Spec.Inlet w' m p.1 p.2) := by
  obtain ⟨w1, m1, r1, l1, g1, k1, _, i1⟩ := ensureInlet_step h "P_in" "p_in" Tmpl.Pa "{P}_{in}"
  obtain ⟨w2, m2, r2, l2, g2, k2, _, i2⟩ := ensureInlet_step g1 "T_in" "T_in" Tmpl.K "{T}_{in}"
  obtain ⟨w3, m3, r3, l3, g3, k3, _, i3⟩ := ensureInlet_step g2 "mdot_in" "mdot_in" (UnitObj.divU Tmpl.kg Tmpl.s) "\\dot{m}_{in}"
  obtain ⟨w4, m4, r4, l4, g4, k4, _, i4⟩ := ensureInlet_step g3 "ndot_in" "ndot_in" (UnitObj.divU Tmpl.mol Tmpl.s) "\\dot{n}_{in}"
  obtain ⟨w5, m5, r5, l5, g5, k5, _, i5⟩ := ensureInlet_step g4 "H_in" "H_in" (UnitObj.divU Tmpl.J Tmpl.mol) "{H}_{in}"
  have e : totalizeInlets m w = (getM m >>= fun mo => each mo.inlets (fun s => incorporate m s { eqns := false, rewrite := false }) >>= fun _ =>
      getM m >>= fun mo => getP mo.ports >>= fun p => PyM.when (!p.isEmpty) (totalizeBody m mo.inlets)) w5 := by
    unfold totalizeInlets
    rw [PyM.bind_of_ok r1, PyM.bind_of_ok r2, PyM.bind_of_ok r3, PyM.bind_of_ok r4, PyM.bind_of_ok r5]
  have rest : ∀ {R : World → World → Prop}, Stable {} R → R w5 (totalizeInlets m w).2 := fun {R} S => by
    rw [e]
    exact S.bind (S.getM _) (fun _ => S.bind (S.each _ fun _ => S.inc _ _ _ trivial) fun _ => S.bind (S.getM _) fun _ => S.bind (S.getP _) fun _ =>
      S.when _ (S.totalizeBody _ _)) w5
  have l25 := l3.trans (l4.trans l5)
  refine ⟨w5, l1.trans (l2.trans l25), rest le_stable, rest keeps_stable, ?_⟩
  simp only [Spec.inletVars, List.mem_cons, List.not_mem_nil, or_false]
  have d1 : Tmpl.Pa.dimVec = .pressure := by decide +kernel
  have d2 : Tmpl.K.dimVec = .base .K := by decide +kernel
  have d3 : (UnitObj.divU Tmpl.kg Tmpl.s).dimVec = .div (.base .kg) (.base .s) := by decide +kernel
  have d4 : (UnitObj.divU Tmpl.mol Tmpl.s).dimVec = .div (.base .mol) (.base .s) := by decide +kernel
  have d5 : (UnitObj.divU Tmpl.J Tmpl.mol).dimVec = .div .energy (.base .mol) := by decide +kernel
  rw [d1] at i1; rw [d2] at i2; rw [d3] at i3; rw [d4] at i4; rw [d5] at i5
  rintro p (rfl | rfl | rfl | rfl | rfl) <;> refine ⟨⟨m5, g5, by simp [k5, k4, k3, k2, k1]⟩, fun hp => ?_⟩
  · exact (i1 hp).mono (l2.trans l25)
  · exact (i2 (by simpa [k1] using hp)).mono l25
  · exact (i3 (by simpa [k2, k1] using hp)).mono (l4.trans l5)
  · exact (i4 (by simpa [k3, k2, k1] using hp)).mono l5
  · exact i5 (by simpa [k4, k3, k2, k1] using hp)

/-- **C89.** Calling a model that has inlets (whose own constants, parameters and variables can be declared) raises, but from then on, whatever is done,
the model has the five attributes of the totalized inlet; those it did not have before are variables of the right dimension that can be connected as inputs. -/
theorem inlet_variables_declared {w w1 : World} {m : MRef} {mo mo1 : ModelObj} (hm : w.ms[m]? = some mo)
    (hd : (each mo.body.cons (Cmd.run m) >>= fun _ => each mo.body.pars (Cmd.run m) >>= fun _ => each mo.body.vars (Cmd.run m)) w = (.ok (), w1))
    (hm1 : w1.ms[m]? = some mo1) (hi : mo1.inlets ≠ []) (ops : List Op) :
    ∀ p ∈ Spec.inletVars, (∃ mo', (history ops (Model.call m w).2).ms[m]? = some mo' ∧ p.1 ∈ dkeys mo'.attrs) ∧
      (p.1 ∉ dkeys mo1.attrs → Spec.Inlet (history ops (Model.call m w).2) m p.1 p.2) := by
  obtain ⟨w', _, hle, hk, hp⟩ := totalize_declares hm1
  have hcall : ∀ {R : World → World → Prop}, Stable {} R → R (totalizeInlets m w1).2 (Model.call m w).2 := fun {R} S => by
    have e : Model.call m w = (totalizeInlets m >>= fun _ => each mo1.body.eqns (Cmd.run m)) w1 := by
      unfold Model.call
      rw [PyM.bind_of_ok (getM_of hm)]
      have : ∀ {α : Type} (f : PyM α), (each mo.body.cons (Cmd.run m) >>= fun _ => each mo.body.pars (Cmd.run m) >>= fun _ =>
          each mo.body.vars (Cmd.run m) >>= fun _ => f) w = f w1 := fun f => by
        rw [PyM.bind_run] at hd ⊢
        cases h1 : each mo.body.cons (Cmd.run m) w with
        | mk r x =>
          rw [h1] at hd
          cases r with
          | error _ => cases hd
          | ok _ =>
            simp only at hd ⊢
            rw [PyM.bind_run] at hd ⊢
            cases h2 : each mo.body.pars (Cmd.run m) x with
            | mk r y =>
              rw [h2] at hd
              cases r with
              | error _ => cases hd
              | ok _ => simp only at hd ⊢; rw [PyM.bind_of_ok hd]
      rw [this, PyM.bind_of_ok (getM_of hm1)]
      have : (!mo1.inlets.isEmpty) = true := by cases hx : mo1.inlets <;> simp_all
      rw [this, PyM.when_true]
    rw [e, PyM.bind_run]
    cases hr : totalizeInlets m w1 with
    | mk r w2 =>
      cases r with
      | ok _ => exact S.cmds _ _ w2
      | error _ => exact S.refl w2
  intro p hp'
  obtain ⟨⟨mo', h1, h2⟩, h3⟩ := hp p hp'
  have hL := (hle.trans (hcall le_stable)).trans (history_le ops _)
  have hK := keeps_stable.trans _ _ _ (keeps_stable.trans _ _ _ hk (hcall keeps_stable)) (history_keeps ops _)
  obtain ⟨mo2, h4, h5⟩ := hK m mo' h1
  exact ⟨⟨mo2, h4, h5 _ h2⟩, fun hn => (h3 hn).mono hL⟩

namespace Ex
/-- A stream, and a tank fed by it whose body declares a temperature `T_in` of its own. -/
def fedTank : World := history [.newPorts, .newModel "stream" "" {} none, .newModel "tank" "" { vars := [.var "T_in" { name := "T_in", units := Tmpl.K }] } (some 1),
  .setInlets 1 [0] "in"] World.init
end Ex

/-- The hypotheses hold, with one of the attributes present before: calling the tank raises, and four variables are declared as inputs. -/
example : ∃ mo w1 mo1, Ex.fedTank.ms[1]? = some mo ∧
    (each mo.body.cons (Cmd.run 1) >>= fun _ => each mo.body.pars (Cmd.run 1) >>= fun _ => each mo.body.vars (Cmd.run 1)) Ex.fedTank = (.ok (), w1) ∧
    w1.ms[1]? = some mo1 ∧ mo1.inlets ≠ [] ∧ dkeys mo1.attrs = ["T_in"] ∧ (Model.call 1 Ex.fedTank).1 = .error .attributeError ∧
    ((Model.call 1 Ex.fedTank).2.ms[1]?.map fun mo => mo.expIn.map fun r => ((Model.call 1 Ex.fedTank).2.qs[r]?.map Quantity.name)) =
      some [some "P_in_tank", some "mdot_in_tank", some "ndot_in_tank", some "H_in_tank"] := by
  refine ⟨_, _, _, rfl, rfl, rfl, ?_, ?_, ?_, ?_⟩ <;> decide +kernel

end Sloth
