import Verif.Props.UnitOps
import Verif.Props.Problems

/-!
# The library raises no dimensional error (C48)
-/

namespace Sloth.Lib
open Sloth PyM Spec

/-! ## Computations that raise no dimensional error in any state -/

/-- The result is not a dimensional error. -/
def NoDim {α : Type} (r : Except Err α) : Prop := r ≠ .error .dimensionalCoherence

def ND {α : Type} (x : PyM α) : Prop := ∀ w, NoDim (x w).1

theorem NoDim.bind {α β : Type} {x : Except Err α} {f : α → Except Err β} (hx : NoDim x) (hf : ∀ a, x = .ok a → NoDim (f a)) : NoDim (x >>= f) := by
  cases x with
  | error e => exact fun h => hx (by cases h; rfl)
  | ok a => exact hf a rfl

namespace ND
variable {α β : Type}

theorem bind {x : PyM α} {f : α → PyM β} (hx : ND x) (hf : ∀ a, ND (f a)) : ND (x >>= f) := fun w => by
  rw [PyM.bind_run]
  have h := hx w
  rcases hr : x w with ⟨e | a, w1⟩
  · rw [hr] at h; exact fun hc => h (by cases hc; rfl)
  · exact hf a w1

theorem ret (a : α) : ND (PyM.pure a) := fun _ h => by cases h
theorem lift {x : Except Err α} (h : NoDim x) : ND (PyM.lift x) := fun _ => h
theorem raise {e : Err} (h : e ≠ .dimensionalCoherence) : ND (PyM.raise e : PyM α) := fun _ hc => by cases hc; exact h rfl
theorem getQ (r : Ref) : ND (getQ r) := fun w h => by unfold PyM.getQ at h; split at h <;> cases h
theorem getM (r : Ref) : ND (getM r) := fun w h => by unfold PyM.getM at h; split at h <;> cases h
theorem getP (r : Ref) : ND (getP r) := fun w h => by unfold PyM.getP at h; split at h <;> cases h
theorem when {b : Bool} {x : PyM Unit} (h : ND x) : ND (PyM.when b x) := by cases b <;> [exact ret _; exact h]
theorem each {l : List α} {f : α → PyM Unit} (h : ∀ a, ND (f a)) : ND (each l f) := by
  induction l with
  | nil => exact ret _
  | cons a t ih => exact bind (h a) fun _ => ih
theorem collect {l : List α} {f : α → PyM β} (h : ∀ a, ND (f a)) : ND (collect l f) := by
  induction l with
  | nil => exact ret _
  | cons a t ih => exact bind (h a) fun _ => bind ih fun _ => ret _
theorem rethrow {x : PyM α} {e : Err} (h : e ≠ .dimensionalCoherence) : ND (PyM.rethrow x e) := fun w hc => by
  unfold PyM.rethrow at hc
  split at hc <;> cases hc
  exact h rfl

theorem setAttr (m : MRef) (a : String) (v : Attr) : ND (setAttr m a v) := bind (getM m) fun _ => fun _ h => by cases h

theorem lookupM (m : MRef) (p : APath) : ND (lookupM m p) := fun w h => by
  simp only [Sloth.lookupM, World.lookup] at h
  split at h
  · cases h
  · split at h
    · cases h
    · cases h
    · split at h <;> cases h

theorem createVariable (m : MRef) (a : VarArgs) : ND (createVariable m a) := fun w => by
  cases h : w.ms[m]? with
  | none =>
    unfold Sloth.createVariable
    rw [PyM.bind_of_error (PyM.getM_none h)]
    exact fun h => by cases h
  | some mo =>
    rw [createVariable_run h]
    show NoDim (if _ then _ else _)
    split <;> exact fun h => by cases h

/-- An equation given as one expression. -/
theorem createEquation (m : MRef) (k d : String) (n : ENode) (c : Bool) : ND (createEquation m k d (some (.node n)) c) := by
  refine bind (getM m) fun mo => bind (fun w h => ?_) fun t => bind (fun w h => ?_) fun t' => bind (lift fun h => ?_) fun e =>
    bind (lift fun h => ?_) fun e' => bind (when (lift fun h => ?_)) fun _ => bind (fun w h => by cases h) fun r => bind (fun w h => by cases h) fun _ => ret _
  · unfold tagIf at h; split at h <;> cases h
  · cases h
  · simp only [EqObj.init, EqObj.setResidual, EqObj.finish] at h; cases h
  · unfold EqObj.sweep at h; split at h <;> cases h
  · unfold ModelObj.checkEquation at h
    split at h
    · cases h
    · split at h <;> cases h

theorem incorporate (m s : MRef) : ND (incorporate m s { eqns := false, rewrite := false }) := by
  have hv : ∀ r, ND (addVariableDirectly m false r) := fun r =>
    bind (getM m) fun _ => bind (getQ r) fun _ => bind (fun w h => by cases h) fun _ => bind (fun w h => by cases h) fun _ =>
      bind (when (raise (by decide))) fun _ => setAttr _ _ _
  have hp : ∀ r, ND (addParameterDirectly m false r) := fun r =>
    bind (getM m) fun _ => bind (getQ r) fun _ => bind (fun w h => by cases h) fun _ => bind (fun w h => by cases h) fun _ => setAttr _ _ _
  have hc : ∀ r, ND (addConstantDirectly m false r) := fun r =>
    bind (getM m) fun _ => bind (getQ r) fun _ => bind (fun w h => by cases h) fun _ => bind (fun w h => by cases h) fun _ => setAttr _ _ _
  exact bind (getM s) fun _ => bind (when (each hv)) fun _ => bind (getM s) fun _ => bind (when (each hp)) fun _ =>
    bind (getM s) fun _ => bind (when (each hc)) fun _ => bind (getM s) fun _ => bind (getM m) fun _ => ret _

theorem ensureInlet (m : MRef) (a d : String) (u : UnitObj) (l : String) : ND (ensureInlet m a d u l) :=
  bind (getM m) fun _ => when (bind (createVariable _ _) fun _ => setAttr _ _ _)

theorem inletNodes (a : String) (l : List MRef) : ND (inletNodes a l) :=
  collect fun s => bind (lookupM _ _) fun _ => ret _

theorem fixInlets (m : MRef) (a : String) (l : List MRef) : ND (fixInlets m a l) :=
  each fun s => bind (lookupM _ _) fun _ => bind (lift fun h => by cases h) fun _ => bind (createEquation _ _ _ _ _) fun _ => ret _

theorem totalizeMin (m : MRef) (a : String) (ns : List ENode) (st : String) : ND (totalizeMin m a ns st) := by
  have hm : ∀ l : List ENode, ∃ e, minNodes l = .error e ∧ e ≠ .dimensionalCoherence := by
    intro l
    cases l with
    | nil => exact ⟨_, rfl, by decide⟩
    | cons x t => exact ⟨.unexpectedValue, by simp [minNodes, minMax, MArg.isNode, MArg.isNum], by decide⟩
  obtain ⟨e, he, hd⟩ := hm ns
  refine bind (lookupM _ _) fun _ w => ?_
  rw [he]
  exact fun h => hd (by cases h; rfl)

/-- Adding up the inlets raises no dimensional error, whatever the inlets are. -/
theorem totalizeInlets (m : MRef) : ND (totalizeInlets m) :=
  bind (ensureInlet _ _ _ _ _) fun _ => bind (ensureInlet _ _ _ _ _) fun _ => bind (ensureInlet _ _ _ _ _) fun _ => bind (ensureInlet _ _ _ _ _) fun _ =>
    bind (ensureInlet _ _ _ _ _) fun _ => bind (getM m) fun _ => bind (each fun _ => incorporate _ _) fun _ => bind (getM m) fun _ => bind (getP _) fun _ =>
    when (bind (inletNodes _ _) fun _ => bind (fixInlets _ _ _) fun _ => bind (rethrow (by decide)) fun _ => bind (rethrow (by decide)) fun _ =>
      bind (totalizeMin _ _ _ _) fun _ => totalizeMin _ _ _ _)

end ND

/-! ## Declarations -/

/-- Every quantity of the model has the dimension its attribute has in the table `D`, and there is no attribute `self`; the model has the body `b` and no inlets. -/
def Dm (D : String → Dim) (b : Body) (m : MRef) (w : World) : Prop :=
  ∃ mo, w.ms[m]? = some mo ∧ (mo.inlets = [] ∧ mo.body = b ∧ dget mo.attrs "self" = none) ∧
    ∀ a r, dget mo.attrs a = some (.qty r) → ∃ q, w.qs[r]? = some q ∧ UReachSI q.units ∧ q.units.dimVec = D a

/-- A declaration in agreement with the table. -/
def wt (D : String → Dim) : Cmd → Bool
  | .var a x => a != "self" && libUnits.contains x.units && decide (x.units.dimVec = D a)
  | .par a x => a != "self" && libUnits.contains x.units && decide (x.units.dimVec = D a)
  | .eqn a _ _ (.res x) _ => a != "self" && (Spec.adim D x).isSome
  | .eqn _ _ _ (.eqn _ (.bin _ (.q p) _)) _ => p == { attr := "self" }
  | .setValue _ (.float _) none | .setValue _ .other none | .distribute _ => true
  | .fail e => e != .dimensionalCoherence
  | _ => false

theorem Dm.mono {D : String → Dim} {b : Body} {m : MRef} {w w' : World} (h : Dm D b m w)
    (hq : ∀ (r : Ref) q, w.qs[r]? = some q → ∃ q', w'.qs[r]? = some q' ∧ q'.units = q.units)
    (hm : ∀ mo, w.ms[m]? = some mo → ∃ mo', w'.ms[m]? = some mo' ∧ (mo'.inlets = mo.inlets ∧ mo'.body = mo.body) ∧ ∀ a v, dget mo'.attrs a = some v → dget mo.attrs a = some v ∨
      (a ≠ "self" ∧ ∀ r, v = .qty r → ∃ q, w'.qs[r]? = some q ∧ UReachSI q.units ∧ q.units.dimVec = D a)) : Dm D b m w' := by
  obtain ⟨mo, h1, ⟨hi, hb, h2⟩, h3⟩ := h
  obtain ⟨mo', g1, gg, g2⟩ := hm mo h1
  refine ⟨mo', g1, ⟨gg.1.trans hi, gg.2.trans hb, ?_⟩, fun a r ha => ?_⟩
  · cases hs : dget mo'.attrs "self" with
    | none => rfl
    | some v =>
      rcases g2 _ _ hs with hh | hh
      · rw [h2] at hh; cases hh
      · exact absurd rfl hh.1
  · rcases g2 _ _ ha with hh | hh
    · obtain ⟨q, k1, k2, k3⟩ := h3 a r hh
      obtain ⟨q', l1, l2⟩ := hq r q k1
      exact ⟨q', l1, l2 ▸ k2, l2 ▸ k3⟩
    · exact hh.2 r rfl

theorem Dm.toPy {D : String → Dim} {b : Body} {m : MRef} {w : World} (h : Dm D b m w) {x : AExpr} {d : Dim} (hd : Spec.adim D x = some d) {e : PyExpr}
    (he : x.toPy w m = .ok e) : Plain e ∧ Spec.AllUnits UReachSI e ∧ Spec.dim e = some d := by
  obtain ⟨mo, h1, -, h3⟩ := h
  induction x generalizing d e with
  | q p =>
    simp only [Spec.adim] at hd
    split at hd
    · rename_i hpm
      cases hd
      simp only [AExpr.toPy, World.lookup, hpm, Option.getD_none, h1] at he
      cases ha : dget mo.attrs p.attr with
      | none => rw [ha] at he; cases he
      | some v =>
        cases v with
        | eqn r => rw [ha] at he; cases he
        | qty r =>
          obtain ⟨y, g1, g2, g3⟩ := h3 _ _ ha
          rw [ha] at he
          simp only [g1] at he
          cases he
          exact ⟨trivial, g2, by simp only [Spec.dim, g3]⟩
    · cases hd
  | bin op a c iha ihc =>
    have hab : ∃ da dc, Spec.adim D a = some da ∧ Spec.adim D c = some dc ∧ op ≠ .pow := by
      cases op <;> simp only [Spec.adim, Option.bind_eq_bind, Option.bind_eq_some_iff] at hd
      case pow => cases hd
      all_goals obtain ⟨da, g1, dc, g2, _⟩ := hd; exact ⟨da, dc, g1, g2, by simp⟩
    obtain ⟨da, dc, ga, gc, hop⟩ := hab
    simp only [AExpr.toPy] at he
    cases hea : a.toPy w m with
    | error x => rw [hea] at he; cases he
    | ok ea =>
      cases hec : c.toPy w m with
      | error x => rw [hea, hec] at he; cases he
      | ok ec =>
        rw [hea, hec] at he; cases he
        obtain ⟨a1, a2, a3⟩ := iha ga hea
        obtain ⟨c1, c2, c3⟩ := ihc gc hec
        refine ⟨⟨hop, a1, c1⟩, ⟨a2, c2⟩, ?_⟩
        cases op <;> simp only [Spec.adim, ga, gc, Spec.dim, a3, c3] at hd ⊢
        case pow => exact absurd rfl hop
        all_goals exact hd
  | nbin op k a ih =>
    have hop : op = .add := by cases op <;> simp [Spec.adim] at hd ⊢
    subst hop
    simp only [AExpr.toPy] at he
    cases hea : a.toPy w m with
    | error x => rw [hea] at he; cases he
    | ok ea =>
      rw [hea] at he; cases he
      obtain ⟨a1, a2, a3⟩ := ih hd hea
      exact ⟨⟨rfl, a1⟩, a2, a3⟩
  | _ => simp [Spec.adim] at hd

theorem build_noDim {e : PyExpr} (hp : Plain e) (hu : Spec.AllUnits UReachSI e) {d : Dim} (hd : Spec.dim e = some d) : NoDim e.build := by
  induction e generalizing d with
  | q r x => exact fun h => by cases h
  | bin op a b iha ihb =>
    have hdd : ∃ da db, Spec.dim a = some da ∧ Spec.dim b = some db := by
      cases op <;> simp only [Spec.dim, Option.bind_eq_bind, Option.bind_eq_some_iff] at hd
      all_goals obtain ⟨da, h1, db, h2, _⟩ := hd; exact ⟨da, db, h1, h2⟩
    obtain ⟨da, db, h1, h2⟩ := hdd
    simp only [PyExpr.build]
    refine (iha hp.2.1 hu.1 h1).bind fun m hm => (ihb hp.2.2 hu.2 h2).bind fun n hn => ?_
    obtain ⟨um, dm⟩ := expr_dimension_partial a hu.1 hp.2.1.powers hm
    obtain ⟨un, dn⟩ := expr_dimension_partial b hu.2 hp.2.2.powers hn
    rw [h1] at dm; rw [h2] at dn
    cases dm; cases dn
    cases op with
    | add =>
      have he : m.unit.dimVec = n.unit.dimVec := by
        simp only [Spec.dim, h1, h2, Option.bind_eq_bind, Option.bind_some] at hd
        by_contra hc
        rw [if_neg hc] at hd; cases hd
      simp [NoDim, ENode.op, ENode.add, add_SI um un, he]
    | sub =>
      have he : m.unit.dimVec = n.unit.dimVec := by
        simp only [Spec.dim, h1, h2, Option.bind_eq_bind, Option.bind_some] at hd
        by_contra hc
        rw [if_neg hc] at hd; cases hd
      simp [NoDim, ENode.op, ENode.sub, sub_SI um un, he]
    | mul => simp [NoDim, ENode.op, ENode.mul]
    | div =>
      simp only [ENode.op, ENode.div, SObj.div]
      split <;> exact fun h => by cases h
    | pow => exact absurd rfl hp.1
  | nbin op n a ih =>
    obtain ⟨rfl, hp⟩ := hp
    exact (ih hp hu hd).bind fun m _ h => by cases h
  | _ => exact hp.elim

theorem toPy_noDim (x : AExpr) (w : World) (m : MRef) : NoDim (x.toPy w m) := by
  have hl : ∀ p, NoDim (w.lookup m p) := fun p => ND.lookupM m p w
  induction x with
  | q p => exact (hl p).bind fun _ _ h => by cases h
  | bin op a b iha ihb => exact iha.bind fun _ _ => ihb.bind fun _ _ h => by cases h
  | binN op a n ih => exact ih.bind fun _ _ h => by cases h
  | nbin op n a ih => exact ih.bind fun _ _ h => by cases h
  | fn f a ih => exact ih.bind fun _ _ h => by cases h
  | mmN k a n ih => exact ih.bind fun _ _ h => by cases h
  | diff x t =>
    cases t with
    | none => exact (hl x).bind fun _ _ h => by cases h
    | some t => exact (hl x).bind fun _ _ => (hl t).bind fun _ _ h => by cases h

/-- Quantities and attributes stay. -/
def Calm (m : MRef) (w w' : World) : Prop := w'.qs = w.qs ∧ ∀ mo, w.ms[m]? = some mo → ∃ mo', w'.ms[m]? = some mo' ∧ mo'.attrs = mo.attrs ∧ mo'.inlets = mo.inlets ∧ mo'.body = mo.body

theorem Calm.refl (m : MRef) (w : World) : Calm m w w := ⟨rfl, fun mo h => ⟨mo, h, rfl, rfl, rfl⟩⟩

theorem Calm.trans {m : MRef} {w w' w'' : World} (h : Calm m w w') (h' : Calm m w' w'') : Calm m w w'' :=
  ⟨h'.1.trans h.1, fun mo hm => by
    obtain ⟨mo', g1, g2⟩ := h.2 mo hm
    obtain ⟨mo'', k1, k2⟩ := h'.2 mo' g1
    exact ⟨mo'', k1, k2.1.trans g2.1, k2.2.1.trans g2.2.1, k2.2.2.trans g2.2.2⟩⟩

theorem Calm.bind {α β : Type} {m : MRef} {x : PyM α} {f : α → PyM β} {w : World} (hx : Calm m w (x w).2) (hf : ∀ a w1, x w = (.ok a, w1) → Calm m w1 (f a w1).2) :
    Calm m w ((x >>= f) w).2 := by
  rw [PyM.bind_run]
  rcases hr : x w with ⟨e | a, w1⟩
  · rw [hr] at hx; exact hx
  · rw [hr] at hx; exact hx.trans (hf a w1 hr)

theorem createEquation_calm (m : MRef) (k d : String) (a : Option ResArg) (c : Bool) (w : World) : Calm m w (createEquation m k d a c w).2 := by
  cases hm : w.ms[m]? with
  | none =>
    unfold createEquation
    rw [PyM.bind_of_error (PyM.getM_none hm)]
    exact Calm.refl _ _
  | some mo =>
    unfold createEquation
    rw [PyM.bind_of_ok (PyM.getM_of hm)]
    have tag : ∀ b w, Calm m w (tagIf b w).2 := fun b w => by unfold tagIf; split <;> exact ⟨rfl, fun mo h => ⟨mo, h, rfl, rfl, rfl⟩⟩
    have tms : ∀ b w, (tagIf b w).2.ms = w.ms := fun b w => by unfold tagIf; split <;> rfl
    refine Calm.bind (tag _ _) fun t w1 h1 => Calm.bind (tag _ _) fun t' w2 h2 => Calm.bind (Calm.refl _ _) fun e w3 h3 =>
      Calm.bind (Calm.refl _ _) fun e' w4 h4 => ?_
    have e1 := tms (k == "") w; rw [h1] at e1
    have e2 := tms (ResArg.needsTag a) w1; rw [h2] at e2
    have e3 : w3 = w2 := (Prod.mk.inj h3).2.symm
    have e4 : w4 = w3 := (Prod.mk.inj h4).2.symm
    have hm4 : w4.ms[m]? = some mo := by rw [e4, e3, e2, e1, hm]
    have hw : ∀ w', (PyM.when c (PyM.lift (mo.checkEquation e')) w4) = (.ok (), w') → w' = w4 := fun w' h => by
      cases c
      · exact (Prod.mk.inj h).2.symm
      · exact (Prod.mk.inj h).2.symm
    refine Calm.bind (by cases c <;> exact Calm.refl _ _) fun _ w5 h5 => ?_
    rw [hw w5 h5]
    refine ⟨rfl, fun mo' h => ?_⟩
    rw [hm4] at h; cases h
    exact ⟨_, withM_getM (w := w4.addE e') hm4 _, rfl, rfl, rfl⟩

theorem Dm.calm {D : String → Dim} {b : Body} {m : MRef} {w w' : World} (h : Dm D b m w) (hc : Calm m w w') : Dm D b m w' :=
  h.mono (fun r q hq => ⟨q, by rw [hc.1]; exact hq, rfl⟩) fun mo hm => by
    obtain ⟨mo', g1, g2⟩ := hc.2 mo hm
    exact ⟨mo', g1, g2.2, fun a v hv => Or.inl (by rw [← g2.1]; exact hv)⟩

theorem Dm.attrEqn {D : String → Dim} {b : Body} {m : MRef} {w : World} (h : Dm D b m w) {a : String} (ha : a ≠ "self") (r : ERef) :
    Dm D b m (setAttr m a (.eqn r) w).2 := by
  obtain ⟨mo, h1, -⟩ := id h
  rw [setAttr_run h1]
  refine h.mono (fun r q hq => ⟨q, hq, rfl⟩) fun mo1 g => ?_
  rw [h1] at g; cases g
  refine ⟨_, withM_getM h1 _, ⟨rfl, rfl⟩, fun b v hv => ?_⟩
  by_cases hb : b = a
  · subst hb
    refine Or.inr ⟨ha, fun r hr => ?_⟩
    have : dget (dset mo.attrs b (.eqn _)) b = some v := hv
    rw [dget_dset_self] at this
    subst hr; cases this
  · exact Or.inl (by rwa [show dget (dset mo.attrs a (.eqn r)) b = _ from dget_dset_ne _ _ (fun e => hb e.symm)] at hv)

theorem Dm.modifyQ {D : String → Dim} {b : Body} {m : MRef} {w : World} (h : Dm D b m w) {r : Ref} {q q' : Quantity} (hq : w.qs[r]? = some q) (hu : q'.units = q.units) :
    Dm D b m (setQ r q' w).2 := by
  refine h.mono (fun r' x hr => ?_) fun mo hm => ⟨mo, hm, ⟨rfl, rfl⟩, fun a v hv => Or.inl hv⟩
  by_cases e : r' = r
  · subst e
    rw [hq] at hr; cases hr
    exact ⟨q', by simp [setQ, (List.getElem?_eq_some_iff.mp hq).1], hu⟩
  · exact ⟨x, by simp only [setQ]; rw [List.getElem?_set_ne (fun h => e h.symm)]; exact hr, rfl⟩

theorem Dm.cmd {D : String → Dim} {b : Body} {m : MRef} {w : World} (h : Dm D b m w) {c : Cmd} (hc : wt D c = true) : NoDim (c.run m w).1 ∧ Dm D b m (c.run m w).2 := by
  obtain ⟨mo, h1, ⟨-, -, h2⟩, h3⟩ := id h
  have hold : ∀ (q : Quantity) (r : Ref) x, w.qs[r]? = some x → (w.qs ++ [q])[r]? = some x := fun q r x hr => by
    rw [List.getElem?_append_left (by
      rw [List.getElem?_eq_some_iff] at hr; exact hr.1)]; exact hr
  have hadd : ∀ (q : Quantity) (mo' : ModelObj), mo'.attrs = mo.attrs → mo'.inlets = mo.inlets → mo'.body = mo.body → Dm D b m ((w.addQ q).withM m mo') := fun q mo' ha hi hb =>
    h.mono (fun r x hr => ⟨x, hold q r x hr, rfl⟩) fun mo1 g => by
      rw [h1] at g; cases g
      exact ⟨mo', withM_getM (w := w.addQ q) h1 _, ⟨hi, hb⟩, fun a v hv => Or.inl (by rw [← ha]; exact hv)⟩
  have hput : ∀ (q : Quantity) (mo' : ModelObj) (a : String), a ≠ "self" → UReachSI q.units → q.units.dimVec = D a → mo'.attrs = dset mo.attrs a (.qty w.qs.length) →
      mo'.inlets = mo.inlets → mo'.body = mo.body →
      Dm D b m ((w.addQ q).withM m mo') := fun q mo' a hs hu hd ha hi hb =>
    h.mono (fun r x hr => ⟨x, hold q r x hr, rfl⟩) fun mo1 g => by
      rw [h1] at g; cases g
      refine ⟨mo', withM_getM (w := w.addQ q) h1 _, ⟨hi, hb⟩, fun b v hv => ?_⟩
      rw [ha] at hv
      by_cases hb : b = a
      · subst hb
        rw [dget_dset_self] at hv; cases hv
        refine Or.inr ⟨hs, fun r hr => ?_⟩
        cases hr
        exact ⟨q, by show (w.qs ++ [q])[w.qs.length]? = _; simp, hu, hd⟩
      · rw [dget_dset_ne _ _ (fun e => hb e.symm)] at hv
        exact Or.inl hv
  have hexp : ∀ (mo : ModelObj) (x : VarArgs) r, (mo.exposeAs x r).attrs = mo.attrs ∧ (mo.exposeAs x r).inlets = mo.inlets ∧ (mo.exposeAs x r).body = mo.body := fun mo x r => by
    simp only [ModelObj.exposeAs]; split_ifs <;> exact ⟨rfl, rfl, rfl⟩
  cases c with
  | var a x =>
    simp only [wt, Bool.and_eq_true, bne_iff_ne, ne_eq, decide_eq_true_eq, List.contains_iff_mem] at hc
    have hr := createVariable_run h1 x
    simp only [Cmd.run]
    split at hr
    · rw [PyM.bind_of_error hr]
      exact ⟨fun h => (by cases h), hadd _ _ (hexp _ _ _).1 (hexp _ _ _).2.1 (hexp _ _ _).2.2⟩
    · rw [PyM.bind_of_ok hr, setAttr_run (withM_getM (w := w.addQ (x.quantity mo.name)) h1 _), World.withM_withM]
      refine ⟨fun h => (by cases h), hput (x.quantity mo.name) _ a hc.1.1 (lib_units hc.1.2) hc.2 ?_ (hexp _ _ _).2.1 (hexp _ _ _).2.2⟩
      show dset (ModelObj.exposeAs _ _ _).attrs _ _ = _
      rw [(hexp _ _ _).1]; rfl
  | par a x =>
    simp only [wt, Bool.and_eq_true, bne_iff_ne, ne_eq, decide_eq_true_eq, List.contains_iff_mem] at hc
    simp only [Cmd.run]
    rw [PyM.bind_of_ok (createParameter_run h1 x), setAttr_run (withM_getM (w := w.addQ (x.parameter mo.name)) h1 _), World.withM_withM]
    exact ⟨fun h => (by cases h), hput (x.parameter mo.name) _ a hc.1.1 (lib_units hc.1.2) hc.2 rfl rfl rfl⟩
  | con a x => cases hc
  | eqn a k d st c =>
    cases st with
    | res x =>
      simp only [wt, Bool.and_eq_true, bne_iff_ne, ne_eq, Option.isSome_iff_exists] at hc
      obtain ⟨hs, d', hd'⟩ := hc
      simp only [Cmd.run]
      have hev : NoDim ((AStmt.res x).eval m w).1 := by
        simp only [AStmt.eval, AStmt.toStmt]
        refine NoDim.bind ((toPy_noDim x w m).bind fun _ _ h => by cases h) fun st hst => ?_
        cases hp : x.toPy w m with
        | error e => rw [hp] at hst; cases hst
        | ok e =>
          rw [hp] at hst; cases hst
          obtain ⟨p1, p2, p3⟩ := h.toPy hd' hp
          exact (build_noDim p1 p2 p3).bind fun _ _ h => by cases h
      rw [PyM.bind_run]
      have hw : ((AStmt.res x).eval m w).2 = w := rfl
      cases hr : (AStmt.res x).eval m w with
      | mk r w1 =>
        rw [hr] at hev hw
        simp only at hw hev
        subst hw
        cases r with
        | error e => exact ⟨fun hh => hev (by cases hh; rfl), h⟩
        | ok arg =>
          have harg : ∃ nd, arg = .node nd := by
            simp only [AStmt.eval, AStmt.toStmt] at hr
            cases hp : x.toPy w1 m with
            | error e => rw [hp] at hr; cases hr
            | ok e =>
              rw [hp] at hr
              simp only [ok_bind, Stmt.arg] at hr
              cases hb : e.build with
              | error e => rw [hb] at hr; cases hr
              | ok nd => rw [hb] at hr; cases hr; exact ⟨nd, rfl⟩
          obtain ⟨nd, rfl⟩ := harg
          have hcalm := createEquation_calm m k d (some (.node nd)) c w1
          have hnd := ND.createEquation m k d nd c w1
          show NoDim ((createEquation m k d (some (.node nd)) c >>= fun r => setAttr m a (.eqn r)) w1).1 ∧ _
          rw [PyM.bind_run]
          rcases hce : createEquation m k d (some (.node nd)) c w1 with ⟨e | r, w2⟩
          · rw [hce] at hcalm hnd
            have : ((createEquation m k d (some (.node nd)) c >>= fun r => setAttr m a (.eqn r)) w1).2 = w2 := by
              rw [PyM.bind_of_error hce]
            exact ⟨fun hh => hnd (by cases hh; rfl), by rw [this]; exact h.calm hcalm⟩
          · rw [hce] at hcalm
            have : ((createEquation m k d (some (.node nd)) c >>= fun r => setAttr m a (.eqn r)) w1).2 = (setAttr m a (.eqn r) w2).2 := by
              rw [PyM.bind_of_ok hce]
            exact ⟨ND.setAttr _ _ _ _, by rw [this]; exact (h.calm hcalm).attrEqn hs r⟩
    | eqn l r =>
      have hself : ∃ op p z, r = .bin op (.q p) z ∧ p = { attr := "self" } := by
        unfold wt at hc
        split at hc
        all_goals rename_i he
        all_goals try cases he
        · exact ⟨_, _, _, rfl, by simpa using hc⟩
        · cases hc
      obtain ⟨op, p, z, rfl, rfl⟩ := hself
      have hl : w.lookup m { attr := "self" } = .error .attributeError := by simp [World.lookup, h1, h2]
      have hev : ∃ e, (AStmt.eqn l (.bin op (.q { attr := "self" }) z)).eval m w = (.error e, w) ∧ e ≠ .dimensionalCoherence := by
        simp only [AStmt.eval, AStmt.toStmt, AExpr.toPy, hl]
        cases hx : l.toPy w m with
        | error e => exact ⟨e, rfl, fun hh => toPy_noDim l w m (by rw [hx, hh])⟩
        | ok x => exact ⟨_, rfl, by decide⟩
      obtain ⟨e, he, hne⟩ := hev
      simp only [Cmd.run]
      rw [PyM.bind_of_error he]
      exact ⟨fun hh => hne (by cases hh; rfl), h⟩
    | eqnNum l q => cases hc
  | setValue p v u =>
    simp only [Cmd.run]
    rw [PyM.bind_run]
    have hlk := ND.lookupM m p w
    rcases hl : lookupM m p w with ⟨e | x, w1⟩
    · rw [hl] at hlk
      have : w1 = w := (Prod.mk.inj hl).2.symm
      subst this
      exact ⟨fun hh => hlk (by cases hh; rfl), h⟩
    · have : w1 = w := (Prod.mk.inj hl).2.symm
      subst this
      have hq : w1.qs[x.1]? = some x.2 := by
        have := (Prod.mk.inj hl).1
        simp only [World.lookup] at this
        split at this
        · cases this
        · split at this
          · cases this
          · cases this
          · split at this
            · cases this
            · rename_i hh; cases this; exact hh
      have hset : NoDim (((v.eval m) >>= fun v => setValueM x.1 v u) w1).1 ∧ Dm D b m (((v.eval m) >>= fun v => setValueM x.1 v u) w1).2 := by
        cases v with
        | float y =>
          refine ⟨?_, ?_⟩
          · show NoDim ((getQ x.1 >>= fun q => lift (q.setValue (.float y) u) >>= fun q => setQ x.1 q) w1).1
            rw [PyM.bind_of_ok (PyM.getQ_of hq)]
            exact fun h => by cases h
          · show Dm D b m ((getQ x.1 >>= fun q => lift (q.setValue (.float y) u) >>= fun q => setQ x.1 q) w1).2
            rw [PyM.bind_of_ok (PyM.getQ_of hq)]
            exact h.modifyQ hq rfl
        | other =>
          refine ⟨?_, ?_⟩
          · show NoDim ((getQ x.1 >>= fun q => lift (q.setValue .other u) >>= fun q => setQ x.1 q) w1).1
            rw [PyM.bind_of_ok (PyM.getQ_of hq)]
            exact fun h => by cases h
          · show Dm D b m ((getQ x.1 >>= fun q => lift (q.setValue .other u) >>= fun q => setQ x.1 q) w1).2
            rw [PyM.bind_of_ok (PyM.getQ_of hq)]
            exact h
        | int y => cases u <;> cases hc
        | qty y => cases u <;> cases hc
      exact hset
  | distribute p =>
    simp only [Cmd.run]
    rw [PyM.bind_run]
    have hlk := ND.lookupM m p w
    rcases hl : lookupM m p w with ⟨e | x, w1⟩
    · rw [hl] at hlk
      have : w1 = w := (Prod.mk.inj hl).2.symm
      subst this
      exact ⟨fun hh => hlk (by cases hh; rfl), h⟩
    · have : w1 = w := (Prod.mk.inj hl).2.symm
      subst this
      cases hq : w1.qs[x.1]? with
      | none =>
        simp only [distributeM]
        rw [PyM.bind_of_error (PyM.getQ_none hq)]
        exact ⟨fun h => (by cases h), h⟩
      | some q =>
        simp only [distributeM]
        rw [PyM.bind_of_ok (PyM.getQ_of hq)]
        exact ⟨fun h => (by cases h), h.modifyQ hq rfl⟩
  | fail e =>
    refine ⟨?_, h⟩
    simp only [wt, bne_iff_ne, ne_eq] at hc
    exact fun hh => hc (by cases hh; rfl)

theorem Dm.cmds {D : String → Dim} {b : Body} {m : MRef} {w : World} (h : Dm D b m w) {l : List Cmd} (hl : ∀ c ∈ l, wt D c = true) :
    NoDim (each l (Cmd.run m) w).1 ∧ Dm D b m (each l (Cmd.run m) w).2 := by
  induction l generalizing w with
  | nil => exact ⟨fun hc => (by cases hc), h⟩
  | cons c t ih =>
    have hc := h.cmd (hl c (by simp))
    rw [each_cons, PyM.bind_run]
    rcases hr : Cmd.run m c w with ⟨e | a, w1⟩
    · rw [hr] at hc
      exact ⟨fun hh => hc.1 (by cases hh; rfl), hc.2⟩
    · rw [hr] at hc
      exact ih hc.2 fun c hc => hl c (by simp [hc])

/-! ## Unit operations -/

/-- The table of dimensions for a class: the heat of a tank is an energy. -/
def Spec.dimFor (k : Kind) (a : String) : Dim := if k = .tank ∧ a = "Q" then Dim.energy else Spec.dimOf a

theorem dimFor_frac {k : Kind} {a : String} (h : isFrac a = true) : Spec.dimFor k a = Dim.one := by
  unfold Spec.dimFor
  rw [if_neg, frac_dim h]
  rintro ⟨-, rfl⟩
  revert h; decide

theorem wt_frac {k : Kind} {a : String} (h : isFrac a = true) (x : VarArgs) (hx : x.units = Tmpl.dimless) : wt (Spec.dimFor k) (.var a x) = true := by
  have h1 : Tmpl.dimless ∈ libUnits := by decide +kernel
  have h2 : Tmpl.dimless.dimVec = Dim.one := by decide +kernel
  simp only [wt, hx, Bool.and_eq_true, bne_iff_ne, ne_eq, decide_eq_true_eq, List.contains_iff_mem, dimFor_frac h]
  refine ⟨⟨?_, h1⟩, h2⟩
  rintro rfl
  revert h; decide

theorem fracVars_wt (k : Kind) (p : String) : ∀ c ∈ Lib.fracVars p, wt (Spec.dimFor k) c = true := by
  intro c hc
  unfold Lib.fracVars at hc
  split at hc
  · simp only [List.mem_cons, List.not_mem_nil, or_false] at hc
    rcases hc with rfl | rfl | rfl | rfl <;> exact wt_frac (by simp [isFrac, zIn, wIn, zOut, wOut]) _ rfl
  · simp only [List.mem_singleton] at hc
    subst hc; rfl

theorem flashFracVars_wt (k : Kind) (p : String) : ∀ c ∈ flashFracVars p, wt (Spec.dimFor k) c = true := by
  intro c hc
  unfold flashFracVars at hc
  split at hc
  · simp only [List.mem_cons, List.not_mem_nil, or_false] at hc
    rcases hc with rfl | rfl | rfl | rfl | rfl | rfl <;> exact wt_frac (by simp [isFrac, zIn, wIn]) _ rfl
  · simp only [List.mem_singleton] at hc
    subst hc; rfl

theorem pair_wt (k : Kind) (n d : String) {a b : String} (ha : isFrac a = true) (hb : isFrac b = true) :
    wt (Spec.dimFor k) (eq n d (.bin .sub (q a) (q b))) = true := by
  simp [wt, eq, Spec.adim, q, dimFor_frac ha, dimFor_frac hb]

theorem ifPhases_wt {k : Kind} {v : View} {f : String → List Cmd} (hf : ∀ p, ∀ c ∈ f p, wt (Spec.dimFor k) c = true) :
    ∀ c ∈ ifPhases v f, wt (Spec.dimFor k) c = true := by
  intro c hc
  unfold ifPhases at hc
  split at hc
  · obtain ⟨p, -, hp⟩ := List.mem_flatMap.mp hc
    exact hf p c hp
  · cases hc

theorem phaseEqs_wt (k : Kind) (p : String) : ∀ c ∈ phaseEqs p, wt (Spec.dimFor k) c = true := by
  intro c hc
  simp only [phaseEqs, List.mem_cons, List.not_mem_nil, or_false] at hc
  rcases hc with rfl | rfl <;> exact pair_wt k _ _ (by simp [isFrac, zOut, wOut]) (by simp [isFrac, zIn, wIn])

theorem mixerPhase_wt (k : Kind) (p : String) : ∀ c ∈ mixerPhase p, wt (Spec.dimFor k) c = true := by
  intro c hc
  simp only [mixerPhase, List.mem_cons, List.not_mem_nil, or_false] at hc
  rcases hc with rfl | rfl <;> exact pair_wt k _ _ (by simp [isFrac, zOut, wOut]) (by simp [isFrac, zIn, wIn])

theorem sumEq_wt (k : Kind) (n d : String) (f : String → String) (hf : ∀ p, isFrac (f p) = true) (l : List String) :
    wt (Spec.dimFor k) (sumEq n d f l) = true := by
  cases l with
  | nil => rfl
  | cons p t =>
    have key : ∀ (t : List String) (e : AExpr), Spec.adim (Spec.dimFor k) e = some Dim.one →
        Spec.adim (Spec.dimFor k) (t.foldl (fun e x => .bin .add e (q (f x))) e) = some Dim.one := by
      intro t
      induction t with
      | nil => exact fun e he => he
      | cons x t ih =>
        intro e he
        refine ih _ ?_
        simp [Spec.adim, he, q, dimFor_frac (hf x)]
    have h0 : Spec.adim (Spec.dimFor k) (.nbin .add (-1) (q (f p))) = some Dim.one := by
      simp [Spec.adim, q, dimFor_frac (hf p)]
    simp [sumEq, wt, eq, key t _ h0]

theorem cpMix_wt (k : Kind) (v : View) : wt (Spec.dimFor k) (cpMix v) = true := by
  unfold cpMix
  split
  · rfl
  · unfold View.star
    split
    · rename_i c hc
      cases hcp : c.Cp <;> rfl
    · rename_i e he
      split at he
      · cases he
      · cases he; rfl

theorem mixRho_wt (k : Kind) (v : View) : wt (Spec.dimFor k) (mixRho v) = true := by
  unfold mixRho
  split
  · split <;> rfl
  · unfold View.star
    split
    · rename_i c hc
      cases hcp : c.rho <;> rfl
    · rename_i e he
      split at he
      · cases he
      · cases he; rfl

theorem append_wt {D : String → Dim} {l l' : List Cmd} (h : ∀ c ∈ l, wt D c = true) (h' : ∀ c ∈ l', wt D c = true) : ∀ c ∈ l ++ l', wt D c = true :=
  List.forall_mem_append.mpr ⟨h, h'⟩

theorem cons_wt {D : String → Dim} {c : Cmd} {l : List Cmd} (h : wt D c = true) (h' : ∀ c ∈ l, wt D c = true) : ∀ x ∈ c :: l, wt D x = true :=
  List.forall_mem_cons.mpr ⟨h, h'⟩

theorem init_wt (k : Kind) (v : View) : ∀ c ∈ k.init v, wt (Spec.dimFor k) c = true := by
  cases k with
  | mixer =>
    refine append_wt (append_wt (append_wt (append_wt ?_ (by decide +kernel)) ?_) ?_) (by decide +kernel)
    · split
      · intro c hc
        obtain ⟨p, -, hp⟩ := List.mem_flatMap.mp hc
        exact fracVars_wt _ p c hp
      · simp
    · split
      · intro c hc
        simp only [mixerSums, List.mem_cons, List.not_mem_nil, or_false] at hc
        rcases hc with rfl | rfl | rfl | rfl <;> exact sumEq_wt _ _ _ _ (by simp [isFrac, zIn, wIn, zOut, wOut]) _
      · simp
    · split
      · intro c hc
        obtain ⟨p, -, hp⟩ := List.mem_flatMap.mp hc
        exact mixerPhase_wt _ p c hp
      · simp
  | tank =>
    simp only [Kind.init, tankInit, List.append_assoc]
    exact append_wt (ifPhases_wt (fracVars_wt _)) (by decide +kernel)
  | valve => exact append_wt (by decide +kernel) (ifPhases_wt (fracVars_wt _))
  | pump => exact append_wt (by decide +kernel) (ifPhases_wt (fracVars_wt _))
  | heater => exact append_wt (append_wt (ifPhases_wt (fracVars_wt _)) (by decide +kernel)) (by simpa using cpMix_wt _ v)
  | flashDyn =>
    refine append_wt (ifPhases_wt (fracVars_wt _)) ?_
    simp only [List.forall_mem_cons]
    iterate 20 refine ⟨by decide +kernel, ?_⟩
    exact ⟨cpMix_wt _ v, by simp⟩
  | flash => exact append_wt (ifPhases_wt (flashFracVars_wt _)) (by decide +kernel)

theorem eqs_wt (k : Kind) (v : View) : ∀ c ∈ k.eqs v, wt (Spec.dimFor k) c = true := by
  cases k with
  | mixer => simp [Kind.eqs]
  | tank => exact (by decide +kernel : ∀ c ∈ tankEqs, wt (Spec.dimFor .tank) c = true)
  | valve =>
    refine append_wt (append_wt (by decide +kernel) ?_) (ifPhases_wt (phaseEqs_wt _))
    exact cons_wt (by decide +kernel) (cons_wt (mixRho_wt _ v) (by decide +kernel))
  | pump => exact append_wt (by decide +kernel) (ifPhases_wt (phaseEqs_wt _))
  | heater =>
    exact append_wt (append_wt (ifPhases_wt (phaseEqs_wt _)) (by decide +kernel)) (by decide +kernel)
  | flashDyn => exact append_wt (ifPhases_wt (phaseEqs_wt _)) (by decide +kernel)
  | flash =>
    refine append_wt (ifPhases_wt fun p c hc => ?_) (by decide +kernel)
    simp only [List.mem_cons, List.not_mem_nil, or_false] at hc
    rcases hc with rfl | rfl <;> exact pair_wt _ _ _ (by simp [isFrac, zOut, wOut]) (by simp [isFrac, zIn, wIn])

theorem Dm.call {D : String → Dim} {b : Body} {m : MRef} {w : World} (h : Dm D b m w) (hb : b.cons = [] ∧ b.pars = [] ∧ b.vars = [])
    (he : ∀ c ∈ b.eqns, wt D c = true) : NoDim (Model.call m w).1 ∧ ∀ l nm, NoDim (Model.call m (setInlets m l nm w).2).1 := by
  obtain ⟨mo, h1, ⟨hi, rfl, -⟩, -⟩ := id h
  have hcall : ∀ {w' : World} {mo' : ModelObj}, w'.ms[m]? = some mo' → mo'.body = mo.body →
      Model.call m w' = (PyM.when (!mo'.inlets.isEmpty) (totalizeInlets m) >>= fun _ => each mo.body.eqns (Cmd.run m)) w' := by
    intro w' mo' h' hb'
    unfold Model.call
    rw [PyM.bind_of_ok (PyM.getM_of h'), hb', hb.1, hb.2.1, hb.2.2]
    show (getM m >>= _) w' = _
    rw [PyM.bind_of_ok (PyM.getM_of h'), hb']
  refine ⟨?_, fun l nm => ?_⟩
  · rw [hcall h1 rfl, hi]
    exact (h.cmds he).1
  · cases hp : w.ps[mo.ports]? with
    | none =>
      have : setInlets m l nm w = (.error (.exception "dangling"), w) := by
        unfold setInlets
        rw [PyM.bind_of_ok (PyM.getM_of h1), PyM.bind_of_error (PyM.getP_none hp)]
      rw [this, hcall h1 rfl, hi]
      exact (h.cmds he).1
    | some p =>
      have hs : setInlets m l nm w = (.ok (), (setInlets m l nm w).2) ∧ ∃ mo', (setInlets m l nm w).2.ms[m]? = some mo' ∧ mo'.body = mo.body ∧ mo'.attrs = mo.attrs ∧
          mo'.ports = mo.ports ∧ (∃ p', (setInlets m l nm w).2.ps[mo.ports]? = some p' ∧ p' ≠ []) ∧ (setInlets m l nm w).2.qs = w.qs := by
        have hrun : setInlets m l nm w = (.ok (), ((setP mo.ports (dset p nm ((dget p nm).getD [] ++ l)) w).2.withM m
            { mo with inlets := mo.inlets ++ (dvalues (dset p nm ((dget p nm).getD [] ++ l))).flatten })) := by
          unfold setInlets
          rw [PyM.bind_of_ok (PyM.getM_of h1), PyM.bind_of_ok (PyM.getP_of hp)]
          rfl
        rw [hrun]
        refine ⟨rfl, _, withM_getM (w := (setP mo.ports _ w).2) h1 _, rfl, rfl, rfl, ⟨dset p nm ((dget p nm).getD [] ++ l), ?_, ?_⟩, rfl⟩
        · show (w.ps.set mo.ports _)[mo.ports]? = _
          rw [List.getElem?_set_self (List.getElem?_eq_some_iff.mp hp).1]
        · intro h
          have hg : dget (dset p nm ((dget p nm).getD [] ++ l)) nm = some ((dget p nm).getD [] ++ l) := dget_dset_self _ _ _
          rw [h] at hg; cases hg
      obtain ⟨-, mo', e1, e2, e3, e4, ⟨p', e5, e6⟩, e7⟩ := hs
      rw [hcall e1 e2]
      by_cases hin : mo'.inlets = []
      · rw [hin]
        refine (Dm.cmds (D := D) (b := mo.body) (m := m) ?_ he).1
        refine h.calm ⟨e7, fun mo1 g => ?_⟩
        rw [h1] at g; cases g
        exact ⟨mo', e1, e3, by rw [hin, hi], e2⟩
      · have hb1 : (!mo'.inlets.isEmpty) = true := by cases hh : mo'.inlets <;> simp_all
        rw [hb1, PyM.when_true]
        obtain ⟨x, hx⟩ := Fed.totalize (m := m) ⟨mo', p', e1, hin, by rw [e4]; exact e5, e6⟩
        have hnd := ND.totalizeInlets m (setInlets m l nm w).2
        rw [PyM.bind_run]
        rcases hr : totalizeInlets m (setInlets m l nm w).2 with ⟨e | a, w1⟩
        · rw [hr] at hnd
          exact fun hh => hnd (by cases hh; rfl)
        · rw [hr] at hx; cases hx

/-- C48: creating a unit operation of the library with any property package (any number of phases and any names, also repeated ones or ones that are no Python
names), giving values to any quantities, giving it any inlets and calling it raise no dimensional error. -/
theorem library_coherent (k : Kind) (v : View) {w : World} (hw : Reachable w) (name description : String) :
    NoDim (newUnit k name description (some v) w).1 ∧ ∀ m w1, newUnit k name description (some v) w = (.ok m, w1) →
      ∀ us : List (String × Rat), NoDim (each us (fun p => setFloat m p.1 p.2) w1).1 ∧ ∀ w2, w2 = (each us (fun p => setFloat m p.1 p.2) w1).2 →
        NoDim (Model.call m w2).1 ∧ ∀ l nm, NoDim (Model.call m (setInlets m l nm w2).2).1 := by
  have h0 : Dm (Spec.dimFor k) { eqns := k.eqs v } w.ms.length
      { w with ms := w.ms ++ [{ name := name, description := description, body := { eqns := k.eqs v }, ports := 0 }] } :=
    ⟨{ name := name, description := description, body := { eqns := k.eqs v }, ports := 0 }, by simp, ⟨rfl, rfl, rfl⟩, fun a r h => by cases h⟩
  obtain ⟨hi, hd⟩ := h0.cmds (init_wt k v)
  have hnew : newUnit k name description (some v) w = (each (k.init v) (Cmd.run w.ms.length) >>= fun _ => PyM.pure w.ms.length)
      { w with ms := w.ms ++ [{ name := name, description := description, body := { eqns := k.eqs v }, ports := 0 }] } := by
    simp only [newUnit]
    rw [PyM.bind_of_ok (newModel_ok name description _ hw)]
  rw [hnew, PyM.bind_run]
  rcases hr : each (k.init v) (Cmd.run w.ms.length)
      { w with ms := w.ms ++ [{ name := name, description := description, body := { eqns := k.eqs v }, ports := 0 }] } with ⟨e | u, w'⟩
  · rw [hr] at hi
    refine ⟨fun hh => hi (by cases hh; rfl), fun m w1 hh => ?_⟩
    cases hh
  · refine ⟨fun hh => (by cases hh), fun m w1 hh us => ?_⟩
    cases hh
    rw [hr] at hd
    have hus : each us (fun p => setFloat w.ms.length p.1 p.2) = each (us.map fun p => Cmd.setValue { attr := p.1 } (.float p.2) none) (Cmd.run w.ms.length) := by
      clear hr hd
      induction us with
      | nil => rfl
      | cons p t ih => simp only [List.map_cons, each_cons, ih]; rfl
    rw [hus]
    obtain ⟨hn, hd'⟩ := hd.cmds (l := us.map fun p => Cmd.setValue { attr := p.1 } (.float p.2) none) (by
      intro c hc
      obtain ⟨p, -, rfl⟩ := List.mem_map.mp hc
      rfl)
    refine ⟨hn, ?_⟩
    rintro w2 rfl
    exact hd'.call ⟨rfl, rfl, rfl⟩ (eqs_wt k v)

theorem ND.par (m : MRef) (a : String) (x : ParArgs) : ND (Cmd.run m (.par a x)) :=
  ND.bind (ND.bind (ND.getM m) fun _ => ND.bind (fun w h => by cases h) fun _ => ND.bind (fun w h => by cases h) fun _ => ND.ret _) fun _ => ND.setAttr _ _ _

theorem ND.setFloat (m : MRef) (a : String) (x : Rat) : ND (setFloat m a x) := by
  refine ND.bind (ND.lookupM _ _) fun y => ?_
  have : ND (setValueM y.1 (.float x) none) :=
    ND.bind (ND.getQ _) fun _ => ND.bind (ND.lift fun h => by cases h) fun _ => fun w h => by cases h
  exact this

theorem ND.eachMem {α : Type} {l : List α} {f : α → PyM Unit} (h : ∀ a ∈ l, ND (f a)) : ND (PyM.each l f) := by
  induction l with
  | nil => exact ND.ret _
  | cons a t ih => exact ND.bind (h a (by simp)) fun _ => ih fun a ha => h a (by simp [ha])

theorem ND.newModel (n d : String) (b : Body) (p : Option PRef) : ND (newModel n d b p) :=
  ND.bind (ND.getP _) fun _ => fun w h => by cases h

theorem molarMass_noDim (v : View) : NoDim v.molarMass := by
  unfold View.molarMass View.star
  split
  · rename_i p hp
    show NoDim (match p.2.MW with | some x => _ | none => _)
    split <;> exact fun h => by cases h
  · exact fun h => by cases h

/-- C48 for streams: in any state creating a stream, giving values to the quantities of a model and calling it as a stream (with any inlets) raise no dimensional
error, unless the external library does. -/
theorem streams_coherent (o : Option View) (w : World) (name description : String) (lib : Option Rat → Option Rat → Except Err Unit)
    (hlib : ∀ t p, NoDim (lib t p)) :
    NoDim (newStream name description w).1 ∧ NoDim (newMultiStream name description o w).1 ∧
      ∀ m us, NoDim (each us (fun p : String × Rat => setFloat m p.1 p.2) w).1 ∧ ∀ v, NoDim (streamCall m lib v w).1 := by
  have hpars : ∀ m, ND (each streamPars (Cmd.run m)) := fun m => ND.eachMem fun c hc => by
    simp only [streamPars, List.mem_cons, List.not_mem_nil, or_false] at hc
    rcases hc with rfl | rfl | rfl | rfl | rfl <;> exact ND.par _ _ _
  refine ⟨?_, ?_, fun m us => ⟨?_, fun v => ?_⟩⟩
  · exact ND.bind (ND.newModel _ _ _ _) (fun m => ND.bind (hpars m) fun _ => ND.ret _) w
  · cases o with
    | none => exact ND.bind (ND.newModel _ _ _ _) (fun _ => ND.raise (by decide)) w
    | some v =>
      refine ND.bind (ND.newModel _ _ _ _) (fun m => ND.bind (hpars m) fun _ => ND.bind (ND.eachMem fun c hc => ?_) fun _ => ND.ret _) w
      obtain ⟨p, -, hp⟩ := List.mem_flatMap.mp hc
      unfold streamFracs at hp
      split at hp
      · simp only [List.mem_cons, List.not_mem_nil, or_false] at hp
        rcases hp with rfl | rfl <;> exact ND.par _ _ _
      · simp only [List.mem_singleton] at hp
        subst hp
        exact ND.raise (by decide)
  · exact ND.each (fun p : String × Rat => ND.setFloat m p.1 p.2) w
  · have hconv : ∀ v, ND (convertFlux m v) := fun v =>
      ND.bind (ND.lookupM _ _) fun _ => ND.bind (ND.lookupM _ _) fun _ =>
        ND.bind (ND.when (ND.bind (ND.lift (molarMass_noDim v)) fun k => by split <;> [exact ND.raise (by decide); exact ND.setFloat _ _ _])) fun _ =>
        ND.bind (ND.lookupM _ _) fun _ => ND.bind (ND.lookupM _ _) fun _ =>
        ND.when (ND.bind (ND.lift (molarMass_noDim v)) fun k => ND.setFloat _ _ _)
    refine ND.bind ?_ (fun _ => ND.bind (ND.getM m) fun _ => ND.when (ND.totalizeInlets m)) w
    unfold streamParameters
    have hrest : ND (do
        let t ← lookupM m { attr := "T" }
        let p ← lookupM m { attr := "P" }
        PyM.when (t.2.isSpecified || p.2.isSpecified) (if v = none then raise .attributeError
          else lift (lib (if t.2.isSpecified then some t.2.value else none) (if p.2.isSpecified then some p.2.value else none)))) := by
      refine ND.bind (ND.lookupM _ _) fun _ => ND.bind (ND.lookupM _ _) fun _ => ND.when ?_
      split <;> [exact ND.raise (by decide); exact ND.lift (hlib _ _)]
    cases v <;> [exact hrest; exact ND.bind (hconv _) fun _ => hrest]

end Sloth.Lib
