import Verif.Props.Modular

/-!
# C95: the order of models whose bodies run again
-/

namespace Sloth
open PyM

/-! ## What a call leaves alone -/

/-- Models of that name and their quantities are as before. -/
structure Untouched (nm : String) (w w' : World) : Prop where
  le : w.Le w'
  ms : ∀ (j : MRef) (mo : ModelObj), w.ms[j]? = some mo → mo.name = nm → w'.ms[j]? = some mo
  qs : ∀ (r : Ref) (q : Quantity), w.qs[r]? = some q → q.owner = nm → w'.qs[r]? = some q

theorem Untouched.refl (nm : String) (w : World) : Untouched nm w w := ⟨.refl w, fun _ _ h _ => h, fun _ _ h _ => h⟩

theorem Untouched.trans {nm : String} {w w' w'' : World} (h : Untouched nm w w') (h' : Untouched nm w' w'') : Untouched nm w w'' where
  le := h.le.trans h'.le
  ms := fun j mo hm hn => h'.ms j mo (h.ms j mo hm hn) hn
  qs := fun r q hq ho => h'.qs r q (h.qs r q hq ho) ho

/-- The body reads attributes of the model itself only and names its equations; the model has no inlets; its attributes are its own quantities, and the objects
of its equations exist. -/
def Spec.SelfContained (w : World) (m : MRef) : Prop :=
  ∃ mo, w.ms[m]? = some mo ∧ mo.inlets = [] ∧ mo.body.Alike mo.body ∧
    (∀ a r, (a, Attr.qty r) ∈ mo.attrs → ∃ q, w.qs[r]? = some q ∧ q.owner = mo.name) ∧
    ∀ p ∈ mo.eqns, ∀ e d, w.es[p.2]? = some e → e.objects = some d → ∀ x ∈ dvalues d, ∃ q, w.qs[x]? = some q

/-- The quantities of the model of that name, each related to itself. -/
def OwnId (w : World) (nm : String) (r s : Ref) : Prop := r = s ∧ ∃ q, w.qs[r]? = some q ∧ q.owner = nm

theorem forall₂_refl {α : Type} {R : α → α → Prop} {l : List α} (h : ∀ a ∈ l, R a a) : List.Forall₂ R l l := by
  induction l with
  | nil => exact .nil
  | cons a t ih => exact .cons (h a (by simp)) (ih fun b hb => h b (by simp [hb]))

theorem World.Decl.ownId {w : World} {k : Kind} {o : String} {d : Dict String Ref} (h : w.Decl k o d) : DRel (OwnId w o) d d :=
  .refl fun p hp => by
    obtain ⟨q, h1, _, _, h4⟩ := h.2 p hp
    exact ⟨rfl, q, h1, h4⟩

theorem World.Exposes.ownId {w : World} {o t : String} {l : List Ref} (h : w.Exposes o t l) : List.Forall₂ (OwnId w o) l l :=
  forall₂_refl fun r hr => by
    obtain ⟨q, h1, _, h3, _⟩ := h r hr
    exact ⟨rfl, q, h1, h3⟩

/-- A self-contained model is its own twin in all heaps in which it is as before. -/
theorem sim_untouched {w w' v' : World} (hw : w.WF) {k : MRef} (hk : Spec.SelfContained w k) {mo : ModelObj} (hm : w.ms[k]? = some mo)
    (h : Untouched mo.name w w') (h' : Untouched mo.name w v') : Sim k k (OwnId w mo.name) w' v' := by
  obtain ⟨mo0, h1, h2, h3, h4, h5⟩ := hk
  rw [hm] at h1; cases h1
  have hwf := hw.ms k mo hm
  have hm' : w'.ms[k]? = some mo := h.ms k mo hm rfl
  have hm'' : v'.ms[k]? = some mo := h'.ms k mo hm rfl
  refine ⟨⟨?_, ?_, ?_⟩, ?_, mo, mo, hm', hm'', rfl, h3, h2, h2, hwf.vars.ownId, hwf.pars.ownId, hwf.cons.ownId, ?_, hwf.expIn.ownId, hwf.expOut.ownId, ?_⟩
  · rintro r s ⟨rfl, q, hq, ho⟩
    exact ⟨q, q, h.qs r q hq ho, h'.qs r q hq ho, .refl q⟩
  · rintro r s s' ⟨rfl, _⟩ ⟨rfl, _⟩; rfl
  · rintro r r' s ⟨rfl, _⟩ ⟨rfl, _⟩; rfl
  · intro x hx r s hrs
    rw [hm'] at hx; cases hx
    obtain ⟨rfl, q, hq, ho⟩ := hrs
    exact ⟨q, h.qs r q hq ho, ho⟩
  · refine .refl fun p hp => ?_
    obtain ⟨e, he, _⟩ := hwf.eqns.2 p hp
    refine ⟨e, e, h.le.es _ _ he, h'.le.es _ _ he, .refl e, ?_⟩
    cases ho : e.objects with
    | none => exact .none
    | some d =>
      refine .some (.refl fun x hx => ?_)
      obtain ⟨q, hq⟩ := h5 p hp e d he ho x.2 (List.mem_map.mpr ⟨x, hx, rfl⟩)
      exact Namesake.mono h.le h'.le ⟨q, q, hq, hq, rfl, rfl⟩
  · refine .refl fun p hp => ?_
    obtain ⟨a, x⟩ := p
    cases x with
    | qty r => exact ⟨rfl, h4 a r hp⟩
    | eqn r => trivial

theorem Spec.SelfContained.mono {w w' : World} (hw : w.WF) {k : MRef} (hk : Spec.SelfContained w k) {mo : ModelObj} (hm : w.ms[k]? = some mo) (h : Untouched mo.name w w') :
    Spec.SelfContained w' k := by
  obtain ⟨mo0, h1, h2, h3, h4, h5⟩ := hk
  rw [hm] at h1; cases h1
  refine ⟨mo, h.ms k mo hm rfl, h2, h3, fun a r ha => ?_, fun p hp e d he hd x hx => ?_⟩
  · obtain ⟨q, hq, ho⟩ := h4 a r ha
    exact ⟨q, h.qs r q hq ho, ho⟩
  · obtain ⟨e', he', _⟩ := (hw.ms k mo hm).eqns.2 p hp
    have := h.le.es _ _ he'
    rw [he] at this; cases this
    obtain ⟨q, hq⟩ := h5 p hp e d he' hd x hx
    obtain ⟨q', hq', _⟩ := h.le.qs x q hq
    exact ⟨q', hq'⟩

theorem wf_call {w : World} (hw : w.WF) (k : MRef) : (Model.call k w).2.WF := (wf_elem.stable trivial).call k w hw

/-- Calling a self-contained model leaves models of other names alone. -/
theorem call_untouched {w : World} (hw : w.WF) {k : MRef} (hk : Spec.SelfContained w k) {mo : ModelObj} (hm : w.ms[k]? = some mo) {nm : String} (hn : mo.name ≠ nm) :
    Untouched nm w (Model.call k w).2 := by
  obtain ⟨L, -, -, h3, -, -⟩ := (sim_untouched hw hk hm (.refl _ _) (.refl _ _)).call
  refine ⟨h3.le, fun j x hx hj => (h3.ms j ?_).trans hx, fun r q hq ho => ?_⟩
  · rintro rfl
    rw [hm] at hx; cases hx
    exact hn hj
  · rw [h3.qs r (List.getElem?_eq_some_iff.mp hq).1, hq]
    rintro ⟨s, -, q', hq', ho'⟩
    rw [hq] at hq'; cases hq'
    exact hn (ho'.symm.trans ho)

/-- No two of the models have a name in common. -/
def NamesApart (w : World) (l : List MRef) : Prop := l.Pairwise fun a b => ∀ ma mb, w.ms[a]? = some ma → w.ms[b]? = some mb → ma.name ≠ mb.name

theorem names_le {w w' : World} (hl : w.Le w') {a : MRef} {ma mo : ModelObj} (h : w.ms[a]? = some mo) (h' : w'.ms[a]? = some ma) : ma.name = mo.name := by
  obtain ⟨x, h1, h2⟩ := hl.ms a mo h
  rw [h'] at h1; cases h1
  exact h2.name

theorem NamesApart.mono {w w' : World} (hl : w.Le w') {l : List MRef} (hd : ∀ k ∈ l, ∃ mo, w.ms[k]? = some mo) (h : NamesApart w l) : NamesApart w' l := by
  refine List.Pairwise.imp_of_mem (fun {a b} ha hb hab ma mb h1 h2 => ?_) h
  obtain ⟨a', ha'⟩ := hd a ha
  obtain ⟨b', hb'⟩ := hd b hb
  rw [names_le hl ha' h1, names_le hl hb' h2]
  exact hab a' b' ha' hb'

/-- Self-contained models of different names in a well-formed heap. -/
structure Apartment (w : World) (l : List MRef) : Prop where
  wf : w.WF
  sc : ∀ k ∈ l, Spec.SelfContained w k
  names : NamesApart w l

theorem Apartment.exists {w : World} {l : List MRef} (h : Apartment w l) {k : MRef} (hk : k ∈ l) : ∃ mo, w.ms[k]? = some mo := by
  obtain ⟨mo, hm, _⟩ := h.sc k hk
  exact ⟨mo, hm⟩

theorem Apartment.tail {w : World} {a : MRef} {l : List MRef} (h : Apartment w (a :: l)) : Apartment w l :=
  ⟨h.wf, fun k hk => h.sc k (by simp [hk]), (List.pairwise_cons.mp h.names).2⟩

theorem Apartment.call {w : World} {a : MRef} {l : List MRef} (h : Apartment w (a :: l)) : Apartment (Model.call a w).2 l := by
  obtain ⟨ma, hma⟩ := h.exists (k := a) (by simp)
  have hu : ∀ k ∈ l, ∀ mk, w.ms[k]? = some mk → Untouched mk.name w (Model.call a w).2 := fun k hk mk hmk =>
    call_untouched h.wf (h.sc a (by simp)) hma ((List.pairwise_cons.mp h.names).1 k hk ma mk hma hmk)
  refine ⟨wf_call h.wf a, fun k hk => ?_, ?_⟩
  · obtain ⟨mk, hmk⟩ := h.exists (k := k) (by simp [hk])
    exact (h.sc k (by simp [hk])).mono h.wf hmk (hu k hk mk hmk)
  · exact NamesApart.mono (le_stable.call a w) (fun k hk => h.exists (by simp [hk])) (List.pairwise_cons.mp h.names).2

/-- Calling them leaves models of other names alone. -/
theorem each_untouched {w : World} {l : List MRef} (h : Apartment w l) {nm : String} (hn : ∀ k ∈ l, ∀ mk, w.ms[k]? = some mk → mk.name ≠ nm) :
    Untouched nm w (each l Model.call w).2 := by
  induction l generalizing w with
  | nil => exact .refl _ _
  | cons a t ih =>
    obtain ⟨ma, hma⟩ := h.exists (k := a) (by simp)
    have hu := call_untouched h.wf (h.sc a (by simp)) hma (hn a (by simp) ma hma)
    rw [each_cons, PyM.bind_run]
    cases hr : Model.call a w with
    | mk r w1 =>
      rw [hr] at hu
      cases r with
      | error e => exact hu
      | ok u =>
        have hc := h.call
        rw [hr] at hc
        refine hu.trans (ih hc fun k hk mk hmk => ?_)
        obtain ⟨mo, hmo⟩ := h.exists (k := k) (by simp [hk])
        rw [names_le hu.le hmo hmk]
        exact hn k (by simp [hk]) mo hmo

theorem Apartment.each {w w1 : World} {x y : List MRef} (h : Apartment w (x ++ y)) (hx : PyM.each x Model.call w = (.ok (), w1)) : Apartment w1 y := by
  induction x generalizing w with
  | nil => cases hx; exact h
  | cons a t ih =>
    rw [each_cons, PyM.bind_ok] at hx
    obtain ⟨⟨⟩, w2, h1, h2⟩ := hx
    have hc := Apartment.call (l := t ++ y) h
    rw [h1] at hc
    exact ih hc h2

theorem Apartment.perm {w : World} {l l' : List MRef} (h : Apartment w l) (hp : l.Perm l') : Apartment w l' :=
  ⟨h.wf, fun k hk => h.sc k (hp.mem_iff.mpr hk), (hp.pairwise_iff fun {_ _} hab mb ma hb ha => (hab ma mb ha hb).symm).mp h.names⟩

/-- The part of a run around one model. -/
theorem each_split {w w1 : World} {l : List MRef} (h : Apartment w l) (hl : each l Model.call w = (.ok (), w1)) {k : MRef} (hk : k ∈ l) {mo : ModelObj} (hm : w.ms[k]? = some mo) :
    ∃ wp wk, Untouched mo.name w wp ∧ Model.call k wp = (.ok (), wk) ∧ Untouched mo.name wk w1 := by
  obtain ⟨x, y, rfl⟩ := List.append_of_mem hk
  rw [each_append, PyM.bind_ok] at hl
  obtain ⟨⟨⟩, wp, h1, h2⟩ := hl
  rw [each_cons, PyM.bind_ok] at h2
  obtain ⟨⟨⟩, wk, h3, h4⟩ := h2
  have hnx : ∀ j ∈ x, ∀ mj, w.ms[j]? = some mj → mj.name ≠ mo.name := fun j hj mj hmj =>
    (List.pairwise_append.mp h.names).2.2 j hj k (by simp) mj mo hmj hm
  have hax : Apartment w x := ⟨h.wf, fun j hj => h.sc j (by simp [hj]), (List.pairwise_append.mp h.names).1⟩
  have hux := each_untouched hax hnx
  rw [h1] at hux
  have hap := h.each h1
  have hay := hap.call
  rw [h3] at hay
  have hlk : wp.Le wk := by have := le_stable.call k wp; rw [h3] at this; exact this
  have huy := each_untouched (nm := mo.name) hay fun j hj mj hmj => by
    obtain ⟨m0, hm0⟩ := h.exists (k := j) (by simp [hj])
    rw [names_le (hux.le.trans hlk) hm0 hmj]
    exact ((List.pairwise_cons.mp (List.pairwise_append.mp h.names).2.1).1 j hj mo m0 hm hm0).symm
  rw [h4] at huy
  exact ⟨wp, wk, hux, h3, huy⟩

theorem Sim.call_ok {m n : MRef} {L : Ref → Ref → Prop} {w v w' : World} (hs : Sim m n L w v) (h : Model.call m w = (.ok (), w')) :
    ∃ v', Model.call n v = (.ok (), v') ∧ ∃ L', (∀ r s, L r s → L' r s) ∧ Sim m n L' w' v' := by
  obtain ⟨L', h1, h2, -, -, h5⟩ := hs.call
  rw [h] at h2 h5
  refine ⟨(Model.call n v).2, ?_, L', h1, h2⟩
  rcases h5.cases with ⟨e, h, _⟩ | ⟨_, _, _, h, _⟩
  · cases h
  · exact Prod.ext h rfl

/-- A simulation holds on when both models are left alone. -/
theorem Sim.frame {m n : MRef} {L : Ref → Ref → Prop} {w v w' v' : World} (hs : Sim m n L w v) {mo : ModelObj} (hm : w.ms[m]? = some mo)
    (h : Untouched mo.name w w') (h' : Untouched mo.name v v') : Sim m n L w' v' := by
  obtain ⟨mo0, no, h1, h2, h3⟩ := hs.mo
  rw [hm] at h1; cases h1
  have hm' : w'.ms[m]? = some mo := h.ms m mo hm rfl
  have hn' : v'.ms[n]? = some no := h'.ms n no h2 h3.name.symm
  refine ⟨⟨fun r s hL => ?_, hs.right, hs.left⟩, hs.own_of h.le hm fun _ _ => .inl, mo, no, hm', hn', h3.mono (fun _ _ h => h) h.le h'.le⟩
  obtain ⟨q, q', g1, g2, g3⟩ := hs.same r s hL
  obtain ⟨p, g4, g5⟩ := hs.own mo hm r s hL
  rw [g1] at g4; cases g4
  exact ⟨q, q', h.qs r q g1 g5, h'.qs s q' g2 (g3.owner.symm.trans g5), g3⟩

theorem calls_ok {w : World} {l : List MRef} (h : Apartment w l) (hok : ∀ k ∈ l, ∃ wk, Model.call k w = (.ok (), wk)) {v : World} (hv : Apartment v l)
    (hu : ∀ k ∈ l, ∀ mo, w.ms[k]? = some mo → Untouched mo.name w v) : ∃ v1, each l Model.call v = (.ok (), v1) := by
  induction l generalizing v with
  | nil => exact ⟨v, rfl⟩
  | cons a t ih =>
    obtain ⟨ma, hma⟩ := h.exists (k := a) (by simp)
    obtain ⟨wa, hwa⟩ := hok a (by simp)
    obtain ⟨va, hva, -⟩ := (sim_untouched h.wf (h.sc a (by simp)) hma (.refl _ _) (hu a (by simp) ma hma)).call_ok hwa
    have hc := hv.call
    rw [hva] at hc
    obtain ⟨v1, hv1⟩ := ih h.tail (fun k hk => hok k (by simp [hk])) hc fun k hk mo hmo => by
      have h1 := hu k (by simp [hk]) mo hmo
      refine h1.trans ?_
      have hma' : v.ms[a]? = some ma := (hu a (by simp) ma hma).ms a ma hma rfl
      have := call_untouched (nm := mo.name) hv.wf (hv.sc a (by simp)) hma' ((List.pairwise_cons.mp h.names).1 k hk ma mo hma hmo)
      rw [hva] at this
      exact this
    exact ⟨v1, by rw [each_cons, PyM.bind_of_ok hva]; exact hv1⟩

theorem untouched_pr (nm : String) (w : World) (p : ProblemObj) : Untouched nm w { w with pr := p } := ⟨.pr w p, fun _ _ h _ => h, fun _ _ h _ => h⟩

theorem Apartment.pr {w : World} {l : List MRef} (h : Apartment w l) (p : ProblemObj) : Apartment { w with pr := p } l :=
  ⟨⟨fun k x hx => { h.wf.ms k x hx with }, h.wf.es⟩, fun k hk => by
    obtain ⟨mo, hm⟩ := h.exists hk
    exact (h.sc k hk).mono h.wf hm (untouched_pr _ w p), h.names⟩

/-- The models are called in another order: the calls end well again, and every model has its twin. -/
theorem calls_order {w w1 : World} {l l' : List MRef} (h : Apartment w l) (hp : l.Perm l') (hl : each l Model.call w = (.ok (), w1)) (p : ProblemObj) :
    ∃ v1, each l' Model.call { w with pr := p } = (.ok (), v1) ∧
      (∀ k ∈ l, ∃ L, Sim k k L w1 v1 ∧ ∀ mo r, w.ms[k]? = some mo → OwnId w mo.name r r → L r r) ∧
      (∀ (r : Ref) (q : Quantity), w.qs[r]? = some q → (∀ k ∈ l, ∀ mo : ModelObj, w.ms[k]? = some mo → mo.name ≠ q.owner) → w1.qs[r]? = some q ∧ v1.qs[r]? = some q) := by
  have hok : ∀ k ∈ l, ∃ wk, Model.call k w = (.ok (), wk) := fun k hk => by
    obtain ⟨mo, hm⟩ := h.exists hk
    obtain ⟨wp, wk, h1, h2, -⟩ := each_split h hl hk hm
    obtain ⟨v', hv', -⟩ := (sim_untouched h.wf (h.sc k hk) hm h1 (.refl _ _)).call_ok h2
    exact ⟨v', hv'⟩
  have h' := (h.perm hp).pr p
  obtain ⟨v1, hv1⟩ := calls_ok (h.perm hp) (fun k hk => hok k (hp.mem_iff.mpr hk)) h' fun k hk mo hmo => untouched_pr _ w p
  refine ⟨v1, hv1, fun k hk => ?_, fun r q hq hno => ?_⟩
  · obtain ⟨mo, hm⟩ := h.exists hk
    obtain ⟨wp, wk, a1, a2, a3⟩ := each_split h hl hk hm
    obtain ⟨vp, vk, b1, b2, b3⟩ := each_split h' hv1 (hp.mem_iff.mp hk) (mo := mo) hm
    obtain ⟨v', hv', L, k1, k2⟩ := (sim_untouched h.wf (h.sc k hk) hm a1 ((untouched_pr _ w p).trans b1)).call_ok a2
    rw [b2] at hv'; cases hv'
    obtain ⟨mk, -, hmk, -, -⟩ := k2.mo
    have hnk : mk.name = mo.name := names_le (a1.le.trans (by have := le_stable.call k wp; rw [a2] at this; exact this)) hm hmk
    refine ⟨L, k2.frame hmk (by rw [hnk]; exact a3) (by rw [hnk]; exact b3), fun mo' r hm' ho => ?_⟩
    rw [hm] at hm'; cases hm'
    exact k1 r r ho
  · have hu := each_untouched h (nm := q.owner) hno
    have hu' := each_untouched h' (nm := q.owner) fun k hk => hno k (hp.mem_iff.mpr hk)
    rw [hl] at hu
    rw [hv1] at hu'
    exact ⟨hu.qs r q hq rfl, hu'.qs r q hq rfl⟩

/-! ## Resolving -/

theorem Spec.SameEqn.symbolicObject {e f : EqObj} (h : Spec.SameEqn e f) (form : Option EqForm) (side : EqObj.Side) :
    e.symbolicObject form side = f.symbolicObject form side := by
  have h1 := h.expr
  have h2 := h.elem
  unfold EqObj.symbolicObject EqObj.getNode
  rw [h.form]
  cases form.getD f.form with
  | residual =>
    cases he : e.expr <;> cases hf : f.expr <;> simp only [he, hf, Option.map_some, Option.map_none, reduceCtorEq, Option.some.injEq, ENode.says, Prod.mk.injEq] at h1
    · rfl
    · simp only [bind, Except.bind, h1.1]
  | elementary =>
    cases he : e.elem <;> cases hf : f.elem <;> simp only [he, hf, Option.map_some, Option.map_none, reduceCtorEq, Option.some.injEq, ENode.says, Prod.mk.injEq] at h2
    · rfl
    · cases side
      · simp only [bind, Except.bind, h2.1.1]
      · simp only [bind, Except.bind, h2.2.1]

/-- The equations the models have in two heaps. -/
theorem eqnsOf_twins {w v : World} {l : List MRef} (h : ∀ k ∈ l, ∃ L, Sim k k L w v) :
    List.Forall₂ (EqTwin w v) (l.flatMap (Gather.eqnsOf w)) (l.flatMap (Gather.eqnsOf v)) := by
  induction l with
  | nil => exact .nil
  | cons k t ih =>
    obtain ⟨L, hs⟩ := h k (by simp)
    obtain ⟨mo, no, h1, h2, h3⟩ := hs.mo
    simp only [List.flatMap_cons]
    refine List.rel_append ?_ (ih fun j hj => h j (by simp [hj]))
    unfold Gather.eqnsOf
    rw [h1, h2]
    exact h3.eqns.values

theorem objsOf_twins {w v : World} {l l' : List ERef} (h : List.Forall₂ (EqTwin w v) l l') :
    List.Forall₂ (Namesake w v) (l.flatMap (Gather.objsOf w)) (l'.flatMap (Gather.objsOf v)) := by
  induction h with
  | nil => exact .nil
  | cons h _ ih =>
    simp only [List.flatMap_cons]
    refine List.rel_append ?_ ih
    obtain ⟨e, f, h1, h2, -, h4⟩ := h
    unfold Gather.objsOf
    rw [h1, h2]
    cases he : e.objects <;> cases hf : f.objects <;> rw [he, hf] at h4 <;> cases h4 <;> simp only [he, hf]
    · exact .nil
    · rename_i h
      exact h.values

theorem forall₂_exists {α β : Type} {R : α → β → Prop} {l : List α} {l' : List β} (h : List.Forall₂ R l l') : (∀ a ∈ l, ∃ b ∈ l', R a b) ∧ ∀ b ∈ l', ∃ a ∈ l, R a b := by
  induction h with
  | nil => exact ⟨nofun, nofun⟩
  | cons h _ ih =>
    rename_i a b t t' ht
    refine ⟨fun x hx => ?_, fun x hx => ?_⟩
    · rcases List.mem_cons.mp hx with rfl | hx
      · exact ⟨b, by simp, h⟩
      · obtain ⟨y, hy, hr⟩ := ih.1 x hx
        exact ⟨y, by simp [hy], hr⟩
    · rcases List.mem_cons.mp hx with rfl | hx
      · exact ⟨a, by simp, h⟩
      · obtain ⟨y, hy, hr⟩ := ih.2 x hx
        exact ⟨y, by simp [hy], hr⟩

theorem namesOf_twins {w v : World} {l l' : List Ref} (h : List.Forall₂ (Namesake w v) l l') (k : Kind) (s : String) : NamesOf w.qs k l s ↔ NamesOf v.qs k l' s := by
  constructor
  · rintro ⟨r, hr, q, hq, h1, h2⟩
    obtain ⟨x, hx, q1, q2, g1, g2, g3, g4⟩ := (forall₂_exists h).1 r hr
    rw [hq] at g1; cases g1
    exact ⟨x, hx, q2, g2, g4.symm.trans h1, g3.symm.trans h2⟩
  · rintro ⟨r, hr, q, hq, h1, h2⟩
    obtain ⟨x, hx, q1, q2, g1, g2, g3, g4⟩ := (forall₂_exists h).2 r hr
    rw [hq] at g2; cases g2
    exact ⟨x, hx, q1, g1, g4.trans h1, g3.trans h2⟩

/-- The sweep succeeds in one heap when it succeeds in the other. -/
theorem gather_twins {w v : World} {l : List MRef} (h : ∀ k ∈ l, ∃ L, Sim k k L w v) {g g0 : Gather} (hg : l.foldlM (Gather.model w) g0 = .ok g) :
    ∃ g', l.foldlM (Gather.model v) g0 = .ok g' := by
  rw [foldlM_ok_iff Gather.model_ok_iff]
  have hw := (foldlM_ok_iff Gather.model_ok_iff l g0).mp ⟨g, hg⟩
  intro k hk
  obtain ⟨L, hs⟩ := h k hk
  obtain ⟨mo, no, h1, h2, h3⟩ := hs.mo
  obtain ⟨mo', k1, k2⟩ := hw k hk
  rw [h1] at k1; cases k1
  refine ⟨no, h2, fun r hr => ?_⟩
  have he : List.Forall₂ (EqTwin w v) (dvalues mo.eqns) (dvalues no.eqns) :=
    h3.eqns.values
  obtain ⟨x, hx, e, f, g1, g2, -, g4⟩ := (forall₂_exists he).2 r hr
  obtain ⟨e', d, m1, m2, m3⟩ := k2 x hx
  rw [g1] at m1; cases m1
  rw [m2] at g4
  cases hf : f.objects with
  | none => rw [hf] at g4; cases g4
  | some d' =>
    rw [hf] at g4
    cases g4 with
    | some hd =>
      refine ⟨f, d', g2, hf, fun y hy => ?_⟩
      have : List.Forall₂ (Namesake w v) (dvalues d) (dvalues d') := hd.values
      obtain ⟨z, -, q1, q2, -, n2, -⟩ := (forall₂_exists this).2 y hy
      exact ⟨q2, n2⟩

theorem getEquationList_twins {w v : World} {form : Option EqForm} {side : EqObj.Side} {l l' : List ERef} (h : List.Forall₂ (EqTwin w v) l l') :
    Block.getEquationList w.es form side l = Block.getEquationList v.es form side l' := by
  induction h with
  | nil => rfl
  | cons h _ ih =>
    obtain ⟨e, f, h1, h2, h3, -⟩ := h
    simp only [Block.getEquationList, h1, h2, h3.symbolicObject, ih]

theorem group_twins {w v : World} {k : EqKind} {l l' : List ERef} (h : List.Forall₂ (EqTwin w v) l l') :
    List.Forall₂ (EqTwin w v) (Block.group w.es k l) (Block.group v.es k l') := by
  induction h with
  | nil => exact .nil
  | cons h _ ih =>
    obtain ⟨e, f, h1, h2, h3, h4⟩ := h
    unfold Block.group at ih ⊢
    simp only [List.filter_cons, h1, h2, h3.type]
    split
    · exact .cons ⟨e, f, h1, h2, h3, h4⟩ ih
    · exact ih

/-- The same equations of two heaps, in another order. -/
def Spec.SameEqns (w v : World) (l l' : List ERef) : Prop := ∃ x, List.Forall₂ (Spec.SameEqnAt w v) l x ∧ x.Perm l'

/-- Two blocks of two heaps state the same system, in another order. -/
structure Spec.SameSystemIn (w v : World) (b b' : Block) : Prop where
  equations : Spec.SameEqns w v b.equations b'.equations
  expressions : b.equationsList.Perm b'.equationsList
  vars : b.variableDict.Perm b'.variableDict
  pars : b.parameterDict.Perm b'.parameterDict
  names : b.varList.Perm b'.varList
  linear : Spec.SameEqns w v b.linear b'.linear
  nonlinear : Spec.SameEqns w v b.nonlinear b'.nonlinear
  differential : Spec.SameEqns w v b.differential b'.differential
  tail : b.linearTail = b'.linearTail

theorem Spec.SameEqns.of_twins {w v : World} {l x l' : List ERef} (h : List.Forall₂ (EqTwin w v) l x) (hp : x.Perm l') : Spec.SameEqns w v l l' :=
  ⟨x, h.imp fun _ _ ⟨e, f, h1, h2, h3, _⟩ => ⟨e, f, h1, h2, h3⟩, hp⟩

theorem Spec.SameEqns.isEmpty {w v : World} {l l' : List ERef} (h : Spec.SameEqns w v l l') : l.isEmpty = l'.isEmpty := by
  obtain ⟨x, h1, h2⟩ := h
  rw [← isEmpty_perm h2]
  cases h1 <;> rfl

theorem Spec.SameSystemIn.problemType {w v : World} {b b' : Block} (h : Spec.SameSystemIn w v b b') : b.problemType = b'.problemType := by
  unfold Block.problemType
  rw [h.linear.isEmpty, h.nonlinear.isEmpty, h.differential.isEmpty, h.tail]

theorem members_twins {w v : World} (sr : SRepr) {l l' : List ERef} (h : List.Forall₂ (Spec.SameEqnAt w v) l l') : l.map (members sr w.es) = l'.map (members sr v.es) := by
  induction h with
  | nil => rfl
  | cons h _ ih =>
    obtain ⟨e, f, h1, h2, h3⟩ := h
    simp only [List.map_cons, ih, members, h1, h2, h3.symbolicObject]

theorem Spec.SameSystemIn.timeDeclared {w v : World} {b b' : Block} (h : Spec.SameSystemIn w v b b') (sr : SRepr) (n : Option (List String)) :
    Sloth.timeDeclared sr w.es b n = Sloth.timeDeclared sr v.es b' n := by
  obtain ⟨x, h1, h2⟩ := h.differential
  have hm := members_twins sr h1
  cases n with
  | none =>
    simp only [Sloth.timeDeclared]
    rw [← all_perm h2]
    have a1 : b.differential.all (fun r => (members sr w.es r).isEmpty) = (b.differential.map (members sr w.es)).all List.isEmpty := by rw [List.all_map]; rfl
    have a2 : x.all (fun r => (members sr v.es r).isEmpty) = (x.map (members sr v.es)).all List.isEmpty := by rw [List.all_map]; rfl
    rw [a1, a2, hm]
  | some l =>
    simp only [Sloth.timeDeclared]
    rw [← any_perm h2]
    have a1 : b.differential.any (fun r => (members sr w.es r).any (memberDeclares l)) = (b.differential.map (members sr w.es)).any (fun y => y.any (memberDeclares l)) := by
      rw [List.any_map]; rfl
    have a2 : x.any (fun r => (members sr v.es r).any (memberDeclares l)) = (x.map (members sr v.es)).any (fun y => y.any (memberDeclares l)) := by rw [List.any_map]; rfl
    rw [a1, a2, hm]

theorem unspecParams_twins {w v : World} {d : Dict String Ref}
    (h : ∀ r ∈ dvalues d, ∃ q q', w.qs[r]? = some q ∧ v.qs[r]? = some q' ∧ q.isSpecified = q'.isSpecified) : unspecParams w.qs d = unspecParams v.qs d := by
  unfold unspecParams
  congr 1
  refine List.filter_congr fun r hr => ?_
  obtain ⟨q, q', h1, h2, h3⟩ := h r hr
  rw [h1, h2]
  simp only [h3]

/-- A problem shuffled is resolved to the same system when its models are called again in the other order. -/
theorem resolve_order_called {w w1 : World} {p p' : ProblemObj} (hs : Spec.Shuffled p p') (ha : Apartment { w with pr := p } (dvalues p.models))
    (hpar : ({ w with pr := p } : World).Listed .parameter p.parameterDict) (h : resolve { w with pr := p } = (.ok (), w1)) :
    ∃ w2 b b', resolve { w with pr := p' } = (.ok (), w2) ∧ w1.pr.block = some b ∧ w2.pr.block = some b' ∧ w1.pr.timeName = w2.pr.timeName ∧
      Spec.SameSystemIn w1 w2 b b' ∧ unspecParams w1.qs b.parameterDict = unspecParams w2.qs b'.parameterDict := by
  have hv : (dvalues p.models).Perm (dvalues p'.models) := hs.models.map _
  obtain ⟨u, g, b, h1, hpr, h2, h3, h4, h5⟩ := resolve_ok h
  obtain ⟨v1, k1, k2, k3⟩ := calls_order ha hv h1 p'
  have hvp : v1.pr = p' := by
    have := reloadModels_pr ({ w with pr := p' } : World)
    have e : reloadModels ({ w with pr := p' } : World) = (.ok (), v1) := k1
    rw [e] at this
    exact this
  have hup : u.pr = p := hpr
  rw [hup] at h2
  have hsim : ∀ k ∈ dvalues p.models, ∃ L, Sim k k L u v1 := fun k hk => by
    obtain ⟨L, hL, -⟩ := k2 k hk
    exact ⟨L, hL⟩
  obtain ⟨g1, hg1⟩ := gather_twins hsim h2
  obtain ⟨g', hg'⟩ := gather_perm hv hg1
  have hg := Gather.gather (w := u) (g := g) (by rw [hup]; exact h2)
  have kg := Gather.gather (w := v1) (g := g') (by rw [hvp]; exact hg')
  rw [hup] at hg
  rw [hvp] at kg
  have ht := eqnsOf_twins hsim
  have hperm : ((dvalues p.models).flatMap (Gather.eqnsOf v1)).Perm ((dvalues p'.models).flatMap (Gather.eqnsOf v1)) := hv.flatMap_right _
  rw [hg.1] at h4
  rw [getEquationList_twins ht] at h4
  obtain ⟨ss', m1, m2⟩ := getEquationList_perm hperm h4
  rw [← kg.1] at m1
  have hn : ∀ s, g.varNames.contains s = g'.varNames.contains s := fun s => by
    rw [Bool.eq_iff_iff, List.contains_iff_mem, List.contains_iff_mem, hg.2.1, kg.2.1, namesOf_twins (objsOf_twins ht)]
    exact namesOf_perm (hperm.flatMap_right _)
  have hn' : ∀ s, g.parNames.contains s = g'.parNames.contains s := fun s => by
    rw [Bool.eq_iff_iff, List.contains_iff_mem, List.contains_iff_mem, hg.2.2, kg.2.2, namesOf_twins (objsOf_twins ht)]
    exact namesOf_perm (hperm.flatMap_right _)
  have hvd : (p.variableDict.filter fun x => g.varNames.contains x.1).Perm (p'.variableDict.filter fun x => g'.varNames.contains x.1) := by
    simp only [hn]; exact hs.vars.filter _
  have hpd : (p.parameterDict.filter fun x => g.parNames.contains x.1).Perm (p'.parameterDict.filter fun x => g'.parNames.contains x.1) := by
    simp only [hn']; exact hs.pars.filter _
  have hgrp : ∀ k, (Block.group v1.es k ((dvalues p.models).flatMap (Gather.eqnsOf v1))).Perm (Block.group v1.es k g'.eqs) := fun k => by
    rw [kg.1]; exact hperm.filter _
  refine ⟨{ v1 with pr := { p' with equationList := some g'.eqs, block := some (Block.resolved v1.es g'.eqs (p'.variableDict.filter fun x => g'.varNames.contains x.1)
    (p'.parameterDict.filter fun x => g'.parNames.contains x.1) ss') } }, b, _, ?_, by rw [h3], rfl, ?_, ?_, ?_⟩
  · unfold resolve
    have e : reloadModels ({ w with pr := p' } : World) = (.ok (), v1) := k1
    rw [PyM.bind_of_ok e, PyM.bind_of_ok (by unfold buildEquationBlock; rw [hvp, hg'])]
    unfold callBlock
    simp only [Block.call, Block.mk', Block.assignGroups]
    rw [m1]
    rfl
  · rw [h3, hs.rest, hup]
  · rw [h3, h5, hg.1]
    exact ⟨.of_twins ht (by rw [kg.1]; exact hperm), m2, hvd, hpd, hvd.map _, .of_twins (group_twins ht) (hgrp _), .of_twins (group_twins ht) (hgrp _),
      .of_twins (group_twins ht) (hgrp _), rfl⟩
  · rw [h3, h5]
    refine (unspecParams_twins (v := v1) fun r hr => ?_).trans (unspecParams_perm hpd)
    obtain ⟨x, hx, rfl⟩ := List.mem_map.mp hr
    obtain ⟨q, hq, -⟩ := hpar.2 x (List.mem_filter.mp hx).1
    by_cases hno : ∀ k ∈ dvalues p.models, ∀ mo : ModelObj, w.ms[k]? = some mo → mo.name ≠ q.owner
    · obtain ⟨a1, a2⟩ := k3 x.2 q hq hno
      exact ⟨q, q, a1, a2, rfl⟩
    · push Not at hno
      obtain ⟨k, hk, mo, hmo, ho⟩ := hno
      obtain ⟨L, b1, b2⟩ := k2 k hk
      obtain ⟨q1, q2, c1, c2, c3⟩ := b1.same _ _ (b2 mo x.2 hmo ⟨rfl, q, hq, ho.symm⟩)
      exact ⟨q1, q2, c1, c2, c3.isSpecified⟩

theorem pairwise_of_values {α β : Type} {S : β → β → Prop} {d : Dict α β} (h : d.Pairwise fun p q => S p.2 q.2) : (dvalues d).Pairwise S := List.pairwise_map.mpr h

/-- C95: self-contained models that are apart can be added in any order and grouping, also when their bodies run again while the problem is resolved.  When
the problem resolves in one order it resolves in the other, the block holds equations that state the same, the same expressions, variables, parameters
and groups in another order, the problem is of the same type, and the test of the degrees of freedom has the same outcome. -/
theorem model_order_called_partial {w w1 : World} (hr : Reachable w) (t t' : MTree) (hperm : (Spec.leaves t).Perm (Spec.leaves t'))
    (ht : ∀ m ∈ Spec.leaves t, m < w.ms.length) (ha : Spec.Apart w (Spec.leaves t))
    (hb : ∀ m, m ∈ dvalues w.pr.models ∨ m ∈ Spec.leaves t → Spec.SelfContained w m)
    (h : (addModels t >>= fun _ => resolve) w = (.ok (), w1)) :
    ∃ w2 b b', (addModels t' >>= fun _ => resolve) w = (.ok (), w2) ∧ w1.pr.block = some b ∧ w2.pr.block = some b' ∧
      Spec.SameSystemIn w1 w2 b b' ∧ b.problemType = b'.problemType ∧ ∀ sr, (dofTest sr w1).1 = (dofTest sr w2).1 := by
  obtain ⟨p, p', h1, h2, h3⟩ := addModels_order hr t t' hperm ht ha
  rw [PyM.bind_of_ok h1] at h
  have hpw := reachable_problem (reachable_addModels hr t)
  have hww := reachable_wf (reachable_addModels hr t)
  rw [h1] at hpw hww
  have hbp : ∀ m ∈ dvalues p.models, Spec.SelfContained w m := fun m hm => by
    obtain ⟨x, hx, rfl⟩ := List.mem_map.mp hm
    have hd := dget_of_mem hpw.models.1 (k := x.1) (v := x.2) hx
    obtain ⟨vd, pd, md, k1, -, -, k4⟩ := addModel_each (reachable_wf hr) (Spec.leaves t) ht
    rw [← addModels_each, h1] at k1
    have : p.models = md := congrArg (fun x => x.2.pr.models) k1
    rw [this, k4, Option.or_eq_some_iff] at hd
    refine hb _ ?_
    rcases hd with hd | ⟨-, hd⟩
    · exact .inr (List.mem_reverse.mp (List.mem_of_find?_eq_some hd))
    · exact .inl (List.mem_map.mpr ⟨_, mem_of_dget hd, rfl⟩)
  have hap : Apartment { w with pr := p } (dvalues p.models) := by
    refine ⟨hww, hbp, pairwise_of_values ?_⟩
    have hn : p.models.Pairwise fun x y => x.1 ≠ y.1 := List.pairwise_map.mp hpw.models.1
    refine hn.imp_of_mem fun {x y} hx hy hxy ma mb hma hmb => ?_
    obtain ⟨m1, a1, a2⟩ := hpw.models.2 x hx
    obtain ⟨m2, b1, b2⟩ := hpw.models.2 y hy
    rw [hma] at a1; cases a1
    rw [hmb] at b1; cases b1
    rw [a2, b2]
    exact hxy
  obtain ⟨w2, b, b', k1, k2, k3, k4, k5, k6⟩ := resolve_order_called h3 hap hpw.pars h
  refine ⟨w2, b, b', by rw [PyM.bind_of_ok h2]; exact k1, k2, k3, k5, k5.problemType, fun sr => ?_⟩
  unfold dofTest
  rw [k2, k3]
  simp only
  rw [k4, k5.timeDeclared, k5.names.length_eq, k5.expressions.length_eq, k6]
  split
  · rfl
  · split <;> rfl

/-! ## A case -/

/-- A test for the conditions on the heap. -/
def Ex.contained (w : World) (m : MRef) : Bool :=
  match w.ms[m]? with
  | none => false
  | some mo => mo.inlets.isEmpty && mo.attrs.all (fun x => match x.2 with
      | .qty r => decide ((w.qs[r]?.map fun q => q.owner) = some mo.name)
      | .eqn _ => true) &&
    mo.eqns.all fun p => match w.es[p.2]?.bind fun e => e.objects with
      | some d => (dvalues d).all fun x => decide (x < w.qs.length)
      | none => true

theorem Ex.contained_sound {w : World} {m : MRef} (h : Ex.contained w m = true) (hb : ∀ mo, w.ms[m]? = some mo → mo.body.Alike mo.body) : Spec.SelfContained w m := by
  unfold Ex.contained at h
  cases hm : w.ms[m]? with
  | none => simp [hm] at h
  | some mo =>
    simp only [hm, Bool.and_eq_true, List.isEmpty_iff, List.all_eq_true] at h
    obtain ⟨⟨h1, h2⟩, h3⟩ := h
    refine ⟨mo, hm, h1, hb mo hm, fun a r har => ?_, fun p hp e d he hd x hx => ?_⟩
    · have := h2 _ har
      simp only [decide_eq_true_eq, Option.map_eq_some_iff] at this
      exact this
    · have := h3 p hp
      simp only [he, Option.bind_some, hd, List.all_eq_true, decide_eq_true_eq] at this
      exact exists_getElem? (this x hx)

/-- Two tanks that are called and then added; resolving calls them again. -/
def Ex.tanks : List Op := [.newModel "a" "" (Ex.tank "" "" none) none, .newModel "b" "" (Ex.tank "" "" none) none, .call 1, .call 0]

example : ∃ w1, Reachable (history Ex.tanks World.init) ∧ (Spec.leaves (.list [.leaf 0, .leaf 1])).Perm (Spec.leaves (.list [.leaf 1, .list [.leaf 0]])) ∧
    (∀ m ∈ Spec.leaves (.list [.leaf 0, .leaf 1]), m < (history Ex.tanks World.init).ms.length) ∧
    Spec.Apart (history Ex.tanks World.init) (Spec.leaves (.list [.leaf 0, .leaf 1])) ∧
    (∀ m, m ∈ dvalues (history Ex.tanks World.init).pr.models ∨ m ∈ Spec.leaves (.list [.leaf 0, .leaf 1]) → Spec.SelfContained (history Ex.tanks World.init) m) ∧
    (addModels (.list [.leaf 0, .leaf 1]) >>= fun _ => resolve) (history Ex.tanks World.init) = (.ok (), w1) ∧
    (history Ex.tanks World.init).qs.length = 8 ∧ w1.qs.length = 16 ∧ (w1.pr.block.map fun b => b.equations.length) = some 2 := by
  refine ⟨_, ⟨_, rfl⟩, List.Perm.swap _ _ _, by decide +kernel, ?_, ?_, run_ok (by decide +kernel), by decide +kernel, by decide +kernel, by decide +kernel⟩
  · have h : ((history Ex.tanks World.init).ms.map fun mo => (mo.name, dkeys mo.vars, dkeys mo.pars)) =
      [("a", ["h_a", "f_a"], ["p_a"]), ("b", ["h_b", "f_b"], ["p_b"])] := by decide +kernel
    refine List.pairwise_pair.mpr fun ma mb ha hb => ?_
    have ha' := congrArg (fun l => l[0]?) h
    have hb' := congrArg (fun l => l[1]?) h
    simp only [List.getElem?_map, ha, hb, Option.map_some, List.getElem?_cons_zero, List.getElem?_cons_succ, Option.some.injEq, Prod.mk.injEq] at ha' hb'
    rw [ha'.1, hb'.1, ha'.2.1, ha'.2.2, hb'.2.1, hb'.2.2]
    decide
  · have h : ((history Ex.tanks World.init).ms.map fun mo => mo.body) = [Ex.tank "" "" none, Ex.tank "" "" none] := by decide +kernel
    have hp : dvalues (history Ex.tanks World.init).pr.models = [] := by decide +kernel
    have hc : Ex.contained (history Ex.tanks World.init) 0 = true ∧ Ex.contained (history Ex.tanks World.init) 1 = true := by decide +kernel
    intro m hm
    rw [hp] at hm
    have hm : m = 0 ∨ m = 1 := by simpa [Spec.leaves, Spec.leavesList] using hm
    rcases hm with rfl | rfl
    · refine Ex.contained_sound hc.1 fun mo hmo => ?_
      have := congrArg (fun l => l[0]?) h
      simp only [List.getElem?_map, hmo, Option.map_some, List.getElem?_cons_zero, Option.some.injEq] at this
      rw [this]
      exact Ex.tank_alike _ _ _ _ _ _
    · refine Ex.contained_sound hc.2 fun mo hmo => ?_
      have := congrArg (fun l => l[1]?) h
      simp only [List.getElem?_map, hmo, Option.map_some, List.getElem?_cons_zero, List.getElem?_cons_succ, Option.some.injEq] at this
      rw [this]
      exact Ex.tank_alike _ _ _ _ _ _

/-- The second model's equation reads a variable the first declares in its methods. -/
def Ex.reader : List Op := [.newModel "a" "" { vars := [Ex.dv "x"], eqns := [Ex.eq_ "e" (.eqn (.bin .mul (Ex.at_ "x") (Ex.at_ "x")) (Ex.at_ "x"))] } none,
  .newModel "b" "" { vars := [Ex.dv "y"], eqns := [.eqn "f" "f" "" (.eqn (Ex.at_ "y") (.q { model := some 0, attr := "x" })) false] } none]

/-- C95 fails for models whose methods read other models, even if all names differ: in one order the problem is resolved, in the other it is not. -/
theorem reading_order_matters : ∃ w w1 w2, Reachable w ∧ (w.ms.map fun mo => mo.name) = ["a", "b"] ∧
    (addModels (.list [.leaf 0, .leaf 1]) >>= fun _ => resolve) w = (.ok (), w1) ∧ (w1.pr.block.map fun b => b.equations.length) = some 2 ∧
    (addModels (.list [.leaf 1, .leaf 0]) >>= fun _ => resolve) w = (.error .attributeError, w2) := by
  refine ⟨history Ex.reader World.init, _, ((addModels (.list [.leaf 1, .leaf 0]) >>= fun _ => resolve) (history Ex.reader World.init)).2, ⟨_, rfl⟩,
    by decide +kernel, run_ok (by decide +kernel), by decide +kernel, ?_⟩
  have h : (match ((addModels (.list [.leaf 1, .leaf 0]) >>= fun _ => resolve) (history Ex.reader World.init)).1 with
    | .error .attributeError => true | _ => false) = true := by decide +kernel
  refine Prod.ext ?_ rfl
  revert h
  generalize ((addModels (.list [.leaf 1, .leaf 0]) >>= fun _ => resolve) (history Ex.reader World.init)).1 = x
  intro h
  split at h
  · rfl
  · cases h

end Sloth
