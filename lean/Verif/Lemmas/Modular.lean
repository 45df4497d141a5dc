import Verif.Lemmas.Twin
import Verif.Lemmas.Heap

/-!
# The same model in two heaps

A simulation between the calls a model makes in one heap and those a model declared alike makes in another.
-/

namespace Sloth
open PyM

/-! ## Declarations that only concern the model itself -/

/-- Only attributes of `self` are read. -/
def AExpr.own : AExpr → Prop
  | .q p => p.model = none
  | .bin _ a b => a.own ∧ b.own
  | .binN _ a _ => a.own
  | .nbin _ _ a => a.own
  | .fn _ a => a.own
  | .mmN _ a _ => a.own
  | .diff x none => x.model = none
  | .diff x (some t) => x.model = none ∧ t.model = none

def AStmt.own : AStmt → Prop
  | .eqn l r => l.own ∧ r.own
  | .eqnNum l _ => l.own
  | .res e => e.own

def AVal.own : AVal → Prop
  | .qty p => p.model = none
  | _ => True

/-- The same statement of a body, up to descriptions, LaTeX texts and bounds.  It reads attributes of `self` only, and an equation has a name. -/
inductive Cmd.Alike : Cmd → Cmd → Prop where
  | var (attr : String) {a b : VarArgs} (hn : a.name = b.name) (hu : a.units = b.units) (he : a.exposed = b.exposed) (ht : a.vtype = b.vtype)
      (hv : a.value = b.value) : Alike (.var attr a) (.var attr b)
  | par (attr : String) {a b : ParArgs} (hn : a.name = b.name) (hu : a.units = b.units) (hv : a.value = b.value) : Alike (.par attr a) (.par attr b)
  | con (attr : String) {a b : ParArgs} (hn : a.name = b.name) (hu : a.units = b.units) (hv : a.value = b.value) : Alike (.con attr a) (.con attr b)
  | eqn (attr : String) {name : String} (d d' : String) {st : AStmt} (ck : Bool) (hn : name ≠ "") (hs : st.own) :
      Alike (.eqn attr name d st ck) (.eqn attr name d' st ck)
  | setValue {p : APath} {v : AVal} (u : Option UnitObj) (hp : p.model = none) (hv : v.own) : Alike (.setValue p v u) (.setValue p v u)
  | distribute {p : APath} (hp : p.model = none) : Alike (.distribute p) (.distribute p)
  | fail (e : Err) : Alike (.fail e) (.fail e)

/-- The same body, statement by statement. -/
structure Body.Alike (b c : Body) : Prop where
  cons : List.Forall₂ Cmd.Alike b.cons c.cons
  pars : List.Forall₂ Cmd.Alike b.pars c.pars
  vars : List.Forall₂ Cmd.Alike b.vars c.vars
  eqns : List.Forall₂ Cmd.Alike b.eqns c.eqns

theorem Cmd.Alike.symm {c d : Cmd} (h : c.Alike d) : d.Alike c := by
  cases h with
  | var attr hn hu he ht hv => exact .var attr hn.symm hu.symm he.symm ht.symm hv.symm
  | par attr hn hu hv => exact .par attr hn.symm hu.symm hv.symm
  | con attr hn hu hv => exact .con attr hn.symm hu.symm hv.symm
  | eqn attr d d' ck hn hs => exact .eqn attr d' d ck hn hs
  | setValue u hp hv => exact .setValue u hp hv
  | distribute hp => exact .distribute hp
  | fail e => exact .fail e

theorem Cmd.Alike.trans {c d e : Cmd} (h : c.Alike d) (h' : d.Alike e) : c.Alike e := by
  cases h with
  | var attr hn hu he ht hv => cases h' with | var _ hn' hu' he' ht' hv' =>
      exact .var attr (hn.trans hn') (hu.trans hu') (he.trans he') (ht.trans ht') (hv.trans hv')
  | par attr hn hu hv => cases h' with | par _ hn' hu' hv' => exact .par attr (hn.trans hn') (hu.trans hu') (hv.trans hv')
  | con attr hn hu hv => cases h' with | con _ hn' hu' hv' => exact .con attr (hn.trans hn') (hu.trans hu') (hv.trans hv')
  | eqn attr d d' ck hn hs => cases h' with | eqn _ _ d'' _ _ _ => exact .eqn attr d d'' ck hn hs
  | setValue u hp hv => cases h'; exact .setValue u hp hv
  | distribute hp => cases h'; exact .distribute hp
  | fail e => cases h'; exact .fail e

theorem forall₂_symm {α : Type} {R : α → α → Prop} (hR : ∀ {a b}, R a b → R b a) {l l' : List α} (h : List.Forall₂ R l l') : List.Forall₂ R l' l := by
  induction h with
  | nil => exact .nil
  | cons h _ ih => exact .cons (hR h) ih

theorem forall₂_trans {α β γ : Type} {R : α → β → Prop} {S : β → γ → Prop} {T : α → γ → Prop} (hT : ∀ {a b c}, R a b → S b c → T a c) {l : List α} {l' : List β} {l'' : List γ} (h : List.Forall₂ R l l') (h' : List.Forall₂ S l' l'') :
    List.Forall₂ T l l'' := by
  induction h generalizing l'' with
  | nil => cases h'; exact .nil
  | cons h _ ih => cases h' with | cons g ht => exact .cons (hT h g) (ih ht)

theorem Body.Alike.symm {b c : Body} (h : b.Alike c) : c.Alike b :=
  ⟨forall₂_symm .symm h.cons, forall₂_symm .symm h.pars, forall₂_symm .symm h.vars, forall₂_symm .symm h.eqns⟩

theorem Body.Alike.trans {b c d : Body} (h : b.Alike c) (h' : c.Alike d) : b.Alike d :=
  ⟨forall₂_trans .trans h.cons h'.cons, forall₂_trans .trans h.pars h'.pars, forall₂_trans .trans h.vars h'.vars, forall₂_trans .trans h.eqns h'.eqns⟩

/-! ## The relation -/

/-- Two quantities of the same name and class. -/
def Namesake (w v : World) (r s : Ref) : Prop := ∃ q q', w.qs[r]? = some q ∧ v.qs[s]? = some q' ∧ q.name = q'.name ∧ q.kind = q'.kind

theorem Namesake.mono {w w' v v' : World} (hw : w.Le w') (hv : v.Le v') {r s : Ref} (h : Namesake w v r s) : Namesake w' v' r s := by
  obtain ⟨q, q', h1, h2, h3, h4⟩ := h
  obtain ⟨p, g1, g2⟩ := hw.qs r q h1
  obtain ⟨p', g1', g2'⟩ := hv.qs s q' h2
  exact ⟨p, p', g1, g1', by rw [g2.name, g2'.name, h3], by rw [g2.kind, g2'.kind, h4]⟩

/-- What a node says: its symbolic object with numbers put in and without, its unit and its class. -/
def ENode.says (n : ENode) : SObj × Sym × UnitObj × EqType := (n.sym, n.repr, n.unit, n.ty)

/-- Two equations that state the same: the same name, owner, form and class, expressions that say the same, objects of the same names. -/
structure Spec.SameEqn (e f : EqObj) : Prop where
  name : e.name = f.name
  owner : e.owner = f.owner
  form : e.form = f.form
  type : e.type = f.type
  rhsPy : e.rhsPy = f.rhsPy
  expr : e.expr.map ENode.says = f.expr.map ENode.says
  elem : (e.elem.map fun p => (p.1.says, p.2.says)) = f.elem.map fun p => (p.1.says, p.2.says)
  objects : e.objects.map dkeys = f.objects.map dkeys

theorem Spec.SameEqn.refl (e : EqObj) : Spec.SameEqn e e := ⟨rfl, rfl, rfl, rfl, rfl, rfl, rfl, rfl⟩

theorem ENode.Twin.says {β : Ref → Ref → Prop} {a b : ENode} (h : a.Twin β b) : a.says = b.says := by
  simp only [ENode.says, h.sym, h.repr, h.unit, h.ty]

theorem EqObj.Twin.sameEqn {β : Ref → Ref → Prop} {e f : EqObj} (h : e.Twin β f) : Spec.SameEqn e f where
  name := h.name
  owner := h.owner
  form := h.form
  type := h.type
  rhsPy := h.rhsPy
  expr := by
    have := h.expr
    cases he : e.expr <;> cases hf : f.expr <;> rw [he, hf] at this <;> cases this
    all_goals first
      | rfl
      | (rename_i h; simp only [Option.map_some, h.says])
  elem := by
    have := h.elem
    cases he : e.elem <;> cases hf : f.elem <;> rw [he, hf] at this <;> cases this
    all_goals first
      | rfl
      | (rename_i h; simp only [Option.map_some, h.1.says, h.2.says])
  objects := by
    have := h.objects
    cases he : e.objects <;> cases hf : f.objects <;> rw [he, hf] at this <;> cases this
    all_goals first
      | rfl
      | (rename_i h; simp only [Option.map_some, h.keys])

/-- Two stored equations that state the same over quantities of the same names and classes. -/
def EqTwin (w v : World) (r s : ERef) : Prop :=
  ∃ e f, w.es[r]? = some e ∧ v.es[s]? = some f ∧ Spec.SameEqn e f ∧ Option.Rel (DRel (Namesake w v)) e.objects f.objects

theorem Option.Rel.dmono {R S : Ref → Ref → Prop} (h : ∀ r s, R r s → S r s) {a b : Option (Dict String Ref)} (hab : Option.Rel (DRel R) a b) : Option.Rel (DRel S) a b := by
  cases hab with
  | none => exact .none
  | some hab => exact .some (hab.mono h)

theorem EqTwin.mono {w w' v v' : World} (hw : w.Le w') (hv : v.Le v') {r s : ERef} (h : EqTwin w v r s) : EqTwin w' v' r s := by
  obtain ⟨e, f, h1, h2, h3⟩ := h
  exact ⟨e, f, hw.es r e h1, hv.es s f h2, h3.1, Option.Rel.dmono (fun _ _ => .mono hw hv) h3.2⟩

/-- Two attributes that refer to corresponding objects. -/
def AttrTwin (L : Ref → Ref → Prop) : Attr → Attr → Prop
  | .qty r, .qty s => L r s
  | .eqn _, .eqn _ => True
  | _, _ => False

/-- Two models declared alike that have the same declarations so far; `L` relates the quantities their attributes refer to. -/
structure MoTwin (L : Ref → Ref → Prop) (w v : World) (mo no : ModelObj) : Prop where
  name : mo.name = no.name
  body : mo.body.Alike no.body
  inl : mo.inlets = []
  inl' : no.inlets = []
  vars : DRel L mo.vars no.vars
  pars : DRel L mo.pars no.pars
  cons : DRel L mo.cons no.cons
  eqns : DRel (EqTwin w v) mo.eqns no.eqns
  expIn : List.Forall₂ L mo.expIn no.expIn
  expOut : List.Forall₂ L mo.expOut no.expOut
  attrs : DRel (AttrTwin L) mo.attrs no.attrs

theorem AttrTwin.mono {L L' : Ref → Ref → Prop} (hL : ∀ r s, L r s → L' r s) {a b : Attr} (h : AttrTwin L a b) : AttrTwin L' a b := by
  cases a <;> cases b <;> first | exact h | exact hL _ _ h

theorem MoTwin.mono {L L' : Ref → Ref → Prop} {w w' v v' : World} (hL : ∀ r s, L r s → L' r s) (hw : w.Le w') (hv : v.Le v') {mo no : ModelObj}
    (h : MoTwin L w v mo no) : MoTwin L' w' v' mo no :=
  ⟨h.name, h.body, h.inl, h.inl', h.vars.mono hL, h.pars.mono hL, h.cons.mono hL,
    h.eqns.mono fun _ _ => .mono hw hv, h.expIn.imp hL, h.expOut.imp hL, h.attrs.mono fun _ _ => .mono hL⟩

/-- Corresponding quantities agree, and the correspondence is one to one. -/
structure Live (L : Ref → Ref → Prop) (w v : World) : Prop where
  same : ∀ r s, L r s → ∃ q q', w.qs[r]? = some q ∧ v.qs[s]? = some q' ∧ q.Same q'
  right : ∀ r s s', L r s → L r s' → s = s'
  left : ∀ r r' s, L r s → L r' s → r = r'

/-- The quantities belong to the model of that name. -/
def Owns (L : Ref → Ref → Prop) (w : World) (nm : String) : Prop := ∀ r s, L r s → ∃ q, w.qs[r]? = some q ∧ q.owner = nm

theorem Owns.mono {L : Ref → Ref → Prop} {w w' : World} {nm : String} (h : Owns L w nm) (hl : w.Le w') : Owns L w' nm := fun r s hL => by
  obtain ⟨q, h1, h2⟩ := h r s hL
  obtain ⟨q', h3, h4⟩ := hl.qs r q h1
  exact ⟨q', h3, h4.owner.trans h2⟩

/-- The models `m` of one heap and `n` of the other are twins. -/
structure Sim (m n : MRef) (L : Ref → Ref → Prop) (w v : World) : Prop extends Live L w v where
  own : ∀ mo, w.ms[m]? = some mo → Owns L w mo.name
  mo : ∃ mo no, w.ms[m]? = some mo ∧ v.ms[n]? = some no ∧ MoTwin L w v mo no

theorem Sim.own_of {m n : MRef} {L L' : Ref → Ref → Prop} {w v w' : World} (hs : Sim m n L w v) (hl : w.Le w') {mo : ModelObj} (hm : w.ms[m]? = some mo)
    (hL : ∀ r s, L' r s → L r s ∨ ∃ q, w'.qs[r]? = some q ∧ q.owner = mo.name) :
    ∀ mo', w'.ms[m]? = some mo' → Owns L' w' mo'.name := fun mo' hm' r s h => by
  obtain ⟨x, h1, h2⟩ := hl.ms m mo hm
  rw [hm'] at h1; cases h1
  rw [h2.name]
  exact (hL r s h).elim ((hs.own mo hm).mono hl r s) id

theorem Live.namesake {L : Ref → Ref → Prop} {w v : World} (h : Live L w v) {r s : Ref} (hL : L r s) : Namesake w v r s := by
  obtain ⟨q, q', h1, h2, h3⟩ := h.same r s hL
  exact ⟨q, q', h1, h2, h3.name, h3.kind⟩

/-- What a call may change: the model `m`, the quantities in `D`, and what is new; `D'` are the quantities it may change afterwards. -/
structure Step (m : MRef) (D : Ref → Prop) (w w' : World) (D' : Ref → Prop) : Prop where
  le : w.Le w'
  ms : ∀ k, k ≠ m → w'.ms[k]? = w.ms[k]?
  qs : ∀ r, r < w.qs.length → ¬ D r → w'.qs[r]? = w.qs[r]?
  pr : w'.pr = w.pr
  fresh : ∀ r, D' r → D r ∨ w.qs.length ≤ r

theorem Step.refl (m : MRef) (D : Ref → Prop) (w : World) : Step m D w w D := ⟨.refl w, fun _ _ => rfl, fun _ _ _ => rfl, rfl, fun _ h => .inl h⟩

theorem Step.trans {m : MRef} {D D' D'' : Ref → Prop} {w w' w'' : World} (h : Step m D w w' D') (h' : Step m D' w' w'' D'') : Step m D w w'' D'' where
  le := h.le.trans h'.le
  ms := fun k hk => (h'.ms k hk).trans (h.ms k hk)
  qs := fun r hr hd => (h'.qs r (hr.trans_le h.le.len) fun hd' => (h.fresh r hd').elim hd (by omega)).trans (h.qs r hr hd)
  pr := h'.pr.trans h.pr
  fresh := fun r hr => (h'.fresh r hr).elim (h.fresh r) fun h2 => .inr (h.le.len.trans h2)

/-- Two calls made at related heaps: the results are related, and so are the heaps afterwards, over an extended correspondence. -/
def SimAt {α β : Type} (m n : MRef) (L : Ref → Ref → Prop) (w v : World) (R : (Ref → Ref → Prop) → World → World → α → β → Prop) (x : PyM α) (y : PyM β) : Prop :=
  ∃ L' : Ref → Ref → Prop, (∀ r s, L r s → L' r s) ∧ Sim m n L' (x w).2 (y v).2 ∧ Step m (fun r => ∃ s, L r s) w (x w).2 (fun r => ∃ s, L' r s) ∧
    Step n (fun s => ∃ r, L r s) v (y v).2 (fun s => ∃ r, L' r s) ∧ ExSim (R L' (x w).2 (y v).2) (x w).1 (y v).1

section
variable {m n : MRef} {L : Ref → Ref → Prop} {w v : World}

theorem SimAt.bind {α β γ δ : Type} {R : (Ref → Ref → Prop) → World → World → α → β → Prop} {S : (Ref → Ref → Prop) → World → World → γ → δ → Prop}
    {x : PyM α} {y : PyM β} {f : α → PyM γ} {g : β → PyM δ} (hx : SimAt m n L w v R x y)
    (hf : ∀ L' w' v' a b, x w = (.ok a, w') → y v = (.ok b, v') → Sim m n L' w' v' → R L' w' v' a b → SimAt m n L' w' v' S (f a) (g b)) :
    SimAt m n L w v S (x >>= f) (y >>= g) := by
  obtain ⟨L', h1, h2, h3, h4, h5⟩ := hx
  unfold SimAt
  rw [PyM.bind_run, PyM.bind_run]
  cases hxw : x w with
  | mk a w' =>
    cases hyv : y v with
    | mk b v' =>
      rw [hxw, hyv] at h2 h5
      rw [hxw] at h3
      rw [hyv] at h4
      cases a <;> cases b <;> first | exact h5.elim | skip
      · exact ⟨L', h1, h2, h3, h4, h5⟩
      · obtain ⟨L2, g1, g2, g3, g4, g5⟩ := hf L' w' v' _ _ hxw hyv h2 h5
        exact ⟨L2, fun r s h => g1 r s (h1 r s h), g2, h3.trans g3, h4.trans g4, g5⟩

theorem SimAt.pure {α β : Type} {R : (Ref → Ref → Prop) → World → World → α → β → Prop} {a : α} {b : β} (hs : Sim m n L w v) (h : R L w v a b) :
    SimAt m n L w v R (PyM.pure a) (PyM.pure b) := ⟨L, fun _ _ h => h, hs, .refl _ _ _, .refl _ _ _, h⟩

/-- Calls that only read. -/
theorem SimAt.read {α β : Type} {R : (Ref → Ref → Prop) → World → World → α → β → Prop} {x : PyM α} {y : PyM β} (hs : Sim m n L w v) (hx : (x w).2 = w) (hy : (y v).2 = v)
    (h : ExSim (R L w v) (x w).1 (y v).1) : SimAt m n L w v R x y := by
  refine ⟨L, fun _ _ h => h, ?_, ?_, ?_, ?_⟩
  · rw [hx, hy]; exact hs
  · rw [hx]; exact .refl _ _ _
  · rw [hy]; exact .refl _ _ _
  · rw [hx, hy]; exact h

theorem SimAt.mono {α β : Type} {R S : (Ref → Ref → Prop) → World → World → α → β → Prop} {x : PyM α} {y : PyM β} (h : SimAt m n L w v R x y)
    (hR : ∀ L' w' v' a b, R L' w' v' a b → S L' w' v' a b) : SimAt m n L w v S x y := by
  obtain ⟨L', h1, h2, h3, h4, h5⟩ := h
  exact ⟨L', h1, h2, h3, h4, h5.mono fun _ _ => hR _ _ _ _ _⟩

/-! ## Creating quantities -/

/-- The correspondence with the two new objects. -/
def Enlarged (L : Ref → Ref → Prop) (w v : World) (r s : Ref) : Prop := L r s ∨ r = w.qs.length ∧ s = v.qs.length

theorem Live.lt {L : Ref → Ref → Prop} {w v : World} (h : Live L w v) {r s : Ref} (hL : L r s) : r < w.qs.length ∧ s < v.qs.length := by
  obtain ⟨q, q', h1, h2, _⟩ := h.same r s hL
  exact ⟨(List.getElem?_eq_some_iff.mp h1).1, (List.getElem?_eq_some_iff.mp h2).1⟩

theorem Live.grow {L : Ref → Ref → Prop} {w v w' v' : World} (h : Live L w v) {q q' : Quantity} (hq : q.Same q') (hw : w'.qs = w.qs ++ [q]) (hv : v'.qs = v.qs ++ [q']) :
    Live (Enlarged L w v) w' v' where
  same := by
    rintro r s (hL | ⟨rfl, rfl⟩)
    · obtain ⟨a, b, h1, h2, h3⟩ := h.same r s hL
      have := h.lt hL
      exact ⟨a, b, by rw [hw, List.getElem?_append_left this.1, h1], by rw [hv, List.getElem?_append_left this.2, h2], h3⟩
    · exact ⟨q, q', by simp [hw], by simp [hv], hq⟩
  right := by
    rintro r s s' (h1 | ⟨h1, h1'⟩) (h2 | ⟨h2, h2'⟩)
    · exact h.right r s s' h1 h2
    · exact absurd (h.lt h1).1 (h2 ▸ Nat.lt_irrefl _)
    · exact absurd (h.lt h2).1 (h1 ▸ Nat.lt_irrefl _)
    · rw [h1', h2']
  left := by
    rintro r r' s (h1 | ⟨h1, h1'⟩) (h2 | ⟨h2, h2'⟩)
    · exact h.left r r' s h1 h2
    · exact absurd (h.lt h1).2 (h2' ▸ Nat.lt_irrefl _)
    · exact absurd (h.lt h2).2 (h1' ▸ Nat.lt_irrefl _)
    · rw [h1, h2]

theorem Step.addQ {D : Ref → Prop} {w : World} {m : MRef} {mo mo' : ModelObj} (q : Quantity) (h : w.ms[m]? = some mo) (hl : mo.Le w.qs.length mo') {D' : Ref → Prop}
    (hD : ∀ r, D' r → D r ∨ w.qs.length ≤ r) : Step m D w ((w.addQ q).withM m mo') D' where
  le := .addQ_withM q h hl
  ms := fun k hk => by simp only [World.withM, World.addQ]; rw [List.getElem?_set_ne (Ne.symm hk)]
  qs := fun r hr _ => by simp only [World.withM, World.addQ]; rw [List.getElem?_append_left hr]
  pr := rfl
  fresh := hD

/-- A new quantity stored in both models. -/
theorem Sim.addQ (hs : Sim m n L w v) {mo no mo' no' : ModelObj} (hm : w.ms[m]? = some mo) (hn : v.ms[n]? = some no) {q q' : Quantity} (hq : q.Same q')
    (ho : q.owner = mo.name) (hl : mo.Le w.qs.length mo') (hl' : no.Le v.qs.length no')
    (ht : Enlarged L w v w.qs.length v.qs.length →
      MoTwin (Enlarged L w v) ((w.addQ q).withM m mo') ((v.addQ q').withM n no') mo no →
      MoTwin (Enlarged L w v) ((w.addQ q).withM m mo') ((v.addQ q').withM n no') mo' no') :
    Sim m n (Enlarged L w v) ((w.addQ q).withM m mo') ((v.addQ q').withM n no') ∧
    Step m (fun r => ∃ s, L r s) w ((w.addQ q).withM m mo') (fun r => ∃ s, Enlarged L w v r s) ∧
    Step n (fun s => ∃ r, L r s) v ((v.addQ q').withM n no') (fun s => ∃ r, Enlarged L w v r s) := by
  obtain ⟨mo0, no0, h1, h2, h3⟩ := hs.mo
  rw [hm] at h1; cases h1
  rw [hn] at h2; cases h2
  have hw : w.Le ((w.addQ q).withM m mo') := .addQ_withM q hm hl
  have hv : v.Le ((v.addQ q').withM n no') := .addQ_withM q' hn hl'
  refine ⟨⟨hs.toLive.grow hq rfl rfl, hs.own_of hw hm ?_, mo', no', withM_getM (w := w.addQ q) hm mo', withM_getM (w := v.addQ q') hn no',
    ht (.inr ⟨rfl, rfl⟩) (h3.mono (fun _ _ h => .inl h) hw hv)⟩, .addQ q hm hl ?_, .addQ q' hn hl' ?_⟩
  · rintro r s (h | ⟨rfl, -⟩)
    · exact .inl h
    · exact .inr ⟨q, by simp [World.withM, World.addQ], ho⟩
  · rintro r ⟨s, h | ⟨rfl, _⟩⟩
    · exact .inl ⟨s, h⟩
    · exact .inr (le_refl _)
  · rintro s ⟨r, h | ⟨_, rfl⟩⟩
    · exact .inl ⟨r, h⟩
    · exact .inr (le_refl _)

theorem VarArgs.same {a b : VarArgs} {o o' : String} (ho : o = o') (hn : a.name = b.name) (hu : a.units = b.units) (he : a.exposed = b.exposed) (ht : a.vtype = b.vtype)
    (hv : a.value = b.value) : (a.quantity o).Same (b.quantity o') := by
  subst ho
  constructor <;> simp only [VarArgs.quantity, mkVariable, hn, hu, he, ht, hv]

theorem ParArgs.same_parameter {a b : ParArgs} {o o' : String} (ho : o = o') (hn : a.name = b.name) (hu : a.units = b.units) (hv : a.value = b.value) :
    (a.parameter o).Same (b.parameter o') := by
  subst ho
  constructor <;> simp only [ParArgs.parameter, mkParameter, hn, hu, hv]

theorem ParArgs.same_constant {a b : ParArgs} {o o' : String} (ho : o = o') (hn : a.name = b.name) (hu : a.units = b.units) (hv : a.value = b.value) :
    (a.constant o).Same (b.constant o') := by
  subst ho
  constructor <;> simp only [ParArgs.constant, mkConstant, hn, hu, hv]

theorem MoTwin.exposeAs {L : Ref → Ref → Prop} {w v : World} {mo no : ModelObj} (h : MoTwin L w v mo no) {a b : VarArgs} (he : a.exposed = b.exposed)
    (ht : a.vtype = b.vtype) {r s : Ref} (hr : L r s) : MoTwin L w v (mo.exposeAs a r) (no.exposeAs b s) := by
  unfold ModelObj.exposeAs
  rw [he, ht]
  split_ifs
  · exact { h with expIn := List.rel_append h.expIn (.cons hr .nil) }
  · exact { h with expOut := List.rel_append h.expOut (.cons hr .nil) }
  · exact h

theorem MoTwin.storeVar {L : Ref → Ref → Prop} {w v : World} {mo no : ModelObj} (h : MoTwin L w v mo no) {k k' : String} (hk : k = k') {r s : Ref} (hr : L r s) :
    MoTwin L w v (mo.storeVar k r) (no.storeVar k' s) := by
  subst hk
  exact { h with vars := h.vars.dset k hr }
theorem MoTwin.storePar {L : Ref → Ref → Prop} {w v : World} {mo no : ModelObj} (h : MoTwin L w v mo no) {k k' : String} (hk : k = k') {r s : Ref} (hr : L r s) :
    MoTwin L w v (mo.storePar k r) (no.storePar k' s) := by
  subst hk
  exact { h with pars := h.pars.dset k hr }
theorem MoTwin.storeCon {L : Ref → Ref → Prop} {w v : World} {mo no : ModelObj} (h : MoTwin L w v mo no) {k k' : String} (hk : k = k') {r s : Ref} (hr : L r s) :
    MoTwin L w v (mo.storeCon k r) (no.storeCon k' s) := by
  subst hk
  exact { h with cons := h.cons.dset k hr }

/-- Results that are corresponding references. -/
abbrev RefR : (Ref → Ref → Prop) → World → World → Ref → Ref → Prop := fun L _ _ r s => L r s

theorem Sim.createVariable (hs : Sim m n L w v) {a b : VarArgs} (hn : a.name = b.name) (hu : a.units = b.units) (he : a.exposed = b.exposed) (ht : a.vtype = b.vtype)
    (hv : a.value = b.value) : SimAt m n L w v RefR (createVariable m a) (createVariable n b) := by
  obtain ⟨mo, no, h1, h2, h3⟩ := hs.mo
  have hq := VarArgs.same (a := a) (b := b) h3.name hn hu he ht hv
  unfold SimAt
  rw [createVariable_run h1, createVariable_run h2]
  have := hs.addQ h1 h2 hq rfl (mo' := (mo.storeVar (a.quantity mo.name).name w.qs.length).exposeAs a w.qs.length)
    (no' := (no.storeVar (b.quantity no.name).name v.qs.length).exposeAs b v.qs.length) (.exposeAs mo _ a _) (.exposeAs no _ b _) fun g2 g3 =>
      (g3.storeVar hq.name g2).exposeAs he ht g2
  refine ⟨Enlarged L w v, fun _ _ h => .inl h, this.1, this.2.1, this.2.2, ?_⟩
  rw [he, ht]
  dsimp only
  split
  · exact rfl
  · exact .inr ⟨rfl, rfl⟩

theorem Sim.createParameter (hs : Sim m n L w v) {a b : ParArgs} (hn : a.name = b.name) (hu : a.units = b.units)
    (hv : a.value = b.value) : SimAt m n L w v RefR (createParameter m a) (createParameter n b) := by
  obtain ⟨mo, no, h1, h2, h3⟩ := hs.mo
  have hq := ParArgs.same_parameter (a := a) (b := b) h3.name hn hu hv
  unfold SimAt
  rw [createParameter_run h1, createParameter_run h2]
  have := hs.addQ h1 h2 hq rfl (mo' := mo.storePar (a.parameter mo.name).name w.qs.length)
    (no' := no.storePar (b.parameter no.name).name v.qs.length) (.storePar _ mo _ _ mo.attrs) (.storePar _ no _ _ no.attrs) fun g2 g3 =>
      g3.storePar hq.name g2
  exact ⟨Enlarged L w v, fun _ _ h => .inl h, this.1, this.2.1, this.2.2, .inr ⟨rfl, rfl⟩⟩

theorem Sim.createConstant (hs : Sim m n L w v) {a b : ParArgs} (hn : a.name = b.name) (hu : a.units = b.units)
    (hv : a.value = b.value) : SimAt m n L w v RefR (createConstant m a) (createConstant n b) := by
  obtain ⟨mo, no, h1, h2, h3⟩ := hs.mo
  have hq := ParArgs.same_constant (a := a) (b := b) h3.name hn hu hv
  unfold SimAt
  rw [createConstant_run h1, createConstant_run h2]
  have := hs.addQ h1 h2 hq rfl (mo' := mo.storeCon (a.constant mo.name).name w.qs.length)
    (no' := no.storeCon (b.constant no.name).name v.qs.length) (.storeCon _ mo _ _ mo.attrs) (.storeCon _ no _ _ no.attrs) fun g2 g3 =>
      g3.storeCon hq.name g2
  exact ⟨Enlarged L w v, fun _ _ h => .inl h, this.1, this.2.1, this.2.2, .inr ⟨rfl, rfl⟩⟩

/-! ## Attributes -/

theorem Live.of_qs {w' v' : World} (h : Live L w v) (hw : w'.qs = w.qs) (hv : v'.qs = v.qs) : Live L w' v' := ⟨by rw [hw, hv]; exact h.same, h.right, h.left⟩

theorem Step.withM {D : Ref → Prop} {mo mo' : ModelObj} (h : w.ms[m]? = some mo) (hl : mo.Le w.qs.length mo') : Step m D w (w.withM m mo') D where
  le := .withM h hl
  ms := fun k hk => by simp only [World.withM]; rw [List.getElem?_set_ne (Ne.symm hk)]
  qs := fun _ _ _ => rfl
  pr := rfl
  fresh := fun _ h => .inl h

abbrev AnyR {α β : Type} : (Ref → Ref → Prop) → World → World → α → β → Prop := fun _ _ _ _ _ => True
abbrev UnitR : (Ref → Ref → Prop) → World → World → Unit → Unit → Prop := fun _ _ _ _ _ => True

theorem Sim.setAttr (hs : Sim m n L w v) (attr : String) {a b : Attr} (h : AttrTwin L a b) : SimAt m n L w v UnitR (setAttr m attr a) (setAttr n attr b) := by
  obtain ⟨mo, no, h1, h2, h3⟩ := hs.mo
  unfold SimAt
  rw [setAttr_run h1, setAttr_run h2]
  have hl : mo.Le w.qs.length { mo with attrs := dset mo.attrs attr a } := { ModelObj.Le.refl _ mo with }
  have hl' : no.Le v.qs.length { no with attrs := dset no.attrs attr b } := { ModelObj.Le.refl _ no with }
  have g := h3.mono (L' := L) (fun _ _ h => h) (World.Le.withM h1 hl) (World.Le.withM h2 hl')
  exact ⟨L, fun _ _ h => h, ⟨hs.toLive.of_qs rfl rfl, hs.own_of (World.Le.withM h1 hl) h1 fun _ _ => .inl, _, _, withM_getM h1 _, withM_getM h2 _,
    { g with attrs := g.attrs.dset attr h }⟩, .withM h1 hl, .withM h2 hl', trivial⟩

/-! ## Reading -/

theorem Sim.lookup (hs : Sim m n L w v) {p : APath} (hp : p.model = none) : ExSim (Seen L) (w.lookup m p) (v.lookup n p) := by
  obtain ⟨mo, no, h1, h2, h3⟩ := hs.mo
  unfold World.lookup
  rw [hp, Option.getD_none, Option.getD_none, h1, h2]
  have := h3.attrs.dget p.attr
  cases hd : dget mo.attrs p.attr with
  | none =>
    rw [hd] at this; cases hd' : dget no.attrs p.attr with
    | none => simp only [hd, hd']; exact rfl
    | some b => rw [hd'] at this; cases this
  | some a =>
    rw [hd] at this
    cases hd' : dget no.attrs p.attr with
    | none => rw [hd'] at this; cases this
    | some b =>
      rw [hd'] at this
      cases this with | some this =>
      cases a <;> cases b <;> first | exact this.elim | skip
      · obtain ⟨q, q', g1, g2, g3⟩ := hs.same _ _ this
        simp only [hd, hd', g1, g2]
        exact ⟨this, g3⟩
      · simp only [hd, hd']; exact rfl

theorem Sim.lookupM (hs : Sim m n L w v) {p : APath} (hp : p.model = none) : SimAt m n L w v (fun L' _ _ => Seen L') (lookupM m p) (lookupM n p) :=
  .read hs rfl rfl (hs.lookup hp)

theorem Sim.toPy (hs : Sim m n L w v) {e : AExpr} (he : e.own) : ExSim (PyExpr.Twin L) (e.toPy w m) (e.toPy v n) := by
  induction e with
  | q p => exact (hs.lookup he).bind fun _ _ h => .q h
  | bin op a b iha ihb => exact (iha he.1).bind fun _ _ h => (ihb he.2).bind fun _ _ h' => .bin op h h'
  | binN op a k ih => exact (ih he).bind fun _ _ h => .binN op k h
  | nbin op k a ih => exact (ih he).bind fun _ _ h => .nbin op k h
  | fn f a ih => exact (ih he).bind fun _ _ h => .fn f h
  | mmN k a q ih => exact (ih he).bind fun _ _ h => .mmN k q h
  | diff x t =>
    cases t with
    | none => exact (hs.lookup he).bind fun _ _ h => .diff h
    | some t => exact (hs.lookup he.1).bind fun _ _ h => (hs.lookup he.2).bind fun _ _ h' => .diffBy h h'

theorem Sim.toStmt (hs : Sim m n L w v) {st : AStmt} (h : st.own) : ExSim (Stmt.Twin L) (st.toStmt w m) (st.toStmt v n) := by
  cases st with
  | eqn l r => exact (hs.toPy h.1).bind fun _ _ h1 => (hs.toPy h.2).bind fun _ _ h2 => .eqn h1 h2
  | eqnNum l q => exact (hs.toPy h).bind fun _ _ h1 => .eqnNum q h1
  | res e => exact (hs.toPy h).bind fun _ _ h1 => .res h1

theorem Sim.eval (hs : Sim m n L w v) {st : AStmt} (h : st.own) : SimAt m n L w v (fun L' _ _ => ResArg.Twin L') (st.eval m) (st.eval n) :=
  .read hs rfl rfl ((hs.toStmt h).bind fun _ _ g => g.arg)

theorem Sim.aval (hs : Sim m n L w v) {a : AVal} (h : a.own) : SimAt m n L w v (fun _ _ _ => Quantity.Same.Arg) (a.eval m) (a.eval n) := by
  cases a with
  | float x => exact .pure hs (.float x)
  | int x => exact .pure hs (.int x)
  | qty p => exact (hs.lookupM h).bind fun _ _ _ _ _ _ _ h' hr => .pure h' (.qty hr.2)
  | other => exact .pure hs .other

/-! ## Values -/

theorem Sim.setQ (hs : Sim m n L w v) {r s : Ref} (hL : L r s) {q q' p p' : Quantity} (hq : w.qs[r]? = some q) (hq' : v.qs[s]? = some q') (hp : p.Same p')
    (hl : q.Le p) (hl' : q'.Le p') : Sim m n L { w with qs := w.qs.set r p } { v with qs := v.qs.set s p' } ∧
      Step m (fun r => ∃ s, L r s) w { w with qs := w.qs.set r p } (fun r => ∃ s, L r s) ∧
      Step n (fun s => ∃ r, L r s) v { v with qs := v.qs.set s p' } (fun s => ∃ r, L r s) := by
  obtain ⟨mo, no, h1, h2, h3⟩ := hs.mo
  have hw : w.Le { w with qs := w.qs.set r p } := .setQ hq hl
  have hv : v.Le { v with qs := v.qs.set s p' } := .setQ hq' hl'
  refine ⟨⟨⟨?_, hs.right, hs.left⟩, hs.own_of hw h1 fun _ _ => .inl, mo, no, h1, h2, h3.mono (fun _ _ h => h) hw hv⟩,
    ⟨hw, fun _ _ => rfl, fun k _ hk => ?_, rfl, fun _ h => .inl h⟩, ⟨hv, fun _ _ => rfl, fun k _ hk => ?_, rfl, fun _ h => .inl h⟩⟩
  · intro a b hab
    have hlt := hs.toLive.lt hL
    by_cases ha : a = r
    · subst ha
      rw [hs.right _ _ _ hab hL]
      exact ⟨p, p', by simp [hlt.1], by simp [hlt.2], hp⟩
    · have hb : b ≠ s := fun hb => ha (hs.left _ _ _ hab (hb ▸ hL))
      obtain ⟨x, y, g1, g2, g3⟩ := hs.same a b hab
      exact ⟨x, y, by simp only; rw [List.getElem?_set_ne (Ne.symm ha), g1], by simp only; rw [List.getElem?_set_ne (Ne.symm hb), g2], g3⟩
  · have : r ≠ k := fun h => hk ⟨s, h ▸ hL⟩
    simp only; rw [List.getElem?_set_ne this]
  · have : s ≠ k := fun h => hk ⟨r, h ▸ hL⟩
    simp only; rw [List.getElem?_set_ne this]

theorem Sim.setValueM (hs : Sim m n L w v) {r s : Ref} (hL : L r s) {a b : SVArg} (hab : Quantity.Same.Arg a b) (u : Option UnitObj) :
    SimAt m n L w v UnitR (setValueM r a u) (setValueM s b u) := by
  obtain ⟨q, q', hq, hq', hsame⟩ := hs.same r s hL
  have := hsame.setValue u hab
  unfold SimAt Sloth.setValueM
  rw [PyM.bind_of_ok (getQ_of hq), PyM.bind_of_ok (getQ_of hq')]
  cases h1 : q.setValue a u with
  | error e =>
    rw [h1] at this
    cases h2 : q'.setValue b u with
    | error e' =>
      rw [h2] at this
      exact ⟨L, fun _ _ h => h, hs, .refl _ _ _, .refl _ _ _, this⟩
    | ok p' => rw [h2] at this; exact this.elim
  | ok p =>
    rw [h1] at this
    cases h2 : q'.setValue b u with
    | error e' => rw [h2] at this; exact this.elim
    | ok p' =>
      rw [h2] at this
      obtain ⟨g1, g2, g3⟩ := hs.setQ hL hq hq' this (setValue_le h1) (setValue_le h2)
      exact ⟨L, fun _ _ h => h, g1, g2, g3, trivial⟩

theorem Sim.distributeM (hs : Sim m n L w v) {r s : Ref} (hL : L r s) : SimAt m n L w v UnitR (distributeM r) (distributeM s) := by
  obtain ⟨q, q', hq, hq', hsame⟩ := hs.same r s hL
  unfold SimAt Sloth.distributeM
  rw [PyM.bind_of_ok (getQ_of hq), PyM.bind_of_ok (getQ_of hq')]
  obtain ⟨g1, g2, g3⟩ := hs.setQ hL hq hq' (p := { q with hasDomain := true }) (p' := { q' with hasDomain := true })
    (by constructor <;> first | rfl | exact hsame.name | exact hsame.kind | exact hsame.units | exact hsame.value | exact hsame.isSpecified | exact hsame.owner | exact hsame.isExposed | exact hsame.vtype)
    ⟨rfl, id, fun _ => rfl⟩ ⟨rfl, id, fun _ => rfl⟩
  exact ⟨L, fun _ _ h => h, g1, g2, g3, trivial⟩

/-! ## Equations -/

theorem Sim.withUid (hs : Sim m n L w v) (u u' : Uid) : Sim m n L (w.withUid u) (v.withUid u') ∧
    Step m (fun r => ∃ s, L r s) w (w.withUid u) (fun r => ∃ s, L r s) ∧ Step n (fun s => ∃ r, L r s) v (v.withUid u') (fun s => ∃ r, L r s) := by
  obtain ⟨mo, no, h1, h2, h3⟩ := hs.mo
  exact ⟨⟨hs.toLive.of_qs rfl rfl, hs.own_of (.withUid w u) h1 fun _ _ => .inl, mo, no, h1, h2, h3.mono (fun _ _ h => h) (.withUid w u) (.withUid v u')⟩,
    ⟨.withUid w u, fun _ _ => rfl, fun _ _ _ => rfl, rfl, fun _ h => .inl h⟩, ⟨.withUid v u', fun _ _ => rfl, fun _ _ _ => rfl, rfl, fun _ h => .inl h⟩⟩

theorem Sim.tagIf (hs : Sim m n L w v) (b c : Bool) : SimAt m n L w v (fun _ _ _ _ _ => True) (tagIf b) (tagIf c) := by
  obtain ⟨t, u, h⟩ := tagIf_run b w
  obtain ⟨t', u', h'⟩ := tagIf_run c v
  unfold SimAt
  rw [h, h']
  obtain ⟨g1, g2, g3⟩ := hs.withUid u u'
  exact ⟨L, fun _ _ h => h, g1, g2, g3, trivial⟩

theorem EqObj.Twin.rename {β : Ref → Ref → Prop} {e f : EqObj} (h : e.Twin β f) {a b : String} (hab : a = b) : ({ e with name := a } : EqObj).Twin β { f with name := b } := by
  constructor <;> first | exact hab | exact h.owner | exact h.form | exact h.type | exact h.rhsPy | exact h.expr | exact h.elem | exact h.objects

theorem MoTwin.checkEquation {mo no : ModelObj} (h : MoTwin L w v mo no) {β : Ref → Ref → Prop} {e f : EqObj} (he : e.Twin β f) :
    ExSim (fun _ _ => True) (mo.checkEquation e) (no.checkEquation f) := by
  unfold ModelObj.checkEquation
  have hd : mo.declared = no.declared := by simp only [ModelObj.declared, h.vars.keys, h.pars.keys, h.cons.keys]
  have := he.objects
  cases h1 : e.objects with
  | none =>
    rw [h1] at this
    cases h2 : f.objects with
    | none => exact rfl
    | some d => rw [h2] at this; cases this
  | some d =>
    rw [h1] at this
    cases h2 : f.objects with
    | none => rw [h2] at this; cases this
    | some d' =>
      rw [h2] at this
      cases this with | some this =>
      rw [hd]
      dsimp only
      rw [this.keys]
      split
      · trivial
      · rfl

theorem Sim.newEqn (hs : Sim m n L w v) {mo no : ModelObj} (h1 : w.ms[m]? = some mo) (h2 : v.ms[n]? = some no) {e f : EqObj} (he : e.Twin (Namesake w v) f) :
    SimAt m n L w v AnyR (newE e >>= fun r => setM m { mo with eqns := dset mo.eqns e.name r } >>= fun _ => PyM.pure r)
      (newE f >>= fun r => setM n { no with eqns := dset no.eqns f.name r } >>= fun _ => PyM.pure r) := by
  obtain ⟨mo0, no0, g1, g2, h3⟩ := hs.mo
  rw [h1] at g1; cases g1
  rw [h2] at g2; cases g2
  have hw : w.Le ((w.addE e).withM m (mo.storeEqn e.name w.es.length)) := by
    have := World.Le.addE_withM (mo' := mo.storeEqn e.name w.es.length) e w.uid h1 (.storeEqn _ mo _ _ mo.attrs)
    exact this
  have hv : v.Le ((v.addE f).withM n (no.storeEqn f.name v.es.length)) := by
    have := World.Le.addE_withM (mo' := no.storeEqn f.name v.es.length) f v.uid h2 (.storeEqn _ no _ _ no.attrs)
    exact this
  have g := h3.mono (L' := L) (fun _ _ h => h) hw hv
  have ht : EqTwin ((w.addE e).withM m (mo.storeEqn e.name w.es.length)) ((v.addE f).withM n (no.storeEqn f.name v.es.length)) w.es.length v.es.length :=
    ⟨e, f, by simp [World.withM, World.addE], by simp [World.withM, World.addE], he.sameEqn, (he.mono fun _ _ => .mono hw hv).objects⟩
  refine ⟨L, fun _ _ h => h, ⟨hs.toLive.of_qs rfl rfl, hs.own_of hw h1 fun _ _ => .inl, mo.storeEqn e.name w.es.length, no.storeEqn f.name v.es.length, withM_getM (w := w.addE e) h1 _,
    withM_getM (w := v.addE f) h2 _, { g with eqns := ?_ }⟩,
    ⟨hw, fun k hk => ?_, fun _ _ _ => rfl, rfl, fun _ h => .inl h⟩, ⟨hv, fun k hk => ?_, fun _ _ _ => rfl, rfl, fun _ h => .inl h⟩, trivial⟩
  · have := g.eqns.dset e.name ht
    simp only [ModelObj.storeEqn]; rw [← he.name]; exact this
  · change (w.ms.set m _)[k]? = _
    rw [List.getElem?_set_ne (Ne.symm hk)]
  · change (v.ms.set n _)[k]? = _
    rw [List.getElem?_set_ne (Ne.symm hk)]

theorem ExSim.cases {α β : Type} {R : α → β → Prop} {x : Except Err α} {y : Except Err β} (h : ExSim R x y) :
    (∃ e, x = .error e ∧ y = .error e) ∨ ∃ a b, x = .ok a ∧ y = .ok b ∧ R a b := by
  cases x <;> cases y <;> first | exact h.elim | skip
  · cases (show _ = _ from h); exact .inl ⟨_, rfl, rfl⟩
  · exact .inr ⟨_, _, rfl, rfl, h⟩

theorem Sim.fail {α β : Type} {R : (Ref → Ref → Prop) → World → World → α → β → Prop} (hs : Sim m n L w v) (e : Err) :
    SimAt m n L w v R (raise e : PyM α) (raise e : PyM β) := ⟨L, fun _ _ h => h, hs, .refl _ _ _, .refl _ _ _, rfl⟩

theorem SimAt.lift {α β γ δ : Type} {R : α → β → Prop} {S : (Ref → Ref → Prop) → World → World → γ → δ → Prop} (hs : Sim m n L w v) {x : Except Err α} {y : Except Err β}
    (h : ExSim R x y) {f : α → PyM γ} {g : β → PyM δ} (hf : ∀ a b, x = .ok a → y = .ok b → R a b → SimAt m n L w v S (f a) (g b)) :
    SimAt m n L w v S (PyM.lift x >>= f) (PyM.lift y >>= g) := by
  rcases h.cases with ⟨e, rfl, rfl⟩ | ⟨a, b, rfl, rfl, hr⟩
  · exact hs.fail e
  · exact hf a b rfl rfl hr

theorem Sim.createEquation (hs : Sim m n L w v) {name : String} (hn : name ≠ "") (d d' : String) {a b : ResArg} (h : a.Twin L b) (ck : Bool) :
    SimAt m n L w v AnyR (createEquation m name d (some a) ck) (createEquation n name d' (some b) ck) := by
  obtain ⟨mo, no, h1, h2, h3⟩ := hs.mo
  unfold Sloth.createEquation
  obtain ⟨t, u, ht⟩ := tagIf_run (name == "") w
  obtain ⟨t', u', ht'⟩ := tagIf_run (name == "") v
  obtain ⟨s, x, hx⟩ := tagIf_run (ResArg.needsTag (some a)) (w.withUid u)
  obtain ⟨s', x', hx'⟩ := tagIf_run (ResArg.needsTag (some b)) (v.withUid u')
  obtain ⟨g1, g2, g3⟩ := hs.withUid x x'
  have hb : a.Twin (Namesake w v) b := by
    cases h with
    | eqn h h' => exact .eqn (h.mono fun _ _ => hs.toLive.namesake) (h'.mono fun _ _ => hs.toLive.namesake)
    | eqnNum q h => exact .eqnNum q (h.mono fun _ _ => hs.toLive.namesake)
    | node h => exact .node (h.mono fun _ _ => hs.toLive.namesake)
    | eqnOther h => exact .eqnOther (h.mono fun _ _ => hs.toLive.namesake)
    | other => exact .other
  suffices key : SimAt m n L (w.withUid x) (v.withUid x') AnyR
      (PyM.lift (EqObj.init t s name d (some a) mo.name) >>= fun e => PyM.lift ({ e with name := e.name ++ "_" ++ mo.name } : EqObj).sweep >>= fun e =>
        PyM.when ck (PyM.lift (mo.checkEquation e)) >>= fun _ => newE e >>= fun r => setM m { mo with eqns := dset mo.eqns e.name r } >>= fun _ => PyM.pure r)
      (PyM.lift (EqObj.init t' s' name d' (some b) no.name) >>= fun e => PyM.lift ({ e with name := e.name ++ "_" ++ no.name } : EqObj).sweep >>= fun e =>
        PyM.when ck (PyM.lift (no.checkEquation e)) >>= fun _ => newE e >>= fun r => setM n { no with eqns := dset no.eqns e.name r } >>= fun _ => PyM.pure r) by
    obtain ⟨L', k1, k2, k3, k4, k5⟩ := key
    unfold SimAt
    rw [PyM.bind_of_ok (getM_of h1), PyM.bind_of_ok (getM_of h2), PyM.bind_of_ok ht, PyM.bind_of_ok ht', PyM.bind_of_ok hx, PyM.bind_of_ok hx']
    exact ⟨L', k1, k2, g2.trans k3, g3.trans k4, k5⟩
  have hi := EqObj.Twin.init t t' s s' name d d' no.name hn hb
  have hi' : ExSim (EqObj.Twin (Namesake w v)) (EqObj.init t s name d (some a) mo.name) (EqObj.init t' s' name d' (some b) no.name) := by rw [h3.name]; exact hi
  refine .lift g1 hi' fun e f _ _ hef => ?_
  refine .lift g1 (hef.rename (by rw [hef.name, h3.name])).sweep fun e f _ _ hef => ?_
  have hlast := g1.newEqn h1 h2 hef
  cases ck with
  | false => exact hlast
  | true => exact .lift g1 (h3.checkEquation hef) fun _ _ _ _ _ => hlast

/-! ## Statements and calls -/

theorem Sim.run (hs : Sim m n L w v) {c d : Cmd} (h : c.Alike d) : SimAt m n L w v UnitR (c.run m) (d.run n) := by
  cases h with
  | var attr hn hu he ht hv => exact (hs.createVariable hn hu he ht hv).bind fun _ _ _ _ _ _ _ h' hr => h'.setAttr attr hr
  | par attr hn hu hv => exact (hs.createParameter hn hu hv).bind fun _ _ _ _ _ _ _ h' hr => h'.setAttr attr hr
  | con attr hn hu hv => exact (hs.createConstant hn hu hv).bind fun _ _ _ _ _ _ _ h' hr => h'.setAttr attr hr
  | eqn attr d d' ck hn hst => exact (hs.eval hst).bind fun _ _ _ _ _ _ _ h' hr => (h'.createEquation hn d d' hr ck).bind fun _ _ _ _ _ _ _ h'' _ => h''.setAttr attr trivial
  | setValue u hp hv =>
    refine (hs.lookupM hp).bind fun L' w' v' x y hx hy h' hr => ?_
    refine (SimAt.bind (R := fun L'' _ _ a b => L'' x.1 y.1 ∧ Quantity.Same.Arg a b) ?_ fun _ _ _ _ _ _ _ h'' hr' => h''.setValueM hr'.1 hr'.2 u)
    obtain ⟨L2, k1, k2, k3, k4, k5⟩ := h'.aval hv
    exact ⟨L2, k1, k2, k3, k4, k5.mono fun _ _ h => ⟨k1 _ _ hr.1, h⟩⟩
  | distribute hp => exact (hs.lookupM hp).bind fun _ _ _ _ _ _ _ h' hr => h'.distributeM hr.1
  | fail e => exact hs.fail e

theorem Sim.each (hs : Sim m n L w v) {l k : List Cmd} (h : List.Forall₂ Cmd.Alike l k) : SimAt m n L w v UnitR (PyM.each l (Cmd.run m)) (PyM.each k (Cmd.run n)) := by
  induction h generalizing L w v with
  | nil => exact .pure hs trivial
  | cons h _ ih => exact (hs.run h).bind fun _ _ _ _ _ _ _ h' _ => ih h'

theorem Sim.getM (hs : Sim m n L w v) : SimAt m n L w v (fun L' w' v' => MoTwin L' w' v') (getM m) (getM n) := by
  obtain ⟨mo, no, h1, h2, h3⟩ := hs.mo
  refine .read hs ?_ ?_ ?_ <;> simp only [getM_of h1, getM_of h2]
  exact h3

/-- Calling twins gives twins, or the same exception. -/
theorem Sim.call (hs : Sim m n L w v) : SimAt m n L w v UnitR (Model.call m) (Model.call n) := by
  refine hs.getM.bind fun _ _ _ mo no _ _ hs hm => ?_
  have hb := hm.body
  clear hm
  refine (hs.each hb.cons).bind fun _ _ _ _ _ _ _ hs _ => (hs.each hb.pars).bind fun _ _ _ _ _ _ _ hs _ => (hs.each hb.vars).bind fun _ _ _ _ _ _ _ hs _ => ?_
  refine hs.getM.bind fun _ _ _ mo' no' _ _ hs hm => ?_
  rw [hm.inl, hm.inl']
  exact hs.each hm.body.eqns

end
end Sloth
