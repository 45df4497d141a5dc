import Verif.Model.Model
import Verif.Lemmas.Py
import Mathlib.Data.List.Forall2

/-!
# The same declarations over other objects

Two expressions or equations are twins when they read alike except for the identity of the objects and for texts that are only printed.
-/

namespace Sloth

/-! ## Results -/

/-- Both return something related, or both raise the same exception. -/
def ExSim {α β : Type} (R : α → β → Prop) : Except Err α → Except Err β → Prop
  | .ok a, .ok b => R a b
  | .error e, .error e' => e = e'
  | _, _ => False

namespace ExSim
variable {α β γ δ : Type} {R : α → β → Prop} {S : γ → δ → Prop}

theorem bind {x : Except Err α} {y : Except Err β} {f : α → Except Err γ} {g : β → Except Err δ} (h : ExSim R x y)
    (hf : ∀ a b, R a b → ExSim S (f a) (g b)) : ExSim S (x >>= f) (y >>= g) := by
  cases x <;> cases y <;> first | exact h.elim | skip
  · exact h
  · exact hf _ _ h

theorem same {x : Except Err α} {f : α → Except Err γ} {g : α → Except Err δ} (hf : ∀ a, ExSim S (f a) (g a)) : ExSim S (x >>= f) (x >>= g) := by
  cases x
  · rfl
  · exact hf _

theorem mono {R' : α → β → Prop} {x : Except Err α} {y : Except Err β} (h : ExSim R x y) (hR : ∀ a b, R a b → R' a b) : ExSim R' x y := by
  cases x <;> cases y <;> first | exact h.elim | skip
  · exact h
  · exact hR _ _ h

theorem ok_left {a : α} {y : Except Err β} (h : ExSim R (.ok a) y) : ∃ b, y = .ok b ∧ R a b := by
  cases y with
  | error => exact h.elim
  | ok b => exact ⟨b, rfl, h⟩

end ExSim

/-! ## Dictionaries -/

/-- The same keys in the same order, and related values. -/
def DRel {α β : Type} (R : α → β → Prop) (d : Dict String α) (e : Dict String β) : Prop := List.Forall₂ (fun p q => p.1 = q.1 ∧ R p.2 q.2) d e

namespace DRel
variable {α β : Type} {R : α → β → Prop} {d d' : Dict String α} {e e' : Dict String β}

theorem mono {R' : α → β → Prop} (h : DRel R d e) (hR : ∀ a b, R a b → R' a b) : DRel R' d e := h.imp fun _ _ h => ⟨h.1, hR _ _ h.2⟩

theorem dset (h : DRel R d e) (k : String) {a : α} {b : β} (hab : R a b) : DRel R (dset d k a) (dset e k b) := by
  induction h with
  | nil => exact .cons ⟨rfl, hab⟩ .nil
  | @cons p q _ _ hpq ht ih =>
    obtain ⟨pk, pv⟩ := p
    obtain ⟨qk, qv⟩ := q
    obtain ⟨h1, h2⟩ := hpq
    simp only at h1 h2
    subst h1
    simp only [Sloth.dset]
    split
    · exact .cons ⟨rfl, hab⟩ ht
    · exact .cons ⟨rfl, h2⟩ ih

theorem dupdate (h : DRel R d e) (h' : DRel R d' e') : DRel R (dupdate d d') (dupdate e e') := by
  induction h' generalizing d e with
  | nil => exact h
  | @cons p q _ _ hpq ht ih =>
    simp only [dupdate_cons]
    refine ih ?_
    rw [hpq.1]
    exact h.dset _ hpq.2

theorem keys (h : DRel R d e) : dkeys d = dkeys e := by
  induction h with
  | nil => rfl
  | cons hpq ht ih => simp only [dkeys, List.map_cons] at ih ⊢; rw [hpq.1, ih]

theorem values (h : DRel R d e) : List.Forall₂ R (dvalues d) (dvalues e) := by
  induction h with
  | nil => exact .nil
  | cons hpq ht ih => exact .cons hpq.2 ih

theorem nil_iff (h : DRel R d e) : d = [] ↔ e = [] := by cases h <;> simp

theorem dget (h : DRel R d e) (k : String) : Option.Rel R (dget d k) (dget e k) := by
  induction h with
  | nil => exact .none
  | @cons p q _ _ hpq ht ih =>
    obtain ⟨pk, pv⟩ := p
    obtain ⟨qk, qv⟩ := q
    obtain ⟨h1, h2⟩ := hpq
    simp only at h1 h2
    subst h1
    simp only [Sloth.dget]
    split
    · exact .some h2
    · exact ih

theorem refl {R : α → α → Prop} {d : Dict String α} (h : ∀ p ∈ d, R p.2 p.2) : DRel R d d := by
  induction d with
  | nil => exact .nil
  | cons p t ih => exact .cons ⟨rfl, h p (by simp)⟩ (ih fun q hq => h q (by simp [hq]))

theorem symm (h : DRel R d e) : DRel (fun b a => R a b) e d := by
  induction h with
  | nil => exact .nil
  | cons hpq ht ih => exact .cons ⟨hpq.1.symm, hpq.2⟩ ih

theorem trans {γ : Type} {S : β → γ → Prop} {T : α → γ → Prop} {f : Dict String γ} (h : DRel R d e) (h' : DRel S e f)
    (hT : ∀ a b c, R a b → S b c → T a c) : DRel T d f := by
  induction h generalizing f with
  | nil => cases h'; exact .nil
  | cons hpq ht ih =>
    cases h' with
    | cons hq ht' => exact .cons ⟨hpq.1.trans hq.1, hT _ _ _ hpq.2 hq.2⟩ (ih ht')

end DRel

/-! ## Quantities and nodes -/

/-- The same except for what is only printed or never read: description, LaTeX text and bounds. -/
structure Quantity.Same (q q' : Quantity) : Prop where
  kind : q.kind = q'.kind
  name : q.name = q'.name
  units : q.units = q'.units
  value : q.value = q'.value
  isSpecified : q.isSpecified = q'.isSpecified
  owner : q.owner = q'.owner
  isExposed : q.isExposed = q'.isExposed
  vtype : q.vtype = q'.vtype
  hasDomain : q.hasDomain = q'.hasDomain

namespace Quantity.Same
variable {q q' : Quantity}

theorem refl (q : Quantity) : q.Same q := ⟨rfl, rfl, rfl, rfl, rfl, rfl, rfl, rfl, rfl⟩

theorem symm (h : q.Same q') : q'.Same q :=
  ⟨h.kind.symm, h.name.symm, h.units.symm, h.value.symm, h.isSpecified.symm, h.owner.symm, h.isExposed.symm, h.vtype.symm, h.hasDomain.symm⟩

theorem trans {q'' : Quantity} (h : q.Same q') (h' : q'.Same q'') : q.Same q'' :=
  ⟨h.kind.trans h'.kind, h.name.trans h'.name, h.units.trans h'.units, h.value.trans h'.value, h.isSpecified.trans h'.isSpecified, h.owner.trans h'.owner,
    h.isExposed.trans h'.isExposed, h.vtype.trans h'.vtype, h.hasDomain.trans h'.hasDomain⟩

theorem withValue (h : q.Same q') {x y : Rat} (hx : x = y) : ({ q with value := x, isSpecified := true } : Quantity).Same { q' with value := y, isSpecified := true } :=
  ⟨h.kind, h.name, h.units, hx, rfl, h.owner, h.isExposed, h.vtype, h.hasDomain⟩

/-- Twin arguments of `setValue`. -/
inductive Arg : SVArg → SVArg → Prop where
  | qty {x y : Quantity} (h : x.Same y) : Arg (.qty x) (.qty y)
  | float (x : Rat) : Arg (.float x) (.float x)
  | int (x : Int) : Arg (.int x) (.int x)
  | other : Arg .other .other

theorem setValue {q q' : Quantity} (h : q.Same q') {v v' : SVArg} (u : Option UnitObj) (hv : Arg v v') :
    ExSim Quantity.Same (q.setValue v u) (q'.setValue v' u) := by
  cases hv with
  | @qty x y hx =>
    unfold Quantity.setValue
    simp only
    rw [h.kind, hx.kind]
    split
    · cases u with
      | none =>
                simp only
                rw [h.units, hx.units]
                refine .same fun b => ?_
                split; exacts [⟨by first | rfl | exact h.kind, h.name, by first | rfl | exact h.units, hx.value, rfl, h.owner, h.isExposed, h.vtype, h.hasDomain⟩, rfl]
      | some u =>
                refine .same fun b => ?_
                split; exacts [⟨by first | rfl | exact h.kind, h.name, by first | rfl | exact h.units, hx.value, rfl, h.owner, h.isExposed, h.vtype, h.hasDomain⟩, rfl]
    · exact rfl
  | float x => exact h.withValue rfl
  | int x =>
    unfold Quantity.setValue
    cases u with
    | none => exact h.withValue rfl
    | some u =>
                simp only
                rw [h.units]
                refine .same fun b => ?_
                split; exacts [⟨by first | rfl | exact h.kind, h.name, by first | rfl | exact h.units, rfl, rfl, h.owner, h.isExposed, h.vtype, h.hasDomain⟩, rfl]
  | other => exact rfl

end Quantity.Same

/-- Two nodes with the same symbolic object, unit and class over related objects; their texts may differ. -/
structure ENode.Twin (β : Ref → Ref → Prop) (a b : ENode) : Prop where
  sym : a.sym = b.sym
  repr : a.repr = b.repr
  unit : a.unit = b.unit
  ty : a.ty = b.ty
  symMap : DRel β a.symMap b.symMap
  varMap : DRel β a.varMap b.varMap

/-- Twin operands. -/
inductive Opnd.Twin (β : Ref → Ref → Prop) : Opnd → Opnd → Prop where
  | node {a b : ENode} (h : a.Twin β b) : Opnd.Twin β (.node a) (.node b)
  | num (q : Rat) : Opnd.Twin β (.num q) (.num q)
  | other : Opnd.Twin β .other .other

namespace ENode.Twin
variable {β : Ref → Ref → Prop} {a b : ENode} {o o' : Opnd}

theorem mono {β' : Ref → Ref → Prop} (h : a.Twin β b) (hβ : ∀ r s, β r s → β' r s) : a.Twin β' b :=
  ⟨h.sym, h.repr, h.unit, h.ty, h.symMap.mono hβ, h.varMap.mono hβ⟩

theorem add (h : a.Twin β b) (ho : o.Twin β o') : ExSim (ENode.Twin β) (a.add o) (b.add o') := by
  cases ho with
  | node hb =>
    simp only [ENode.add, h.unit, hb.unit]
    exact .same fun u => ⟨by simp only [h.sym, hb.sym], by simp only [h.repr, hb.repr], rfl, by simp only [h.ty, hb.ty], h.symMap.dupdate hb.symMap, h.varMap.dupdate hb.varMap⟩
  | num q => exact ⟨by simp only [h.sym], by simp only [h.repr], h.unit, h.ty, h.symMap, h.varMap⟩
  | other => rfl

theorem sub (h : a.Twin β b) (ho : o.Twin β o') : ExSim (ENode.Twin β) (a.sub o) (b.sub o') := by
  cases ho with
  | node hb =>
    simp only [ENode.sub, h.unit, hb.unit]
    exact .same fun u => ⟨by simp only [h.sym, hb.sym], by simp only [h.repr, hb.repr], rfl, by simp only [h.ty, hb.ty], h.symMap.dupdate hb.symMap, h.varMap.dupdate hb.varMap⟩
  | num q => exact ⟨by simp only [h.sym], by simp only [h.repr], h.unit, h.ty, h.symMap, h.varMap⟩
  | other => rfl

theorem mulType {c d : ENode} (h : a.Twin β b) (h' : c.Twin β d) : ENode.mulType a c = ENode.mulType b d := by
  simp only [ENode.mulType, h.varMap.nil_iff, h'.varMap.nil_iff, h.ty, h'.ty]

theorem mul (h : a.Twin β b) (ho : o.Twin β o') : ExSim (ENode.Twin β) (a.mul o) (b.mul o') := by
  cases ho with
  | node hb =>
    exact ⟨by simp only [h.sym, hb.sym], by simp only [h.repr, hb.repr], by simp only [h.unit, hb.unit], h.mulType hb, h.symMap.dupdate hb.symMap, h.varMap.dupdate hb.varMap⟩
  | num q => exact ⟨by simp only [h.sym], by simp only [h.repr], h.unit, h.ty, h.symMap, h.varMap⟩
  | other => rfl

theorem div (h : a.Twin β b) (ho : o.Twin β o') : ExSim (ENode.Twin β) (a.div o) (b.div o') := by
  cases ho with
  | node hb =>
    simp only [ENode.div, h.sym, hb.sym]
    exact .same fun s => ⟨rfl, by simp only [h.repr, hb.repr], by simp only [h.unit, hb.unit], h.mulType hb, h.symMap.dupdate hb.symMap, h.varMap.dupdate hb.varMap⟩
  | num q =>
    simp only [ENode.div, h.sym]
    exact .same fun s => ⟨rfl, by simp only [h.repr], h.unit, h.ty, h.symMap, h.varMap⟩
  | other => rfl

theorem pow (h : a.Twin β b) (ho : o.Twin β o') : ExSim (ENode.Twin β) (a.pow o) (b.pow o') := by
  cases ho with
  | node hb =>
    simp only [ENode.pow, h.sym, hb.sym, h.unit, hb.unit]
    split
    · exact .same fun s => .same fun u => ⟨rfl, by simp only [h.repr, hb.repr], rfl, by simp only [h.ty], h.symMap.dupdate hb.symMap, h.varMap.dupdate hb.varMap⟩
    · rfl
  | num q =>
    simp only [ENode.pow, h.sym, h.unit]
    exact .same fun s => .same fun u => ⟨rfl, by simp only [h.repr], rfl, by simp only [h.ty], h.symMap, h.varMap⟩
  | other => rfl

theorem op (h : a.Twin β b) (k : BOp) (ho : o.Twin β o') : ExSim (ENode.Twin β) (a.op k o) (b.op k o') := by
  cases k
  · exact h.add ho
  · exact h.sub ho
  · exact h.mul ho
  · exact h.div ho
  · exact h.pow ho

theorem rop (h : a.Twin β b) (k : BOp) (n : Rat) : ExSim (ENode.Twin β) (a.rop k n) (b.rop k n) := by
  cases k
  · exact h.add (.num n)
  · exact (h.mul (.num _)).bind fun _ _ h => h.add (.num n)
  · exact h.mul (.num n)
  · exact (h.pow (.num _)).bind fun _ _ h => h.mul (.num n)
  · rfl

theorem fn (h : a.Twin β b) (f : Fn) : ExSim (ENode.Twin β) (applyFn f (.node a)) (applyFn f (.node b)) := by
  simp only [applyFn, wrapper, h.unit]
  split
  · exact ⟨by simp only [h.sym], by simp only [h.repr], rfl, rfl, h.symMap, h.varMap⟩
  · rfl

theorem mmN (h : a.Twin β b) (k : Bool) (n : Rat) : ExSim (ENode.Twin β) (minMax k (.node a) [.num n]) (minMax k (.node b) [.num n]) := by
  simp only [minMax, List.all_cons, MArg.isNum, MArg.isNode, List.filterMap_cons, MArg.unit?, h.unit, List.all_nil, Bool.false_and, Bool.not_false, Bool.not_true,
    Bool.true_and, Bool.false_eq_true, if_false]
  refine ⟨?_, ?_, rfl, rfl, ?_, ?_⟩
  · simp only [MArg.sym, h.sym]
  · simp only [MArg.sym, h.sym]
  · exact (DRel.dupdate .nil h.symMap).dupdate .nil
  · exact (DRel.dupdate .nil h.varMap).dupdate .nil

end ENode.Twin

/-! ## Expressions -/

theorem Quantity.Same.call {β : Ref → Ref → Prop} {r s : Ref} {q q' : Quantity} (h : q.Same q') (hr : β r s) : (q.call r).Twin β (q'.call s) := by
  unfold Quantity.call
  rw [h.isSpecified, h.name]
  split
  · exact ⟨rfl, rfl, h.units, rfl, .cons ⟨rfl, hr⟩ .nil, .cons ⟨rfl, hr⟩ .nil⟩
  · exact ⟨by simp only [h.value], rfl, h.units, rfl, .cons ⟨rfl, hr⟩ .nil, .nil⟩

/-- Related objects with the same contents. -/
def Seen (β : Ref → Ref → Prop) (x y : Ref × Quantity) : Prop := β x.1 y.1 ∧ x.2.Same y.2

/-- The same expression over other objects. -/
inductive PyExpr.Twin (β : Ref → Ref → Prop) : PyExpr → PyExpr → Prop where
  | q {r s : Ref} {x y : Quantity} (h : Seen β (r, x) (s, y)) : PyExpr.Twin β (.q r x) (.q s y)
  | bin (op : BOp) {a b c d : PyExpr} (h : PyExpr.Twin β a c) (h' : PyExpr.Twin β b d) : PyExpr.Twin β (.bin op a b) (.bin op c d)
  | binN (op : BOp) {a c : PyExpr} (n : Rat) (h : PyExpr.Twin β a c) : PyExpr.Twin β (.binN op a n) (.binN op c n)
  | nbin (op : BOp) {a c : PyExpr} (n : Rat) (h : PyExpr.Twin β a c) : PyExpr.Twin β (.nbin op n a) (.nbin op n c)
  | fn (f : Fn) {a c : PyExpr} (h : PyExpr.Twin β a c) : PyExpr.Twin β (.fn f a) (.fn f c)
  | mmN (k : Bool) {a c : PyExpr} (n : Rat) (h : PyExpr.Twin β a c) : PyExpr.Twin β (.mmN k a n) (.mmN k c n)
  | diff {r s : Ref} {x y : Quantity} (h : Seen β (r, x) (s, y)) : PyExpr.Twin β (.diff r x none) (.diff s y none)
  | diffBy {r s : Ref} {x y : Quantity} {t u : Ref × Quantity} (h : Seen β (r, x) (s, y)) (h' : Seen β t u) :
      PyExpr.Twin β (.diff r x (some t)) (.diff s y (some u))

theorem PyExpr.Twin.build {β : Ref → Ref → Prop} {a b : PyExpr} (h : a.Twin β b) : ExSim (ENode.Twin β) a.build b.build := by
  induction h with
  | q h => exact h.2.call h.1
  | bin op _ _ ih ih' => exact ih.bind fun _ _ h => ih'.bind fun _ _ h' => h.op op (.node h')
  | binN op n _ ih => exact ih.bind fun _ _ h => h.op op (.num n)
  | nbin op n _ ih => exact ih.bind fun _ _ h => h.rop op n
  | fn f _ ih => exact ih.bind fun _ _ h => h.fn f
  | mmN k n _ ih => exact ih.bind fun _ _ h => h.mmN k n
  | diff h =>
    obtain ⟨h1, h2⟩ := h
    simp only at h1 h2
    have hc := h2.call h1
    simp only [PyExpr.build, Quantity.diff, h2.hasDomain]
    split
    · simp only [diffNode, h2.isSpecified, h2.name]
      exact ⟨rfl, rfl, rfl, rfl, hc.symMap, hc.varMap⟩
    · rfl
  | @diffBy r s x y t u h h' =>
    obtain ⟨h1, h2⟩ := h
    simp only at h1 h2
    have hc := h2.call h1
    simp only [PyExpr.build, Quantity.diff, h2.hasDomain]
    split
    · simp only [diffNode, h2.isSpecified, h2.name, h'.2.isSpecified, h'.2.name, h'.2.units, hc.unit]
      split
      · rfl
      · exact ⟨rfl, rfl, rfl, rfl, hc.symMap, hc.varMap⟩
    · rfl

/-- The same statement over other objects. -/
inductive Stmt.Twin (β : Ref → Ref → Prop) : Stmt → Stmt → Prop where
  | eqn {a b c d : PyExpr} (h : a.Twin β c) (h' : b.Twin β d) : Stmt.Twin β (.eqn a b) (.eqn c d)
  | eqnNum {a c : PyExpr} (q : Rat) (h : a.Twin β c) : Stmt.Twin β (.eqnNum a q) (.eqnNum c q)
  | res {a c : PyExpr} (h : a.Twin β c) : Stmt.Twin β (.res a) (.res c)

/-- Twin arguments of `setResidual`. -/
inductive ResArg.Twin (β : Ref → Ref → Prop) : ResArg → ResArg → Prop where
  | eqn {a b c d : ENode} (h : a.Twin β c) (h' : b.Twin β d) : ResArg.Twin β (.eqn a b) (.eqn c d)
  | eqnNum {a c : ENode} (q : Rat) (h : a.Twin β c) : ResArg.Twin β (.eqnNum a q) (.eqnNum c q)
  | node {a c : ENode} (h : a.Twin β c) : ResArg.Twin β (.node a) (.node c)
  | eqnOther {a c : ENode} (h : a.Twin β c) : ResArg.Twin β (.eqnOther a) (.eqnOther c)
  | other : ResArg.Twin β .other .other

theorem Stmt.Twin.arg {β : Ref → Ref → Prop} {a b : Stmt} (h : a.Twin β b) : ExSim (ResArg.Twin β) a.arg b.arg := by
  cases h with
  | eqn h h' => exact h.build.bind fun _ _ h => h'.build.bind fun _ _ h' => .eqn h h'
  | eqnNum q h => exact h.build.bind fun _ _ h => .eqnNum q h
  | res h => exact h.build.bind fun _ _ h => .node h

/-! ## Equations -/

/-- Two equations that state the same over related objects; descriptions and texts may differ. -/
structure EqObj.Twin (β : Ref → Ref → Prop) (e f : EqObj) : Prop where
  name : e.name = f.name
  owner : e.owner = f.owner
  form : e.form = f.form
  type : e.type = f.type
  rhsPy : e.rhsPy = f.rhsPy
  expr : Option.Rel (ENode.Twin β) e.expr f.expr
  elem : Option.Rel (fun p q => p.1.Twin β q.1 ∧ p.2.Twin β q.2) e.elem f.elem
  objects : Option.Rel (DRel β) e.objects f.objects

namespace EqObj.Twin
variable {β : Ref → Ref → Prop} {e f : EqObj}

theorem mono {β' : Ref → Ref → Prop} (h : e.Twin β f) (hβ : ∀ r s, β r s → β' r s) : e.Twin β' f where
  name := h.name
  owner := h.owner
  form := h.form
  type := h.type
  rhsPy := h.rhsPy
  expr := by
    have := h.expr
    cases he : e.expr <;> cases hf : f.expr <;> rw [he, hf] at this <;> cases this
    · exact .none
    · rename_i h; exact .some (h.mono hβ)
  elem := by
    have := h.elem
    cases he : e.elem <;> cases hf : f.elem <;> rw [he, hf] at this <;> cases this
    · exact .none
    · rename_i h; exact .some ⟨h.1.mono hβ, h.2.mono hβ⟩
  objects := by
    have := h.objects
    cases he : e.objects <;> cases hf : f.objects <;> rw [he, hf] at this <;> cases this
    · exact .none
    · rename_i h; exact .some (h.mono hβ)

theorem symbolicObject (h : e.Twin β f) (fo : Option EqForm) (side : EqObj.Side) : e.symbolicObject fo side = f.symbolicObject fo side := by
  unfold EqObj.symbolicObject EqObj.getNode
  rw [h.form]
  cases fo.getD f.form with
  | residual =>
    have := h.expr
    cases he : e.expr <;> cases hf : f.expr <;> rw [he, hf] at this <;> cases this
    all_goals first | rfl | (rename_i h; simp only [ok_bind, h.sym])
  | elementary =>
    have := h.elem
    cases he : e.elem <;> cases hf : f.elem <;> rw [he, hf] at this <;> cases this
    all_goals first | rfl | (rename_i h; cases side; exacts [by simp only [ok_bind, h.1.sym], by simp only [ok_bind, h.2.sym]])

theorem finish {n n' : ENode} (h : e.Twin β f) (hn : e.expr = some n) (hn' : f.expr = some n') :
    (e.finish).1 = .ok () ∧ (f.finish).1 = .ok () ∧ (e.finish).2.Twin β (f.finish).2 := by
  unfold EqObj.finish
  have hx := h.expr
  rw [hn, hn'] at hx
  cases hx
  rename_i hx
  simp only [hn, hn']
  exact ⟨trivial, trivial, h.name, h.owner, h.form, by simp only [hx.ty], h.rhsPy, .some hx, h.elem, .none⟩

theorem numNode (t t' : String) (q : Rat) {a b : ENode} (h : a.Twin β b) : (EqObj.numNode t q a.unit).Twin β (EqObj.numNode t' q b.unit) :=
  ⟨rfl, rfl, h.unit, rfl, .nil, .nil⟩

/-- The tags and the descriptions do not matter. -/
theorem setResidual (t t' : String) (h : e.Twin β f) {x y : ResArg} (hx : x.Twin β y) :
    ExSim (fun _ _ => (e.setResidual t x).2.Twin β (f.setResidual t' y).2) (e.setResidual t x).1 (f.setResidual t' y).1 := by
  cases hx with
  | @eqn a b c d h1 h2 =>
    simp only [EqObj.setResidual]
    have := h1.sub (.node h2)
    cases hs : a.sub (.node b) <;> cases hs' : c.sub (.node d) <;> rw [hs, hs'] at this <;> first | exact this.elim | skip
    · exact this
    · have hf := finish (n := _) (n' := _) (⟨h.name, h.owner, rfl, h.type, rfl, .some this, .some ⟨h1, h2⟩, h.objects⟩ :
        EqObj.Twin β { e with elem := some (a, b), rhsPy := false, expr := some _, form := .elementary }
          { f with elem := some (c, d), rhsPy := false, expr := some _, form := .elementary }) rfl rfl
      simp only
      rw [hf.1, hf.2.1]
      exact hf.2.2
  | @eqnNum a c q h1 =>
    simp only [EqObj.setResidual]
    have h2 := numNode t t' q h1
    have := h1.sub (.node h2)
    cases hs : a.sub (.node (EqObj.numNode t q a.unit)) <;> cases hs' : c.sub (.node (EqObj.numNode t' q c.unit)) <;> rw [hs, hs'] at this <;>
      first | exact this.elim | skip
    · exact this
    · have hf := finish (n := _) (n' := _) (⟨h.name, h.owner, rfl, h.type, rfl, .some this, .some ⟨h1, h2⟩, h.objects⟩ :
        EqObj.Twin β { e with elem := some (a, EqObj.numNode t q a.unit), rhsPy := true, expr := some _, form := .elementary }
          { f with elem := some (c, EqObj.numNode t' q c.unit), rhsPy := true, expr := some _, form := .elementary }) rfl rfl
      simp only
      rw [hf.1, hf.2.1]
      exact hf.2.2
  | @node a c h1 =>
    simp only [EqObj.setResidual]
    have hf := finish (n := _) (n' := _) (⟨h.name, h.owner, h.form, h.type, h.rhsPy, .some h1, h.elem, h.objects⟩ :
      EqObj.Twin β { e with expr := some a } { f with expr := some c }) rfl rfl
    rw [hf.1, hf.2.1]
    exact hf.2.2
  | eqnOther h1 =>
    simp only [EqObj.setResidual]
    have h' : EqObj.Twin β { e with form := .elementary } { f with form := .elementary } := ⟨h.name, h.owner, rfl, h.type, h.rhsPy, h.expr, h.elem, h.objects⟩
    have hx := h.expr
    cases he : e.expr <;> cases hf : f.expr <;> rw [he, hf] at hx <;> cases hx
    · simp only [EqObj.finish, he, hf]; rfl
    · have h3 := finish h' he hf
      simp only [he, hf] at h3
      rw [h3.1, h3.2.1]
      exact h3.2.2
  | other => rfl

theorem init (t t' u u' name d d' owner : String) (hn : name ≠ "") {x y : ResArg} (hx : x.Twin β y) :
    ExSim (EqObj.Twin β) (EqObj.init t u name d (some x) owner) (EqObj.init t' u' name d' (some y) owner) := by
  unfold EqObj.init
  simp only [if_neg hn]
  have h0 : EqObj.Twin β { name := name, description := d } { name := name, description := d' } :=
    ⟨rfl, rfl, rfl, rfl, rfl, .none, .none, .some .nil⟩
  have := h0.setResidual u u' hx
  generalize EqObj.setResidual u _ x = p at this ⊢
  generalize EqObj.setResidual u' _ y = q at this ⊢
  obtain ⟨p1, p2⟩ := p
  obtain ⟨q1, q2⟩ := q
  cases p1 <;> cases q1 <;> first | exact this.elim | skip
  · exact this
  · simp only at this ⊢
    exact ⟨this.name, rfl, this.form, this.type, this.rhsPy, this.expr, this.elem, this.objects⟩

theorem sweep (h : e.Twin β f) : ExSim (EqObj.Twin β) e.sweep f.sweep := by
  unfold EqObj.sweep
  have hx := h.expr
  cases he : e.expr <;> cases hf : f.expr <;> rw [he, hf] at hx <;> cases hx
  · rfl
  · rename_i hx
    exact ⟨h.name, h.owner, h.form, h.type, h.rhsPy, by simp only [he, hf]; exact .some hx, h.elem, .some hx.symMap⟩

end EqObj.Twin

end Sloth
