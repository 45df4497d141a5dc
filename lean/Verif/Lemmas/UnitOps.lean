import Verif.Model.UnitOps
import Verif.Props.Equations
import Verif.Lemmas.World
import Verif.Lemmas.Heap
import Mathlib.Data.List.Nodup

/-!
# Running the declarations of a unit operation
-/

namespace Sloth.Lib
open Sloth PyM Spec

/-! ## Meaning of a body, written independently of the operators of the package -/

/-- What the quantities of the library are: their physical dimension by name; the fractions and the opening are pure numbers. -/
def Spec.dims : List (String × Dim) :=
  [("ndot_in", .div (.base .mol) (.base .s)), ("ndot_out", .div (.base .mol) (.base .s)), ("ndot", .div (.base .mol) (.base .s)),
   ("mdot_in", .div (.base .kg) (.base .s)), ("mdot_out", .div (.base .kg) (.base .s)), ("mdot", .div (.base .kg) (.base .s)),
   ("H_in", .div .energy (.base .mol)), ("H_out", .div .energy (.base .mol)), ("H", .div .energy (.base .mol)),
   ("P_in", .pressure), ("P_out", .pressure), ("P", .pressure), ("Delta_P", .pressure),
   ("T_in", .base .K), ("T_out", .base .K), ("T", .base .K),
   ("Qdot_out", .div .volume (.base .s)), ("mix_rho", .div (.base .kg) .volume), ("Q", .div .energy (.base .s)),
   ("cp_mix", .div .energy (.mul (.base .kg) (.base .K))),
   ("t", .base .s), ("N", .base .mol), ("M", .base .kg), ("E", .energy), ("level", .base .m), ("area_sec", .pow (.base .m) 2),
   ("P_In", .pressure), ("P_Out", .pressure), ("T_V_out", .base .K), ("T_L_out", .base .K),
   ("ndot_V_out", .div (.base .mol) (.base .s)), ("ndot_L_out", .div (.base .mol) (.base .s)),
   ("mdot_V_out", .div (.base .kg) (.base .s)), ("mdot_L_out", .div (.base .kg) (.base .s)),
   ("H_V_out", .div .energy (.base .mol)), ("H_L_out", .div .energy (.base .mol))]

def Spec.dimOf (a : String) : Dim := (dget Spec.dims a).getD Dim.one

/-- Dimension of an expression over the quantities of a model; the forms that the library does not use have none. -/
def Spec.adim (D : String → Dim) : AExpr → Option Dim
  | .q p => if p.model = none then some (D p.attr) else none
  | .bin .add a b | .bin .sub a b => do
    let x ← Spec.adim D a
    let y ← Spec.adim D b
    if x = y then some x else none
  | .bin .mul a b => do some (Dim.mul (← Spec.adim D a) (← Spec.adim D b))
  | .bin .div a b => do some (Dim.div (← Spec.adim D a) (← Spec.adim D b))
  | .nbin .add _ a => Spec.adim D a
  | _ => none

/-- The attributes read. -/
def Spec.reads : AExpr → List String
  | .q p => [p.attr]
  | .bin _ a b => Spec.reads a ++ Spec.reads b
  | .binN _ a _ | .nbin _ _ a | .fn _ a | .mmN _ a _ => Spec.reads a
  | .diff p _ => [p.attr]

section
variable {K : Type} [Field K] [LinearOrder K]

/-- Value of an expression when the attribute `a` has the value `X a`. -/
def Spec.aval (I : Interp K) (X : String → K) : AExpr → Option K
  | .q p => some (X p.attr)
  | .bin op a b => do Spec.opVal I op (← Spec.aval I X a) (← Spec.aval I X b)
  | .binN op a n => do Spec.opVal I op (← Spec.aval I X a) (n : K)
  | .nbin op n a => do Spec.opVal I op (n : K) (← Spec.aval I X a)
  | _ => none
end

/-! ## Expressions -/

/-- No quotient. -/
def noDiv : AExpr → Bool
  | .q _ => true
  | .bin .div _ _ => false
  | .bin _ a b => noDiv a && noDiv b
  | .nbin _ _ a => noDiv a
  | _ => true

/-- No quotient of a Python number by zero. -/
def Safe : PyExpr → Prop
  | .bin .div a b => Safe a ∧ Safe b ∧ ∀ n, b.build = .ok n → ¬(n.sym.isPy = true ∧ n.sym.expr.ratEval = some 0)
  | .bin _ a b => Safe a ∧ Safe b
  | .nbin _ _ a => Safe a
  | _ => True

/-- The forms that `adim` gives a dimension. -/
def Plain : PyExpr → Prop
  | .q _ _ => True
  | .bin op a b => op ≠ .pow ∧ Plain a ∧ Plain b
  | .nbin op _ a => op = .add ∧ Plain a
  | _ => False

theorem Plain.powers {e : PyExpr} (h : Plain e) : Spec.PlainPowers e := by
  induction e with
  | q r x => trivial
  | bin op a b iha ihb => exact ⟨iha h.2.1, ihb h.2.2, fun e => absurd e h.1⟩
  | nbin op n a ih => exact ih h.2
  | _ => exact h.elim

theorem build_ok {e : PyExpr} (hp : Plain e) (hu : Spec.AllUnits UReachSI e) {d : Dim} (hd : Spec.dim e = some d) (hs : Safe e) :
    ∃ n, e.build = .ok n := by
  induction e generalizing d with
  | q r x => exact ⟨_, rfl⟩
  | bin op a b iha ihb =>
    have hdd : ∃ da db, Spec.dim a = some da ∧ Spec.dim b = some db := by
      cases op <;> simp only [Spec.dim, Option.bind_eq_bind, Option.bind_eq_some_iff] at hd
      all_goals obtain ⟨da, h1, db, h2, _⟩ := hd; exact ⟨da, db, h1, h2⟩
    obtain ⟨da, db, h1, h2⟩ := hdd
    have hsab : Safe a ∧ Safe b := by
      cases op with
      | div => exact ⟨hs.1, hs.2.1⟩
      | _ => exact hs
    obtain ⟨m, hm⟩ := iha hp.2.1 hu.1 h1 hsab.1
    obtain ⟨n, hn⟩ := ihb hp.2.2 hu.2 h2 hsab.2
    obtain ⟨um, dm⟩ := expr_dimension_partial a hu.1 hp.2.1.powers hm
    obtain ⟨un, dn⟩ := expr_dimension_partial b hu.2 hp.2.2.powers hn
    rw [h1] at dm; rw [h2] at dn
    cases dm; cases dn
    cases op with
    | add =>
      have he : m.unit.dimVec = n.unit.dimVec := by
        simp only [Spec.dim, h1, h2, Option.bind_eq_bind, Option.bind_some] at hd
        by_contra hc
        rw [if_neg hc] at hd; cases hd
      simp [PyExpr.build, hm, hn, ENode.op, ENode.add, add_SI um un, he]
    | sub =>
      have he : m.unit.dimVec = n.unit.dimVec := by
        simp only [Spec.dim, h1, h2, Option.bind_eq_bind, Option.bind_some] at hd
        by_contra hc
        rw [if_neg hc] at hd; cases hd
      simp [PyExpr.build, hm, hn, ENode.op, ENode.sub, sub_SI um un, he]
    | mul => simp [PyExpr.build, hm, hn, ENode.op, ENode.mul]
    | div =>
      have h3 := hs.2.2 n hn
      have : ¬ ((m.sym.isPy && n.sym.isPy && n.sym.expr.ratEval == some 0) = true) := by
        simp only [Bool.and_eq_true, beq_iff_eq]
        exact fun hc => h3 ⟨hc.1.2, hc.2⟩
      simp only [PyExpr.build, hm, hn, ok_bind, ENode.op, ENode.div, SObj.div, if_neg this]
      exact ⟨_, rfl⟩
    | pow => exact absurd rfl hp.1
  | nbin op n a ih =>
    obtain ⟨rfl, hpa⟩ := hp
    obtain ⟨m, hm⟩ := ih hpa hu (d := d) hd hs
    simp [PyExpr.build, hm, ENode.rop, ENode.radd, ENode.add]
  | _ => exact hp.elim

/-! ## The state while a model is being declared -/

/-- Attribute `a` of model `m` is the quantity `q`. -/
def Holds (w : World) (m : MRef) (a : String) (q : Quantity) : Prop :=
  ∃ mo r, w.ms[m]? = some mo ∧ dget mo.attrs a = some (.qty r) ∧ w.qs[r]? = some q

section
variable {K : Type} [Field K] [LinearOrder K]

/-- The assignment gives the specified quantities among the attributes `S` of the model `n` their value. -/
def Agrees (w : World) (m : MRef) (n : String) (S : List String) (ρ : Atom → K) : Prop :=
  ∀ a ∈ S, ∀ q, Holds w m a q → q.isSpecified = true → ρ (.v (a ++ "_" ++ n)) = (q.value : K)

/-- The stored equation `p` states that `x` is zero. -/
def States (I : Interp K) (w : World) (m : MRef) (n : String) (S : List String) (p : String × ERef) (x : String × AExpr) : Prop :=
  p.1 = x.1 ++ "_" ++ n ∧ ∃ eo nd, w.es[p.2]? = some eo ∧ eo.expr = some nd ∧
    ∀ ρ : Atom → K, Agrees w m n S ρ → nd.sym.expr.eval I ρ = Spec.aval I (fun a => ρ (.v (a ++ "_" ++ n))) x.2

/-- Model `m`, named `n`, has the attributes `S` with their dimensions and the equations `E` so far. -/
structure St (I : Interp K) (w : World) (m : MRef) (n : String) (b : Body) (S : List String) (E : List (String × AExpr)) : Prop where
  obj : ∃ mo, w.ms[m]? = some mo ∧ mo.name = n ∧ mo.body = b ∧ mo.inlets = [] ∧
    (∀ a ∈ S, ∃ r q, dget mo.attrs a = some (.qty r) ∧ w.qs[r]? = some q ∧ q.name = a ++ "_" ++ n ∧ UReachSI q.units ∧
      q.units.dimVec = Spec.dimOf a ∧ q.name ∈ mo.declared) ∧
    List.Forall₂ (States I w m n S) mo.eqns E
  named : "" ∉ S

theorem Agrees.mono {w w' : World} {m : MRef} {n : String} {S S' : List String} {ρ : Atom → K} (h : Agrees w' m n S' ρ)
    (hS : ∀ a ∈ S, a ∈ S') (hq : ∀ a ∈ S, ∀ q, Holds w m a q → q.isSpecified = true → Holds w' m a q) : Agrees w m n S ρ :=
  fun a ha q hq' hs => h a (hS a ha) q (hq a ha q hq' hs) hs

theorem States.mono {I : Interp K} {w w' : World} {m : MRef} {n : String} {S S' : List String} {p : String × ERef} {x : String × AExpr}
    (h : States I w m n S p x) (he : ∀ (i : ERef) e, w.es[i]? = some e → w'.es[i]? = some e) (ha : ∀ ρ : Atom → K, Agrees w' m n S' ρ → Agrees w m n S ρ) :
    States I w' m n S' p x := by
  obtain ⟨h1, eo, nd, h2, h3, h4⟩ := h
  exact ⟨h1, eo, nd, he _ _ h2, h3, fun ρ hρ => h4 ρ (ha ρ hρ)⟩

end

theorem dset_fresh {α β : Type} [DecidableEq α] {d : Dict α β} {k : α} (h : k ∉ dkeys d) (v : β) : dset d k v = d ++ [(k, v)] := by
  induction d with
  | nil => rfl
  | cons p t ih =>
    simp only [dkeys_cons, List.mem_cons, not_or] at h
    simp only [dset, if_neg (Ne.symm h.1), ih h.2, List.cons_append]

theorem forall₂_append {α β : Type} {R : α → β → Prop} {l l' : List α} {t t' : List β} (h : List.Forall₂ R l t) (h' : List.Forall₂ R l' t') :
    List.Forall₂ R (l ++ l') (t ++ t') := by
  induction h with
  | nil => exact h'
  | cons a _ ih => exact .cons a ih

section
variable {K : Type} [Field K] [LinearOrder K] {I : Interp K} {w : World} {m : MRef} {n : String} {b : Body} {S : List String}
  {E : List (String × AExpr)}

/-- The model with an attribute assigned. -/
def _root_.Sloth.ModelObj.put (mo : ModelObj) (a : String) (v : Attr) : ModelObj := { mo with attrs := dset mo.attrs a v }

/-- No attribute among `S` has been given a value. -/
def Unset (w : World) (m : MRef) (S : List String) : Prop := ∀ a ∈ S, ∀ q, Holds w m a q → q.isSpecified = false

theorem Unset.agrees {w : World} {m : MRef} {S : List String} (h : Unset w m S) (n : String) (ρ : Atom → K) : Agrees w m n S ρ :=
  fun a ha q hq hs => by rw [h a ha q hq] at hs; cases hs

theorem St.holds (h : St I w m n b S E) {a : String} (ha : a ∈ S) : ∃ q, Holds w m a q ∧ q.name = a ++ "_" ++ n := by
  obtain ⟨mo, h1, -, -, -, h5, -⟩ := h.obj
  obtain ⟨r, q, g1, g2, g3, -⟩ := h5 a ha
  exact ⟨q, ⟨mo, r, h1, g1, g2⟩, g3⟩

theorem Holds.lookup {a : String} {q : Quantity} (h : Holds w m a q) : ∃ r, w.lookup m { attr := a } = .ok (r, q) := by
  obtain ⟨mo, r, h1, h2, h3⟩ := h
  exact ⟨r, by simp [World.lookup, h1, h2, h3]⟩

theorem Holds.unique {a : String} {q q' : Quantity} (h : Holds w m a q) (h' : Holds w m a q') : q = q' := by
  obtain ⟨mo, r, h1, h2, h3⟩ := h
  obtain ⟨mo', r', h1', h2', h3'⟩ := h'
  rw [h1] at h1'; cases h1'
  rw [h2] at h2'; cases h2'
  rw [h3] at h3'; cases h3'
  rfl

/-- What is kept is not changed. -/
theorem St.back (h : St I w m n b S E) {w' : World} (hk : ∀ x ∈ S, ∀ y, Holds w m x y → Holds w' m x y) : ∀ x ∈ S, ∀ y, Holds w' m x y → Holds w m x y := by
  intro x hx y hy
  obtain ⟨z, hz, -⟩ := h.holds hx
  rw [hy.unique (hk x hx z hz)]; exact hz

/-- Adding a quantity under a new attribute. -/
theorem St.add (h : St I w m n b S E) {a : String} (ha : a ∉ S) (hne : a ≠ "") {q : Quantity} {mo mo' : ModelObj}
    (hm : w.ms[m]? = some mo) (hn : mo'.name = mo.name) (hb : mo'.body = mo.body) (hi : mo'.inlets = mo.inlets) (he : mo'.eqns = mo.eqns)
    (hat : mo'.attrs = dset mo.attrs a (.qty w.qs.length)) (hdec : ∀ k, k ∈ mo.declared ∨ k = a ++ "_" ++ n → k ∈ mo'.declared)
    (hq : q.name = a ++ "_" ++ n) (hu : UReachSI q.units) (hd : q.units.dimVec = Spec.dimOf a) (hsp : q.isSpecified = false) :
    St I ((w.addQ q).withM m mo') m n b (S ++ [a]) E ∧ (Unset w m S → Unset ((w.addQ q).withM m mo') m (S ++ [a])) ∧
      ∀ x ∈ S, ∀ y, Holds w m x y → Holds ((w.addQ q).withM m mo') m x y := by
  obtain ⟨mo0, h1, h2, h3, h4, h5, h6⟩ := h.obj
  rw [hm] at h1; cases h1
  have hg : ((w.addQ q).withM m mo').ms[m]? = some mo' := withM_getM (w := w.addQ q) hm _
  have hqs : ∀ (r : Ref) x, w.qs[r]? = some x → (w.qs ++ [q])[r]? = some x := fun r x hr => by
    rw [List.getElem?_append_left (by
      rw [List.getElem?_eq_some_iff] at hr; exact hr.1)]; exact hr
  refine ⟨⟨⟨mo', hg, by rw [hn, h2], by rw [hb, h3], by rw [hi, h4], ?_, ?_⟩, ?_⟩, ?_, ?_⟩
  · intro x hx
    rcases List.mem_append.mp hx with hx | hx
    · obtain ⟨r, y, g1, g2, g3, g4, g5, g6⟩ := h5 x hx
      refine ⟨r, y, ?_, hqs r y g2, g3, g4, g5, hdec _ (Or.inl g6)⟩
      rw [hat, dget_dset_ne _ _ (by rintro rfl; exact ha hx)]; exact g1
    · simp only [List.mem_singleton] at hx
      subst hx
      refine ⟨w.qs.length, q, by rw [hat, dget_dset_self], ?_, hq, hu, hd, hdec _ (Or.inr hq)⟩
      show (w.qs ++ [q])[w.qs.length]? = some q
      simp
  · rw [he]
    refine h6.imp fun p x hx => hx.mono (fun i e hie => hie) fun ρ hρ => hρ.mono (fun y hy => by simp [hy]) ?_
    rintro y hy z ⟨mo1, r, g1, g2, g3⟩ _
    rw [hm] at g1; cases g1
    refine ⟨mo', r, hg, ?_, hqs r z g3⟩
    rw [hat, dget_dset_ne _ _ (by rintro rfl; exact ha hy)]; exact g2
  · simp only [List.mem_append, List.mem_singleton, not_or]
    exact ⟨h.named, fun e => hne e.symm⟩
  · rintro hun x hx y ⟨mo1, r, g1, g2, g3⟩
    rw [hg] at g1; cases g1
    rw [hat] at g2
    rcases List.mem_append.mp hx with hx | hx
    · rw [dget_dset_ne _ _ (by rintro rfl; exact ha hx)] at g2
      obtain ⟨r', z, k1, k2, -⟩ := h5 x hx
      rw [g2] at k1; cases k1
      have g4 := (show ((w.addQ q).withM m mo').qs[r]? = some z from hqs _ _ k2).symm.trans g3
      cases g4
      exact hun x hx _ ⟨mo, r, hm, g2, k2⟩
    · simp only [List.mem_singleton] at hx
      subst hx
      rw [dget_dset_self] at g2; cases g2
      have : (w.qs ++ [q])[w.qs.length]? = some y := g3
      simp at this
      rw [← this]; exact hsp
  · rintro x hx y ⟨mo1, r, g1, g2, g3⟩
    rw [hm] at g1; cases g1
    refine ⟨mo', r, hg, ?_, hqs r y g3⟩
    rw [hat, dget_dset_ne _ _ (by rintro rfl; exact ha hx)]; exact g2

/-- `self.a = self.createVariable(a, ...)` -/
theorem St.var (h : St I w m n b S E) {a : String} {x : VarArgs} (ha : a ∉ S) (hne : a ≠ "") (hx : x.name = a) (hu : UReachSI x.units)
    (hd : x.units.dimVec = Spec.dimOf a) (hex : x.exposed = true → x.vtype = "input" ∨ x.vtype = "output") :
    ∃ w', (Cmd.var a x).run m w = (.ok (), w') ∧ St I w' m n b (S ++ [a]) E ∧ (Unset w m S → Unset w' m (S ++ [a])) ∧
      ∀ x ∈ S, ∀ y, Holds w m x y → Holds w' m x y := by
  obtain ⟨mo, h1, h2, -⟩ := h.obj
  have hr := createVariable_run h1 x
  have hc : ¬(x.exposed = true ∧ x.vtype ≠ "input" ∧ x.vtype ≠ "output") := by
    rintro ⟨c1, c2, c3⟩
    rcases hex c1 with c | c
    · exact c2 c
    · exact c3 c
  rw [if_neg hc] at hr
  simp only [Cmd.run]
  rw [PyM.bind_of_ok hr, setAttr_run (withM_getM (w := w.addQ (x.quantity mo.name)) h1 _), World.withM_withM]
  have key := h.add (mo' := ModelObj.put ((mo.storeVar (x.quantity mo.name).name w.qs.length).exposeAs x w.qs.length) a (.qty w.qs.length))
    ha hne h1 ?_ ?_ ?_ ?_ ?_ ?_ (q := x.quantity mo.name) ?_ hu hd rfl
  · exact ⟨_, rfl, key.1, key.2.1, key.2.2⟩
  · simp only [ModelObj.put, ModelObj.exposeAs]; split_ifs <;> rfl
  · simp only [ModelObj.put, ModelObj.exposeAs]; split_ifs <;> rfl
  · simp only [ModelObj.put, ModelObj.exposeAs]; split_ifs <;> rfl
  · simp only [ModelObj.put, ModelObj.exposeAs]; split_ifs <;> rfl
  · simp only [ModelObj.put, ModelObj.exposeAs]; split_ifs <;> rfl
  · intro k hk
    have : ((mo.storeVar (x.quantity mo.name).name w.qs.length).exposeAs x w.qs.length).declared =
        dkeys (dset mo.vars (x.name ++ "_" ++ mo.name) w.qs.length) ++ dkeys mo.pars ++ dkeys mo.cons := by
      simp only [ModelObj.exposeAs]; split_ifs <;> rfl
    show k ∈ ((mo.storeVar (x.quantity mo.name).name w.qs.length).exposeAs x w.qs.length).declared
    rw [this]
    simp only [ModelObj.declared, List.mem_append] at hk ⊢
    rw [mem_dkeys_dset, hx, h2]
    tauto
  · show x.name ++ "_" ++ mo.name = _
    rw [hx, h2]

/-- `self.a = self.createParameter(a, ...)` -/
theorem St.par (h : St I w m n b S E) {a : String} {x : ParArgs} (ha : a ∉ S) (hne : a ≠ "") (hx : x.name = a) (hu : UReachSI x.units)
    (hd : x.units.dimVec = Spec.dimOf a) :
    ∃ w', (Cmd.par a x).run m w = (.ok (), w') ∧ St I w' m n b (S ++ [a]) E ∧ (Unset w m S → Unset w' m (S ++ [a])) ∧
      (∃ q, Holds w' m a q ∧ q.isSpecified = false) ∧ ∀ x ∈ S, ∀ y, Holds w m x y → Holds w' m x y := by
  obtain ⟨mo, h1, h2, -⟩ := h.obj
  simp only [Cmd.run]
  rw [PyM.bind_of_ok (createParameter_run h1 x), setAttr_run (withM_getM (w := w.addQ (x.parameter mo.name)) h1 _), World.withM_withM]
  have key := h.add ha hne h1 rfl rfl rfl rfl (mo' := { mo.storePar (x.parameter mo.name).name w.qs.length with attrs := dset mo.attrs a (.qty w.qs.length) })
    rfl ?_ (q := x.parameter mo.name) ?_ hu hd rfl
  · refine ⟨_, rfl, key.1, key.2.1, ?_, key.2.2⟩
    refine ⟨x.parameter mo.name, ⟨_, w.qs.length, withM_getM (w := w.addQ (x.parameter mo.name)) h1 _, dget_dset_self _ _ _, ?_⟩, rfl⟩
    show (w.qs ++ [x.parameter mo.name])[w.qs.length]? = _
    simp
  · intro k hk
    show k ∈ dkeys mo.vars ++ dkeys (dset mo.pars (x.name ++ "_" ++ mo.name) w.qs.length) ++ dkeys mo.cons
    simp only [ModelObj.declared, List.mem_append] at hk ⊢
    rw [mem_dkeys_dset, hx, h2]
    tauto
  · show x.name ++ "_" ++ mo.name = _
    rw [hx, h2]

/-- The attributes of an expression are found, with the right dimension and value. -/
theorem St.toPy (h : St I w m n b S E) {x : AExpr} {d : Dim} (hr : ∀ a ∈ Spec.reads x, a ∈ S) (hd : Spec.adim Spec.dimOf x = some d) :
    ∃ e, x.toPy w m = .ok e ∧ Plain e ∧ Spec.AllUnits UReachSI e ∧ Spec.dim e = some d ∧
      (∀ mo, w.ms[m]? = some mo → ∀ p ∈ Spec.quantities e, p.2.name ∈ mo.declared) ∧ (noDiv x = true → Safe e) ∧
      ∀ ρ : Atom → K, Agrees w m n S ρ → Spec.val I ρ e = Spec.aval I (fun a => ρ (.v (a ++ "_" ++ n))) x := by
  obtain ⟨mo, h1, h2, h3, h4, h5, -⟩ := h.obj
  induction x generalizing d with
  | q p =>
    simp only [Spec.adim] at hd
    split at hd
    · rename_i hpm
      cases hd
      obtain ⟨r, y, g1, g2, g3, g4, g5, g6⟩ := h5 p.attr (hr _ (by simp [Spec.reads]))
      refine ⟨.q r y, ?_, trivial, g4, by simp only [Spec.dim, g5], ?_, fun _ => trivial, ?_⟩
      · simp [AExpr.toPy, World.lookup, hpm, h1, g1, g2]
      · intro mo' hmo' q' hq'
        rw [h1] at hmo'; cases hmo'
        simp only [Spec.quantities, List.mem_singleton] at hq'
        subst hq'; exact g6
      · intro ρ hρ
        simp only [Spec.val, Spec.aval, Spec.qVal]
        split
        · rename_i hs
          rw [hρ p.attr (hr _ (by simp [Spec.reads])) y ⟨mo, r, h1, g1, g2⟩ hs]
        · rw [g3]
    · cases hd
  | bin op a c iha ihc =>
    have hab : ∃ da dc, Spec.adim Spec.dimOf a = some da ∧ Spec.adim Spec.dimOf c = some dc ∧ op ≠ .pow := by
      cases op <;> simp only [Spec.adim, Option.bind_eq_bind, Option.bind_eq_some_iff] at hd
      case pow => cases hd
      all_goals obtain ⟨da, g1, dc, g2, _⟩ := hd; exact ⟨da, dc, g1, g2, by simp⟩
    obtain ⟨da, dc, ga, gc, hop⟩ := hab
    obtain ⟨ea, a1, a2, a3, a4, a5, a6, a7⟩ := iha (fun y hy => hr y (by simp [Spec.reads, hy])) ga
    obtain ⟨ec, c1, c2, c3, c4, c5, c6, c7⟩ := ihc (fun y hy => hr y (by simp [Spec.reads, hy])) gc
    refine ⟨.bin op ea ec, by simp [AExpr.toPy, a1, c1], ⟨hop, a2, c2⟩, ⟨a3, c3⟩, ?_, ?_, ?_, ?_⟩
    · cases op <;> simp only [Spec.adim, ga, gc, Spec.dim, a4, c4] at hd ⊢
      case pow => exact absurd rfl hop
      all_goals exact hd
    · intro mo' hmo' q' hq'
      simp only [Spec.quantities, List.mem_append] at hq'
      rcases hq' with hq' | hq'
      · exact a5 mo' hmo' q' hq'
      · exact c5 mo' hmo' q' hq'
    · intro hnd
      cases op <;> simp only [noDiv, Bool.and_eq_true, reduceCtorEq, Bool.false_eq_true] at hnd
      all_goals exact ⟨a6 hnd.1, c6 hnd.2⟩
    · intro ρ hρ
      simp only [Spec.val, Spec.aval, a7 ρ hρ, c7 ρ hρ]
  | nbin op k a ih =>
    have hop : op = .add := by cases op <;> simp [Spec.adim] at hd ⊢
    subst hop
    obtain ⟨ea, a1, a2, a3, a4, a5, a6, a7⟩ := ih (fun y hy => hr y hy) hd
    refine ⟨.nbin .add k ea, by simp [AExpr.toPy, a1], ⟨rfl, a2⟩, a3, a4, a5, a6, ?_⟩
    intro ρ hρ
    simp only [Spec.val, Spec.aval, a7 ρ hρ]
  | _ => simp [Spec.adim] at hd

theorem keys_of_states {l : List (String × ERef)} (h : List.Forall₂ (States I w m n S) l E) : dkeys l = E.map fun p => p.1 ++ "_" ++ n := by
  induction h with
  | nil => rfl
  | cons a _ ih => simp only [dkeys_cons, List.map_cons, ih, a.1]

/-- `self.createEquation(k, ..., x)` -/
theorem St.eqn (h : St I w m n b S E) {k desc : String} {x : AExpr} {d : Dim} (hr : ∀ a ∈ Spec.reads x, a ∈ S) (hd : Spec.adim Spec.dimOf x = some d)
    (hk : k ≠ "") (hf : k ∉ E.map Prod.fst) (hs : noDiv x = true ∨ ∀ e, x.toPy w m = .ok e → Safe e) :
    ∃ w', (eq k desc x).run m w = (.ok (), w') ∧ St I w' m n b S (E ++ [(k, x)]) ∧ (Unset w m S → Unset w' m S) ∧
      ∀ a ∈ S, ∀ q, Holds w' m a q → Holds w m a q := by
  obtain ⟨e, e1, e2, e3, e4, e5, e6, e7⟩ := h.toPy hr hd
  obtain ⟨nd, hnd⟩ := build_ok e2 e3 e4 (hs.elim e6 fun f => f e e1)
  obtain ⟨mo, h1, h2, h3, h4, h5, h6⟩ := h.obj
  have hst : (AStmt.res x).eval m w = (.ok (.node nd), w) := by
    simp [AStmt.eval, AStmt.toStmt, e1, Stmt.arg, hnd]
  let eo : EqObj := { name := k ++ "_" ++ mo.name, description := desc, owner := mo.name, expr := some nd, objects := some nd.symMap,
                      type := EqObj.kindOf nd.ty }
  have hce : createEquation m k desc (some (.node nd)) true w = (.ok w.es.length, (w.addE eo).withM m (mo.storeEqn eo.name w.es.length)) := by
    have hck : mo.checkEquation eo = .ok () := by
      simp only [ModelObj.checkEquation, eo]
      rw [if_pos]
      simp only [List.all_eq_true, List.contains_iff_mem]
      intro s hs
      obtain ⟨p, hp, hps⟩ := ((expr_names_partial e hnd s).1).mp hs
      rw [← hps]; exact e5 mo h1 p hp
    unfold createEquation
    rw [PyM.bind_of_ok (getM_of h1)]
    have t1 : tagIf (k == "") w = (.ok "", w) := by
      have : (k == "") = false := by simpa using hk
      rw [this]; rfl
    rw [PyM.bind_of_ok t1]
    have t2 : tagIf (ResArg.needsTag (some (.node nd))) w = (.ok "", w) := rfl
    rw [PyM.bind_of_ok t2]
    have t3 : EqObj.init "" "" k desc (some (.node nd)) mo.name =
        .ok { name := k, description := desc, owner := mo.name, expr := some nd, objects := none, type := EqObj.kindOf nd.ty } := by
      simp [EqObj.init, EqObj.setResidual, EqObj.finish, hk]
    rw [t3, PyM.bind_lift_ok]
    have t4 : EqObj.sweep ⟨k ++ "_" ++ mo.name, desc, mo.name, some nd, none, false, .residual, EqObj.kindOf nd.ty, none⟩ = .ok eo := rfl
    rw [t4, PyM.bind_lift_ok]
    rw [PyM.when_true, hck, PyM.bind_lift_ok]
    rfl
  have hrun : (eq k desc x).run m w = (.ok (), (w.addE eo).withM m
      { (mo.storeEqn eo.name w.es.length) with attrs := dset mo.attrs "" (.eqn w.es.length) }) := by
    simp only [eq, Cmd.run]
    rw [PyM.bind_of_ok hst, PyM.bind_of_ok hce, setAttr_run (withM_getM (w := w.addE eo) h1 _), World.withM_withM]
    rfl
  have hg : ((w.addE eo).withM m { (mo.storeEqn eo.name w.es.length) with attrs := dset mo.attrs "" (.eqn w.es.length) }).ms[m]? = _ :=
    withM_getM (w := w.addE eo) h1 _
  have hes : ∀ (i : ERef) y, w.es[i]? = some y → (w.es ++ [eo])[i]? = some y := fun i y hi => by
    rw [List.getElem?_append_left (by
      rw [List.getElem?_eq_some_iff] at hi; exact hi.1)]; exact hi
  have hhold : ∀ a, a ≠ "" → ∀ y, Holds w m a y → Holds ((w.addE eo).withM m
      { (mo.storeEqn eo.name w.es.length) with attrs := dset mo.attrs "" (.eqn w.es.length) }) m a y := by
    rintro a ha y ⟨mo1, r, g1, g2, g3⟩
    rw [h1] at g1; cases g1
    exact ⟨_, r, hg, (dget_dset_ne _ _ (Ne.symm ha)).trans g2, g3⟩
  have hback : ∀ a ∈ S, ∀ y, Holds ((w.addE eo).withM m
      { (mo.storeEqn eo.name w.es.length) with attrs := dset mo.attrs "" (.eqn w.es.length) }) m a y → Holds w m a y := by
    rintro a ha y ⟨mo1, r, g1, g2, g3⟩
    rw [hg] at g1; cases g1
    have hane : "" ≠ a := by rintro rfl; exact h.named ha
    exact ⟨mo, r, h1, (dget_dset_ne _ _ hane).symm.trans g2, g3⟩
  have hagr : ∀ ρ : Atom → K, Agrees ((w.addE eo).withM m
      { (mo.storeEqn eo.name w.es.length) with attrs := dset mo.attrs "" (.eqn w.es.length) }) m n S ρ → Agrees w m n S ρ :=
    fun ρ hρ => hρ.mono (fun _ ha => ha) fun a ha y hy _ => hhold a (by rintro rfl; exact h.named ha) y hy
  refine ⟨_, hrun, ⟨⟨_, hg, h2, h3, h4, ?_, ?_⟩, h.named⟩, fun hun a ha q hq => hun a ha q (hback a ha q hq), hback⟩
  · intro a ha
    obtain ⟨r, y, g1, g2, g3⟩ := h5 a ha
    have hane : "" ≠ a := by rintro rfl; exact h.named ha
    exact ⟨r, y, (dget_dset_ne _ _ hane).trans g1, g2, g3⟩
  · have hkeys : dkeys mo.eqns = E.map fun p => p.1 ++ "_" ++ n := keys_of_states h6
    have hfr : k ++ "_" ++ mo.name ∉ dkeys mo.eqns := by
      rw [hkeys, h2]
      intro hc
      obtain ⟨p, hp, hpe⟩ := List.mem_map.mp hc
      apply hf
      have : p.1 = k := by
        have := congrArg String.toList hpe
        simp only [String.toList_append] at this
        exact String.toList_inj.mp (List.append_cancel_right (List.append_cancel_right this))
      exact List.mem_map.mpr ⟨p, hp, this⟩
    show List.Forall₂ _ (dset mo.eqns (k ++ "_" ++ mo.name) w.es.length) _
    rw [dset_fresh hfr]
    refine forall₂_append (h6.imp fun p y hy => hy.mono hes hagr) (.cons ⟨by rw [h2], eo, nd, ?_, rfl, ?_⟩ .nil)
    · show (w.es ++ [eo])[w.es.length]? = some eo
      simp
    · intro ρ hρ
      rw [expr_value I ρ e hnd, e7 ρ (hagr ρ hρ)]

/-- The units of the library. -/
def libUnits : List UnitObj :=
  [kgs, mols, Jmol, Js, JkgK, m2, m3s, kgm3, Tmpl.K, Tmpl.Pa, Tmpl.dimless, Tmpl.s, Tmpl.mol, Tmpl.kg, Tmpl.J, Tmpl.m]

theorem base_reach (n d : String) (k : Spec.Base) : UReachSI (UnitObj.init n [(k.symbol, 1)] d) :=
  .init _ _ _ (by simp [DNodup, dkeys]) (by
    intro x hx
    simp only [dkeys, List.map_cons, List.map_nil, List.mem_singleton] at hx
    exact ⟨k, hx⟩)

theorem J_reach : UReachSI Tmpl.J :=
  .initU _ _ (UReachSI.mulU (base_reach _ _ .kg) (UReachSI.powN (.initU _ _ (UReachSI.divU (base_reach _ _ .m) (base_reach _ _ .s))) 2))

theorem lib_units {u : UnitObj} (h : u ∈ libUnits) : UReachSI u := by
  have hm : UReachSI Tmpl.m := base_reach _ _ .m
  have hkg : UReachSI Tmpl.kg := base_reach _ _ .kg
  have hs : UReachSI Tmpl.s := base_reach _ _ .s
  have hK : UReachSI Tmpl.K := base_reach _ _ .K
  have hmol : UReachSI Tmpl.mol := base_reach _ _ .mol
  have hPa : UReachSI Tmpl.Pa := .initU _ _ (UReachSI.divU (.initU _ _ (hkg.mulU (.initU _ _ (hm.divU (hs.powN 2))))) (hm.powN 2))
  simp only [libUnits, List.mem_cons, List.not_mem_nil, or_false] at h
  rcases h with rfl | rfl | rfl | rfl | rfl | rfl | rfl | rfl | rfl | rfl | rfl | rfl | rfl | rfl | rfl | rfl
  · exact hkg.divU hs
  · exact hmol.divU hs
  · exact J_reach.divU hmol
  · exact J_reach.divU hs
  · exact J_reach.divU (hkg.mulU hK)
  · exact hm.powN 2
  · exact (hm.powN 3).divU hs
  · exact hkg.divU (hm.powN 3)
  · exact hK
  · exact hPa
  · exact dimless_reach
  · exact hs
  · exact hmol
  · exact hkg
  · exact J_reach
  · exact hm

/-! ## Checking a line of declarations -/

/-- The names of fractions begin with one of two letters; those of the other quantities do not. -/
def isFrac (a : String) : Bool := a.toList.head? == some 'z' || a.toList.head? == some 'w'

/-- The beginnings of the names of equations about one phase. -/
def phaseKeys : List String :=
  ["molar_conservation_for_", "mass_conservation_for_", "molar_fraction_conservation_for_", "mass_fraction_conservation_for_"]

def isPhaseKey (k : String) : Bool := phaseKeys.any fun p => p.toList.isPrefixOf k.toList

/-- The attributes and equations that a line declares. -/
def news (l : List Cmd) : List String := l.filterMap fun
  | .var a _ => some a
  | .par a _ => some a
  | _ => none
def newEqs (l : List Cmd) : List (String × AExpr) := l.filterMap fun
  | .eqn _ k _ (.res x) _ => some (k, x)
  | _ => none

/-- A line of declarations that succeeds when the attributes `C` exist and the equations `K` are taken. -/
def chk (C K : List String) : List Cmd → Bool
  | [] => true
  | .var a x :: l => x.name == a && a != "" && !isFrac a && !C.contains a && libUnits.contains x.units && decide (x.units.dimVec = Spec.dimOf a) &&
      (!x.exposed || x.vtype == "input" || x.vtype == "output") && chk (C ++ [a]) K l
  | .par a x :: l => x.name == a && a != "" && !isFrac a && !C.contains a && libUnits.contains x.units && decide (x.units.dimVec = Spec.dimOf a) &&
      chk (C ++ [a]) K l
  | .eqn a k _ (.res x) c :: l => a == "" && c && (Spec.reads x).all C.contains && (Spec.adim Spec.dimOf x).isSome && noDiv x && k != "" &&
      !K.contains k && !isPhaseKey k && chk C (K ++ [k]) l
  | _ => false

theorem each_append {α : Type} (l l' : List α) (f : α → PyM Unit) : each (l ++ l') f = (each l f >>= fun _ => each l' f) := by
  induction l with
  | nil => rfl
  | cons a t ih =>
    simp only [List.cons_append, each_cons, ih]
    funext w
    simp only [PyM.bind_run]
    cases f a w with
    | mk r w1 => cases r <;> rfl

theorem each_append_ok {α : Type} {l l' : List α} {f : α → PyM Unit} {w w1 w2 : World} (h : each l f w = (.ok (), w1))
    (h' : each l' f w1 = (.ok (), w2)) : each (l ++ l') f w = (.ok (), w2) := by
  rw [each_append, PyM.bind_of_ok h, h']

theorem St.run (h : St I w m n b S E) {C K' : List String} {l : List Cmd} (hl : chk C K' l = true) (hC : ∀ a ∈ C, a ∈ S)
    (hS : ∀ a ∈ S, a ∈ C ∨ isFrac a = true) (hK : ∀ k ∈ E.map Prod.fst, k ∈ K' ∨ isPhaseKey k = true) :
    ∃ w', each l (Cmd.run m) w = (.ok (), w') ∧ St I w' m n b (S ++ news l) (E ++ newEqs l) ∧ (Unset w m S → Unset w' m (S ++ news l)) ∧
      ∀ x ∈ S, ∀ y, Holds w' m x y → Holds w m x y := by
  induction l generalizing w S E C K' with
  | nil => exact ⟨w, rfl, by simpa [news, newEqs] using h, by simpa [news] using id, fun _ _ _ h => h⟩
  | cons c t ih =>
    rw [each_cons]
    cases c with
    | var a x =>
      simp only [chk, Bool.and_eq_true, beq_iff_eq, bne_iff_ne, ne_eq, Bool.not_eq_true', decide_eq_true_eq, Bool.or_eq_true] at hl
      obtain ⟨⟨⟨⟨⟨⟨⟨l1, l2⟩, l3⟩, l4⟩, l5⟩, l6⟩, l7⟩, l8⟩ := hl
      have hn : a ∉ S := fun hc => by
        rcases hS a hc with hh | hh
        · simp [hh] at l4
        · rw [hh] at l3; cases l3
      obtain ⟨w1, r1, s1, u1, k1⟩ := h.var hn l2 l1 (lib_units (by simpa using l5)) l6 (by
        intro he; rcases l7 with (l7 | l7) | l7
        · rw [he] at l7; cases l7
        · exact Or.inl l7
        · exact Or.inr l7)
      obtain ⟨w2, r2, s2, u2, k2⟩ := ih s1 (C := C ++ [a]) l8 (by
          intro y hy; rcases List.mem_append.mp hy with hy | hy
          · exact List.mem_append_left _ (hC y hy)
          · exact List.mem_append_right _ hy) (by
          intro y hy; rcases List.mem_append.mp hy with hy | hy
          · exact (hS y hy).imp_left (List.mem_append_left _)
          · exact Or.inl (List.mem_append_right _ hy)) hK
      refine ⟨w2, by rw [PyM.bind_of_ok r1, r2], ?_, ?_, fun x hx y hy => h.back k1 x hx y (k2 x (List.mem_append_left _ hx) y hy)⟩
      · simpa [news, newEqs, List.append_assoc] using s2
      · intro hu; simpa [news, List.append_assoc] using u2 (u1 hu)
    | par a x =>
      simp only [chk, Bool.and_eq_true, beq_iff_eq, bne_iff_ne, ne_eq, Bool.not_eq_true', decide_eq_true_eq, Bool.or_eq_true] at hl
      obtain ⟨⟨⟨⟨⟨⟨l1, l2⟩, l3⟩, l4⟩, l5⟩, l6⟩, l8⟩ := hl
      have hn : a ∉ S := fun hc => by
        rcases hS a hc with hh | hh
        · simp [hh] at l4
        · rw [hh] at l3; cases l3
      obtain ⟨w1, r1, s1, u1, -, k1⟩ := h.par hn l2 l1 (lib_units (by simpa using l5)) l6
      obtain ⟨w2, r2, s2, u2, k2⟩ := ih s1 (C := C ++ [a]) l8 (by
          intro y hy; rcases List.mem_append.mp hy with hy | hy
          · exact List.mem_append_left _ (hC y hy)
          · exact List.mem_append_right _ hy) (by
          intro y hy; rcases List.mem_append.mp hy with hy | hy
          · exact (hS y hy).imp_left (List.mem_append_left _)
          · exact Or.inl (List.mem_append_right _ hy)) hK
      refine ⟨w2, by rw [PyM.bind_of_ok r1, r2], ?_, ?_, fun x hx y hy => h.back k1 x hx y (k2 x (List.mem_append_left _ hx) y hy)⟩
      · simpa [news, newEqs, List.append_assoc] using s2
      · intro hu; simpa [news, List.append_assoc] using u2 (u1 hu)
    | eqn a k d st c =>
      cases st with
      | res x =>
        simp only [chk, Bool.and_eq_true, beq_iff_eq, bne_iff_ne, ne_eq, Bool.not_eq_true', List.all_eq_true] at hl
        obtain ⟨⟨⟨⟨⟨⟨⟨⟨rfl, rfl⟩, l1⟩, l2⟩, l3⟩, l4⟩, l5⟩, l6⟩, l7⟩ := hl
        obtain ⟨dm, hdm⟩ := Option.isSome_iff_exists.mp l2
        have hk : k ∉ E.map Prod.fst := fun hc => by
          rcases hK k hc with hh | hh
          · simp [hh] at l5
          · rw [hh] at l6; cases l6
        obtain ⟨w1, r1, s1, u1, k1⟩ := h.eqn (desc := d) (fun y hy => hC y (by simpa using l1 y hy)) hdm l4 hk (Or.inl l3)
        obtain ⟨w2, r2, s2, u2, k2⟩ := ih s1 (K' := K' ++ [k]) l7 hC hS (by
          intro y hy
          simp only [List.map_append, List.map_cons, List.map_nil, List.mem_append, List.mem_singleton] at hy ⊢
          rcases hy with hy | hy
          · exact (hK y hy).imp_left Or.inl
          · exact Or.inl (Or.inr hy))
        refine ⟨w2, (PyM.bind_of_ok r1).trans r2, ?_, ?_, fun x hx y hy => k1 x hx y (k2 x hx y hy)⟩
        · simpa [news, newEqs, List.append_assoc] using s2
        · intro hu; simpa [news, List.append_assoc] using u2 (u1 hu)
      | _ => simp [chk] at hl
    | _ => simp [chk] at hl

/-! ## Setting a value -/

theorem St.set (h : St I w m n b S E) {a : String} (ha : a ∈ S) (v : Rat) (hE : E = [] ∨ ∀ q, Holds w m a q → q.isSpecified = false) :
    ∃ w', setFloat m a v w = (.ok (), w') ∧ St I w' m n b S E ∧
      ∀ x ∈ S, ∀ q', Holds w' m x q' → if x = a then q'.value = v ∧ q'.isSpecified = true else Holds w m x q' := by
  obtain ⟨mo, h1, h2, h3, h4, h5, h6⟩ := h.obj
  obtain ⟨r, y, g1, g2, g3, g4, g5, g6⟩ := h5 a ha
  let y' : Quantity := { y with value := v, isSpecified := true }
  have hlt : r < w.qs.length := (List.getElem?_eq_some_iff.mp g2).1
  have hrun : setFloat m a v w = (.ok (), { w with qs := w.qs.set r y' }) := by
    have hl : lookupM m { attr := a } w = (.ok (r, y), w) := by simp [lookupM, World.lookup, h1, g1, g2]
    simp only [setFloat, Cmd.run]
    rw [PyM.bind_of_ok hl]
    have : AVal.eval m (.float v) w = (.ok (.float v), w) := rfl
    rw [PyM.bind_of_ok this]
    unfold setValueM
    rw [PyM.bind_of_ok (getQ_of g2)]
    rfl
  have hback : ∀ x ∈ S, ∀ q', Holds { w with qs := w.qs.set r y' } m x q' →
      if x = a then q'.value = v ∧ q'.isSpecified = true else Holds w m x q' := by
    rintro x hx q' ⟨mo1, r1, k1, k2, k3⟩
    rw [show w.ms[m]? = some mo1 from k1] at h1; cases h1
    split
    · rename_i he
      subst he
      rw [g1] at k2; cases k2
      rw [List.getElem?_set_self hlt] at k3
      cases k3; exact ⟨rfl, rfl⟩
    · rename_i hne
      have hr : r ≠ r1 := by
        rintro rfl
        obtain ⟨r2, z, z1, z2, z3, -⟩ := h5 x hx
        rw [k2] at z1; cases z1
        rw [g2] at z2; cases z2
        rw [g3] at z3
        apply hne
        have := congrArg String.toList z3
        simp only [String.toList_append] at this
        exact (String.toList_inj.mp (List.append_cancel_right (List.append_cancel_right this))).symm
      rw [List.getElem?_set_ne hr] at k3
      exact ⟨_, r1, k1, k2, k3⟩
  refine ⟨_, hrun, ⟨⟨mo, h1, h2, h3, h4, ?_, ?_⟩, h.named⟩, hback⟩
  · intro x hx
    obtain ⟨r1, z, z1, z2, z3, z4, z5, z6⟩ := h5 x hx
    by_cases hr : r = r1
    · subst hr
      rw [g2] at z2; cases z2
      exact ⟨r, y', z1, List.getElem?_set_self hlt, z3, z4, z5, z6⟩
    · exact ⟨r1, z, z1, by simpa [List.getElem?_set_ne hr] using z2, z3, z4, z5, z6⟩
  · rcases hE with rfl | hE
    · rw [List.forall₂_nil_right_iff] at h6
      show List.Forall₂ _ mo.eqns []
      rw [h6]; exact .nil
    · refine h6.imp fun p e he => he.mono (fun _ _ hi => hi) fun ρ hρ => hρ.mono (fun _ hx => hx) ?_
      rintro x hx z ⟨mo1, r1, k1, k2, k3⟩ hz
      have hr : r ≠ r1 := by
        rintro rfl
        rw [h1] at k1; cases k1
        rw [g2] at k3; cases k3
        have := hE _ ⟨mo, r, h1, g1, g2⟩
        rw [hz] at this; cases this
      exact ⟨mo1, r1, k1, k2, by simpa [List.getElem?_set_ne hr] using k3⟩

/-- Settings by the user, before the model has equations. -/
theorem St.sets (h : St I w m n b S []) {us : List (String × Rat)} (hu : ∀ p ∈ us, p.1 ∈ S) :
    ∃ w', each us (fun p => setFloat m p.1 p.2) w = (.ok (), w') ∧ St I w' m n b S [] ∧
      ∀ x ∈ S, ∀ q', Holds w' m x q' → if x ∈ us.map Prod.fst then (x, q'.value) ∈ us ∧ q'.isSpecified = true else Holds w m x q' := by
  induction us generalizing w with
  | nil => exact ⟨w, rfl, h, fun x _ q hq => by simpa using hq⟩
  | cons p t ih =>
    obtain ⟨w1, r1, s1, k1⟩ := h.set (hu p (by simp)) p.2 (Or.inl rfl)
    obtain ⟨w2, r2, s2, k2⟩ := ih s1 fun q hq => hu q (by simp [hq])
    refine ⟨w2, by rw [each_cons, PyM.bind_of_ok r1, r2], s2, ?_⟩
    intro x hx q' hq'
    have hh := k2 x hx q' hq'
    by_cases ht : x ∈ t.map Prod.fst
    · rw [if_pos ht] at hh
      rw [if_pos (by simp only [List.map_cons, List.mem_cons]; exact Or.inr ht)]
      exact ⟨List.mem_cons_of_mem _ hh.1, hh.2⟩
    · rw [if_neg ht] at hh
      have := k1 x hx q' hh
      by_cases he : x = p.1
      · rw [if_pos he] at this
        rw [if_pos (by simp [he])]
        exact ⟨by rw [he, this.1]; exact List.mem_cons_self, this.2⟩
      · rw [if_neg he] at this
        rw [if_neg (by simp only [List.map_cons, List.mem_cons, not_or]; exact ⟨he, ht⟩)]
        exact this

/-! ## Phases -/

theorem frac_dim {a : String} (h : isFrac a = true) : Spec.dimOf a = Dim.one := by
  have hk : ∀ k ∈ dkeys Spec.dims, isFrac k = false := by decide +kernel
  have : dget Spec.dims a = none := by
    rw [dget_eq_none_iff]
    intro hc
    rw [hk a hc] at h; cases h
  simp [Spec.dimOf, this]

theorem isFrac_zIn (p : String) : isFrac (zIn p) = true := by simp [isFrac, zIn]
theorem isFrac_wIn (p : String) : isFrac (wIn p) = true := by simp [isFrac, wIn]
theorem isFrac_zOut (p : String) : isFrac (zOut p) = true := by simp [isFrac, zOut]
theorem isFrac_wOut (p : String) : isFrac (wOut p) = true := by simp [isFrac, wOut]

/-- The fractions of a phase. -/
def fracs (p : String) : List String := [zIn p, wIn p, zOut p, wOut p]

theorem isFrac_of_mem {a p : String} (h : a ∈ fracs p) : isFrac a = true := by
  simp only [fracs, List.mem_cons, List.not_mem_nil, or_false] at h
  rcases h with rfl | rfl | rfl | rfl
  · exact isFrac_zIn p
  · exact isFrac_wIn p
  · exact isFrac_zOut p
  · exact isFrac_wOut p

/-- The phase can be read off the name of a fraction. -/
theorem frac_inj {a p p' : String} (h : a ∈ fracs p) (h' : a ∈ fracs p') : p = p' := by
  simp only [fracs, List.mem_cons, List.not_mem_nil, or_false] at h h'
  have key : ∀ x y z x' z' : List Char, x ++ y ++ z = x' ++ p'.toList ++ z' → x.length = x'.length → (z = z' ∨ z.getLast? ≠ z'.getLast? ∧ z ≠ [] ∧ z' ≠ []) → y = p'.toList := by
    intro x y z x' z' he hl hz
    rcases hz with rfl | ⟨hz, hn, hn'⟩
    · have := List.append_cancel_right he
      exact (List.append_inj this hl).2
    · exfalso
      apply hz
      have := congrArg List.getLast? he
      rwa [List.getLast?_append_of_ne_nil _ hn, List.getLast?_append_of_ne_nil _ hn'] at this
  rcases h with rfl | rfl | rfl | rfl <;> rcases h' with h | h | h | h <;>
    (have he := congrArg String.toList h
     simp only [zIn, wIn, zOut, wOut, String.toList_append] at he
     exact String.toList_inj.mp (key _ _ _ _ _ he (by decide) (by decide)))

theorem fracs_nodup (p : String) : (fracs p).Nodup := by
  have h1 : ∀ (x x' : String), x.toList.head? ≠ x'.toList.head? → x ≠ x' := fun x x' h e => h (by rw [e])
  have h2 : ∀ (x x' : String), x.toList.getLast? ≠ x'.toList.getLast? → x ≠ x' := fun x x' h e => h (by rw [e])
  have hlast : ∀ a b x y : String, a = x ++ "_in" → b = y ++ "_out" → a.toList.getLast? ≠ b.toList.getLast? := by
    rintro _ _ x y rfl rfl
    rw [String.toList_append, String.toList_append, List.getLast?_append_of_ne_nil _ (by decide), List.getLast?_append_of_ne_nil _ (by decide)]
    decide
  simp only [fracs, List.nodup_cons, List.mem_cons, List.not_mem_nil, or_false, not_or, not_false_eq_true, List.nodup_nil, and_true]
  refine ⟨⟨h1 _ _ ?_, h2 _ _ ?_, h1 _ _ ?_⟩, ⟨h1 _ _ ?_, h2 _ _ ?_⟩, h1 _ _ ?_⟩
  case refine_2 => exact hlast _ _ _ _ rfl rfl
  case refine_5 => exact hlast _ _ _ _ rfl rfl
  all_goals simp [zIn, wIn, zOut, wOut]

/-- A name of a phase that can be pasted into Python code: ASCII letters, digits and underscores. -/
def _root_.Sloth.Spec.PhaseName (p : String) : Prop := ∀ c ∈ p.toList, c.isAlpha = true ∨ c.isDigit = true ∨ c = '_'

instance (p : String) : Decidable (Spec.PhaseName p) := by unfold Spec.PhaseName; infer_instance

theorem identTail_iff {p : String} : identTail p = true ↔ Spec.PhaseName p := by
  simp [identTail, Spec.PhaseName, Char.isAlphanum, or_assoc]

theorem phaseNames {l : List String} (h : ∀ p ∈ l, Spec.PhaseName p) : ∀ p ∈ l, identTail p = true := fun p hp => identTail_iff.mpr (h p hp)

/-- The fractions of a phase can be declared exactly when it has such a name. -/
theorem fracVars_refused {p : String} : Lib.fracVars p = [.fail syntaxError] ↔ ¬ Spec.PhaseName p := by
  rw [← identTail_iff]
  unfold Lib.fracVars
  split <;> simp_all

/-- One fraction. -/
theorem St.frac (h : St I w m n b S E) {a d : String} (ha : a ∉ S) (hf : isFrac a = true) :
    ∃ w', (Lib.frac a d).run m w = (.ok (), w') ∧ St I w' m n b (S ++ [a]) E ∧ (Unset w m S → Unset w' m (S ++ [a])) := by
  obtain ⟨w', r, s, u, -⟩ := h.var (x := { name := a, units := Tmpl.dimless, description := d, exposed := false, vtype := "output" }) ha (by rintro rfl; simp [isFrac] at hf) rfl dimless_reach (by rw [frac_dim hf]; exact (by decide +kernel : Tmpl.dimless.dimVec = Dim.one)) (by intro h; cases h)
  exact ⟨w', r, s, u⟩

theorem St.fracVars (h : St I w m n b S E) {p : String} (hi : identTail p = true) (hp : ∀ a ∈ fracs p, a ∉ S) :
    ∃ w', each (Lib.fracVars p) (Cmd.run m) w = (.ok (), w') ∧ St I w' m n b (S ++ fracs p) E ∧ (Unset w m S → Unset w' m (S ++ fracs p)) := by
  have hnd := fracs_nodup p
  simp only [fracs, List.nodup_cons, List.mem_cons, List.not_mem_nil, or_false, not_or, not_false_eq_true, List.nodup_nil, and_true] at hnd
  obtain ⟨⟨n1, n2, n3⟩, ⟨n4, n5⟩, n6⟩ := hnd
  have m1 : zIn p ∈ fracs p := by simp [fracs]
  have m2 : wIn p ∈ fracs p := by simp [fracs]
  have m3 : zOut p ∈ fracs p := by simp [fracs]
  have m4 : wOut p ∈ fracs p := by simp [fracs]
  obtain ⟨w1, r1, s1, u1⟩ := h.frac (d := "Molar fraction for " ++ p ++ " phase in the input") (hp _ m1) (isFrac_zIn p)
  obtain ⟨w2, r2, s2, u2⟩ := s1.frac (d := "Mass fraction for " ++ p ++ " phase in the input") (a := wIn p)
    (by simpa using ⟨hp _ m2, Ne.symm n1⟩) (isFrac_wIn p)
  obtain ⟨w3, r3, s3, u3⟩ := s2.frac (d := "Molar fraction for " ++ p ++ " phase in the output") (a := zOut p)
    (by simpa using ⟨hp _ m3, Ne.symm n2, Ne.symm n4⟩) (isFrac_zOut p)
  obtain ⟨w4, r4, s4, u4⟩ := s3.frac (d := "Mass fraction for " ++ p ++ " phase in the output") (a := wOut p)
    (by simpa using ⟨hp _ m4, Ne.symm n3, Ne.symm n5, Ne.symm n6⟩) (isFrac_wOut p)
  refine ⟨w4, ?_, by simpa [fracs] using s4, fun hu => by simpa [fracs] using u4 (u3 (u2 (u1 hu)))⟩
  rw [Lib.fracVars, if_pos hi, each_cons, PyM.bind_of_ok r1, each_cons, PyM.bind_of_ok r2, each_cons, PyM.bind_of_ok r3, each_cons, PyM.bind_of_ok r4]
  rfl

theorem St.allFracs (h : St I w m n b S E) {l : List String} (hn : l.Nodup) (hi : ∀ p ∈ l, identTail p = true)
    (hp : ∀ p ∈ l, ∀ a ∈ fracs p, a ∉ S) :
    ∃ w', each (l.flatMap Lib.fracVars) (Cmd.run m) w = (.ok (), w') ∧ St I w' m n b (S ++ l.flatMap fracs) E ∧
      (Unset w m S → Unset w' m (S ++ l.flatMap fracs)) := by
  induction l generalizing w S with
  | nil => exact ⟨w, rfl, by simpa using h, by simpa using id⟩
  | cons p t ih =>
    obtain ⟨w1, r1, s1, u1⟩ := h.fracVars (hi p (by simp)) (hp p (by simp))
    obtain ⟨w2, r2, s2, u2⟩ := ih s1 (List.nodup_cons.mp hn).2 (fun x hx => hi x (by simp [hx])) (by
      intro x hx a ha hc
      rcases List.mem_append.mp hc with hc | hc
      · exact hp x (by simp [hx]) a ha hc
      · have := frac_inj ha hc
        subst this
        exact (List.nodup_cons.mp hn).1 hx)
    refine ⟨w2, ?_, by simpa [List.flatMap_cons, List.append_assoc] using s2,
      fun hu => by simpa [List.flatMap_cons, List.append_assoc] using u2 (u1 hu)⟩
    rw [List.flatMap_cons]
    exact each_append_ok r1 r2

/-- Two equations per phase, named with two of the beginnings. -/
def pairEqs (c c' : String) (p : String) : List (String × AExpr) :=
  [(c ++ p, .bin .sub (q (zOut p)) (q (zIn p))), (c' ++ p, .bin .sub (q (wOut p)) (q (wIn p)))]

theorem St.pairs (h : St I w m n b S E) {c c' : String} (hc : c ∈ phaseKeys) (hc' : c' ∈ phaseKeys)
    (hcc : ∀ p p', c ++ p ≠ c' ++ p') (d d' : String → String) {l : List String} (hn : l.Nodup)
    (hr : ∀ p ∈ l, ∀ a ∈ fracs p, a ∈ S) (hK : ∀ p ∈ l, c ++ p ∉ E.map Prod.fst ∧ c' ++ p ∉ E.map Prod.fst) :
    ∃ w', each (l.flatMap fun p => [eq (c ++ p) (d p) (.bin .sub (q (zOut p)) (q (zIn p))), eq (c' ++ p) (d' p) (.bin .sub (q (wOut p)) (q (wIn p)))])
        (Cmd.run m) w = (.ok (), w') ∧ St I w' m n b S (E ++ l.flatMap (pairEqs c c')) ∧ (Unset w m S → Unset w' m S) := by
  induction l generalizing w E with
  | nil => exact ⟨w, rfl, by simpa using h, id⟩
  | cons p t ih =>
    have hne : ∀ c ∈ phaseKeys, ∀ p : String, c ++ p ≠ "" := by
      intro c hc p he
      have := congrArg String.toList he
      simp only [String.toList_append] at this
      have h0 : c.toList = [] := (List.append_eq_nil_iff.mp this).1
      have : ∀ c ∈ phaseKeys, c.toList ≠ [] := by decide
      exact this c hc h0
    have hinj : ∀ c p p' : String, c ++ p = c ++ p' → p = p' := by
      intro c p p' he
      have := congrArg String.toList he
      simp only [String.toList_append] at this
      exact String.toList_inj.mp (List.append_cancel_left this)
    have hz : ∀ a b, isFrac a = true → isFrac b = true → Spec.adim Spec.dimOf (.bin .sub (q a) (q b)) = some Dim.one := by
      intro a b ha hb
      simp [Spec.adim, q, frac_dim ha, frac_dim hb]
    obtain ⟨w1, r1, s1, u1, -⟩ := h.eqn (k := c ++ p) (desc := d p) (x := .bin .sub (q (zOut p)) (q (zIn p)))
      (by intro a ha; apply hr p (by simp); simp [Spec.reads, q] at ha; rcases ha with rfl | rfl <;> simp [fracs])
      (hz _ _ (isFrac_zOut p) (isFrac_zIn p)) (hne c hc p) (hK p (by simp)).1 (Or.inl rfl)
    obtain ⟨w2, r2, s2, u2, -⟩ := s1.eqn (k := c' ++ p) (desc := d' p) (x := .bin .sub (q (wOut p)) (q (wIn p)))
      (by intro a ha; apply hr p (by simp); simp [Spec.reads, q] at ha; rcases ha with rfl | rfl <;> simp [fracs])
      (hz _ _ (isFrac_wOut p) (isFrac_wIn p)) (hne c' hc' p) (by
        simp only [List.map_append, List.map_cons, List.map_nil, List.mem_append, List.mem_singleton, not_or]
        exact ⟨(hK p (by simp)).2, fun e => hcc p p e.symm⟩) (Or.inl rfl)
    obtain ⟨w3, r3, s3, u3⟩ := ih s2 (List.nodup_cons.mp hn).2 (fun x hx => hr x (by simp [hx])) (by
      intro x hx
      have hxp : x ≠ p := by rintro rfl; exact (List.nodup_cons.mp hn).1 hx
      simp only [List.map_append, List.map_cons, List.map_nil, List.mem_append, List.mem_singleton, not_or]
      exact ⟨⟨⟨(hK x (by simp [hx])).1, fun e => hxp (hinj _ _ _ e)⟩, hcc x p⟩,
        ⟨(hK x (by simp [hx])).2, fun e => hcc p x e.symm⟩, fun e => hxp (hinj _ _ _ e)⟩)
    refine ⟨w3, ?_, by simpa [List.flatMap_cons, pairEqs, List.append_assoc] using s3, fun hu => u3 (u2 (u1 hu))⟩
    rw [List.flatMap_cons]
    refine each_append_ok (w1 := w2) ?_ r3
    rw [each_cons, PyM.bind_of_ok r1, each_cons, PyM.bind_of_ok r2]
    rfl

/-- The expression of `sumEq`. -/
def sumExpr (f : String → String) : List String → AExpr
  | [] => q ""
  | p :: t => t.foldl (fun e x => .bin .add e (q (f x))) (.nbin .add (-1) (q (f p)))

theorem sumFold {f : String → String} (hf : ∀ p, isFrac (f p) = true) (t : List String) (e : AExpr) (he : Spec.adim Spec.dimOf e = some Dim.one)
    (hn : noDiv e = true) :
    Spec.adim Spec.dimOf (t.foldl (fun e x => .bin .add e (q (f x))) e) = some Dim.one ∧ noDiv (t.foldl (fun e x => .bin .add e (q (f x))) e) = true ∧
    Spec.reads (t.foldl (fun e x => .bin .add e (q (f x))) e) = Spec.reads e ++ t.map f ∧
    ∀ X v, Spec.aval I X e = some v → Spec.aval I X (t.foldl (fun e x => .bin .add e (q (f x))) e) = some (v + (t.map fun p => X (f p)).sum) := by
  induction t generalizing e with
  | nil => exact ⟨he, hn, by simp, by simp⟩
  | cons p t ih =>
    obtain ⟨i1, i2, i3, i4⟩ := ih (.bin .add e (q (f p))) (by simp [Spec.adim, he, q, frac_dim (hf p)]) (by simp [noDiv, hn, q])
    refine ⟨i1, i2, ?_, ?_⟩
    · rw [List.foldl_cons, i3]; simp [Spec.reads, q]
    · intro X v hv
      rw [List.foldl_cons, i4 X (v + X (f p)) (by simp [Spec.aval, hv, q, Spec.opVal])]
      simp [add_assoc]

theorem sumExpr_val {f : String → String} (hf : ∀ p, isFrac (f p) = true) {l : List String} (hl : l ≠ []) (X : String → K) :
    Spec.aval I X (sumExpr f l) = some (-1 + (l.map fun p => X (f p)).sum) := by
  cases l with
  | nil => exact absurd rfl hl
  | cons p t =>
    rw [sumExpr, (sumFold hf t (.nbin .add (-1) (q (f p))) (by simp [Spec.adim, q, frac_dim (hf p)]) (by simp [noDiv, q])).2.2.2 X (-1 + X (f p))
      (by simp [Spec.aval, q, Spec.opVal])]
    simp [add_assoc]

theorem St.sum (h : St I w m n b S E) {f : String → String} (hf : ∀ p, isFrac (f p) = true) {k d : String} {l : List String} (hl : l ≠ [])
    (hr : ∀ p ∈ l, f p ∈ S) (hk : k ≠ "") (hK : k ∉ E.map Prod.fst) :
    ∃ w', (sumEq k d f l).run m w = (.ok (), w') ∧ St I w' m n b S (E ++ [(k, sumExpr f l)]) ∧ (Unset w m S → Unset w' m S) := by
  cases l with
  | nil => exact absurd rfl hl
  | cons p t =>
    obtain ⟨i1, i2, i3, -⟩ := sumFold (I := I) hf t (.nbin .add (-1) (q (f p))) (by simp [Spec.adim, q, frac_dim (hf p)]) (by simp [noDiv, q])
    obtain ⟨w1, r1, s1, u1, -⟩ := h.eqn (k := k) (desc := d) (x := sumExpr f (p :: t)) (by
      intro a ha
      rw [sumExpr, i3] at ha
      simp only [Spec.reads, q, List.mem_append, List.mem_singleton, List.mem_map] at ha
      rcases ha with rfl | ⟨x, hx, rfl⟩
      · exact hr p (by simp)
      · exact hr x (by simp [hx])) i1 hk hK (Or.inl i2)
    exact ⟨w1, r1, s1, u1⟩

end
end Sloth.Lib
