import Verif.Lemmas.Modular
import Verif.Props.Order

/-!
# C96: what a model declares depends on its class and name only
-/

namespace Sloth
open PyM

/-- Nothing has been declared yet, and no inlets are set. -/
def Spec.Fresh (mo : ModelObj) : Prop :=
  mo.vars = [] ∧ mo.pars = [] ∧ mo.cons = [] ∧ mo.eqns = [] ∧ mo.attrs = [] ∧ mo.expIn = [] ∧ mo.expOut = [] ∧ mo.inlets = []

/-- Two quantities of two heaps that are the same except for description, LaTeX text and bounds. -/
def Spec.SameAt (w v : World) (r s : Ref) : Prop := ∃ q q', w.qs[r]? = some q ∧ v.qs[s]? = some q' ∧ q.Same q'

/-- Two equations of two heaps that state the same. -/
def Spec.SameEqnAt (w v : World) (r s : ERef) : Prop := ∃ e f, w.es[r]? = some e ∧ v.es[s]? = some f ∧ Spec.SameEqn e f

/-- Two models of two heaps declare the same, in the same order. -/
structure Spec.SameDeclarations (w v : World) (mo no : ModelObj) : Prop where
  vars : List.Forall₂ (fun p p' => p.1 = p'.1 ∧ Spec.SameAt w v p.2 p'.2) mo.vars no.vars
  pars : List.Forall₂ (fun p p' => p.1 = p'.1 ∧ Spec.SameAt w v p.2 p'.2) mo.pars no.pars
  cons : List.Forall₂ (fun p p' => p.1 = p'.1 ∧ Spec.SameAt w v p.2 p'.2) mo.cons no.cons
  eqns : List.Forall₂ (fun p p' => p.1 = p'.1 ∧ Spec.SameEqnAt w v p.2 p'.2) mo.eqns no.eqns
  expIn : List.Forall₂ (Spec.SameAt w v) mo.expIn no.expIn
  expOut : List.Forall₂ (Spec.SameAt w v) mo.expOut no.expOut

theorem MoTwin.same {L : Ref → Ref → Prop} {w v : World} {mo no : ModelObj} (hl : Live L w v) (h : MoTwin L w v mo no) : Spec.SameDeclarations w v mo no where
  vars := h.vars.mono hl.same
  pars := h.pars.mono hl.same
  cons := h.cons.mono hl.same
  eqns := h.eqns.mono fun _ _ ⟨e, f, h1, h2, h3, _⟩ => ⟨e, f, h1, h2, h3⟩
  expIn := h.expIn.imp hl.same
  expOut := h.expOut.imp hl.same

theorem ExSim.eq {x y : Except Err Unit} (h : ExSim (fun _ _ => True) x y) : x = y := by
  rcases h.cases with ⟨e, rfl, rfl⟩ | ⟨a, b, rfl, rfl, _⟩ <;> rfl

/-- C96: two models of the same name and class (up to descriptions, LaTeX texts and bounds), whose bodies only read attributes of the model itself and
name their equations, are called in any two heaps.  The calls end alike, with the same exception if any; the models then declare the same; and in either
heap all other models, all earlier quantities and equations and the problem are as before. -/
theorem model_modular {w v : World} {m n : MRef} {mo no : ModelObj} (hm : w.ms[m]? = some mo) (hn : v.ms[n]? = some no) (hname : mo.name = no.name)
    (hb : mo.body.Alike no.body) (hf : Spec.Fresh mo) (hf' : Spec.Fresh no) :
    (Model.call m w).1 = (Model.call n v).1 ∧
    (∃ mo' no', (Model.call m w).2.ms[m]? = some mo' ∧ (Model.call n v).2.ms[n]? = some no' ∧
      Spec.SameDeclarations (Model.call m w).2 (Model.call n v).2 mo' no') ∧
    ((∀ k, k ≠ m → (Model.call m w).2.ms[k]? = w.ms[k]?) ∧ w.qs <+: (Model.call m w).2.qs ∧ w.es <+: (Model.call m w).2.es ∧ (Model.call m w).2.pr = w.pr) := by
  obtain ⟨a1, a2, a3, a4, a5, a6, a7, a8⟩ := hf
  obtain ⟨b1, b2, b3, b4, b5, b6, b7, b8⟩ := hf'
  have hs : Sim m n (fun _ _ => False) w v := ⟨⟨nofun, nofun, nofun⟩, nofun, mo, no, hm, hn, hname, hb, a8, b8, by rw [a1, b1]; exact .nil, by rw [a2, b2]; exact .nil,
    by rw [a3, b3]; exact .nil, by rw [a4, b4]; exact .nil, by rw [a6, b6]; exact .nil, by rw [a7, b7]; exact .nil, by rw [a5, b5]; exact .nil⟩
  obtain ⟨L, -, h2, h3, h4, h5⟩ := hs.call
  obtain ⟨mo', no', k1, k2, k3⟩ := h2.mo
  refine ⟨h5.eq, ⟨mo', no', k1, k2, k3.same h2.toLive⟩, h3.ms, ?_, ?_, h3.pr⟩
  · rw [List.prefix_iff_getElem?]
    intro r hr
    rw [h3.qs r hr (by rintro ⟨_, h⟩; exact h), List.getElem?_eq_getElem hr]
  · rw [List.prefix_iff_getElem?]
    intro r hr
    exact h3.le.es r _ (List.getElem?_eq_getElem hr)

/-- A tank; the texts and the bound of its level are arguments. -/
def Ex.tank (d latex : String) (upper : Option Rat) : Body where
  cons := [.con "g" { name := "g", units := Tmpl.dimless, description := d, latex, value := 10 }]
  pars := [.par "p" { name := "p", units := Tmpl.dimless, description := d }]
  vars := [.var "h" { name := "h", units := Tmpl.dimless, description := d, latex, upper, exposed := true, vtype := "output" }, Ex.dv "f",
    .setValue { attr := "p" } (.float 2) none]
  eqns := [.eqn "e" "e" d (.eqn (Ex.at_ "f") (.bin .mul (Ex.at_ "p") (Ex.at_ "h"))) true]

/-- Alone in a session. -/
def Ex.alone : List Op := [.newModel "tank" "" (Ex.tank "" "" none) none]

/-- After another model has been made, called and connected. -/
def Ex.crowd : List Op := Ex.twoApart ++ [.call 0, .addModels (.leaf 0), .resolve, .newModel "tank" "a tank" (Ex.tank "level" "\\eta" (some 7)) none]

theorem Ex.tank_alike (d d' l l' : String) (u u' : Option Rat) : (Ex.tank d l u).Alike (Ex.tank d' l' u') where
  cons := .cons (.con _ rfl rfl rfl) .nil
  pars := .cons (.par _ rfl rfl rfl) .nil
  vars := .cons (.var _ rfl rfl rfl rfl rfl) (.cons (.var _ rfl rfl rfl rfl rfl) (.cons (.setValue _ rfl trivial) .nil))
  eqns := .cons (.eqn _ _ _ _ (by decide) ⟨rfl, rfl, rfl⟩) .nil

example : ∃ w v mo no, Reachable w ∧ Reachable v ∧ w.ms[0]? = some mo ∧ v.ms[2]? = some no ∧ mo.name = no.name ∧ mo.body.Alike no.body ∧ mo.body ≠ no.body ∧
    Spec.Fresh mo ∧ Spec.Fresh no ∧ w.qs ≠ v.qs ∧ (Model.call 0 w).1.toOption = some () ∧ (Model.call 0 w).2.es.length = 1 := by
  have h1 : (history Ex.alone World.init).ms[0]? = some { name := "tank", body := Ex.tank "" "" none } := by decide +kernel
  have h2 : (history Ex.crowd World.init).ms[2]? = some { name := "tank", description := "a tank", body := Ex.tank "level" "\\eta" (some 7) } := by decide +kernel
  refine ⟨history Ex.alone World.init, history Ex.crowd World.init, _, _, ⟨_, rfl⟩, ⟨_, rfl⟩, h1, h2, rfl, Ex.tank_alike _ _ _ _ _ _, by decide +kernel,
    ⟨rfl, rfl, rfl, rfl, rfl, rfl, rfl, rfl⟩, ⟨rfl, rfl, rfl, rfl, rfl, rfl, rfl, rfl⟩, by decide +kernel, by decide +kernel, by decide +kernel⟩

/-- An equation without a name. -/
def Ex.nameless : Body := { vars := [Ex.dv "x"], eqns := [.eqn "e" "" "" (.res (Ex.at_ "x")) true] }

/-- C96 fails for a class that leaves an equation without a name: the generated name depends on what the session did before. -/
theorem modular_unnamed : ∃ w v mo no mo' no', Reachable w ∧ Reachable v ∧ w.ms[0]? = some mo ∧ v.ms[1]? = some no ∧ mo = no ∧ mo.body = Ex.nameless ∧ Spec.Fresh mo ∧
    (Model.call 0 w).2.ms[0]? = some mo' ∧ (Model.call 1 v).2.ms[1]? = some no' ∧ dkeys mo'.eqns ≠ dkeys no'.eqns := by
  have h1 : (history [.newModel "m" "" Ex.nameless none] World.init).ms[0]? = some { name := "m", body := Ex.nameless } := by decide +kernel
  have h2 : (history [.newModel "k" "" Ex.nameless none, .call 0, .newModel "m" "" Ex.nameless none] World.init).ms[1]? = some { name := "m", body := Ex.nameless } := by decide +kernel
  refine ⟨_, _, _, _, ((Model.call 0 (history [.newModel "m" "" Ex.nameless none] World.init)).2.ms[0]?).getD { name := "" },
    ((Model.call 1 (history [.newModel "k" "" Ex.nameless none, .call 0, .newModel "m" "" Ex.nameless none] World.init)).2.ms[1]?).getD { name := "" },
    ⟨_, rfl⟩, ⟨_, rfl⟩, h1, h2, rfl, rfl, ⟨rfl, rfl, rfl, rfl, rfl, rfl, rfl, rfl⟩, ?_, ?_, ?_⟩ <;> decide +kernel

end Sloth
