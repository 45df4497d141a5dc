import Verif.Props.UnitFindings

/-!
# The ports of unit operations (C116)
-/

namespace Sloth.Lib
open Sloth PyM

/-! ## What is to be shown -/

/-- The inputs and the outputs of the classes of the library that can be connected. -/
def Spec.unitPorts : Kind → List String × List String
  | .mixer => (["ndot_in", "mdot_in", "T_in", "P_in", "H_in"], ["ndot_out", "mdot_out", "T_out", "P_out", "H_out"])
  | .tank => (["ndot_in", "mdot_in", "H_in"], ["ndot_out", "mdot_out", "H_out"])
  | .valve => (["ndot_in", "mdot_in", "H_in", "P_in", "T_in"], ["ndot_out", "mdot_out", "Qdot_out", "H_out", "P_out", "T_out"])
  | .pump => (["ndot_in", "mdot_in", "H_in", "P_in", "T_in"], ["ndot_out", "mdot_out", "H_out", "P_out", "T_out"])
  | .heater => (["ndot_in", "mdot_in", "P_in", "H_in", "T_in"], ["ndot_out", "mdot_out", "P_out", "H_out", "T_out"])
  | .flashDyn => (["ndot_in", "mdot_in", "P_in", "H_in", "T_in"],
      ["ndot_V_out", "ndo_L_out", "N", "mdot_V_out", "mdot_L_out", "M", "P_out", "H_V_out", "H_L_out", "E", "T_out"])
  | .flash => (["ndot_in", "mdot_in", "P_in", "H_in", "T_in"],
      ["ndot_V_out", "ndo_L_out", "N", "mdot_V_out", "mdot_L_out", "M", "P_out", "H_V_out", "H_L_out", "T_V_out", "T_L_out"])

/-- The name of quantity `r`. -/
def Spec.nameOf (w : World) (r : Ref) : Option String := (w.qs[r]?).map (·.name)

/-! ## Following the constructor -/

theorem nameOf_le {w w' : World} (h : w.Le w') {r : Ref} {x : String} (hx : Spec.nameOf w r = some x) : Spec.nameOf w' r = some x := by
  unfold Spec.nameOf at hx ⊢
  obtain ⟨q, h1, rfl⟩ := Option.map_eq_some_iff.1 hx
  obtain ⟨q', h2, h3⟩ := h.qs r q h1
  rw [h2, Option.map_some, h3.same]

theorem namesOf_le {w w' : World} (h : w.Le w') {l : List Ref} {xs : List String} (hl : l.map (Spec.nameOf w) = xs.map some) :
    l.map (Spec.nameOf w') = xs.map some := by
  induction l generalizing xs with
  | nil => simpa using hl
  | cons r t ih =>
    cases xs with
    | nil => simp at hl
    | cons x u =>
      simp only [List.map_cons, List.cons.injEq] at hl ⊢
      exact ⟨nameOf_le h hl.1, ih hl.2⟩

/-- What one command exposes and declares. -/
def portIn : Cmd → List String
  | .var _ a => if a.exposed = true ∧ a.vtype = "input" then [a.name] else []
  | _ => []
def portOut : Cmd → List String
  | .var _ a => if a.exposed = true ∧ a.vtype = "output" then [a.name] else []
  | _ => []
def decl : Cmd → List (String × String)
  | .var attr a => [(attr, a.name)]
  | .par attr a | .con attr a => [(attr, a.name)]
  | _ => []

/-- The model has these ports and these names under its attributes. -/
def Made (w : World) (m : MRef) (n : String) (ins outs : List String) (ds : List (String × String)) : Prop :=
  ∃ mo, w.ms[m]? = some mo ∧ mo.name = n ∧ mo.expIn.map (Spec.nameOf w) = (ins.map (· ++ "_" ++ n)).map some ∧
    mo.expOut.map (Spec.nameOf w) = (outs.map (· ++ "_" ++ n)).map some ∧
    ∀ a r, dget mo.attrs a = some (.qty r) → ∃ x, (a, x) ∈ ds ∧ Spec.nameOf w r = some (x ++ "_" ++ n)

theorem Made.le {w w' : World} {m : MRef} {n : String} {ins outs : List String} {ds : List (String × String)} (h : Made w m n ins outs ds) (hl : w.Le w')
    (hm : ∀ mo, w.ms[m]? = some mo → ∃ mo', w'.ms[m]? = some mo' ∧ mo'.name = mo.name ∧ mo'.expIn = mo.expIn ∧ mo'.expOut = mo.expOut ∧
      ∀ a r, dget mo'.attrs a = some (.qty r) → dget mo.attrs a = some (.qty r)) : Made w' m n ins outs ds := by
  obtain ⟨mo, h1, h2, h3, h4, h5⟩ := h
  obtain ⟨mo', g1, g2, g3, g4, g5⟩ := hm mo h1
  refine ⟨mo', g1, g2.trans h2, by rw [g3]; exact namesOf_le hl h3, by rw [g4]; exact namesOf_le hl h4, fun a r ha => ?_⟩
  obtain ⟨x, k1, k2⟩ := h5 a r (g5 a r ha)
  exact ⟨x, k1, nameOf_le hl k2⟩

theorem Made.add {w w' : World} {m : MRef} {n : String} {ins outs : List String} {ds : List (String × String)} (h : Made w m n ins outs ds) (hl : w.Le w')
    {attr x : String} {r : Ref} {is os : List String}
    (hm : ∀ mo, w.ms[m]? = some mo → ∃ mo', w'.ms[m]? = some mo' ∧ mo'.name = mo.name ∧ mo'.expIn = mo.expIn ++ is.map (fun _ => r) ∧
      mo'.expOut = mo.expOut ++ os.map (fun _ => r) ∧ mo'.attrs = dset mo.attrs attr (.qty r))
    (hr : Spec.nameOf w' r = some (x ++ "_" ++ n)) (hi : ∀ y ∈ is, y = x) (ho : ∀ y ∈ os, y = x) :
    Made w' m n (ins ++ is) (outs ++ os) (ds ++ [(attr, x)]) := by
  obtain ⟨mo, h1, h2, h3, h4, h5⟩ := h
  obtain ⟨mo', g1, g2, g3, g4, g5⟩ := hm mo h1
  have key : ∀ l : List String, (∀ y ∈ l, y = x) → (l.map fun _ => r).map (Spec.nameOf w') = (l.map (· ++ "_" ++ n)).map some := by
    intro l hl
    simp only [List.map_map]
    apply List.map_congr_left
    intro y hy
    simp only [Function.comp, hr, hl y hy]
  refine ⟨mo', g1, g2.trans h2, ?_, ?_, fun a r' ha => ?_⟩
  · rw [g3, List.map_append, namesOf_le hl h3, key is hi, List.map_append, List.map_append]
  · rw [g4, List.map_append, namesOf_le hl h4, key os ho, List.map_append, List.map_append]
  · rw [g5] at ha
    by_cases hx : a = attr
    · subst hx
      rw [dget_dset_self] at ha
      cases ha
      exact ⟨x, by simp, hr⟩
    · rw [dget_dset_ne _ _ (Ne.symm hx)] at ha
      obtain ⟨y, k1, k2⟩ := h5 a r' ha
      exact ⟨y, by simp [k1], nameOf_le hl k2⟩

theorem eval_same {m : MRef} {v : AVal} {x : SVArg} {w w' : World} (h : v.eval m w = (.ok x, w')) : w' = w := by
  cases v with
  | qty p =>
    simp only [AVal.eval, PyM.bind_ok, lookupM, PyM.pure, Prod.mk.injEq] at h
    obtain ⟨y, w1, ⟨_, rfl⟩, _, rfl⟩ := h
    rfl
  | _ => simp only [AVal.eval, PyM.pure, Prod.mk.injEq] at h; exact h.2.symm

theorem Made.step {w w' : World} {m : MRef} {n : String} {ins outs : List String} {ds : List (String × String)} (h : Made w m n ins outs ds) (c : Cmd)
    (hr : c.run m w = (.ok (), w')) : Made w' m n (ins ++ portIn c) (outs ++ portOut c) (ds ++ decl c) := by
  have hl : w.Le w' := by have := le_stable.cmds m [c] w; rw [PyM.each_cons, PyM.bind_run, hr] at this; exact this
  obtain ⟨mo0, hm0, hn0, -⟩ := id h
  cases c with
  | var attr a =>
    simp only [Cmd.run] at hr
    rw [PyM.bind_run, createVariable_run hm0] at hr
    by_cases hk : a.exposed = true ∧ a.vtype ≠ "input" ∧ a.vtype ≠ "output"
    · rw [if_pos hk] at hr; cases hr
    · rw [if_neg hk] at hr
      have hlt : m < w.ms.length := (List.getElem?_eq_some_iff.1 hm0).1
      simp only at hr
      rw [setAttr_run (mo := (mo0.storeVar (a.quantity mo0.name).name w.qs.length).exposeAs a w.qs.length) (by simp [World.withM, World.addQ, hlt]), Prod.mk.injEq] at hr
      obtain ⟨-, rfl⟩ := hr
      refine h.add hl (r := w.qs.length) (x := a.name) (fun mo hmo => ?_) (by simp [Spec.nameOf, World.withM, World.addQ, VarArgs.quantity, mkVariable, hn0]) ?_ ?_
      · rw [hm0] at hmo; cases hmo
        refine ⟨{ (mo0.storeVar (a.quantity mo0.name).name w.qs.length).exposeAs a w.qs.length with
            attrs := dset ((mo0.storeVar (a.quantity mo0.name).name w.qs.length).exposeAs a w.qs.length).attrs attr (.qty w.qs.length) },
          (by simp [World.withM, World.addQ, hlt]), ?_, ?_, ?_, ?_⟩ <;> simp only [ModelObj.exposeAs, portIn, portOut, ModelObj.storeVar]
        · split
          · rfl
          · split <;> rfl
        · split
          · simp
          · split <;> simp
        · split
          · next hc => simp [hc.2]
          · split <;> simp
        · split
          · rfl
          · split <;> rfl
      · intro y hy; simp only [portIn] at hy; split at hy
        · simpa using hy
        · cases hy
      · intro y hy; simp only [portOut] at hy; split at hy
        · simpa using hy
        · cases hy
  | par attr a =>
    simp only [Cmd.run] at hr
    rw [PyM.bind_run, createParameter_run hm0] at hr
    have hlt : m < w.ms.length := (List.getElem?_eq_some_iff.1 hm0).1
    simp only at hr
    rw [setAttr_run (mo := mo0.storePar (a.parameter mo0.name).name w.qs.length) (by simp [World.withM, World.addQ, hlt]), Prod.mk.injEq] at hr
    obtain ⟨-, rfl⟩ := hr
    refine h.add hl (r := w.qs.length) (x := a.name) (is := []) (os := []) (fun mo hmo => ?_)
      (by simp [Spec.nameOf, World.withM, World.addQ, ParArgs.parameter, mkParameter, hn0]) (by simp) (by simp)
    rw [hm0] at hmo; cases hmo
    exact ⟨{ mo0.storePar (a.parameter mo0.name).name w.qs.length with attrs := dset mo0.attrs attr (.qty w.qs.length) }, (by simp [World.withM, World.addQ, hlt, ModelObj.storePar]), rfl, by simp [ModelObj.storePar], by simp [ModelObj.storePar], rfl⟩
  | con attr a =>
    simp only [Cmd.run] at hr
    rw [PyM.bind_run, createConstant_run hm0] at hr
    have hlt : m < w.ms.length := (List.getElem?_eq_some_iff.1 hm0).1
    simp only at hr
    rw [setAttr_run (mo := mo0.storeCon (a.constant mo0.name).name w.qs.length) (by simp [World.withM, World.addQ, hlt]), Prod.mk.injEq] at hr
    obtain ⟨-, rfl⟩ := hr
    refine h.add hl (r := w.qs.length) (x := a.name) (is := []) (os := []) (fun mo hmo => ?_)
      (by simp [Spec.nameOf, World.withM, World.addQ, ParArgs.constant, mkConstant, hn0]) (by simp) (by simp)
    rw [hm0] at hmo; cases hmo
    exact ⟨{ mo0.storeCon (a.constant mo0.name).name w.qs.length with attrs := dset mo0.attrs attr (.qty w.qs.length) }, (by simp [World.withM, World.addQ, hlt, ModelObj.storeCon]), rfl, by simp [ModelObj.storeCon], by simp [ModelObj.storeCon], rfl⟩
  | eqn attr name d st ck =>
    simp only [portIn, portOut, decl, List.append_nil]
    simp only [Cmd.run] at hr
    rw [PyM.bind_run] at hr
    rcases hs : st.eval m w with ⟨e | x, w2⟩
    · rw [hs] at hr; cases hr
    · rw [hs] at hr
      obtain rfl : w2 = w := by simp only [AStmt.eval, Prod.mk.injEq] at hs; exact hs.2.symm
      simp only at hr
      rw [PyM.bind_run] at hr
      have hlt : m < w2.ms.length := (List.getElem?_eq_some_iff.1 hm0).1
      rcases createEquation_run hm0 name d (some x) ck with ⟨y, u, he⟩ | ⟨t, t', e, e', u, he, -⟩
      · rw [he] at hr; cases hr
      · rw [he] at hr
        simp only at hr
        rw [setAttr_run (mo := mo0.storeEqn e'.name w2.es.length) (by simp [World.withM, World.addE, World.withUid, hlt]), Prod.mk.injEq] at hr
        obtain ⟨-, rfl⟩ := hr
        refine h.le hl fun mo hmo => ?_
        rw [hm0] at hmo; cases hmo
        refine ⟨{ mo0.storeEqn e'.name w2.es.length with attrs := dset mo0.attrs attr (.eqn w2.es.length) },
          (by simp [World.withM, World.addE, World.withUid, hlt, ModelObj.storeEqn]), rfl, rfl, rfl, fun a r ha => ?_⟩
        simp only at ha
        by_cases hx : a = attr
        · subst hx; rw [dget_dset_self] at ha; cases ha
        · rw [dget_dset_ne _ _ (Ne.symm hx)] at ha; exact ha
  | setValue p v unit =>
    simp only [portIn, portOut, decl, List.append_nil]
    refine h.le hl fun mo hmo => ?_
    simp only [Cmd.run, PyM.bind_ok] at hr
    obtain ⟨x, w2, h1, v', w3, h2, h3⟩ := hr
    obtain rfl : w2 = w := by simp only [lookupM, Prod.mk.injEq] at h1; exact h1.2.symm
    obtain rfl : w3 = w2 := eval_same h2
    rcases setValueM_run x.1 v' unit w3 with ⟨e, he⟩ | ⟨q, q', _, _, he⟩
    · rw [he] at h3; cases h3
    · rw [he, Prod.mk.injEq] at h3
      obtain ⟨-, rfl⟩ := h3
      exact ⟨mo, hmo, rfl, rfl, rfl, fun _ _ ha => ha⟩
  | distribute p =>
    simp only [portIn, portOut, decl, List.append_nil]
    refine h.le hl fun mo hmo => ?_
    simp only [Cmd.run, PyM.bind_ok] at hr
    obtain ⟨x, w2, h1, h3⟩ := hr
    obtain rfl : w2 = w := by simp only [lookupM, Prod.mk.injEq] at h1; exact h1.2.symm
    rcases distributeM_run x.1 w2 with ⟨e, he⟩ | ⟨q, _, he⟩
    · rw [he] at h3; cases h3
    · rw [he, Prod.mk.injEq] at h3
      obtain ⟨-, rfl⟩ := h3
      exact ⟨mo, hmo, rfl, rfl, rfl, fun _ _ ha => ha⟩
  | fail e => cases hr

theorem Made.run {m : MRef} {n : String} (l : List Cmd) : ∀ {w w' : World} {ins outs : List String} {ds : List (String × String)}, Made w m n ins outs ds →
    each l (Cmd.run m) w = (.ok (), w') → Made w' m n (ins ++ l.flatMap portIn) (outs ++ l.flatMap portOut) (ds ++ l.flatMap decl) := by
  induction l with
  | nil =>
    intro w w' ins outs ds h hr
    simp only [each_nil, PyM.pure, Prod.mk.injEq, true_and] at hr
    subst hr
    simpa using h
  | cons c t ih =>
    intro w w' ins outs ds h hr
    rw [PyM.each_cons, PyM.bind_ok] at hr
    obtain ⟨_, w1, h1, h2⟩ := hr
    have := ih (h.step c h1) h2
    simpa only [List.flatMap_cons, List.append_assoc] using this

/-! ## Ports -/

theorem unit_made {k : Kind} {w w' : World} (hw : Reachable w) {n d : String} {v : View} {m : MRef} (h : newUnit k n d (some v) w = (.ok m, w')) :
    Made w' m n ((k.init v).flatMap portIn) ((k.init v).flatMap portOut) ((k.init v).flatMap decl) := by
  simp only [newUnit] at h
  rw [PyM.bind_of_ok (newModel_ok n d _ hw), PyM.bind_ok] at h
  obtain ⟨_, w1, h1, h2⟩ := h
  simp only [PyM.pure, Prod.mk.injEq, Except.ok.injEq] at h2
  obtain ⟨rfl, rfl⟩ := h2
  have h0 : Made { w with ms := w.ms ++ [{ name := n, description := d, body := { eqns := k.eqs v }, ports := 0 }] } w.ms.length n [] [] [] :=
    ⟨{ name := n, description := d, body := { eqns := k.eqs v }, ports := 0 }, (by simp), rfl, rfl, rfl, fun a r ha => by simp [dget] at ha⟩
  simpa using h0.run _ h1

/-- Commands without ports. -/
theorem no_ports {l : List Cmd} (h : ∀ c ∈ l, portIn c = [] ∧ portOut c = []) : l.flatMap portIn = [] ∧ l.flatMap portOut = [] := by
  simp only [List.flatMap_eq_nil_iff]
  exact ⟨fun c hc => (h c hc).1, fun c hc => (h c hc).2⟩

theorem fracVars_ports (p : String) : ∀ c ∈ fracVars p, portIn c = [] ∧ portOut c = [] := by
  intro c hc
  unfold fracVars at hc
  split at hc <;> simp at hc
  · rcases hc with rfl | rfl | rfl | rfl <;> exact ⟨rfl, rfl⟩
  · subst hc; exact ⟨rfl, rfl⟩

theorem flashFracVars_ports (p : String) : ∀ c ∈ flashFracVars p, portIn c = [] ∧ portOut c = [] := by
  intro c hc
  unfold flashFracVars at hc
  split at hc <;> simp at hc
  · rcases hc with rfl | rfl | rfl | rfl | rfl | rfl <;> exact ⟨rfl, rfl⟩
  · subst hc; exact ⟨rfl, rfl⟩

theorem mixerPhase_ports (p : String) : ∀ c ∈ mixerPhase p, portIn c = [] ∧ portOut c = [] := by
  intro c hc
  simp only [mixerPhase, List.mem_cons, List.not_mem_nil, or_false] at hc
  rcases hc with rfl | rfl <;> exact ⟨rfl, rfl⟩

theorem sums_ports (l : List String) : ∀ c ∈ mixerSums l, portIn c = [] ∧ portOut c = [] := by
  intro c hc
  simp only [mixerSums, List.mem_cons, List.not_mem_nil, or_false] at hc
  rcases hc with rfl | rfl | rfl | rfl <;> cases l <;> exact ⟨rfl, rfl⟩

theorem cpMix_ports (v : View) : portIn (cpMix v) = [] ∧ portOut (cpMix v) = [] := by
  unfold cpMix
  split
  · exact ⟨rfl, rfl⟩
  · split <;> exact ⟨rfl, rfl⟩

theorem flat_ports {f : String → List Cmd} (hf : ∀ p, ∀ c ∈ f p, portIn c = [] ∧ portOut c = []) (l : List String) :
    (l.flatMap f).flatMap portIn = [] ∧ (l.flatMap f).flatMap portOut = [] :=
  no_ports fun c hc => by obtain ⟨p, _, h⟩ := List.mem_flatMap.1 hc; exact hf p c h

theorem ifPhases_ports {f : String → List Cmd} (hf : ∀ p, ∀ c ∈ f p, portIn c = [] ∧ portOut c = []) (v : View) :
    (ifPhases v f).flatMap portIn = [] ∧ (ifPhases v f).flatMap portOut = [] := by
  unfold ifPhases
  split
  · exact flat_ports hf _
  · exact ⟨rfl, rfl⟩

theorem init_ports (k : Kind) (v : View) : ((k.init v).flatMap portIn, (k.init v).flatMap portOut) = Spec.unitPorts k := by
  have hf := ifPhases_ports fracVars_ports v
  have hg := ifPhases_ports flashFracVars_ports v
  have hc := cpMix_ports v
  have if_p : ∀ (c : Prop) [Decidable c] (l : List Cmd), (l.flatMap portIn = [] ∧ l.flatMap portOut = []) →
      (if c then l else []).flatMap portIn = [] ∧ (if c then l else []).flatMap portOut = [] := by
    intro c _ l hl
    split
    · exact hl
    · exact ⟨rfl, rfl⟩
  have m1 := if_p (v.names.length > 1) _ (flat_ports fracVars_ports v.names)
  have m2 := if_p (v.count ≥ 2) _ (no_ports (sums_ports v.names))
  have m3 := if_p (v.names.length > 1) _ (flat_ports mixerPhase_ports v.names.dropLast)
  cases k with
  | mixer => simp only [Kind.init, mixerInit, List.flatMap_append, m1, m2, m3]; rfl
  | tank => simp only [Kind.init, tankInit, List.flatMap_append, hf]; rfl
  | valve => simp only [Kind.init, valveInit, List.flatMap_append, hf]; rfl
  | pump => simp only [Kind.init, pumpInit, List.flatMap_append, hf]; rfl
  | heater => simp only [Kind.init, heaterInit, List.flatMap_append, List.flatMap_cons, List.flatMap_nil, hf, hc]; rfl
  | flashDyn => simp only [Kind.init, flashDynInit, List.flatMap_append, List.flatMap_cons, List.flatMap_nil, hf, hc]; rfl
  | flash => simp only [Kind.init, flashInit, List.flatMap_append, hg]; rfl

/-- Whatever happened before, whatever the package: the inputs and outputs of a new unit operation are those of its class, in this order. -/
theorem unit_ports {k : Kind} {w w' : World} (hw : Reachable w) {n d : String} {v : View} {m : MRef} (h : newUnit k n d (some v) w = (.ok m, w')) :
    ∃ mo, w'.ms[m]? = some mo ∧ mo.name = n ∧
      mo.expIn.map (Spec.nameOf w') = (Spec.unitPorts k).1.map (fun x => some (x ++ "_" ++ n)) ∧
      mo.expOut.map (Spec.nameOf w') = (Spec.unitPorts k).2.map (fun x => some (x ++ "_" ++ n)) := by
  obtain ⟨mo, h1, h2, h3, h4, -⟩ := unit_made hw h
  have hp := init_ports k v
  rw [← hp]
  exact ⟨mo, h1, h2, by rw [h3, List.map_map]; rfl, by rw [h4, List.map_map]; rfl⟩

/-! ## Names -/

/-- Every quantity declared by these classes has the name of its attribute. -/
def Spec.Plain (k : Kind) : Prop := k ≠ .flash ∧ k ≠ .flashDyn

def same (c : Cmd) : Prop := ∀ x ∈ decl c, x.1 = x.2

theorem same_fracVars (p : String) : ∀ c ∈ fracVars p, same c := by
  intro c hc
  unfold fracVars at hc
  split at hc <;> simp at hc
  · rcases hc with rfl | rfl | rfl | rfl <;> simp [same, decl, frac]
  · subst hc; simp [same, decl]

theorem same_ifPhases (v : View) : ∀ c ∈ ifPhases v fracVars, same c := by
  intro c hc
  unfold ifPhases at hc
  split at hc
  · obtain ⟨p, _, h⟩ := List.mem_flatMap.1 hc; exact same_fracVars p c h
  · cases hc

theorem same_all {l : List Cmd} (h : ∀ c ∈ l, same c) : ∀ x ∈ l.flatMap decl, x.1 = x.2 := fun x hx => by
  obtain ⟨c, hc, hx⟩ := List.mem_flatMap.1 hx
  exact h c hc x hx

theorem init_same {k : Kind} (hk : Spec.Plain k) (v : View) : ∀ x ∈ (k.init v).flatMap decl, x.1 = x.2 := by
  have hf := same_all (same_ifPhases v)
  have hs : (mixerSums v.names).flatMap decl = [] := by
    cases h : v.names <;> rfl
  have hm : ∀ l : List String, (l.flatMap mixerPhase).flatMap decl = [] := by
    intro l
    rw [List.flatMap_eq_nil_iff]
    intro c hc
    obtain ⟨p, _, h⟩ := List.mem_flatMap.1 hc
    simp only [mixerPhase, List.mem_cons, List.not_mem_nil, or_false] at h
    rcases h with rfl | rfl <;> rfl
  have hc : decl (cpMix v) = [] := by
    unfold cpMix
    split
    · rfl
    · split <;> rfl
  intro x hx
  cases k with
  | mixer =>
    simp only [Kind.init, mixerInit, List.flatMap_append, List.mem_append] at hx
    rcases hx with (((hx | hx) | hx) | hx) | hx
    · split at hx
      · exact same_all (fun c hc => by obtain ⟨p, _, h⟩ := List.mem_flatMap.1 hc; exact same_fracVars p c h) x hx
      · cases hx
    · revert x; decide
    · split at hx
      · rw [hs] at hx; cases hx
      · cases hx
    · split at hx
      · rw [hm] at hx; cases hx
      · cases hx
    · revert x; decide
  | tank =>
    simp only [Kind.init, tankInit, List.append_assoc] at hx
    rw [List.flatMap_append, List.mem_append] at hx
    rcases hx with hx | hx
    · exact hf x hx
    · clear hf hs hm hc; revert x; decide
  | valve =>
    simp only [Kind.init, valveInit, List.flatMap_append, List.mem_append] at hx
    rcases hx with hx | hx
    · revert x; decide
    · exact hf x hx
  | pump =>
    simp only [Kind.init, pumpInit, List.flatMap_append, List.mem_append] at hx
    rcases hx with hx | hx
    · revert x; decide
    · exact hf x hx
  | heater =>
    simp only [Kind.init, heaterInit, List.flatMap_append, List.flatMap_cons, List.flatMap_nil, hc, List.mem_append, List.append_nil, List.not_mem_nil, or_false] at hx
    rcases hx with hx | hx
    · exact hf x hx
    · revert x; decide
  | flashDyn => exact absurd rfl hk.2
  | flash => exact absurd rfl hk.1

/-- Flash drums apart, every quantity of a new unit operation is named after the attribute that holds it and the unit operation. -/
theorem unit_names_partial {k : Kind} (hk : Spec.Plain k) {w w' : World} (hw : Reachable w) {n d : String} {v : View} {m : MRef}
    (h : newUnit k n d (some v) w = (.ok m, w')) :
    ∃ mo, w'.ms[m]? = some mo ∧ ∀ a r, dget mo.attrs a = some (.qty r) → Spec.nameOf w' r = some (a ++ "_" ++ n) := by
  obtain ⟨mo, h1, -, -, -, h5⟩ := unit_made hw h
  refine ⟨mo, h1, fun a r ha => ?_⟩
  obtain ⟨x, hx, hr⟩ := h5 a r ha
  obtain rfl : a = x := init_same hk v _ hx
  exact hr

/-- The name under attribute `a` of model `m`. -/
def Spec.called (w : World) (m : MRef) (a : String) : Option String :=
  match (w.ms[m]?).bind fun mo => dget mo.attrs a with
  | some (.qty r) => Spec.nameOf w r
  | _ => none

/-- Flash drums are an exception: the mass fractions of a phase in the liquid and in the vapour have one name, and only the second can be found by it. -/
theorem flash_fractions_confused :
    let r := newUnit .flash "F" "" (some Ex.brine) World.init
    r.1.toOption = some 0 ∧ Spec.called r.2 0 "w_l_L_out" = some "w_l_out_F" ∧ Spec.called r.2 0 "w_l_V_out" = some "w_l_out_F" ∧
      Spec.called r.2 0 "z_l_V_out" = some "z_l_out_F" ∧ Spec.called r.2 0 "z_l_L_out" = some "z_l_L_out_F" ∧ Spec.called r.2 0 "ndot_L_out" = some "ndo_L_out_F" := by
  decide +kernel

/-! ## Phases without a proper name -/

/-- Tanks, heaters and flash drums execute text with the names of the phases; the first one that is no part of an identifier ends this with a `SyntaxError`. -/
theorem bad_phase {k : Kind} (hk : k = .tank ∨ k = .heater ∨ k = .flash ∨ k = .flashDyn) {w : World} (hw : Reachable w) (n d : String) {v : View}
    (hc : v.count ≥ 2) {p : String} {t : List String} (hp : v.names = p :: t) (hb : ¬ Spec.PhaseName p) :
    (newUnit k n d (some v) w).1 = .error (.exception "SyntaxError") := by
  have hi : identTail p = false := by
    rw [← identTail_iff] at hb
    simpa using hb
  have key : ∃ l, k.init v = .fail (.exception "SyntaxError") :: l := by
    rcases hk with rfl | rfl | rfl | rfl <;>
      simp [Kind.init, tankInit, heaterInit, flashInit, flashDynInit, ifPhases, hc, hp, fracVars, flashFracVars, hi, syntaxError]
  obtain ⟨l, hl⟩ := key
  simp only [newUnit]
  rw [PyM.bind_of_ok (newModel_ok n d _ hw), hl, PyM.bind_run, PyM.each_cons, PyM.bind_run]
  rfl

/-! ## The hypotheses -/

example : ∃ m w', newUnit .pump "P" "" (some Ex.brine) World.init = (.ok m, w') := by
  have h : ((newUnit .pump "P" "" (some Ex.brine) World.init).1.toOption).isSome = true := by decide +kernel
  rcases hr : newUnit .pump "P" "" (some Ex.brine) World.init with ⟨e | m, w'⟩
  · rw [hr] at h; cases h
  · exact ⟨m, w', rfl⟩

example : ({ Ex.brine with names := ["a b", "l"] } : View).count ≥ 2 ∧ ¬ Spec.PhaseName "a b" := ⟨by decide +kernel, by decide +kernel⟩

end Sloth.Lib
