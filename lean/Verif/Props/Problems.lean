import Verif.Props.Blocks

/-!
# Properties of problems (C38, C39, C53, C59)
-/

namespace Sloth
open PyM UnitObj

/-! ## C38 -/

mutual
/-- The models in a nested list, from left to right. -/
def Spec.leaves : MTree → List MRef
  | .leaf m => [m]
  | .list l => Spec.leavesList l
def Spec.leavesList : List MTree → List MRef
  | [] => []
  | t :: ts => Spec.leaves t ++ Spec.leavesList ts
end

theorem each_append {α : Type} (l l' : List α) (f : α → PyM Unit) (w : World) : each (l ++ l') f w = (each l f >>= fun _ => each l' f) w := by
  induction l generalizing w with
  | nil => rfl
  | cons a t ih =>
    simp only [List.cons_append, PyM.each_cons]
    rw [PyM.bind_run, PyM.bind_run, PyM.bind_run]
    cases h : f a w with
    | mk r w1 =>
      cases r with
      | ok x => simp only []; rw [ih, PyM.bind_run]
      | error e => rfl

mutual
theorem addModels_each (w : World) : (t : MTree) → addModels t w = each (Spec.leaves t) addModel w
  | .leaf m => by
    simp only [addModels, Spec.leaves, PyM.each_cons, PyM.each_nil, PyM.bind_run]
    cases h : addModel m w with
    | mk r w1 => cases r <;> rfl
  | .list l => by simp only [addModels, Spec.leaves]; exact addModelsList_each w l
theorem addModelsList_each (w : World) : (l : List MTree) → addModelsList l w = each (Spec.leavesList l) addModel w
  | [] => rfl
  | t :: ts => by
    simp only [addModelsList, Spec.leavesList]
    rw [each_append, PyM.bind_run, PyM.bind_run, addModels_each w t]
    cases each (Spec.leaves t) addModel w with
    | mk r w1 =>
      cases r with
      | ok x => exact addModelsList_each w1 ts
      | error e => rfl
end

theorem exists_getElem? {α : Type} {l : List α} {i : Nat} (h : i < l.length) : ∃ x, l[i]? = some x := ⟨_, List.getElem?_eq_getElem h⟩

/-- The problem with one more model. -/
def ProblemObj.withModel (p : ProblemObj) (m : MRef) (mo : ModelObj) : ProblemObj :=
  { p with models := dset p.models mo.name m, variableDict := dupdate p.variableDict mo.vars, parameterDict := dupdate p.parameterDict mo.pars }

theorem addModel_run {w : World} {m : MRef} {mo : ModelObj} (h : w.ms[m]? = some mo) : addModel m w = (.ok (), { w with pr := w.pr.withModel m mo }) := by
  unfold addModel; rw [PyM.bind_of_ok (getM_of h)]; rfl

/-- The last model of the list with an entry `k`. -/
def Spec.last {β : Type} (w : World) (f : ModelObj → Dict String β) (k : String) (l : List MRef) : Option β :=
  l.reverse.findSome? fun m => (w.ms[m]?).bind fun mo => dget (f mo) k

/-- The last model of the list with the name `k`. -/
def Spec.lastNamed (w : World) (k : String) (l : List MRef) : Option MRef :=
  l.reverse.find? fun m => (w.ms[m]?).any fun mo => mo.name == k

theorem addModel_each {w : World} (hw : w.WF) (l : List MRef) (hl : ∀ m ∈ l, m < w.ms.length) :
    ∃ vd pd md, each l addModel w = (.ok (), { w with pr := { w.pr with models := md, variableDict := vd, parameterDict := pd } }) ∧
      (∀ k, dget vd k = (Spec.last w ModelObj.vars k l).or (dget w.pr.variableDict k)) ∧
      (∀ k, dget pd k = (Spec.last w ModelObj.pars k l).or (dget w.pr.parameterDict k)) ∧
      (∀ k, dget md k = (Spec.lastNamed w k l).or (dget w.pr.models k)) := by
  induction l generalizing w with
  | nil => exact ⟨_, _, _, rfl, fun k => by simp [Spec.last], fun k => by simp [Spec.last], fun k => by simp [Spec.lastNamed]⟩
  | cons m t ih =>
    obtain ⟨mo, hm⟩ := exists_getElem? (hl m (by simp))
    have hw' : ∀ p : ProblemObj, ({ w with pr := p } : World).WF := fun p =>
      ⟨fun m mo h => { hw.ms m mo h with }, fun r e h => hw.es r e h⟩
    obtain ⟨vd, pd, md, h1, h2, h3, h4⟩ := ih (hw' (w.pr.withModel m mo)) fun k hk => hl k (by simp [hk])
    refine ⟨vd, pd, md, ?_, fun k => ?_, fun k => ?_, fun k => ?_⟩
    · rw [PyM.each_cons, PyM.bind_of_ok (addModel_run hm), h1]; rfl
    · rw [h2]
      simp only [ProblemObj.withModel]
      rw [dget_dupdate _ (hw.ms m mo hm).vars.1, ← Option.or_assoc]
      simp only [Spec.last, List.reverse_cons, List.findSome?_append, List.findSome?_cons, List.findSome?_nil]
      congr 2
      rw [hm]; simp only [Option.bind_some]; cases dget mo.vars k <;> rfl
    · rw [h3]
      simp only [ProblemObj.withModel]
      rw [dget_dupdate _ (hw.ms m mo hm).pars.1, ← Option.or_assoc]
      simp only [Spec.last, List.reverse_cons, List.findSome?_append, List.findSome?_cons, List.findSome?_nil]
      congr 2
      rw [hm]; simp only [Option.bind_some]; cases dget mo.pars k <;> rfl
    · rw [h4]
      simp only [ProblemObj.withModel]
      rw [dget_dset]
      simp only [Spec.lastNamed, List.reverse_cons, List.find?_append, List.find?_cons, List.find?_nil, hm, Option.any_some, beq_iff_eq]
      rw [Option.or_assoc]
      by_cases h : mo.name = k
      · simp [h]
      · have : (mo.name == k) = false := by simpa using h
        simp [h, this]

/-- C38: adding a nested list of models succeeds in every session, adds all of them from left to right, and makes the problem's variables and
parameters the union of theirs at that time: each name stands for what the last model with such a name has, or else for what it stood for
before.  Models with different names are kept in the order of the list. -/
theorem models_flattened {w : World} (hr : Reachable w) (t : MTree) (ht : ∀ m ∈ Spec.leaves t, m < w.ms.length) :
    ∃ p', addModels t w = (.ok (), { w with pr := p' }) ∧
      (∀ k, dget p'.variableDict k = (Spec.last w ModelObj.vars k (Spec.leaves t)).or (dget w.pr.variableDict k)) ∧
      (∀ k, dget p'.parameterDict k = (Spec.last w ModelObj.pars k (Spec.leaves t)).or (dget w.pr.parameterDict k)) ∧
      (∀ k, dget p'.models k = (Spec.lastNamed w k (Spec.leaves t)).or (dget w.pr.models k)) ∧
      ((dkeys w.pr.models ++ (Spec.leaves t).filterMap fun m => (w.ms[m]?).map ModelObj.name).Nodup →
        dvalues p'.models = dvalues w.pr.models ++ Spec.leaves t) := by
  obtain ⟨vd, pd, md, h1, h2, h3, h4⟩ := addModel_each (reachable_wf hr) (Spec.leaves t) ht
  refine ⟨_, by rw [addModels_each, h1], h2, h3, h4, fun hn => ?_⟩
  simp only
  generalize Spec.leaves t = l at *
  clear h2 h3 h4 hr
  induction l generalizing w with
  | nil =>
    simp only [PyM.each_nil, PyM.pure_run, Prod.mk.injEq, true_and] at h1
    have := congrArg (fun x => x.pr.models) h1
    simp only at this
    rw [← this]; simp
  | cons m t ih =>
    obtain ⟨mo, hm⟩ := exists_getElem? (ht m (by simp))
    have hk : mo.name ∉ dkeys w.pr.models := by
      intro hk
      rw [List.nodup_append] at hn
      exact hn.2.2 _ hk mo.name (by simp [hm]) rfl
    have hd : ∀ (d : Dict String MRef), mo.name ∉ dkeys d → dset d mo.name m = d ++ [(mo.name, m)] := by
      intro d
      induction d with
      | nil => intro _; rfl
      | cons p d ih => intro h; simp only [dkeys, List.map_cons, List.mem_cons, not_or] at h; simp [dset, Ne.symm h.1, ih h.2]
    rw [PyM.each_cons, PyM.bind_of_ok (addModel_run hm)] at h1
    have := ih (w := { w with pr := w.pr.withModel m mo })
      (fun k hk => ht k (by simp [hk])) h1 (by
        simp only [ProblemObj.withModel, hd _ hk]
        simpa [dkeys, hm, List.append_assoc] using hn)
    rw [this]
    simp [ProblemObj.withModel, hd _ hk, dvalues]

/-- ... and the problem keeps what it took: whatever happens later to the models, as long as no models are added, its variables, parameters and
models stay the same. -/
theorem models_snapshot (w : World) (ops : List Op) (ho : ∀ o ∈ ops, ∀ t, o ≠ .addModels t) :
    (history ops w).pr.models = w.pr.models ∧ (history ops w).pr.variableDict = w.pr.variableDict ∧
      (history ops w).pr.parameterDict = w.pr.parameterDict := by
  have S := prRel_stable (fun k => k ≠ .model) (fun p p' => p'.models = p.models ∧ p'.variableDict = p.variableDict ∧ p'.parameterDict = p.parameterDict)
    (fun p => ⟨rfl, rfl, rfl⟩) (fun a b c h h' => ⟨h'.1.trans h.1, h'.2.1.trans h.2.1, h'.2.2.trans h.2.2⟩)
    (fun w k p hk hs => by cases hs <;> simp_all)
  refine S.history ops (fun o h => ?_) w
  cases o <;> simp [Op.Allowed]
  exact ho _ h _ rfl

/-- Three models in a nested list, two of them called the same. -/
def Ex.nested : List Op := [.newModel "m" "" {} none, .newModel "n" "" {} none, .newModel "m" "" {} none, .cmd 0 (Ex.dv "x"), .cmd 0 (Ex.dv "y"), .cmd 1 (Ex.dv "x"), .cmd 2 (Ex.dv "x")]
def Ex.tree : MTree := .list [.leaf 0, .list [.leaf 1, .list []], .list [.list [.leaf 2]]]

example : Reachable (history Ex.nested World.init) ∧ Spec.leaves Ex.tree = [0, 1, 2] ∧ (∀ m ∈ Spec.leaves Ex.tree, m < (history Ex.nested World.init).ms.length) ∧
    Spec.last (history Ex.nested World.init) ModelObj.vars "x_m" [0, 1, 2] = some 3 ∧ Spec.last (history Ex.nested World.init) ModelObj.vars "y_m" [0, 1, 2] = some 1 ∧
    Spec.lastNamed (history Ex.nested World.init) "m" [0, 1, 2] = some 2 ∧
    (dkeys (history Ex.nested World.init).pr.models ++ (Spec.leaves (.list [.leaf 0, .leaf 1])).filterMap fun m => ((history Ex.nested World.init).ms[m]?).map ModelObj.name).Nodup :=
  ⟨⟨_, rfl⟩, by decide +kernel, by decide +kernel, by decide +kernel, by decide +kernel, by decide +kernel, by decide +kernel⟩

example : ∀ o ∈ [Op.cmd 0 (Ex.dv "z"), .resolve], ∀ t, o ≠ .addModels t := by simp

/-! ## C39 -/

/-- The condition for `k` a call gives, if any. -/
def Spec.given (k : String) : Op → Option Rat
  | .initial c => dget c k
  | _ => none

/-- C39: after any session the initial condition of a variable is the last one given, whatever else was called in between (dictionaries have
distinct keys). -/
theorem initial_last_write_wins (ops : List Op) (w : World) (hd : ∀ c, Op.initial c ∈ ops → DNodup c) (k : String) :
    dget (history ops w).pr.initial k = (ops.reverse.findSome? (Spec.given k)).or (dget w.pr.initial k) := by
  have S := prRel_stable (fun k => k ≠ .initial) (fun p p' => p'.initial = p.initial) (fun p => rfl) (fun a b c h h' => h'.trans h)
    (fun w k p hk hs => by cases hs <;> simp_all)
  induction ops generalizing w with
  | nil => simp [history]
  | cons o t ih =>
    change dget (history t (o.run w).2).pr.initial k = _
    rw [ih _ fun c hc => hd c (by simp [hc])]
    simp only [List.reverse_cons, List.findSome?_append, List.findSome?_cons, List.findSome?_nil]
    rw [Option.or_assoc]
    congr 1
    have hne : (∀ c, o ≠ .initial c) → dget (o.run w).2.pr.initial k = (match Spec.given k o with | some b => some b | none => none).or (dget w.pr.initial k) := by
      intro hne
      have hg : Spec.given k o = none := by cases o <;> first | rfl | exact absurd rfl (hne _)
      rw [hg, Option.none_or]
      exact congrArg (fun d => dget d k) (S.op o (by cases o <;> simp [Op.Allowed]; exact hne _ rfl) w)
    cases o with
    | initial c =>
      have h1 : ((Op.initial c).run w).2.pr.initial = dupdate w.pr.initial c := rfl
      have h2 : Spec.given k (.initial c) = dget c k := rfl
      rw [h1, h2, dget_dupdate _ (hd c (by simp))]
      cases dget c k <;> rfl
    | _ => exact hne (by simp)

example : (∀ c, Op.initial c ∈ [Op.initial [("x", 1), ("y", 2)], .resolve, .initial [("x", 3)]] → DNodup c) ∧
    [Op.initial [("x", 1), ("y", 2)], .resolve, .initial [("x", 3)]].reverse.findSome? (Spec.given "x") = some 3 ∧
    [Op.initial [("x", 1), ("y", 2)], .resolve, .initial [("x", 3)]].reverse.findSome? (Spec.given "y") = some 2 :=
  ⟨by intro c hc; simp at hc; rcases hc with rfl | rfl <;> decide, by decide +kernel, by decide +kernel⟩

/-! ## C59 -/

theorem totalizeMin_error (m : MRef) (a : String) (ns : List ENode) (st : String) (w : World) : ∃ x, (totalizeMin m a ns st w).1 = .error x := by
  unfold totalizeMin
  rw [PyM.bind_run]
  cases h : lookupM m { attr := a ++ "_in" } w with
  | mk r w1 =>
    cases r with
    | error e => exact ⟨e, rfl⟩
    | ok x =>
      obtain ⟨y, hy⟩ := minNodes_error ns
      simp only [hy]
      exact ⟨y, rfl⟩

/-- A sequence raises when its second part always does. -/
theorem PyM.bind_raises {α β : Type} {x : PyM α} {f : α → PyM β} {P : World → Prop} {w : World} (hx : P (x w).2)
    (hf : ∀ a w, P w → ∃ e, (f a w).1 = .error e) : ∃ e, ((x >>= f) w).1 = .error e := by
  rw [PyM.bind_run]
  cases h : x w with
  | mk r w1 =>
    rw [h] at hx
    cases r with
    | ok a => exact hf a w1 hx
    | error e => exact ⟨e, rfl⟩

/-- ... or when its first part does. -/
theorem PyM.bind_raises_left {α β : Type} {x : PyM α} {f : α → PyM β} {w : World} (hx : ∃ e, (x w).1 = .error e) : ∃ e, ((x >>= f) w).1 = .error e := by
  obtain ⟨e, he⟩ := hx
  rw [PyM.bind_run]
  cases h : x w with
  | mk r w1 => rw [h] at he; simp only at he; subst he; exact ⟨e, rfl⟩

theorem totalizeBody_error (m : MRef) (l : List MRef) (w : World) : ∃ x, (totalizeBody m l w).1 = .error x := by
  refine PyM.bind_raises (P := fun _ => True) trivial fun _ w _ => PyM.bind_raises (P := fun _ => True) trivial fun _ w _ =>
    PyM.bind_raises (P := fun _ => True) trivial fun _ w _ => PyM.bind_raises (P := fun _ => True) trivial fun _ w _ => ?_
  exact PyM.bind_raises_left (totalizeMin_error _ _ _ _ _)

/-- The model has inlets and its dictionary of ports is not empty. -/
def Fed (m : MRef) (w : World) : Prop := ∃ mo p, w.ms[m]? = some mo ∧ mo.inlets ≠ [] ∧ w.ps[mo.ports]? = some p ∧ p ≠ []

theorem Fed.mono {m : MRef} {w w' : World} (h : Fed m w) (hl : w.Le w') : Fed m w' := by
  obtain ⟨mo, p, h1, h2, h3, h4⟩ := h
  obtain ⟨mo', h1', hm⟩ := hl.ms m mo h1
  obtain ⟨p', h3', hp⟩ := hl.pe _ _ h3
  refine ⟨mo', p', h1', fun h => h2 ?_, by rw [hm.ports]; exact h3', hp h4⟩
  have := hm.inlets; rw [h] at this
  exact List.prefix_nil.mp this

theorem Fed.totalize {m : MRef} {w : World} (h : Fed m w) : ∃ x, (totalizeInlets m w).1 = .error x := by
  have step : ∀ {α : Type} (x : PyM α), Pres World.Le x → ∀ w, Fed m w → Fed m (x w).2 := fun x hx w h => h.mono (hx w)
  refine PyM.bind_raises (step _ (le_stable.ensureInlet _ _ _ _ _) w h) fun _ w h => PyM.bind_raises (step _ (le_stable.ensureInlet _ _ _ _ _) w h) fun _ w h =>
    PyM.bind_raises (step _ (le_stable.ensureInlet _ _ _ _ _) w h) fun _ w h => PyM.bind_raises (step _ (le_stable.ensureInlet _ _ _ _ _) w h) fun _ w h =>
    PyM.bind_raises (step _ (le_stable.ensureInlet _ _ _ _ _) w h) fun _ w h => PyM.bind_raises (step _ (le_stable.getM _) w h) fun _ w h =>
    PyM.bind_raises (step _ (le_stable.each _ fun _ => le_stable.inc _ _ _ trivial) w h) fun _ w h => ?_
  obtain ⟨mo, p, h1, h2, h3, h4⟩ := h
  rw [PyM.bind_of_ok (getM_of h1), PyM.bind_of_ok (getP_of h3)]
  have : (!p.isEmpty) = true := by cases p <;> simp_all
  rw [this, PyM.when_true]
  exact totalizeBody_error _ _ _

theorem Fed.call {m : MRef} {w : World} (h : Fed m w) : ∃ x, (Model.call m w).1 = .error x := by
  have step : ∀ {α : Type} (x : PyM α), Pres World.Le x → ∀ w, Fed m w → Fed m (x w).2 := fun x hx w h => h.mono (hx w)
  refine PyM.bind_raises (step _ (le_stable.getM _) w h) fun _ w h => PyM.bind_raises (step _ (le_stable.cmds _ _) w h) fun _ w h =>
    PyM.bind_raises (step _ (le_stable.cmds _ _) w h) fun _ w h => PyM.bind_raises (step _ (le_stable.cmds _ _) w h) fun _ w h => ?_
  obtain ⟨mo, p, h1, h2, h3, h4⟩ := h
  rw [PyM.bind_of_ok (getM_of h1)]
  refine PyM.bind_raises_left ?_
  have : (!mo.inlets.isEmpty) = true := by cases hi : mo.inlets <;> simp_all
  rw [this, PyM.when_true]
  exact Fed.totalize ⟨mo, p, h1, h2, h3, h4⟩

/-- C59: once a model has been given an inlet stream (and no totalization function of its own), calling it raises, whatever is done before or in
between and whatever its body is; so no problem that contains it can be resolved. -/
theorem model_with_inlets_never_resolves {w : World} (hr : Reachable w) (m : MRef) (hm : m < w.ms.length) (l : List MRef) (hl : l ≠ []) (nm : String)
    (ops : List Op) : ∃ w1, setInlets m l nm w = (.ok (), w1) ∧ (∃ x, (Model.call m (history ops w1)).1 = .error x) ∧
      (m ∈ dvalues (history ops w1).pr.models → ∃ x, (resolve (history ops w1)).1 = .error x) := by
  obtain ⟨mo, h1⟩ := exists_getElem? hm
  obtain ⟨p, h2⟩ := exists_getElem? ((reachable_wf hr).ms m mo h1).ports
  obtain ⟨w1, mo', hs, e1, e2, e3, e4, _⟩ := setInlets_get h1 h2 l nm
  have hf : Fed m w1 := by
    refine ⟨mo', _, e1, ?_, by rw [e2]; exact e4, ?_⟩
    · rw [e3]
      intro h
      simp only [List.append_eq_nil_iff, List.flatten_eq_nil_iff] at h
      have hg : dget (dset p nm ((dget p nm).getD [] ++ l)) nm = some ((dget p nm).getD [] ++ l) := dget_dset_self _ _ _
      have := h.2 _ (List.mem_map.mpr ⟨_, mem_of_dget hg, rfl⟩)
      simp [hl] at this
    · intro h
      have hg : dget (dset p nm ((dget p nm).getD [] ++ l)) nm = some ((dget p nm).getD [] ++ l) := dget_dset_self _ _ _
      rw [h] at hg; cases hg
  have hf' := hf.mono (history_le ops w1)
  refine ⟨w1, hs, hf'.call, fun hmem => ?_⟩
  generalize history ops w1 = w2 at *
  refine PyM.bind_raises_left ?_
  change ∃ e, (each (dvalues w2.pr.models) Model.call w2).1 = .error e
  generalize dvalues w2.pr.models = ms at hmem
  clear hf hs e1 e4 h1 h2
  induction ms generalizing w2 with
  | nil => simp at hmem
  | cons a t ih =>
    rw [PyM.each_cons]
    rcases List.mem_cons.mp hmem with rfl | hmem
    · exact PyM.bind_raises_left hf'.call
    · exact PyM.bind_raises (P := Fed m) (hf'.mono (le_stable.call a w2)) fun _ w h => ih w h hmem

example : Reachable (history Ex.nested World.init) ∧ 1 < (history Ex.nested World.init).ms.length ∧ ([0] : List MRef) ≠ [] ∧
    1 ∈ dvalues (history [.addModels (.leaf 1)] (setInlets 1 [0] "in" (history Ex.nested World.init)).2).pr.models :=
  ⟨⟨_, rfl⟩, by decide +kernel, by decide, by decide +kernel⟩

end Sloth
