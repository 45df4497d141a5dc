import Verif.Props.SolvedMixers
import Verif.Props.Connections

/-!
# Connected variables agree in the results (C117)
-/

namespace Sloth
open PyM

/-- The model has this equation under this key. -/
def Entry (w : World) (m : MRef) (key : String) (r : ERef) : Prop := ∃ mo, w.ms[m]? = some mo ∧ dget mo.eqns key = some r

theorem Entry.cmds {k m : MRef} {key : String} {r : ERef} {l : List Cmd} (hl : ∀ c ∈ l, ∃ attr name d st ck, c = .eqn attr name d st ck) {w0 w w' : World} (h0 : Stated w0 w)
    (he : Entry w m key r) {mo : ModelObj} (hmo : w0.ms[m]? = some mo) (hkey : k = m → ∀ n ∈ Spec.eqnNames l, n ≠ "" ∧ key ≠ n ++ "_" ++ mo.name)
    (h : each l (Cmd.run k) w = (.ok (), w')) : Entry w' m key r := by
  induction l generalizing w with
  | nil => cases h; exact he
  | cons c t ih =>
    obtain ⟨attr, n, d, st, ck, rfl⟩ := hl c (by simp)
    rw [PyM.each_cons, PyM.bind_ok] at h
    obtain ⟨_, w1, h1, h2⟩ := h
    refine ih (fun c hc => hl c (by simp [hc])) (h0.trans (eqn_stated h1)) ?_ (fun hkm n' hn => hkey hkm n' (by simp only [Spec.eqnNames, List.filterMap_cons]; exact List.mem_cons_of_mem _ hn)) h2
    obtain ⟨mo1, g1, g2⟩ := he
    obtain ⟨mo0, mo', _, e, hm, _, _, _, _, hms, _, _, _, _, heq, hname⟩ := eqn_run h1
    by_cases hkm : k = m
    · subst hkm
      rw [hm] at g1; cases g1
      obtain ⟨n1, n2⟩ := hkey rfl n (by simp [Spec.eqnNames])
      obtain ⟨mo2, q1, q2, _⟩ := h0.ms k mo hmo
      rw [hm] at q1; cases q1
      refine ⟨mo', by rw [hms]; simp [(List.getElem?_eq_some_iff.mp hm).1], ?_⟩
      rw [heq, hname n1, q2, dget_dset_ne _ _ (Ne.symm n2)]
      exact g2
    · exact ⟨mo1, by rw [hms, List.getElem?_set_ne hkm]; exact g1, g2⟩

theorem Entry.calls {w0 w w' : World} {l : List MRef} (hl : ∀ m ∈ l, Spec.Equational w0 m) (h0 : Stated w0 w) {m : MRef} {key : String} {r : ERef} (he : Entry w m key r)
    {mo : ModelObj} (hmo : w0.ms[m]? = some mo) (hkey : ∀ n ∈ Spec.eqnNames mo.body.eqns, n ≠ "" ∧ key ≠ n ++ "_" ++ mo.name)
    (h : each l Model.call w = (.ok (), w')) : Entry w' m key r := by
  induction l generalizing w with
  | nil => cases h; exact he
  | cons k t ih =>
    rw [PyM.each_cons, PyM.bind_ok] at h
    obtain ⟨_, w1, h1, h2⟩ := h
    obtain ⟨mk, e1, e2, e3, e4, e5, e6⟩ := hl k (by simp)
    obtain ⟨mk', f1, f2, f3, f4, _⟩ := h0.ms k mk e1
    rw [call_each f1 (f4.trans e2), f3, Spec.cmds, e3, e4, e5] at h1
    obtain ⟨s1, _, _⟩ := cmds_stated e6 h0 h1
    refine ih (fun m hm => hl m (by simp [hm])) s1 (he.cmds e6 h0 hmo (fun hkm => ?_) h1) h2
    subst hkm
    rw [hmo] at e1; cases e1
    exact hkey

section
variable {K : Type} [Field K] [LinearOrder K]

/-- A run of a resolved algebraic problem with sound libraries solves an equation stored in a model under a name that the model does not state again. -/
theorem entry_solved {ext : Ext K} {I : Interp K} {P : K → Prop} (hsound : Spec.Sound ext I P) {w : World} (hr : Reachable w)
    {s s' : SimWorld K} (hres : resolve w = (.ok (), s.w)) (hp : Spec.Stating w) {b : Block} (hb : s.w.pr.block = some b)
    (hk : b.problemType = some .linear ∨ b.problemType = some .nonlinear) {i : SRef} {a : RunArgs} (h : runSimulation ext I i a s = (.ok (), s'))
    {m : MRef} (hm : m ∈ dvalues w.pr.models) {mo : ModelObj} (hmo : w.ms[m]? = some mo) {key : String} {r : ERef} (he : dget mo.eqns key = some r)
    (hkey : ∀ n ∈ Spec.eqnNames mo.body.eqns, key ≠ n ++ "_" ++ mo.name) {e : EqObj} (hes : w.es[r]? = some e) {x : PyExpr} (hst : e.States (.res x)) :
    ∃ o d, s'.sims[i]? = some o ∧ o.output = some (.dict d) ∧ ∀ ρ : Atom → K, (∀ n v, dget d n = some v → ρ (.v n) = v) →
      ∃ z, Spec.val I ρ x = some z ∧ P z := by
  obtain ⟨o, sv, out, ho, hout, hsol, hcl⟩ := run_reports hr hres hb hk h
  obtain ⟨k, hk', hkk⟩ : ∃ k, b.problemType = some k ∧ (k = .linear ∨ k = .nonlinear) := by
    rcases hk with hk | hk
    · exact ⟨_, hk, .inl rfl⟩
    · exact ⟨_, hk, .inr rfl⟩
  obtain ⟨d, rfl, hsmall⟩ := solved_small hsound hsol (hcl k hk') hkk
  refine ⟨o, d, ho, hout, fun ρ hρ => ?_⟩
  obtain ⟨b', g, hb', hg, hmod, _, _, _, hga, _, _, _, _, hl⟩ := resolved_block hres
  rw [hb] at hb'; cases hb'
  obtain ⟨w1, g1, b1, hre, hpr, _, hw', _, _⟩ := resolve_ok hres
  obtain ⟨mo', hms, hent⟩ : Entry s.w m key r := by
    have : Entry w1 m key r := Entry.calls (fun m hm => (hp m hm).1) (Stated.refl w) ⟨mo, hmo, he⟩ hmo
      (fun n hn => ⟨((hp m hm).2 mo hmo).2 n hn, hkey n hn⟩) hre
    rw [hw']; exact this
  have hes : s.w.es[r]? = some e := by
    have hle : w.Le s.w := by
      have := history_le [.resolve] w
      simp only [history, List.foldl_cons, List.foldl_nil, Op.run, hres] at this
      exact this
    exact hle.es _ _ hes
  have hin : r ∈ b.equations := by
    obtain ⟨ls, hfl, hf⟩ := gather_equations hga hg
    rw [hfl, List.mem_flatten]
    have hmem' : m ∈ dvalues s.w.pr.models := by rw [hmod]; exact hm
    obtain ⟨j, hj, hjm⟩ := List.getElem_of_mem hmem'
    have hj' : j < ls.length := by rw [← hf.length_eq]; exact hj
    have := List.Forall₂.get hf (i := j) hj hj'
    simp only [List.get_eq_getElem, hjm] at this
    obtain ⟨mo2, q1, q2⟩ := this
    rw [hms] at q1; cases q1
    refine ⟨ls[j], List.getElem_mem hj', ?_⟩
    rw [q2]
    exact List.mem_map.2 ⟨(key, r), mem_of_dget hent, rfl⟩
  obtain ⟨j, hj, hjr⟩ := List.getElem_of_mem hin
  have hf := getEquationList_ok hl
  have hlt : j < b.equationsList.length := by rw [← hf.length_eq]; exact hj
  have := List.Forall₂.get hf (i := j) hj hlt
  simp only [List.get_eq_getElem, hjr] at this
  obtain ⟨e2, q1, q2⟩ := this
  rw [hes] at q1; cases q1
  obtain ⟨z, z1, z2⟩ := hsmall ρ hρ _ (List.getElem_mem hlt)
  obtain ⟨-, hs⟩ := hst I ρ
  obtain ⟨t, t1, t2⟩ := hs .rhs
  rw [q2] at t1; cases t1
  exact ⟨z, by rw [← z1, t2]; rfl, z2⟩
end

/-- The equation of a connection of variables states that the sum of the inputs less the sum of the outputs is zero. -/
theorem connection_states (w w' : World) (m1 m2 : MRef) (outs ins : ConnArg) (hp : Spec.Plain outs ins)
    (h : createConnection (.model m1) m2 outs ins none w = (.ok (), w')) {qo qi : List Quantity}
    (ho : (Spec.args outs).map (fun r => w.qs[r]?) = qo.map some) (hi : (Spec.args ins).map (fun r => w.qs[r]?) = qi.map some) :
    ∃ (mi : ModelObj) (key : String) (e : EqObj) (x : PyExpr), w'.ms[m2]? = some mi ∧ dget mi.eqns key = some w.es.length ∧ w'.es[w.es.length]? = some e ∧ e.States (.res x) ∧
      ∀ {K : Type} [Field K] [LinearOrder K] (I : Interp K) (ρ : Atom → K), Spec.val I ρ x = some (Spec.total ρ qi - Spec.total ρ qo) := by
  rw [createConnection_plain hp] at h
  obtain ⟨m1', mo, mi, qo', qi', x, e, key, hs, h1, h2, h3, h4, h5, h6, h7, h8, h9, h10, h11, t, e0, e1, h12, h13, t', nm, d, h14⟩ := connectVars_ok h
  cases hs
  rw [args_eq] at h5 h6
  obtain rfl : qo' = qo := List.map_injective_iff.mpr (Option.some_injective _) (h5.symm.trans ho)
  obtain rfl : qi' = qi := List.map_injective_iff.mpr (Option.some_injective _) (h6.symm.trans hi)
  obtain ⟨_, i, o, e1', e2', e3', e4', hb⟩ := connExpr_none h7
  have hlt : m2 < w.ms.length := (List.getElem?_eq_some_iff.mp h2).1
  cases hbal : balanceE i o with
  | none => simp only [hbal] at hb; subst hb; simp [EqObj.setResidual] at h12
  | some b =>
    simp only [hbal] at hb
    refine ⟨_, joinNames qo' ++ "--->" ++ joinNames qi', e, b, by rw [h10, List.getElem?_set_self hlt], by simp [ModelObj.storeEqn], by rw [h9]; simp, ?_, fun I ρ => ?_⟩
    · have hfr : e0.Fresh x := by
        obtain ⟨f0, f1, g1, g2, rfl⟩ := EqObj.init_fresh h14
        refine .inl ?_
        obtain ⟨n, rfl⟩ : ∃ n, x = .node n := by
          simp only [Stmt.arg, bind_eq_ok, Except.ok.injEq] at hb
          obtain ⟨n, _, rfl⟩ := hb
          exact ⟨n, rfl⟩
        exact (EqObj.setResidual_node_form g2).trans g1
      obtain ⟨n0, _, rfl⟩ := EqObj.sweep_ok h13
      intro K _ _ I ρ
      exact Stmt.states (.res b) hb hfr h12 e1.name e1.owner _ I ρ
    · rw [balanceE_val I ρ i o hbal]
      have k1 := pairs_snd e3'
      have k2 := pairs_snd e4'
      rw [e1', args_eq, h6] at k1
      rw [e2', args_eq, h5] at k2
      rw [List.map_injective_iff.mpr (Option.some_injective _) k1, List.map_injective_iff.mpr (Option.some_injective _) k2]

section
variable {K : Type} [Field K] [LinearOrder K]

/-- C117: when variables of two models have been connected and, whatever else is done before the problem is resolved, the equation of the connection is still the
receiving model's, a run with libraries that solve what they are given reports values for which the sum of the outputs is the sum of the inputs. -/
theorem connected_agree {ext : Ext K} {I : Interp K} (hsound : Spec.Sound ext I (· = 0)) (before after : List Op) (m1 m2 : MRef) (outs ins : ConnArg)
    (hp : Spec.Plain outs ins) {w' : World} (h : createConnection (.model m1) m2 outs ins none (history before World.init) = (.ok (), w'))
    (hst : Spec.Stating (history after w')) (hm : m2 ∈ dvalues (history after w').pr.models) {mo : ModelObj} (hmo : (history after w').ms[m2]? = some mo)
    (hkeep : ∀ mi k, w'.ms[m2]? = some mi → dget mi.eqns k = some (history before World.init).es.length → dget mo.eqns k = some (history before World.init).es.length ∧
      ∀ n ∈ Spec.eqnNames mo.body.eqns, k ≠ n ++ "_" ++ mo.name)
    {s s' : SimWorld K} (hres : resolve (history after w') = (.ok (), s.w)) {b : Block} (hb : s.w.pr.block = some b)
    (hk : b.problemType = some .linear ∨ b.problemType = some .nonlinear) {i : SRef} {a : RunArgs} (hrun : runSimulation ext I i a s = (.ok (), s')) {qo qi : List Quantity}
    (ho : (Spec.args outs).map (fun r => (history before World.init).qs[r]?) = qo.map some)
    (hi : (Spec.args ins).map (fun r => (history before World.init).qs[r]?) = qi.map some) :
    ∃ o d, s'.sims[i]? = some o ∧ o.output = some (.dict d) ∧ ∀ ρ : Atom → K, (∀ n v, dget d n = some v → ρ (.v n) = v) →
      Spec.total ρ qo = Spec.total ρ qi := by
  obtain ⟨mi, key, e, x, h1, h2, h3, h4, h5⟩ := connection_states _ _ m1 m2 outs ins hp h ho hi
  obtain ⟨k1, k2⟩ := hkeep mi key h1 h2
  have hr : Reachable (history after w') := by
    refine ⟨before ++ [.connect (.model m1) m2 outs ins none] ++ after, ?_⟩
    simp only [history, List.foldl_append, List.foldl_cons, List.foldl_nil, Op.run] at h ⊢
    rw [h]
  obtain ⟨o, d, g1, g2, g3⟩ := entry_solved hsound hr hres hst hb hk hrun hm hmo k1 k2 ((history_le after w').es _ _ h3) h4
  refine ⟨o, d, g1, g2, fun ρ hρ => ?_⟩
  obtain ⟨z, z1, z2⟩ := g3 ρ hρ
  rw [h5, Option.some.injEq] at z1
  rw [← sub_eq_zero, ← neg_eq_zero, neg_sub, z1]
  exact z2

/-- C117 for two variables: unless they had values when they were connected, the reported values are the same. -/
theorem connected_equal {ext : Ext K} {I : Interp K} (hsound : Spec.Sound ext I (· = 0)) (before after : List Op) (m1 m2 : MRef) (o i : Ref)
    {w' : World} (h : createConnection (.model m1) m2 (.var o) (.var i) none (history before World.init) = (.ok (), w'))
    (hst : Spec.Stating (history after w')) (hm : m2 ∈ dvalues (history after w').pr.models) {mo : ModelObj} (hmo : (history after w').ms[m2]? = some mo)
    (hkeep : ∀ mi k, w'.ms[m2]? = some mi → dget mi.eqns k = some (history before World.init).es.length → dget mo.eqns k = some (history before World.init).es.length ∧
      ∀ n ∈ Spec.eqnNames mo.body.eqns, k ≠ n ++ "_" ++ mo.name)
    {s s' : SimWorld K} (hres : resolve (history after w') = (.ok (), s.w)) {b : Block} (hb : s.w.pr.block = some b)
    (hk : b.problemType = some .linear ∨ b.problemType = some .nonlinear) {j : SRef} {a : RunArgs} (hrun : runSimulation ext I j a s = (.ok (), s')) {qo qi : Quantity}
    (ho : (history before World.init).qs[o]? = some qo) (hi : (history before World.init).qs[i]? = some qi) (hqo : qo.isSpecified = false) (hqi : qi.isSpecified = false) :
    ∃ ob d, s'.sims[j]? = some ob ∧ ob.output = some (.dict d) ∧ ∀ u v, dget d qo.name = some u → dget d qi.name = some v → u = v := by
  obtain ⟨ob, d, h1, h2, h3⟩ := connected_agree hsound before after m1 m2 (.var o) (.var i) (by simp [Spec.Plain]) h hst hm hmo hkeep hres hb hk hrun
    (qo := [qo]) (qi := [qi]) (by simp [Spec.args, ho]) (by simp [Spec.args, hi])
  refine ⟨ob, d, h1, h2, fun u v hu hv => ?_⟩
  have := h3 (fun x => match x with
    | .v n => (dget d n).getD 0
    | _ => 0) (fun n v hv => by simp [hv])
  simpa [Spec.total, Spec.qVal, hqo, hqi, hu, hv] using this
end

/-! ## Two models that are connected and solved -/

/-- The model `a` says that its output `x` is 2, `b` that its output `z` is the input `y` plus 1. -/
def Ex.duo : List Op :=
  [.newModel "a" "" { eqns := [.eqn "e" "e" "" (.res (.binN .sub (.q { attr := "x" }) 2)) false] } none,
   .newModel "b" "" { eqns := [.eqn "f" "f" "" (.res (.bin .sub (.q { attr := "z" }) (.binN .add (.q { attr := "y" }) 1))) false] } none,
   .cmd 0 (.var "x" { name := "x", units := Tmpl.m, exposed := true, vtype := "output" }), .cmd 1 (.var "y" { name := "y", units := Tmpl.m, exposed := true, vtype := "input" }),
   .cmd 1 (.var "z" { name := "z", units := Tmpl.m, exposed := true, vtype := "output" })]

/-- `x` has been connected to `y`. -/
def Ex.duoMade : World := (createConnection (.model 0) 1 (.var 0) (.var 1) none (history Ex.duo World.init)).2

/-- What is done after that. -/
def Ex.duoing : List Op := [.addModels (.list [.leaf 0, .leaf 1])]

/-- The resolved problem, with a simulation of it. -/
def Ex.duoReady : SimWorld Rat :=
  { w := (resolve (history Ex.duoing Ex.duoMade)).2, sims := (setConfigurations 0 [] none none ({ w := World.init, sims := [{ name := "s" }] } : SimWorld Rat)).2.sims }

/-- A library that solves this system and no other. -/
def Ex.duoLib : Ext Rat := { Sloth.Ex.ext with
  symSys := fun _ names es _ =>
    let x := Sym.atom (.v "x_a")
    let y := Sym.atom (.v "y_b")
    let z := Sym.atom (.v "z_b")
    if names = ["x_a", "y_b", "z_b"] ∧ es.map (·.expr) = [.sub x (.num 2), .sub (.add y (.num 0)) (.add x (.num 0)), .sub z (.add y (.num 1))]
    then .ok ([2, 2, 3], true) else .error .valueError
  linSolve := fun _ _ => .error .valueError
  spSolve := fun _ _ => .error .valueError }

theorem Ex.duoLib_sound : Sloth.Spec.Sound Ex.duoLib Sloth.Ex.ratI (· = 0) := by
  refine ⟨fun m names es g x hx => ?_, (fun _ _ _ h => by simp [Ex.duoLib] at h), (fun _ _ _ h => by simp [Ex.duoLib] at h)⟩
  simp only [Ex.duoLib] at hx
  split at hx
  · next hc =>
    obtain ⟨rfl, he⟩ := hc
    simp only [Except.ok.injEq, Prod.mk.injEq, and_true] at hx
    subst hx
    refine ⟨rfl, fun ρ h s hs => ⟨0, ?_, rfl⟩⟩
    have h0 := h 0 _ rfl
    have h1 := h 1 _ rfl
    have h2 := h 2 _ rfl
    simp only [List.getElem?_cons_zero, List.getElem?_cons_succ, Option.some.injEq] at h0 h1 h2
    have hm : s.expr ∈ es.map (·.expr) := List.mem_map_of_mem hs
    rw [he] at hm
    generalize s.expr = e at hm
    simp only [List.mem_cons, List.not_mem_nil, or_false] at hm
    rcases hm with rfl | rfl | rfl <;> simp [Sym.eval, ← h0, ← h1, ← h2] <;> norm_num
  · cases hx

/-- The hypotheses are met; the value of `x` reaches `y`. -/
theorem connected_equal_use : createConnection (.model 0) 1 (.var 0) (.var 1) none (history Ex.duo World.init) = (.ok (), Ex.duoMade) ∧
    Spec.Stating (history Ex.duoing Ex.duoMade) ∧ 1 ∈ dvalues (history Ex.duoing Ex.duoMade).pr.models ∧
    (∃ mo, (history Ex.duoing Ex.duoMade).ms[1]? = some mo ∧ ∀ mi k, Ex.duoMade.ms[1]? = some mi → dget mi.eqns k = some (history Ex.duo World.init).es.length →
      dget mo.eqns k = some (history Ex.duo World.init).es.length ∧ ∀ n ∈ Spec.eqnNames mo.body.eqns, k ≠ n ++ "_" ++ mo.name) ∧
    resolve (history Ex.duoing Ex.duoMade) = (.ok (), Ex.duoReady.w) ∧
    (∃ b, Ex.duoReady.w.pr.block = some b ∧ b.problemType = some .linear) ∧
    (∃ qo qi, (history Ex.duo World.init).qs[0]? = some qo ∧ (history Ex.duo World.init).qs[1]? = some qi ∧ qo.isSpecified = false ∧ qi.isSpecified = false) ∧
    ∃ s' o d, runSimulation Ex.duoLib Sloth.Ex.ratI 0 {} Ex.duoReady = (.ok (), s') ∧ s'.sims[0]? = some o ∧ o.output = some (.dict d) ∧
      dget d "x_a" = some 2 ∧ dget d "y_b" = some 2 := by
  have hw : Ex.duoReady.w = (resolve (history Ex.duoing Ex.duoMade)).2 := by simp only [Ex.duoReady]
  have hmods : dvalues (history Ex.duoing Ex.duoMade).pr.models = [0, 1] := by decide +kernel
  have hall : ((history Ex.duoing Ex.duoMade).ms.map fun mo => (mo.name, mo.inlets, mo.body, dget mo.eqns "x_a--->y_b")) =
    [("a", [], { eqns := [.eqn "e" "e" "" (.res (.binN .sub (.q { attr := "x" }) 2)) false] }, none),
     ("b", [], { eqns := [.eqn "f" "f" "" (.res (.bin .sub (.q { attr := "z" }) (.binN .add (.q { attr := "y" }) 1))) false] }, some 0)] := by decide +kernel
  have h1 : ∃ mo, (history Ex.duoing Ex.duoMade).ms[1]? = some mo ∧ (mo.name, mo.inlets, mo.body, dget mo.eqns "x_a--->y_b") =
      ("b", [], { eqns := [.eqn "f" "f" "" (.res (.bin .sub (.q { attr := "z" }) (.binN .add (.q { attr := "y" }) 1))) false] }, some 0) := by
    have := congrArg (fun l => l[1]?) hall
    simp only [List.getElem?_map, List.getElem?_cons_succ, List.getElem?_cons_zero] at this
    exact Option.map_eq_some_iff.1 this
  have h0 : ∃ mo, (history Ex.duoing Ex.duoMade).ms[0]? = some mo ∧ (mo.name, mo.inlets, mo.body, dget mo.eqns "x_a--->y_b") =
      ("a", [], { eqns := [.eqn "e" "e" "" (.res (.binN .sub (.q { attr := "x" }) 2)) false] }, none) := by
    have := congrArg (fun l => l[0]?) hall
    simp only [List.getElem?_map, List.getElem?_cons_zero] at this
    exact Option.map_eq_some_iff.1 this
  refine ⟨?_, ?_, by rw [hmods]; simp, ?_, ?_, ?_, ?_, ?_⟩
  · have h : (createConnection (.model 0) 1 (.var 0) (.var 1) none (history Ex.duo World.init)).1.toOption = some () := by decide +kernel
    unfold Ex.duoMade
    generalize createConnection (.model 0) 1 (.var 0) (.var 1) none (history Ex.duo World.init) = r at h ⊢
    obtain ⟨r, w⟩ := r
    cases r with
    | ok u => rfl
    | error e => cases h
  · intro m hm
    rw [hmods] at hm
    simp only [List.mem_cons, List.not_mem_nil, or_false] at hm
    rcases hm with rfl | rfl
    · obtain ⟨mo, g1, g2⟩ := h0
      simp only [Prod.mk.injEq] at g2
      obtain ⟨-, g2, g3, -⟩ := g2
      refine ⟨⟨mo, g1, g2, by rw [g3], by rw [g3], by rw [g3], by rw [g3]; simp⟩, fun mo' hmo' => ?_⟩
      rw [g1] at hmo'; cases hmo'
      rw [g3]; simp [Spec.eqnNames]
    · obtain ⟨mo, g1, g2⟩ := h1
      simp only [Prod.mk.injEq] at g2
      obtain ⟨-, g2, g3, -⟩ := g2
      refine ⟨⟨mo, g1, g2, by rw [g3], by rw [g3], by rw [g3], by rw [g3]; simp⟩, fun mo' hmo' => ?_⟩
      rw [g1] at hmo'; cases hmo'
      rw [g3]; simp [Spec.eqnNames]
  · obtain ⟨mo, g1, g2⟩ := h1
    simp only [Prod.mk.injEq] at g2
    obtain ⟨g0, -, g3, g4⟩ := g2
    have hlen : (history Ex.duo World.init).es.length = 0 := by decide +kernel
    refine ⟨mo, g1, fun mi k hmi hk => ?_⟩
    have he : (Ex.duoMade.ms[1]?.map fun mo => mo.eqns) = some [("x_a--->y_b", 0)] := by decide +kernel
    rw [hmi, Option.map_some, Option.some.injEq] at he
    rw [he] at hk
    have hk' := mem_of_dget hk
    simp only [List.mem_singleton, Prod.mk.injEq] at hk'
    obtain ⟨rfl, -⟩ := hk'
    rw [hlen, g3, g0]
    exact ⟨g4, by decide +kernel⟩
  · rw [hw]
    have h : (resolve (history Ex.duoing Ex.duoMade)).1.toOption = some () := by decide +kernel
    generalize resolve (history Ex.duoing Ex.duoMade) = r at h ⊢
    obtain ⟨r, w⟩ := r
    cases r with
    | ok u => rfl
    | error e => cases h
  · have : (Ex.duoReady.w.pr.block.map fun b => b.problemType) = some (some .linear) := by decide +kernel
    exact Option.map_eq_some_iff.1 this
  · have h : ((history Ex.duo World.init).qs.map fun q => q.isSpecified) = [false, false, false] := by decide +kernel
    have k0 := congrArg (fun l => l[0]?) h
    have k1 := congrArg (fun l => l[1]?) h
    simp only [List.getElem?_map, List.getElem?_cons_succ, List.getElem?_cons_zero] at k0 k1
    obtain ⟨qo, a1, a2⟩ := Option.map_eq_some_iff.1 k0
    obtain ⟨qi, b1, b2⟩ := Option.map_eq_some_iff.1 k1
    exact ⟨qo, qi, a1, b1, a2, b2⟩
  · have h : (runSimulation Ex.duoLib Sloth.Ex.ratI 0 {} Ex.duoReady).1.toOption = some () := by decide +kernel
    have h2 : ((runSimulation Ex.duoLib Sloth.Ex.ratI 0 {} Ex.duoReady).2.sims[0]?.bind fun o => match o.output with
      | some (.dict d) => (dget d "x_a").bind fun x => (dget d "y_b").map fun y => (x, y)
      | _ => none) = some (2, 2) := by decide +kernel
    generalize runSimulation Ex.duoLib Sloth.Ex.ratI 0 {} Ex.duoReady = r at h h2 ⊢
    obtain ⟨r, s'⟩ := r
    cases r with
    | error e => cases h
    | ok u =>
      obtain ⟨o, ho, h2⟩ := Option.bind_eq_some_iff.1 h2
      cases hout : o.output with
      | none => rw [hout] at h2; cases h2
      | some out =>
        cases out with
        | dict d =>
          rw [hout] at h2
          obtain ⟨x, hx, h2⟩ := Option.bind_eq_some_iff.1 h2
          obtain ⟨y, hy, h2⟩ := Option.map_eq_some_iff.1 h2
          simp only [Prod.mk.injEq] at h2
          obtain ⟨rfl, rfl⟩ := h2
          exact ⟨s', o, d, rfl, ho, hout, hx, hy⟩
        | _ => rw [hout] at h2; cases h2

/-! ## Values given after the connection -/

/-- `x` of `a` is connected to `y` of `b`, which says that `y` is 3, and is then given the value 5. -/
def Ex.tardy : List Op :=
  [.newModel "a" "" {} none,
   .newModel "b" "" { eqns := [.eqn "f" "f" "" (.res (.binN .sub (.q { attr := "y" }) 3)) false] } none,
   .cmd 0 (.var "x" { name := "x", units := Tmpl.m, exposed := true, vtype := "output" }), .cmd 1 (.var "y" { name := "y", units := Tmpl.m, exposed := true, vtype := "input" }),
   .connect (.model 0) 1 (.var 0) (.var 1) none, .cmd 0 (.setValue { attr := "x" } (.float 5) none), .addModels (.list [.leaf 0, .leaf 1]), .resolve]

/-- A library that solves the system handed on and no other. -/
def Ex.tardyLib : Ext Rat := { Sloth.Ex.ext with
  symSys := fun _ names es _ =>
    let x := Sym.atom (.v "x_a")
    let y := Sym.atom (.v "y_b")
    if names = ["x_a", "y_b"] ∧ es.map (·.expr) = [.sub (.add y (.num 0)) (.add x (.num 0)), .sub y (.num 3)] then .ok ([3, 3], true) else .error .valueError
  linSolve := fun _ _ => .error .valueError
  spSolve := fun _ _ => .error .valueError }

theorem Ex.tardyLib_sound : Spec.Sound Ex.tardyLib Sloth.Ex.ratI (· = 0) := by
  refine ⟨fun m names es g x hx => ?_, (fun _ _ _ h => by simp [Ex.tardyLib] at h), (fun _ _ _ h => by simp [Ex.tardyLib] at h)⟩
  simp only [Ex.tardyLib] at hx
  split at hx
  · next hc =>
    obtain ⟨rfl, he⟩ := hc
    simp only [Except.ok.injEq, Prod.mk.injEq, and_true] at hx
    subst hx
    refine ⟨rfl, fun ρ h s hs => ⟨0, ?_, rfl⟩⟩
    have h0 := h 0 _ rfl
    have h1 := h 1 _ rfl
    simp only [List.getElem?_cons_zero, List.getElem?_cons_succ, Option.some.injEq] at h0 h1
    have hm : s.expr ∈ es.map (·.expr) := List.mem_map_of_mem hs
    rw [he] at hm
    generalize s.expr = e at hm
    simp only [List.mem_cons, List.not_mem_nil, or_false] at hm
    rcases hm with rfl | rfl <;> simp [Sym.eval, ← h0, ← h1]
  · cases hx

def Ex.tardyReady : SimWorld Rat :=
  { w := history Ex.tardy World.init, sims := (setConfigurations 0 [] none none ({ w := World.init, sims := [{ name := "s" }] } : SimWorld Rat)).2.sims }

/-- Finding: a value given to a connected variable afterwards does not reach the equation of the connection.  The variable is solved for, and a run with a library
that solves what it is given reports 3 for a variable that was given the value 5. -/
theorem connected_value_ignored : (∃ q, (history Ex.tardy World.init).qs[0]? = some q ∧ q.name = "x_a" ∧ q.isSpecified = true ∧ q.value = 5) ∧
    ∃ s' o d, runSimulation Ex.tardyLib Sloth.Ex.ratI 0 {} Ex.tardyReady = (.ok (), s') ∧ s'.sims[0]? = some o ∧ o.output = some (.dict d) ∧ dget d "x_a" = some 3 := by
  constructor
  · have h : ((history Ex.tardy World.init).qs[0]?.map fun q => (q.name, q.isSpecified, q.value)) = some ("x_a", true, 5) := by decide +kernel
    obtain ⟨q, h1, h2⟩ := Option.map_eq_some_iff.1 h
    simp only [Prod.mk.injEq] at h2
    exact ⟨q, h1, h2⟩
  · have h : (runSimulation Ex.tardyLib Sloth.Ex.ratI 0 {} Ex.tardyReady).1.toOption = some () := by decide +kernel
    have h2 : ((runSimulation Ex.tardyLib Sloth.Ex.ratI 0 {} Ex.tardyReady).2.sims[0]?.bind fun o => match o.output with
      | some (.dict d) => dget d "x_a"
      | _ => none) = some 3 := by decide +kernel
    generalize runSimulation Ex.tardyLib Sloth.Ex.ratI 0 {} Ex.tardyReady = r at h h2 ⊢
    obtain ⟨r, s'⟩ := r
    cases r with
    | error e => cases h
    | ok u =>
      obtain ⟨o, ho, h2⟩ := Option.bind_eq_some_iff.1 h2
      cases hout : o.output with
      | none => rw [hout] at h2; cases h2
      | some out =>
        rw [hout] at h2
        cases out with
        | dict d => exact ⟨s', o, d, rfl, ho, hout, h2⟩
        | _ => cases h2
end Sloth
